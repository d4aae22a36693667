import Verif.Cut.Chain
import Mathlib.Algebra.BigOperators.Intervals
import Mathlib.Tactic.FieldSimp
/-!
C41: the written surfaces share their boundaries.
-/
namespace Edge.Cut
open Edge Finset

section
variable {A : Type} [CommRing A]

theorem hs_sum {f : G → G → A} (x y s : Nat) : ∀ k, hs f x y s k = ∑ i ∈ range k, f (x + i * s, y) (x + (i + 1) * s, y)
  | 0 => rfl
  | k + 1 => by rw [hs, sum_range_succ, hs_sum x y s k]

theorem vs_sum {f : G → G → A} (x y s : Nat) : ∀ k, vs f x y s k = ∑ i ∈ range k, f (x, y + i * s) (x, y + (i + 1) * s)
  | 0 => rfl
  | k + 1 => by rw [vs, sum_range_succ, vs_sum x y s k]

theorem IsOut.bd {ny : Nat} {o : Out} {ts : List GTri} (h : IsOut ny o ts) (f : Nat → Nat → A) :
    Cut.bd f o.ts = Cut.bd (fun a b => f (enc ny a) (enc ny b)) ts := by
  rw [h.1]; exact bd_map (enc ny) ts

/-- Sum along a path of `k` edges. -/
def path {V : Type} (f : V → V → A) (v : Nat → V) (k : Nat) : A := ∑ i ∈ range k, f (v i) (v (i + 1))

theorem path_reverse {V : Type} {f : V → V → A} (hf : Anti f) (v : Nat → V) (k : Nat) :
    path f (fun i => v (k - i)) k = - path f v k := by
  unfold path
  rw [← sum_range_reflect, ← sum_neg_distrib]
  refine sum_congr rfl fun i hi => ?_
  have hi := mem_range.1 hi
  have e1 : k - (k - 1 - i) = i + 1 := by omega
  have e2 : k - (k - 1 - i + 1) = i := by omega
  show f (v (k - (k - 1 - i))) (v (k - (k - 1 - i + 1))) = _
  rw [e1, e2, hf]

theorem path_congr {V : Type} {f : V → V → A} {v w : Nat → V} {k : Nat} (h : ∀ i ≤ k, v i = w i) : path f v k = path f w k := by
  unfold path
  refine sum_congr rfl fun i hi => ?_
  have hi := mem_range.1 hi
  rw [h i (by omega), h (i + 1) (by omega)]

/-- Boundary of a surface in terms of vertex ids. -/
theorem bd_writeTria {f : Nat → Nat → A} (hf : Anti f) {n nx ny kx ky : Nat} (hx : nx = 1 + kx * 2 ^ n)
    (hy : ny = 1 + ky * 2 ^ n) (fx : Fits n kx) (fy : Fits n ky) : ∃ o, writeTria nx ny n = some o ∧
      bd f o.ts = path f (fun i => i * 2 ^ n * ny) kx + path f (fun j => kx * 2 ^ n * ny + j * 2 ^ n) ky -
        path f (fun i => i * 2 ^ n * ny + ky * 2 ^ n) kx - path f (fun j => j * 2 ^ n) ky := by
  obtain ⟨o, h1, h2⟩ := writeTria_eq hx hy fx fy
  refine ⟨o, h1, ?_⟩
  rw [h2.bd f, bd_levels (fun a b => hf _ _) fx fy]
  unfold per path
  simp only [hs_sum, vs_sum, enc, Nat.zero_add, Nat.zero_mul, Nat.add_zero]

end

theorem fits_zero (k : Nat) : Fits 0 k := by unfold Fits; omega

/-! ### Points -/

theorem steps_cover {stop step k : Nat} (hs : 0 < step) (h1 : k * step < stop) (h2 : stop ≤ (k + 1) * step) :
    steps 0 stop step = some ((List.range (k + 1)).map (fun i => i * step)) := by
  unfold steps
  rw [if_neg (by omega), if_neg (by omega)]
  have : (stop - 0 + step - 1) / step = k + 1 := by
    apply Nat.div_eq_of_lt_le
    · rw [Nat.add_mul, Nat.one_mul] at *; omega
    · rw [Nat.add_mul (k + 1), Nat.one_mul]; omega
  rw [this]
  simp

section
variable {K : Type} [Field K] [LinearOrder K]

/-- Point of a list. -/
def ptAt (l : List (Pt K)) (i : Nat) : Pt K := l.getD i (0, 0, 0)

theorem pick_eq {surf : List (Pt K)} {ids : List Nat} (h : ∀ i ∈ ids, i < surf.length) :
    pick surf ids = some (ids.map (ptAt surf)) := by
  unfold pick
  induction ids with
  | nil => rfl
  | cons a l ih =>
    rw [List.mapM_cons, ih (fun i hi => h i (by simp [hi]))]
    have := h a (by simp)
    simp [rd, ptAt, this]

/-- Lowered point: step `st` of `N` steps. -/
def low (N : Nat) (zT : K) (st : Nat) (p : Pt K) : Pt K :=
  (p.1, p.2.1, p.2.2 + (st : K) * ((zT - p.2.2) / (N : K)))

theorem low_zero (N : Nat) (zT : K) (p : Pt K) : low N zT 0 p = p := by simp [low]

theorem low_last [IsStrictOrderedRing K] {N : Nat} (hN : 0 < N) (zT : K) (p : Pt K) : low N zT N p = (p.1, p.2.1, zT) := by
  have : (N : K) ≠ 0 := by exact_mod_cast hN.ne'
  unfold low
  congr 2
  field_simp
  ring

theorem addSide_length (N : Nat) (zT : K) (bnd : List (Pt K)) : (addSide N zT bnd).length = (N + 1) * bnd.length := by
  unfold addSide
  rw [List.length_flatMap]
  simp

theorem getElem?_flatMap_const {α β : Type} {m : Nat} (f : α → List β) : ∀ (l : List α), (∀ a ∈ l, (f a).length = m) →
    ∀ (q r : Nat) (a : α), l[q]? = some a → r < m → (l.flatMap f)[q * m + r]? = (f a)[r]?
  | [], _, q, r, a, h, _ => by simp at h
  | b :: l, hl, q, r, a, h, hr => by
    rw [List.flatMap_cons]
    have hb := hl b (by simp)
    cases q with
    | zero =>
      simp at h; subst h
      rw [Nat.zero_mul, Nat.zero_add, List.getElem?_append_left (by omega)]
    | succ q =>
      rw [List.getElem?_append_right (by rw [hb, Nat.add_mul]; omega), hb]
      have : (q + 1) * m + r - m = q * m + r := by rw [Nat.add_mul]; omega
      rw [this]
      exact getElem?_flatMap_const f l (fun a ha => hl a (by simp [ha])) q r a (by simpa using h) hr

theorem addSide_at {N st i : Nat} {zT : K} {bnd : List (Pt K)} (hst : st ≤ N) (hi : i < bnd.length) :
    ptAt (addSide N zT bnd) (st * bnd.length + i) = low N zT st (ptAt bnd i) := by
  unfold ptAt
  rw [List.getD_eq_getElem?_getD]
  unfold addSide
  rw [getElem?_flatMap_const (m := bnd.length) _ _ (fun a _ => List.length_map _) st i st
    (by rw [List.getElem?_range (by omega)]) hi]
  simp [hi, low]

section
variable {A : Type} [CommRing A]

/-- Sum along the column below a point. -/
def col (f : Pt K → Pt K → A) (N : Nat) (zT : K) (p : Pt K) : A := path f (fun st => low N zT st p) N

/-- Sum over the edges of all triangles of a file. -/
def File.bd (f : Pt K → Pt K → A) (F : File K) : A := Cut.bd (fun a b => f (ptAt F.pts a) (ptAt F.pts b)) F.ts

/-- The announced number of triangles is the number of triangles; all vertices exist. -/
def File.Ok (F : File K) : Prop :=
  F.nTria = F.ts.length ∧ ∀ t ∈ F.ts, t.1 < F.pts.length ∧ t.2.1 < F.pts.length ∧ t.2.2 < F.pts.length

theorem inner_length (kx ky b : Nat) : (cInner kx ky b).length = kx * ky * 2 := by
  unfold cInner
  rw [List.length_flatMap]
  have : ∀ i, ((List.range ky).flatMap (fun j => cBlTr (b + i) (b + j) 1)).length = ky * 2 := by
    intro i
    rw [List.length_flatMap]
    simp [cBlTr]
  simp [this, Nat.mul_assoc]

theorem inner_ids {m k : Nat} {o : Out} (ho : writeTria (k + 1) (m + 1) 0 = some o) :
    o.ts.length = k * m * 2 ∧ ∀ t ∈ o.ts, t.1 < (k + 1) * (m + 1) ∧ t.2.1 < (k + 1) * (m + 1) ∧ t.2.2 < (k + 1) * (m + 1) := by
  obtain ⟨o', h1, h2, h3⟩ := writeTria_eq (n := 0) (nx := k + 1) (ny := m + 1) (kx := k) (ky := m) (by ring) (by ring)
    (fits_zero _) (fits_zero _)
  rw [h1] at ho; injection ho with ho; subst ho
  refine ⟨by rw [h2, List.length_map, cLevels, inner_length], fun t ht => ?_⟩
  rw [h2] at ht
  obtain ⟨u, hu, rfl⟩ := List.mem_map.1 ht
  simp only [cLevels, cInner, List.mem_flatMap, List.mem_range] at hu
  obtain ⟨i, hi, j, hj, hu⟩ := hu
  have key : ∀ x y, x ≤ k → y ≤ m → enc (m + 1) (x, y) < (k + 1) * (m + 1) := by
    intro x y hx hy
    calc x * (m + 1) + y < x * (m + 1) + (m + 1) := by omega
      _ = (x + 1) * (m + 1) := by ring
      _ ≤ (k + 1) * (m + 1) := Nat.mul_le_mul_right _ (by omega)
  simp only [cBlTr, List.mem_cons, List.not_mem_nil, or_false] at hu
  rcases hu with rfl | rfl <;> refine ⟨key _ _ ?_ ?_, key _ _ ?_ ?_, key _ _ ?_ ?_⟩ <;> simp <;> omega

theorem side_bd [IsStrictOrderedRing K] {f : Pt K → Pt K → A} (hf : Anti f) {N k : Nat} (hN : 0 < N) {zT : K}
    {bnd : List (Pt K)} (hl : bnd.length = k + 1) :
    ∃ F, sideFile N (k + 1) zT bnd = some F ∧ F.Ok ∧ F.bd f =
      col f N zT (ptAt bnd 0) + path f (fun i => low N zT N (ptAt bnd i)) k - col f N zT (ptAt bnd k) -
        path f (fun i => ptAt bnd i) k := by
  obtain ⟨o, h1, h2⟩ := bd_writeTria (f := fun a b => f (ptAt (addSide N zT bnd) a) (ptAt (addSide N zT bnd) b))
    (fun a b => hf _ _) (n := 0) (nx := N + 1) (ny := k + 1) (kx := N) (ky := k) (by ring) (by ring) (fits_zero _) (fits_zero _)
  refine ⟨_, by unfold sideFile; rw [h1]; rfl, ?_, ?_⟩
  · obtain ⟨a, b⟩ := inner_ids h1
    refine ⟨?_, ?_⟩
    · show (k + 1 - 1) * N * 2 = o.ts.length
      rw [a, Nat.add_sub_cancel]; ring
    · show ∀ t ∈ o.ts, _
      simp only [addSide_length, hl]
      exact b
  · show bd (fun a b => f (ptAt (addSide N zT bnd) a) (ptAt (addSide N zT bnd) b)) o.ts = _
    rw [h2]
    have at' : ∀ st i, st ≤ N → i ≤ k → ptAt (addSide N zT bnd) (st * (k + 1) + i) = low N zT st (ptAt bnd i) := by
      intro st i h h'
      have := addSide_at (N := N) (st := st) (i := i) (zT := zT) (bnd := bnd) h (by omega)
      rw [hl] at this; exact this
    have p1 : path (fun a b => f (ptAt (addSide N zT bnd) a) (ptAt (addSide N zT bnd) b)) (fun i => i * 2 ^ 0 * (k + 1)) N =
        col f N zT (ptAt bnd 0) := by
      show path f (fun i => ptAt (addSide N zT bnd) (i * 2 ^ 0 * (k + 1))) N = path f _ N
      exact path_congr fun i hi => by simpa using at' i 0 hi (by omega)
    have p2 : path (fun a b => f (ptAt (addSide N zT bnd) a) (ptAt (addSide N zT bnd) b))
        (fun j => N * 2 ^ 0 * (k + 1) + j * 2 ^ 0) k = path f (fun i => low N zT N (ptAt bnd i)) k := by
      show path f (fun i => ptAt (addSide N zT bnd) (N * 2 ^ 0 * (k + 1) + i * 2 ^ 0)) k = path f _ k
      exact path_congr fun i hi => by simpa using at' N i (le_refl _) hi
    have p3 : path (fun a b => f (ptAt (addSide N zT bnd) a) (ptAt (addSide N zT bnd) b))
        (fun i => i * 2 ^ 0 * (k + 1) + k * 2 ^ 0) N = col f N zT (ptAt bnd k) := by
      show path f (fun i => ptAt (addSide N zT bnd) (i * 2 ^ 0 * (k + 1) + k * 2 ^ 0)) N = path f _ N
      exact path_congr fun i hi => by simpa using at' i k hi (le_refl _)
    have p4 : path (fun a b => f (ptAt (addSide N zT bnd) a) (ptAt (addSide N zT bnd) b)) (fun j => j * 2 ^ 0) k =
        path f (fun i => ptAt bnd i) k := by
      show path f (fun i => ptAt (addSide N zT bnd) (i * 2 ^ 0)) k = path f _ k
      refine path_congr fun i hi => ?_
      have := at' 0 i (by omega) hi
      rw [low_zero] at this
      simpa using this
    rw [p1, p2, p3, p4]

/-! ### All surfaces -/

theorem refRatio_eq : ∀ n, refRatio.forLoop n ≠ 0 → refRatio.forLoop n = 2 ^ n
  | 0, _ => rfl
  | n + 1, h => by
    have ih := refRatio_eq n (by intro h0; apply h; simp [refRatio.forLoop, h0])
    have h' : 2 ^ n * 2 % 65536 ≠ 0 := by simpa [refRatio.forLoop, ih] using h
    rw [refRatio.forLoop, ih]
    have hn : n < 15 := by
      by_contra hc
      obtain ⟨m, rfl⟩ := Nat.exists_eq_add_of_le (Nat.le_of_not_lt hc)
      apply h'
      rw [Nat.pow_add, Nat.mul_assoc, Nat.mul_comm (2 ^ m), ← Nat.mul_assoc]
      exact Nat.mul_mod_right _ _
    rw [Nat.pow_succ, Nat.mod_eq_of_lt]
    calc 2 ^ n * 2 = 2 ^ (n + 1) := (Nat.pow_succ ..).symm
      _ ≤ 2 ^ 15 := Nat.pow_le_pow_right (by decide) (by omega)
      _ < 65536 := by decide

theorem findNy_pos {eps : K} : ∀ {l : List (Pt K)} {k m : Nat}, findNy eps l k = some m → k < m ∧ m < k + l.length
  | [], k, m, h => by simp [findNy] at h
  | [p], k, m, h => by simp [findNy] at h
  | p :: q :: l, k, m, h => by
    rw [findNy] at h
    split at h
    · injection h with h; subst h; simp
    · have := findNy_pos h
      simp at this ⊢; omega

/-- Sizes accepted by the constructor. -/
structure DimsOk (n : Nat) (surf : List (Pt K)) (d : Dims) (kx ky : Nat) : Prop where
  len : surf.length = d.nx * d.ny
  ref : d.ref = 2 ^ n
  nx : d.nx = 1 + kx * 2 ^ n
  ny : d.ny = 1 + ky * 2 ^ n
  nxC : d.nxC = kx + 1
  nyC : d.nyC = ky + 1

theorem dims_ok {eps : K} {n : Nat} {surf : List (Pt K)} {d : Dims} (h : dims eps n surf = some d) :
    ∃ kx ky, DimsOk n surf d kx ky := by
  unfold dims at h
  simp only [Option.bind_eq_bind, Option.bind_eq_some_iff, check_some, decide_eq_true_eq] at h
  obtain ⟨ny, h1, _, h2, _, h3, _, h4, _, h5, h6⟩ := h
  obtain ⟨p1, p2⟩ := findNy_pos h1
  have hr := refRatio_eq n h3
  have hr' : refRatio n = 2 ^ n := hr
  rw [hr'] at h4 h5 h6
  have hpos : 0 < 2 ^ n := Nat.pow_pos (by decide)
  have hl : surf.length = surf.length / ny * ny := by
    have := Nat.div_add_mod surf.length ny
    rw [h2, Nat.mul_comm] at this; omega
  have hnx : 0 < surf.length / ny := by
    rcases Nat.eq_zero_or_pos (surf.length / ny) with h0 | h0
    · rw [h0] at hl; omega
    · exact h0
  have dx := Nat.div_add_mod (surf.length / ny - 1) (2 ^ n)
  have dy := Nat.div_add_mod (ny - 1) (2 ^ n)
  rw [h4, Nat.mul_comm] at dx
  rw [h5, Nat.mul_comm] at dy
  have ex : surf.length / ny = 1 + (surf.length / ny - 1) / 2 ^ n * 2 ^ n := by omega
  have ey : ny = 1 + (ny - 1) / 2 ^ n * 2 ^ n := by omega
  refine ⟨(surf.length / ny - 1) / 2 ^ n, (ny - 1) / 2 ^ n, ?_⟩
  have dv : ∀ k, 1 < 2 ^ n → (1 + k * 2 ^ n) / 2 ^ n = k := by
    intro k h
    rw [Nat.add_mul_div_right _ _ hpos, Nat.div_eq_of_lt h, Nat.zero_add]
  split at h6
  · rename_i h1r
    injection h6 with h6; subst h6
    refine ⟨hl, rfl, ex, ey, ?_, ?_⟩
    · show surf.length / ny / 2 ^ n + 1 = _
      conv_lhs => rw [ex, dv _ h1r]
    · show ny / 2 ^ n + 1 = _
      conv_lhs => rw [ey, dv _ h1r]
  · rename_i h1r
    injection h6 with h6; subst h6
    have h1' : 2 ^ n = 1 := by omega
    refine ⟨hl, rfl, ex, ey, ?_, ?_⟩
    · show surf.length / ny = _
      rw [h1', Nat.div_one]; omega
    · show ny = _
      rw [h1', Nat.div_one]; omega

/-- Coarse grid point. -/
def co (surf : List (Pt K)) (n ny i j : Nat) : Pt K := ptAt surf (i * 2 ^ n * ny + j * 2 ^ n)

theorem co_lt {n nx ny kx ky i j : Nat} (hx : nx = 1 + kx * 2 ^ n) (hy : ny = 1 + ky * 2 ^ n) (hi : i ≤ kx) (hj : j ≤ ky) :
    i * 2 ^ n * ny + j * 2 ^ n < nx * ny := by
  have a : i * 2 ^ n ≤ kx * 2 ^ n := Nat.mul_le_mul_right _ hi
  have b : j * 2 ^ n ≤ ky * 2 ^ n := Nat.mul_le_mul_right _ hj
  calc i * 2 ^ n * ny + j * 2 ^ n < i * 2 ^ n * ny + ny := by omega
    _ = (i * 2 ^ n + 1) * ny := by ring
    _ ≤ nx * ny := Nat.mul_le_mul_right _ (by omega)

theorem ptAt_map {l : List Nat} {g : Nat → Pt K} {i : Nat} (h : i < l.length) : ptAt (l.map g) i = g (l[i]) := by
  unfold ptAt; simp [h]

theorem bounds_eq {n kx ky : Nat} {d : Dims} {surf : List (Pt K)} (h : DimsOk n surf d kx ky) :
    ∃ b, bounds d surf = some b ∧ b.front.length = kx + 1 ∧ b.back.length = kx + 1 ∧ b.left.length = ky + 1 ∧
      b.right.length = ky + 1 ∧ (∀ i ≤ kx, ptAt b.front i = co surf n d.ny i 0) ∧
      (∀ i ≤ kx, ptAt b.back i = co surf n d.ny (kx - i) ky) ∧ (∀ j ≤ ky, ptAt b.left j = co surf n d.ny 0 (ky - j)) ∧
      ∀ j ≤ ky, ptAt b.right j = co surf n d.ny kx j := by
  have hp : 0 < 2 ^ n := Nat.pow_pos (by decide)
  have hny : 0 < d.ny := by rw [h.ny]; omega
  have sx : steps 0 (d.nx * d.ny) (d.ny * d.ref) = some ((List.range (kx + 1)).map (fun i => i * (d.ny * 2 ^ n))) := by
    rw [h.ref]
    refine steps_cover (Nat.mul_pos hny hp) ?_ ?_
    · calc kx * (d.ny * 2 ^ n) = kx * 2 ^ n * d.ny := by ring
        _ < d.nx * d.ny := Nat.mul_lt_mul_of_pos_right (by rw [h.nx]; omega) hny
    · calc d.nx * d.ny ≤ (kx * 2 ^ n + 2 ^ n) * d.ny := Nat.mul_le_mul_right _ (by rw [h.nx]; omega)
        _ = (kx + 1) * (d.ny * 2 ^ n) := by ring
  have sy : steps 0 d.ny d.ref = some ((List.range (ky + 1)).map (fun i => i * 2 ^ n)) := by
    rw [h.ref]
    refine steps_cover hp (by rw [h.ny]; omega) ?_
    rw [h.ny, Nat.add_mul]; omega
  have lt : ∀ {i j : Nat}, i ≤ kx → j ≤ ky → i * 2 ^ n * d.ny + j * 2 ^ n < surf.length := by
    intro i j hi hj
    rw [h.len]; exact co_lt h.nx h.ny hi hj
  have p1 := pick_eq (surf := surf) (ids := (List.range (kx + 1)).map (fun i => i * (d.ny * 2 ^ n))) (by
    intro v hv
    obtain ⟨i, hi, rfl⟩ := List.mem_map.1 hv
    have := lt (i := i) (j := 0) (by have := List.mem_range.1 hi; omega) (by omega)
    calc _ = i * 2 ^ n * d.ny + 0 * 2 ^ n := by ring
      _ < _ := this)
  have p2 := pick_eq (surf := surf) (ids := ((List.range (kx + 1)).map (fun i => i * (d.ny * 2 ^ n))).map
      (fun ve => d.ny - 1 + ve)) (by
    intro v hv
    rw [List.map_map] at hv
    obtain ⟨i, hi, rfl⟩ := List.mem_map.1 hv
    have := lt (i := i) (j := ky) (by have := List.mem_range.1 hi; omega) (by omega)
    have e : d.ny - 1 = ky * 2 ^ n := by rw [h.ny]; omega
    calc d.ny - 1 + i * (d.ny * 2 ^ n) = i * 2 ^ n * d.ny + ky * 2 ^ n := by rw [e]; ring
      _ < _ := this)
  have p3 := pick_eq (surf := surf) (ids := (List.range (ky + 1)).map (fun i => i * 2 ^ n)) (by
    intro v hv
    obtain ⟨i, hi, rfl⟩ := List.mem_map.1 hv
    have := lt (i := 0) (j := i) (by omega) (by have := List.mem_range.1 hi; omega)
    simpa using this)
  have p4 := pick_eq (surf := surf) (ids := ((List.range (ky + 1)).map (fun i => i * 2 ^ n)).map
      (fun ve => (d.nx - 1) * d.ny + ve)) (by
    intro v hv
    rw [List.map_map] at hv
    obtain ⟨i, hi, rfl⟩ := List.mem_map.1 hv
    have := lt (i := kx) (j := i) (by omega) (by have := List.mem_range.1 hi; omega)
    have e : d.nx - 1 = kx * 2 ^ n := by rw [h.nx]; omega
    show (d.nx - 1) * d.ny + i * 2 ^ n < _
    rw [e]; exact this)
  refine ⟨_, by unfold bounds; simp only [sx, sy, p1, p2, p3, p4, Option.bind_eq_bind, Option.bind_some]; rfl, by simp, by simp,
    by simp, by simp, ?_, ?_, ?_, ?_⟩
  · intro i hi
    unfold ptAt co ptAt
    rw [List.getD_eq_getElem?_getD]
    simp [show i < kx + 1 by omega]
    congr 2; ring
  · intro i hi
    have e : d.ny - 1 = ky * 2 ^ n := by rw [h.ny]; omega
    unfold ptAt co ptAt
    rw [List.getD_eq_getElem?_getD, List.getElem?_reverse (by simp; omega)]
    simp [show kx - i < kx + 1 by omega, e]
    congr 2; ring
  · intro i hi
    unfold ptAt co ptAt
    rw [List.getD_eq_getElem?_getD, List.getElem?_reverse (by simp; omega)]
    simp [show ky - i < ky + 1 by omega]
  · intro i hi
    have e : d.nx - 1 = kx * 2 ^ n := by rw [h.nx]; omega
    unfold ptAt co ptAt
    rw [List.getD_eq_getElem?_getD]
    simp [show i < ky + 1 by omega, e]

theorem bottom_eq {n kx ky : Nat} {d : Dims} {zT : K} {surf : List (Pt K)} (h : DimsOk n surf d kx ky) :
    ∃ ps, bottomPts d zT surf = some ps ∧ ps.length = (ky + 1) * (kx + 1) ∧ ∀ i j, i ≤ kx → j ≤ ky →
      ptAt ps (j * (kx + 1) + i) = ((co surf n d.ny i j).1, (co surf n d.ny i j).2.1, zT) := by
  have hp : 0 < 2 ^ n := Nat.pow_pos (by decide)
  have sx : steps 0 d.nx d.ref = some ((List.range (kx + 1)).map (fun i => i * 2 ^ n)) := by
    rw [h.ref]
    refine steps_cover hp (by rw [h.nx]; omega) ?_
    rw [h.nx, Nat.add_mul]; omega
  have sy : steps 0 d.ny d.ref = some ((List.range (ky + 1)).map (fun i => i * 2 ^ n)) := by
    rw [h.ref]
    refine steps_cover hp (by rw [h.ny]; omega) ?_
    rw [h.ny, Nat.add_mul]; omega
  have p := pick_eq (surf := surf) (ids := ((List.range (ky + 1)).map (fun i => i * 2 ^ n)).flatMap (fun vy =>
      ((List.range (kx + 1)).map (fun i => i * 2 ^ n)).map (fun vx => vx * d.ny + vy))) (by
    intro v hv
    simp only [List.mem_flatMap, List.mem_map, List.mem_range] at hv
    obtain ⟨_, ⟨j, hj, rfl⟩, _, ⟨i, hi, rfl⟩, rfl⟩ := hv
    rw [h.len]; exact co_lt h.nx h.ny (by omega) (by omega))
  refine ⟨_, by unfold bottomPts; simp only [sx, sy, p, Option.bind_eq_bind, Option.bind_some]; rfl, ?_, ?_⟩
  · rw [List.length_map, List.length_map, List.length_flatMap]
    simp [Function.comp_def]
  · intro i j hi hj
    unfold ptAt
    rw [List.getD_eq_getElem?_getD, List.getElem?_map, List.getElem?_map,
      getElem?_flatMap_const (m := kx + 1) _ _ (fun a _ => by simp) j i (j * 2 ^ n)
        (by rw [List.getElem?_map, List.getElem?_range (by omega)]; rfl) (by omega)]
    simp only [List.map_map, List.getElem?_map]
    rw [List.getElem?_range (by omega)]
    rfl

end
end
end Edge.Cut
