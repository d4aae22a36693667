import Verif.EdgeV.Comm
import Mathlib.Data.List.TakeWhile
import Mathlib.Order.Defs.LinearOrder
import Mathlib.Data.List.Basic
import Mathlib.Algebra.Order.Field.Rat
import Mathlib.Tactic.Ring
/-!
C38: gridded data (tools/edge_v/src/io/Grid.cpp).

Coordinates are elements of a linear order `K`, values of an arbitrary type `A`.
-/
namespace Edge.EdgeV
open Edge

section
variable {K A : Type _} [LinearOrder K]

/-- `std::lower_bound`: position of the first entry which is not less than `v`. The entries less than `v` have to come first,
otherwise the result is undefined. -/
def lowerBound (xs : List K) (v : K) : Option Nat :=
  if (xs.dropWhile (fun x => decide (x < v))).all (fun x => !decide (x < v)) then
    some (xs.takeWhile (fun x => decide (x < v))).length
  else none

/-- Index of the value for a point, after the checks of the point (tools/edge_v/src/io/Grid.cpp:68-77). -/
def gridId (xs ys : List K) (pt : K × K) : Option Nat := do
  let id0 ← lowerBound ys pt.2
  let id1 ← lowerBound xs pt.1
  let x0 ← rd xs 0
  let y0 ← rd ys 0
  check (decide (x0 < pt.1))
  check (decide (y0 < pt.2))
  check (decide (id1 < xs.length))
  check (decide (id0 < ys.length))
  return id0 * xs.length + id1

/-- Checks of the sizes (tools/edge_v/src/io/Grid.cpp:48-50); the remainder of a division by zero is undefined. -/
def gridChecks (nx ny nz : Nat) : Option Unit := do
  check (decide (0 < nz))
  check (decide (nx ≠ 0))
  check (decide (nz % nx = 0))
  check (decide (ny ≠ 0))
  check (decide (nz % ny = 0))

/-- `Grid::init` (tools/edge_v/src/io/Grid.cpp:38-86): values at the given points; the third coordinate is ignored. -/
def gridInit (xs ys : List K) (zs : List A) (pts : List (K × K)) : Option (List A) := do
  gridChecks xs.length ys.length zs.length
  pts.mapM (fun pt => do
    let id ← gridId xs ys pt
    rd zs id)

/-! ### Specification -/

/-- Cell of a coordinate: the coordinate is in the interval which is open at grid point `i - 1` and closed at grid point `i`. -/
def InCell (xs : List K) (v : K) (i : Nat) : Prop :=
  0 < i ∧ ∃ a b, xs[i - 1]? = some a ∧ xs[i]? = some b ∧ a < v ∧ v ≤ b

/-! ### Lemmas -/

theorem lowerBound_spec {xs : List K} {v : K} {i : Nat} (h : lowerBound xs v = some i) :
    i ≤ xs.length ∧ (∀ j a, j < i → xs[j]? = some a → a < v) ∧ ∀ j a, i ≤ j → xs[j]? = some a → v ≤ a := by
  unfold lowerBound at h
  split at h
  · rename_i hall
    injection h with h
    have heq := List.takeWhile_append_dropWhile (p := fun x => decide (x < v)) (l := xs)
    subst h
    refine ⟨?_, fun j a hj ha => ?_, fun j a hj ha => ?_⟩
    · have := congrArg List.length heq
      rw [List.length_append] at this
      omega
    · rw [← heq, List.getElem?_append_left hj] at ha
      have := List.mem_takeWhile_imp (List.mem_of_getElem? ha)
      simpa using this
    · rw [← heq, List.getElem?_append_right hj] at ha
      have := List.all_eq_true.1 hall a (List.mem_of_getElem? ha)
      simpa using this
  · cases h

theorem lowerBound_total {xs : List K} (hs : xs.Pairwise (· ≤ ·)) (v : K) : ∃ i, lowerBound xs v = some i := by
  unfold lowerBound
  rw [if_pos]
  · exact ⟨_, rfl⟩
  · rw [List.all_eq_true]
    intro a ha
    cases hd : xs.dropWhile (fun x => decide (x < v)) with
    | nil => rw [hd] at ha; cases ha
    | cons b l =>
      have hb : ¬ b < v := by
        have := List.head?_dropWhile_not (p := fun x => decide (x < v)) (l := xs)
        rw [hd] at this
        simpa using this
      have hs' : (b :: l).Pairwise (· ≤ ·) := hd ▸ hs.sublist (List.dropWhile_sublist _)
      rw [hd] at ha
      rcases List.mem_cons.1 ha with rfl | ha
      · simpa using hb
      · have := List.rel_of_pairwise_cons hs' ha
        simp only [Bool.not_eq_true', decide_eq_false_iff_not, not_lt]
        exact le_trans (not_lt.1 hb) this

theorem gridId_spec {xs ys : List K} {pt : K × K} {id : Nat} (h : gridId xs ys pt = some id) :
    ∃ i j, InCell xs pt.1 i ∧ InCell ys pt.2 j ∧ id = j * xs.length + i ∧ i < xs.length ∧ j < ys.length := by
  unfold gridId at h
  simp only [Option.bind_eq_bind, Option.bind_eq_some_iff, Option.pure_def, Option.some.injEq, check_some, decide_eq_true_eq,
    rd_some] at h
  obtain ⟨j, hj, i, hi, x0, hx0, y0, hy0, _, c1, _, c2, _, c3, _, c4, rfl⟩ := h
  have cell : ∀ {zs : List K} {v z0 : K} {k : Nat}, lowerBound zs v = some k → zs[0]? = some z0 → z0 < v → k < zs.length →
      InCell zs v k := by
    intro zs v z0 k hk h0 hlt hlen
    obtain ⟨_, s1, s2⟩ := lowerBound_spec hk
    have hpos : 0 < k := by
      rcases Nat.eq_zero_or_pos k with rfl | h
      · exact absurd hlt (not_lt.2 (s2 0 z0 (le_refl _) h0))
      · exact h
    have hk1 : k - 1 < zs.length := by omega
    refine ⟨hpos, zs[k - 1], zs[k], by simp [hk1], by simp [hlen], s1 (k - 1) _ (by omega) (by simp [hk1]),
      s2 k _ (le_refl _) (by simp [hlen])⟩
  exact ⟨i, j, cell hi hx0 c1 c3, cell hj hy0 c2 c4, rfl, c3, c4⟩

/-! ### Properties -/

/-- C38: the index which is read belongs to the grid point closing the cell of the point, and there is a value for it if the data
has one value per grid point. -/
theorem C38_index {xs ys : List K} {pt : K × K} {id : Nat} (h : gridId xs ys pt = some id) :
    id < xs.length * ys.length ∧ InCell xs pt.1 (id % xs.length) ∧ InCell ys pt.2 (id / xs.length) := by
  obtain ⟨i, j, hi, hj, rfl, h1, h2⟩ := gridId_spec h
  have hp : 0 < xs.length := by omega
  refine ⟨?_, ?_, ?_⟩
  · calc j * xs.length + i < j * xs.length + xs.length := by omega
      _ = (j + 1) * xs.length := by ring
      _ ≤ ys.length * xs.length := Nat.mul_le_mul_right _ h2
      _ = _ := Nat.mul_comm _ _
  · rw [Nat.add_comm, Nat.add_mul_mod_self_right, Nat.mod_eq_of_lt h1]; exact hi
  · rw [Nat.add_comm, Nat.add_mul_div_right _ _ hp, Nat.div_eq_of_lt h1, Nat.zero_add]; exact hj

/-- C38: every value which is returned is the one of the grid point closing the cell of the point. -/
theorem C38_values {xs ys : List K} {zs : List A} {pts : List (K × K)} {out : List A} (h : gridInit xs ys zs pts = some out) :
    out.length = pts.length ∧ ∀ (p : Nat) (pt : K × K), pts[p]? = some pt →
      ∃ i j, InCell xs pt.1 i ∧ InCell ys pt.2 j ∧ out[p]? = zs[j * xs.length + i]? ∧ (out[p]?).isSome := by
  unfold gridInit at h
  simp only [Option.bind_eq_bind, Option.bind_eq_some_iff] at h
  obtain ⟨_, _, h⟩ := h
  obtain ⟨hl, hget⟩ := mapM_get h
  refine ⟨hl, fun p pt hp => ?_⟩
  have hlt := (List.getElem?_eq_some_iff.1 hp).1
  have hlt' : p < out.length := by omega
  obtain ⟨b, hb, hg⟩ := hget p pt hp
  rw [Option.bind_eq_some_iff] at hg
  obtain ⟨id, hid, hz⟩ := hg
  obtain ⟨i, j, hi, hj, rfl, _, _⟩ := gridId_spec hid
  have hz : zs[j * xs.length + i]? = some b := hz
  exact ⟨i, j, hi, hj, by rw [hb, hz], by simp [hlt']⟩

/-- C38: data with ascending coordinates and one value per grid point is available for all points right of the first and not right of
the last coordinate in both dimensions. -/
theorem C38_total {xs ys : List K} {zs : List A} {pts : List (K × K)} (hx : xs.Pairwise (· ≤ ·)) (hy : ys.Pairwise (· ≤ ·))
    {x0 x1 y0 y1 : K} (hx0 : xs.head? = some x0) (hx1 : xs.getLast? = some x1) (hy0 : ys.head? = some y0)
    (hy1 : ys.getLast? = some y1) (hz : zs.length = xs.length * ys.length)
    (hp : ∀ pt ∈ pts, x0 < pt.1 ∧ pt.1 ≤ x1 ∧ y0 < pt.2 ∧ pt.2 ≤ y1) : ∃ out, gridInit xs ys zs pts = some out := by
  have lenpos : ∀ {l : List K} {a : K}, l.head? = some a → 0 < l.length := by
    intro l a h; cases l with
    | nil => cases h
    | cons => simp
  have px := lenpos hx0
  have py := lenpos hy0
  have key : ∀ pt ∈ pts, ∃ a, (do let id ← gridId xs ys pt; rd zs id) = some a := by
    intro pt hpt
    obtain ⟨b1, b2, b3, b4⟩ := hp pt hpt
    obtain ⟨i, hi⟩ := lowerBound_total hx pt.1
    obtain ⟨j, hj⟩ := lowerBound_total hy pt.2
    have last : ∀ {l : List K} {v z : K} {k : Nat}, lowerBound l v = some k → l.getLast? = some z → v ≤ z → 0 < l.length →
        k < l.length := by
      intro l v z k hk hl hv hpos
      obtain ⟨s0, s1, _⟩ := lowerBound_spec hk
      by_contra hc
      rw [List.getLast?_eq_getElem?] at hl
      exact absurd (s1 (l.length - 1) z (by omega) hl) (not_lt.2 hv)
    have li := last hi hx1 b2 px
    have lj := last hj hy1 b4 py
    have hid : gridId xs ys pt = some (j * xs.length + i) := by
      unfold gridId
      rw [List.head?_eq_getElem?] at hx0 hy0
      simp [hi, hj, rd, hx0, hy0, check, b1, b3, li, lj]
    have := (C38_index hid).1
    rw [hid]
    exact ⟨zs[j * xs.length + i], by simp [rd, hz, this]⟩
  have hch : gridChecks xs.length ys.length zs.length = some () := by
    unfold gridChecks
    have : xs.length ≠ 0 := by omega
    have : ys.length ≠ 0 := by omega
    have h3 : 0 < xs.length * ys.length := Nat.mul_pos px py
    simp [check, hz, *]
  unfold gridInit
  rw [hch]
  show ∃ out, pts.mapM _ = some out
  exact mapM_total key

end

/-- C38: the checks of the sizes accept data with less values than grid points, for which the index of a point inside of the grid is
behind the last value. -/
theorem C38_size_refuted :
    ¬ ∀ (xs ys : List Rat) (zs : List Rat) (pt : Rat × Rat) (id : Nat), xs.Pairwise (· < ·) → ys.Pairwise (· < ·) →
      gridChecks xs.length ys.length zs.length = some () → gridId xs ys pt = some id → id < zs.length := by
  intro h
  have := h [0, 1] [0, 1] [5, 6] (1 / 2, 1 / 2) 3 (by decide +kernel) (by decide +kernel) (by decide) (by decide +kernel)
  revert this; decide

/-- Values of a grid with three and two coordinates. -/
example : gridInit [0, 1, 3] [0, 2] ["a", "b", "c", "d", "e", "f"] [((2 : Rat), (1 : Rat)), (1, 2)] = some ["f", "e"] := by
  decide +kernel

/-- The hypotheses of C38_total are met. -/
example : ∃ out, gridInit [0, 1, 3] [0, 2] [(1 : Nat), 2, 3, 4, 5, 6] [((2 : Rat), (1 : Rat)), (1, 2)] = some out :=
  C38_total (x0 := 0) (x1 := 3) (y0 := 0) (y1 := 2) (by decide +kernel) (by decide +kernel) rfl rfl rfl rfl rfl
    (by decide +kernel)

end Edge.EdgeV
