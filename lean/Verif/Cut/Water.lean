import Verif.Cut.Closed
import Verif.Cut.Cover
import Mathlib.Data.Rat.Floor
/-!
C41: the six surfaces written by EDGEcut enclose a volume: every edge of a triangle is run through equally often in both
directions.
-/
namespace Edge.Cut
open Edge Finset

section
variable {K : Type} [Field K] [LinearOrder K]

/-! ### Specification -/

/-- Directed edges of the triangles of a file. -/
def File.edges (F : File K) : List (Pt K × Pt K) :=
  F.ts.flatMap (fun t => [(ptAt F.pts t.1, ptAt F.pts t.2.1), (ptAt F.pts t.2.1, ptAt F.pts t.2.2), (ptAt F.pts t.2.2, ptAt F.pts t.1)])

/-- The written files. -/
def Files.all (F : Files K) : List (File K) := [F.left, F.right, F.front, F.back, F.bottom, F.top]

/-! ### Proofs -/

theorem writeOff_closed [IsStrictOrderedRing K] {A : Type} [CommRing A] {f : Pt K → Pt K → A} (hf : Anti f) {n kx ky N : Nat}
    {d : Dims} {zT : K} {surf : List (Pt K)} (h : DimsOk n surf d kx ky) (hN : 0 < N) (fx : 4 * 2 ^ n ≤ d.nx + 3)
    (fy : 4 * 2 ^ n ≤ d.ny + 3) :
    ∃ F, writeOff d n N zT surf = some F ∧ (∀ X ∈ F.all, X.Ok) ∧
      F.left.bd f + F.right.bd f + F.front.bd f + F.back.bd f + F.bottom.bd f + F.top.bd f = 0 := by
  obtain ⟨b, hb, lf, lb, ll, lr, ef, eb, el, er⟩ := bounds_eq h
  obtain ⟨ps, hps, lps, eps⟩ := bottom_eq (zT := zT) h
  obtain ⟨Fl, l1, l2, l3⟩ := side_bd hf hN (zT := zT) ll
  obtain ⟨Fr, r1, r2, r3⟩ := side_bd hf hN (zT := zT) lr
  obtain ⟨Ff, f1, f2, f3⟩ := side_bd hf hN (zT := zT) lf
  obtain ⟨Fb, b1, b2, b3⟩ := side_bd hf hN (zT := zT) lb
  obtain ⟨bo, o1, o2⟩ := bd_writeTria (f := fun a b => f (ptAt ps a) (ptAt ps b)) (fun a b => hf _ _) (n := 0)
    (nx := ky + 1) (ny := kx + 1) (kx := ky) (ky := kx) (by ring) (by ring) (fits_zero _) (fits_zero _)
  obtain ⟨o3, o4⟩ := inner_ids o1
  have gx : Fits n kx := by unfold Fits; rw [h.nx] at fx; rw [Nat.mul_comm (2 ^ n) kx]; omega
  have gy : Fits n ky := by unfold Fits; rw [h.ny] at fy; rw [Nat.mul_comm (2 ^ n) ky]; omega
  obtain ⟨tp, t1, t2⟩ := bd_writeTria (f := fun a b => f (ptAt surf a) (ptAt surf b)) (fun a b => hf _ _) h.nx h.ny gx gy
  obtain ⟨tp', t1', t4, t3, _⟩ := C41_triangulation (K := K) (n := n) (nx := d.nx) (ny := d.ny) (by rw [h.nx]; omega) (by rw [h.ny]; omega)
    (by rw [h.nx, Nat.add_sub_cancel_left, Nat.mul_mod_left]) (by rw [h.ny, Nat.add_sub_cancel_left, Nat.mul_mod_left]) fx fy
  rw [t1] at t1'; injection t1' with t1'; subst t1'
  refine ⟨_, by
    unfold writeOff
    simp only [hb, hps, h.nxC, h.nyC, l1, r1, f1, b1, o1, t1, Option.bind_eq_bind, Option.bind_some]; rfl, ?_, ?_⟩
  · intro X hX
    simp only [Files.all, List.mem_cons, List.not_mem_nil, or_false] at hX
    rcases hX with rfl | rfl | rfl | rfl | rfl | rfl
    · exact l2
    · exact r2
    · exact f2
    · exact b2
    · refine ⟨?_, ?_⟩
      · show (kx + 1 - 1) * (ky + 1 - 1) * 2 = bo.ts.length
        rw [o3, Nat.add_sub_cancel, Nat.add_sub_cancel]; ring
      · show ∀ t ∈ bo.ts, _
        simp only [lps]; exact o4
    · refine ⟨?_, ?_⟩
      · exact t4
      · show ∀ t ∈ tp.ts, _
        simp only [h.len]
        exact fun t ht => ⟨(t3 t ht).1, (t3 t ht).2.1, (t3 t ht).2.2.1⟩
  · have eo : Cut.bd (fun a b => f (ptAt ps a) (ptAt ps b)) bo.ts =
        path f (fun j => low N zT N (co surf n d.ny 0 j)) ky + path f (fun i => low N zT N (co surf n d.ny i ky)) kx -
        path f (fun j => low N zT N (co surf n d.ny kx j)) ky - path f (fun i => low N zT N (co surf n d.ny i 0)) kx := by
      rw [o2]
      congr 1
      congr 1
      congr 1
      · exact path_congr (f := f) (v := fun i => ptAt ps (i * 2 ^ 0 * (kx + 1))) fun i hi => by
          have := eps 0 i (by omega) hi
          rw [low_last hN]; simpa using this
      · exact path_congr (f := f) (v := fun i => ptAt ps (ky * 2 ^ 0 * (kx + 1) + i * 2 ^ 0)) fun i hi => by
          have := eps i ky hi (by omega)
          rw [low_last hN]; simpa using this
      · exact path_congr (f := f) (v := fun i => ptAt ps (i * 2 ^ 0 * (kx + 1) + kx * 2 ^ 0)) fun i hi => by
          have := eps kx i (by omega) hi
          rw [low_last hN]; simpa using this
      · exact path_congr (f := f) (v := fun i => ptAt ps (i * 2 ^ 0)) fun i hi => by
          have := eps i 0 hi (by omega)
          rw [low_last hN]; simpa using this
    have et : Cut.bd (fun a b => f (ptAt surf a) (ptAt surf b)) tp.ts =
        path f (fun i => co surf n d.ny i 0) kx + path f (fun j => co surf n d.ny kx j) ky -
        path f (fun i => co surf n d.ny i ky) kx - path f (fun j => co surf n d.ny 0 j) ky := by
      rw [t2]
      unfold co path
      simp only [Nat.zero_mul, Nat.zero_add, Nat.add_zero]
    show Fl.bd f + Fr.bd f + Ff.bd f + Fb.bd f + Cut.bd (fun a b => f (ptAt ps a) (ptAt ps b)) bo.ts +
      Cut.bd (fun a b => f (ptAt surf a) (ptAt surf b)) tp.ts = 0
    rw [l3, r3, f3, b3, eo, et]
    rw [el 0 (by omega), el ky (by omega), er 0 (by omega), er ky (by omega), ef 0 (by omega), ef kx (by omega),
      eb 0 (by omega), eb kx (by omega), Nat.sub_zero, Nat.sub_self, Nat.sub_zero, Nat.sub_self]
    rw [path_congr (f := f) (v := fun i => low N zT N (ptAt b.left i)) (w := fun i => low N zT N (co surf n d.ny 0 (ky - i)))
        (fun i hi => by rw [el i hi]),
      path_congr (f := f) (v := fun i => ptAt b.left i) (fun i hi => el i hi),
      path_congr (f := f) (v := fun i => low N zT N (ptAt b.right i)) (w := fun i => low N zT N (co surf n d.ny kx i))
        (fun i hi => by rw [er i hi]),
      path_congr (f := f) (v := fun i => ptAt b.right i) (fun i hi => er i hi),
      path_congr (f := f) (v := fun i => low N zT N (ptAt b.front i)) (w := fun i => low N zT N (co surf n d.ny i 0))
        (fun i hi => by rw [ef i hi]),
      path_congr (f := f) (v := fun i => ptAt b.front i) (fun i hi => ef i hi),
      path_congr (f := f) (v := fun i => low N zT N (ptAt b.back i)) (w := fun i => low N zT N (co surf n d.ny (kx - i) ky))
        (fun i hi => by rw [eb i hi]),
      path_congr (f := f) (v := fun i => ptAt b.back i) (fun i hi => eb i hi)]
    rw [path_reverse hf (fun i => low N zT N (co surf n d.ny 0 i)), path_reverse hf (fun i => co surf n d.ny 0 i),
      path_reverse hf (fun i => low N zT N (co surf n d.ny i ky)), path_reverse hf (fun i => co surf n d.ny i ky)]
    ring

/-- Counts an edge, negatively if it is run through in the other direction. -/
def tag (a b p q : Pt K) : ℤ := (if (p, q) = (a, b) then 1 else 0) - (if (q, p) = (a, b) then 1 else 0)

theorem tag_anti (a b : Pt K) : Anti (tag a b) := by intro p q; unfold tag; ring

theorem tag_bd (a b : Pt K) (F : File K) : F.bd (tag a b) = (F.edges.count (a, b) : ℤ) - F.edges.count (b, a) := by
  unfold File.bd File.edges
  induction F.ts with
  | nil => simp [bd]
  | cons t l ih =>
    have key : ∀ p q : Pt K, tag a b p q = ((if (p, q) = (a, b) then 1 else 0 : Nat) : ℤ) - (if (p, q) = (b, a) then 1 else 0 : Nat) := by
      intro p q
      unfold tag
      have : ((q, p) = (a, b)) = ((p, q) = (b, a)) := by simp [and_comm]
      simp only [this]; push_cast; rfl
    rw [bd_cons, ih, List.flatMap_cons, List.count_append, List.count_append, key, key, key]
    simp only [List.count_cons, List.count_nil, beq_iff_eq, Nat.zero_add]
    push_cast
    ring

theorem nSteps_pos [FloorSemiring K] [IsStrictOrderedRing K] {zT zM : K} {dx dy : Option K} {N : Nat}
    (h : nSteps zT zM dx dy = some N) : 0 < N := by
  unfold nSteps at h
  cases dx <;> cases dy <;>
    simp only [Option.bind_eq_bind, Option.bind_eq_some_iff, check_some, pure, Option.some.injEq] at h <;>
    first | (obtain ⟨_, _, _, _, h⟩ := h; omega) | (obtain ⟨_, _, h⟩ := h; omega)

/-- **C41 (surfaces, written).** Grids whose sizes are accepted, and which have enough points for the levels of refinement, are
written; the announced numbers of triangles are right, all vertices exist, and every edge is run through as often in one direction as
in the other: the surfaces enclose a volume. -/
theorem C41_written [IsStrictOrderedRing K] {n N : Nat} {eps zT : K} {surf : List (Pt K)} {d : Dims}
    (hd : dims eps n surf = some d) (hN : 0 < N) (fx : 4 * 2 ^ n ≤ d.nx + 3) (fy : 4 * 2 ^ n ≤ d.ny + 3) :
    ∃ F, writeOff d n N zT surf = some F ∧ (∀ X ∈ F.all, X.Ok) ∧
      ∀ a b : Pt K, (F.all.flatMap File.edges).count (a, b) = (F.all.flatMap File.edges).count (b, a) := by
  obtain ⟨kx, ky, h⟩ := dims_ok hd
  obtain ⟨F, h1, h2, _⟩ := writeOff_closed (tag_anti ((0 : K), (0 : K), (0 : K)) (0, 0, 0)) (zT := zT) h hN fx fy
  refine ⟨F, h1, h2, fun a b => ?_⟩
  obtain ⟨F', h1', _, h3⟩ := writeOff_closed (tag_anti a b) (zT := zT) h hN fx fy
  rw [h1] at h1'; injection h1' with h1'; subst h1'
  simp only [tag_bd] at h3
  simp only [Files.all, List.flatMap_cons, List.flatMap_nil, List.count_append, List.count_nil]
  omega

/-- **C41 (surfaces).** Same for the whole program. -/
theorem C41_closed [FloorSemiring K] [IsStrictOrderedRing K] {n : Nat} {eps zT : K} {pts : List (Pt K)} {d : Dims} {F : Files K}
    (h : extrude pts zT n eps = some F) (hd : dims eps n (pts.insertionSort ptLe) = some d)
    (fx : 4 * 2 ^ n ≤ d.nx + 3) (fy : 4 * 2 ^ n ≤ d.ny + 3) :
    (∀ X ∈ F.all, X.Ok) ∧ ∀ a b : Pt K, (F.all.flatMap File.edges).count (a, b) = (F.all.flatMap File.edges).count (b, a) := by
  unfold extrude at h
  simp only [Option.bind_eq_bind, Option.bind_eq_some_iff] at h
  obtain ⟨d', hd', dy, _, dx, _, zM, _, N, hN, hw⟩ := h
  rw [hd] at hd'; injection hd' with hd'; subst hd'
  obtain ⟨F', h1, h2, h3⟩ := C41_written (zT := zT) hd (nSteps_pos hN) fx fy
  rw [hw] at h1; injection h1 with h1; subst h1
  exact ⟨h2, h3⟩

/-- Without refinement all accepted grids are written as closed surfaces. -/
theorem C41_closed_unrefined [FloorSemiring K] [IsStrictOrderedRing K] {eps zT : K} {pts : List (Pt K)} {F : Files K}
    (h : extrude pts zT 0 eps = some F) :
    (∀ X ∈ F.all, X.Ok) ∧ ∀ a b : Pt K, (F.all.flatMap File.edges).count (a, b) = (F.all.flatMap File.edges).count (b, a) := by
  have h' := h
  unfold extrude at h
  simp only [Option.bind_eq_bind, Option.bind_eq_some_iff] at h
  obtain ⟨d, hd, _⟩ := h
  obtain ⟨kx, ky, hk⟩ := dims_ok hd
  exact C41_closed h' hd (by rw [hk.nx]; omega) (by rw [hk.ny]; omega)

end

/-! ### Example -/

/-- Grid with hills, in some order. -/
def exPts (nx ny : Nat) : List (Pt ℚ) :=
  (List.range ny).flatMap (fun (j : Nat) => (List.range nx).map (fun (i : Nat) => ((i : ℚ), (j : ℚ), ((i * j % 3 : Nat) : ℚ))))

example : (extrude (exPts 5 7) (-3) 1 (1 / 10)).map (fun F => F.all.map (fun X => (X.pts.length, X.nTria, X.ts.length))) =
    some [(16, 18, 18), (16, 18, 18), (12, 12, 12), (12, 12, 12), (12, 12, 12), (35, 14, 14)] := by
  decide +kernel

end Edge.Cut
