import Verif.Advection.C109
/-!
C108, C109: the hypotheses are met.
-/
namespace Edge.Advection
open Edge Edge.Map Edge.Quad Edge.Basis Edge.Proj Edge.Gen Edge.Flux MvPolynomial

/-- Sizes for triangles, second order, two fused runs. -/
def exK : KCfg := ⟨2, 3, 2, 2, 2, 3⟩

theorem exK_fit : KFit exK .tria 2 := ⟨rfl, rfl, rfl, rfl, rfl⟩

theorem exStored {e : Ent} (he : e ≠ .line) (o : Nat) : ∃ lT lV LN FT, KStored e o lT lV LN FT := by
  obtain ⟨lT, h1, -⟩ := storeT e o
  obtain ⟨lV, h2, -⟩ := storeV e o
  obtain ⟨LN, FT, h3, -⟩ := stored he o
  exact ⟨lT, lV, LN, FT, h1, h2, h3⟩

/-- Memory of a thread. -/
def exMem : Stack ℝ := ⟨[List.replicate 6 0, List.replicate 6 0], List.replicate 6 0, List.replicate 4 0, List.replicate 4 0⟩

theorem exMem_ok : StackOk exK exMem where
  der := ⟨rfl, fun i hi => by
    simp only [exK] at hi
    interval_cases i <;> exact ⟨_, rfl, by simp [exK]⟩⟩
  scr := by simp [exK, exMem]
  sc0 := by simp [exK, exMem]
  sc1 := by simp [exK, exMem]

/-- Two triangles of the unit square. -/
def exTri (el d v : Nat) : ℝ := (((([[[0, 1, 0], [0, 0, 1]], [[1, 0, 1], [1, 1, 0]]] : List (List (List ℤ))).getD el []).getD d []).getD v 0 : ℤ)

def exV (_ d : Nat) : ℝ := ((([2, 1] : List ℤ).getD d 0 : ℤ) : ℝ)

/-- Inverse of the Jacobians. -/
def exJ (el d di : Nat) : ℝ := if d = di then (if el = 0 then 1 else -1) else 0

/-- Upwind solvers. -/
def exX (el fa : Nat) : ℝ := ((([[0, -3, 0], [-1, 0, -2]] : List (List ℤ)).getD el []).getD fa 0 : ℤ)
def exY (el fa : Nat) : ℝ := ((([[1, 0, 2], [0, 3, 0]] : List (List ℤ)).getD el []).getD fa 0 : ℤ)

/-- Faces of the periodic mesh: the other triangle is behind every face. -/
def exF (el fa : Nat) : AFace := ⟨false, 1 - el, some 0, fa, .eq⟩

/-- Faces of the mesh with outflow boundaries. -/
def exO (el fa : Nat) : AFace := ⟨decide (fa ≠ 1), 1 - el, some 0, fa, .eq⟩

/-- Data of the elements. -/
noncomputable def exEls (f : Nat → Nat → AFace) : List (AEl ℝ) :=
  [⟨[2, 1], [0, -3, 0, 1, 0, 2], false, false, [f 0 0, f 0 1, f 0 2]⟩, ⟨[-2, -1], [-1, 0, -2, 0, 3, 0], false, false, [f 1 0, f 1 1, f 1 2]⟩]

theorem exReg (el : Nat) (h : el < 2) : Regular (1 / 100) .tria (exTri el) := by
  interval_cases el <;> norm_num [Regular, Mesh.det2, pt3, exTri]

theorem exDet (el : Nat) (h : el < 2) : jDet .tria (exTri el) = 1 := by
  rw [jDet, C88_detTria]
  interval_cases el <;> norm_num [Mesh.det2, pt3, exTri]

theorem exMesh {f : Nat → Nat → AFace} (hf : f = exF ∨ f = exO) : MeshOk exK .tria (1 / 100) (exEls f) exTri exV exX exY exJ f where
  reg := exReg
  star := by
    intro el E hE
    have hel : el < 2 := (List.getElem?_eq_some_iff.1 hE).1
    refine ⟨fun d hd d2 hd2 => ?_, fun di hdi => ?_⟩
    · simp only [Ent.nDim] at hd hd2
      interval_cases el <;> interval_cases d <;> interval_cases d2 <;>
        norm_num [Finset.sum_range_succ, exJ, evalJac, derShape, derTria, sumN_succ, sumN_zero, Ent.nVe, Ent.nDim, exTri]
    · simp only [Ent.nDim] at hdi
      interval_cases el <;> cases hE <;> interval_cases di <;> norm_num [Finset.sum_range_succ, exJ, exV, Ent.nDim]
  own := by
    intro el E hE i hi
    have hel : el < 2 := (List.getElem?_eq_some_iff.1 hE).1
    simp only [exK] at hi
    interval_cases el <;> cases hE <;> interval_cases i <;> norm_num [exX]
  ne := by
    intro el E hE i hi
    have hel : el < 2 := (List.getElem?_eq_some_iff.1 hE).1
    simp only [exK] at hi
    interval_cases el <;> cases hE <;> interval_cases i <;> norm_num [exY, exK]
  faces := by
    intro el E hE i hi
    have hel : el < 2 := (List.getElem?_eq_some_iff.1 hE).1
    simp only [exK] at hi
    interval_cases el <;> cases hE <;> interval_cases i <;> rfl
  ids := by
    intro el hel fa hfa _
    have hel : el < 2 := hel
    simp only [exK] at hfa
    rcases hf with rfl | rfl <;>
      exact ⟨by simp only [exF, exO, exEls, List.length_cons, List.length_nil]; omega, fun ve hve => by cases hve; exact ⟨by decide, hfa⟩⟩
  rel := by rcases hf with rfl | rfl <;> exact fun _ _ _ _ => rfl

/-- State with the modes `u`. -/
noncomputable def exSt (u : Nat → Nat → Nat → ℝ) : List (List ℝ × TDofs ℝ) :=
  [(Dg.mk3 1 3 2 (fun _ => u 0), ⟨List.replicate 6 0, List.replicate 6 0, List.replicate 6 0⟩),
    (Dg.mk3 1 3 2 (fun _ => u 1), ⟨List.replicate 6 0, List.replicate 6 0, List.replicate 6 0⟩)]

theorem exSt_ok (u : Nat → Nat → Nat → ℝ) : StateOk exK 2 (exSt u) u := by
  refine ⟨rfl, fun el hel => ?_⟩
  have h := fun el => Dg.rep_mk 1 3 2 (fun _ => u el)
  interval_cases el
  · exact ⟨_, rfl, h 0, by simp [exK], by simp [exK], by simp [exK]⟩
  · exact ⟨_, rfl, h 1, by simp [exK], by simp [exK], by simp [exK]⟩

theorem exMatching : Matching .tria 2 exF := by
  intro el hel fa hfa _
  refine ⟨by simp only [exF]; omega, hfa, ⟨0, by decide, rfl⟩, rfl, ?_, rfl, rfl⟩
  simp only [exF]
  omega

theorem exBalanced : Balanced .tria 2 exTri exX exY exF := by
  intro el hel fa hfa _
  rw [exDet el hel, exDet _ (by simp only [exF]; omega)]
  simp only [Ent.nFa] at hfa
  interval_cases el <;> interval_cases fa <;> norm_num [exX, exY, exF]

-- the hypotheses of `C109_run` and of `C109_step`
example (u : Nat → Nat → Nat → ℝ) (dts : List ℝ) : ∃ lT lV LN FT st' u', runMesh exK lT lV LN FT exMem (exEls exF) dts (exSt u) = some st' ∧ StateOk exK 2 st' u' ∧
    ∀ r < 2, mass (1 / 100) .tria 2 2 exTri u' r = mass (1 / 100) .tria 2 2 exTri u r := by
  obtain ⟨lT, lV, LN, FT, h⟩ := exStored (e := .tria) (by decide) 2
  obtain ⟨st', u', h⟩ := C109_run (.inl rfl) (by decide) exK_fit h exMem_ok (by norm_num) (exMesh (.inl rfl)) (fun el hel => by rw [exDet el hel]; exact one_pos) exMatching exBalanced
    (fun _ _ _ _ => rfl) dts (exSt_ok u)
  exact ⟨lT, lV, LN, FT, st', u', h⟩

-- the hypotheses of `C108_step`
example (u : Nat → Nat → Nat → ℝ) (dt : ℝ) : ∃ lT lV LN FT st', stepMesh exK lT lV LN FT exMem (exEls exO) (exSt u) dt = some st' := by
  obtain ⟨lT, lV, LN, FT, h⟩ := exStored (e := .tria) (by decide) 2
  obtain ⟨-, st', -, -, h, -⟩ := C108_step (.inl rfl) (by decide) exK_fit h exMem_ok (by norm_num) (exMesh (.inr rfl)) (exSt_ok u) dt
  exact ⟨lT, lV, LN, FT, st', h⟩

theorem affine_phys {e : Ent} {o : Nat} {tol : ℝ} (ht : 0 ≤ tol) (he : e = .tria ∨ e = .tet) {ves : Nat → Nat → ℝ} (hr : Regular tol e ves) {b : ℝ} {g : Nat → ℝ} {a : Nat → ℝ}
    (h : ∀ p, recon e o a p = Cons.affine e.nDim b g (refToPhy e ves (crd p))) (x : Nat → ℝ) : physEval tol e o ves a x = Cons.affine e.nDim b g x := by
  obtain ⟨xi, h1, h2, -⟩ := C88_inverse ht hr x
  have hx : ∀ d < e.nDim, refToPhy e ves (crd (fun i => xi i.val)) d = x d := by
    intro d hd
    rw [← h2 d hd]
    rcases he with rfl | rfl <;> simp only [Ent.nDim] at hd <;> interval_cases d <;> simp [refToPhy, crd, shTria, shTet, sumN_succ, sumN_zero]
  rw [physEval, h1]
  simp only [h, Cons.affine]
  congr 1
  exact Finset.sum_congr rfl fun d hd => by rw [hx d (Finset.mem_range.1 hd)]

-- the hypotheses of `C108_exact`: a linear function on the mesh with outflow boundaries moves exactly
example (dt : ℝ) : ∃ (lT lV LN FT : List (List ℝ)) (u u' : Nat → Nat → Nat → ℝ) (st' : List (List ℝ × TDofs ℝ)),
    (∀ el < 2, ∀ r x, physEval (1 / 100) .tria 2 (exTri el) (fun md => u el md r) x = 5 + 3 * x 0 - 4 * x 1) ∧
    stepMesh exK lT lV LN FT exMem (exEls exO) (exSt u) dt = some st' ∧ StateOk exK 2 st' u' ∧
    ∀ el < 2, ∀ r < 2, ∀ x, physEval (1 / 100) .tria 2 (exTri el) (fun md => u' el md r) x = 5 + 3 * (x 0 - dt * 2) - 4 * (x 1 - dt * 1) := by
  obtain ⟨lT, lV, LN, FT, h⟩ := exStored (e := .tria) (by decide) 2
  have hr : ∀ el, Regular (1 / 100) .tria (exTri (el % 2)) := fun el => exReg _ (Nat.mod_lt _ (by decide))
  have key : ∀ el, ∃ a : Nat → ℝ, ∀ p, recon .tria 2 a p = Cons.affine 2 5 (fun d => if d = 0 then 3 else -4) (refToPhy .tria (exTri (el % 2)) (crd p)) := fun el => by
    obtain ⟨a, ha, -⟩ := Cons.affine_modes (e := .tria) (.inl rfl) (tol := 1 / 100) (by norm_num) (hr el) (by rw [exDet _ (Nat.mod_lt _ (by decide))]; exact one_pos) (o := 2) 5 (fun d => if d = 0 then 3 else -4) (by decide) (fun _ => by decide)
    exact ⟨a, ha⟩
  choose a ha using key
  have hp : ∀ el < 2, ∀ x, physEval (1 / 100) .tria 2 (exTri el) (a el) x = 5 + 3 * x 0 - 4 * x 1 := by
    intro el hel x
    have h1 := affine_phys (e := .tria) (by norm_num) (.inl rfl) (hr el) (ha el) x
    rw [Nat.mod_eq_of_lt hel] at h1
    rw [h1]
    simp [Cons.affine, Finset.sum_range_succ, Ent.nDim]
    ring
  obtain ⟨st', u', h1, h2, h3⟩ := C108_exact (.inl rfl) (by decide) exK_fit h exMem_ok (by norm_num) (exMesh (.inr rfl)) (exSt_ok (fun el md _ => a el md)) dt
  refine ⟨lT, lV, LN, FT, fun el md _ => a el md, u', st', fun el hel _ x => hp el hel x, h1, h2, fun el hel r hr x => ?_⟩
  rw [h3 el hel r hr ?_ ?_ x, hp el hel]
  · simp [back, exV]
  · intro fa hfa
    simp only [Ent.nFa] at hfa
    interval_cases el <;> interval_cases fa <;> norm_num [exX, exY, refNormal, starOf, exJ, exV, Fin.sum_univ_three, Finset.sum_range_succ, Ent.nDim]
  · intro fa hfa p1 p2 τ
    have hel2 : el < 2 := hel
    have hn : nb el (exO el fa) < 2 := by
      interval_cases el <;> by_cases h1 : fa = 1 <;> simp [nb, exO, h1]
    rw [hp _ hn, hp el hel]
    simp only [Ent.nFa] at hfa
    interval_cases el <;> interval_cases fa <;>
      norm_num [nb, exO, back, facePt, outPt, faPt, elPt, faToEl, faToFa, refToPhy, crd, shTria, sumN_succ, sumN_zero, exTri, exV]

-- the hypotheses of `C108_predict`, `C108_smaller` and `C108_larger`
example (u : Nat → Nat → ℝ) (dt : ℝ) : ∃ lT lV LN FT P d' t', Solves (1 / 100) .tria 2 (exTri 0) (exV 0) u P ∧
    localEl exK lT lV LN FT true dt true true [2, 1] [0, -3, 0, 1, 0, 2] exMem (Dg.mk3 1 3 2 (fun _ => u)) ⟨List.replicate 6 0, List.replicate 6 0, List.replicate 6 0⟩ = some (d', t') ∧
    IntOf exK t'.eq P 0 dt := by
  obtain ⟨lT, lV, LN, FT, h⟩ := exStored (e := .tria) (by decide) 2
  exact ⟨lT, lV, LN, FT, C108_predict (.inl rfl) (by decide) exK_fit h (by norm_num) (exReg 0 (by decide)) ((exMesh (.inl rfl)).star 0 _ rfl) exMem_ok (by decide) (Dg.rep_mk 1 3 2 (fun _ => u))
    (by simp [exK]) (by simp [exK]) (by simp [exK]) true true true dt⟩

-- the hypotheses of `C108_star2`
example : ∃ star J, starM2 (1 / 100) (exTri 1) (exV 1 0) (exV 1 1) = some star ∧ IsStar .tria (exTri 1) (exV 1) J star := by
  have h := C108_star2 (tol := 1 / 100) (by norm_num) (exTri 1) (exV 1)
  have hd := exDet 1 (by decide)
  rw [jDet, Linalg.C52_det2] at hd
  obtain ⟨star, hs⟩ := Option.isSome_iff_exists.1 (h.1.2 (by rw [hd]; norm_num))
  obtain ⟨J, hJ⟩ := h.2 star hs
  exact ⟨star, J, hs, hJ⟩

/-- Two triangles with the sides 3, 4 and 5, connected by face 1. -/
def exTrias : Mesh ℚ where
  tet := false
  order := 2
  nd := 2
  nElFa := 3
  nIn := 2
  nSe := 0
  nFa := 5
  recvFa := []
  recvEl := []
  faEl := [(0, 9), (0, 1), (0, 9), (1, 9), (1, 9)]
  elFa := [[0, 1, 2], [3, 1, 4]]
  normal := [[0, -1], [4/5, 3/5], [-1, 0], [0, 1], [1, 0]]
  area := [3, 5, 4, 3, 4]
  periodic := [false, false, false, false, false]
  v := [[3, 1], [2, 1]]
  vRe := []
  det := [12, 12]

theorem exTrias_valid : Valid exTrias (desc exTrias fun _ _ => none) where
  faEl := fun fa hfa => ⟨(exTrias.faEl.getD fa (0, 0)).2, by revert fa; decide +kernel⟩
  elFa := fun el he => ⟨exTrias.elFa.getD el [], by revert el; decide +kernel, by revert el; unfold Holds; decide +kernel⟩
  once := by decide +kernel
  faces := by decide +kernel
  inLeft := by decide +kernel
  inRight := by
    intro fa hfa r hr _
    have : fa = 1 ∧ r = 1 := by
      have hc : ∀ fa < 5, fa ≠ 1 → (desc exTrias fun _ _ => none).right fa = none := by decide +kernel
      by_cases h1 : fa = 1
      · subst h1
        have : (desc exTrias fun _ _ => none).right 1 = some 1 := by decide +kernel
        rw [this] at hr
        exact ⟨rfl, (Option.some.inj hr).symm⟩
      · rw [hc fa hfa h1] at hr; cases hr
    obtain ⟨rfl, rfl⟩ := this
    exact ⟨1, by decide +kernel, by decide +kernel⟩
  normal := fun fa hfa => ⟨exTrias.normal.getD fa [], by revert fa; decide +kernel, by revert fa; unfold Holds; decide +kernel⟩
  area := by decide +kernel
  periodic := by decide +kernel
  v := fun el he => ⟨exTrias.v.getD el [], by revert el; decide +kernel, by revert el; unfold Holds; decide +kernel⟩
  det := by decide +kernel
  recvLen := rfl
  recv := by simp [exTrias, rd]
  recvAll := by simp [desc]

/-- Vertices of the triangles. -/
def exTriasVes (el d v : Nat) : ℚ := ((([[[0, 3, 0], [0, 0, 4]], [[3, 0, 3], [4, 4, 0]]] : List (List (List ℚ))).getD el []).getD d []).getD v 0

-- the hypotheses of `C109_solvers`
example : ∃ fs X Y, setupSolvers exTrias = some fs ∧ (∀ el < 2, ∀ fa < 3, entry fs el fa = some (X el fa) ∧ entry fs el (3 + fa) = some (Y el fa)) ∧
    Balanced .tria 2 exTriasVes X Y exO :=
  C109_solvers exTrias_valid (e := .tria) rfl (by decide +kernel) (by
    intro el hel fa hfa hou
    have hel : el < 2 := hel
    have hfa1 : fa = 1 := by simpa [exO] using hou
    subst hfa1
    interval_cases el <;> decide +kernel) (by
    intro el hel fa hfa hou
    have hel : el < 2 := hel
    show 1 - el < 2
    omega)

end Edge.Advection
