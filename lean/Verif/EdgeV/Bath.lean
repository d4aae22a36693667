import Mathlib.Algebra.Order.Field.Basic
import Mathlib.Algebra.BigOperators.Group.Finset.Basic
import Mathlib.Algebra.BigOperators.Fin
import Mathlib.Algebra.Field.Rat
import Mathlib.Algebra.Order.Ring.Rat
import Mathlib.Logic.Function.Basic
import Mathlib.Tactic.FieldSimp
import Mathlib.Tactic.Linarith
import Mathlib.Tactic.NormNum

/-!
C121: bathymetry of the elements. Model of `edge_v::models::Model::getElAve`, the dry tolerance in edge_v's main and its default value. Exact numbers replace floating point numbers.
-/

namespace Edge.EdgeV.Bath

set_option linter.unusedSectionVars false

variable {K : Type} [Field K] [LinearOrder K] [IsStrictOrderedRing K]

/-! ### Model -/

/-- Body of the loop over the vertices in `Model::getElAve` (tools/edge_v/src/models/Model.cpp:36-39). -/
def aveVe (nElVes : Nat) (elVe : Nat → Nat) (velVe : Nat → K) (el : Nat) (o : Nat → K) (ve : Nat) : Nat → K :=
  let veId := elVe (el * nElVes + ve)
  Function.update o el (o el + velVe veId)

/-- Body of the loop over the elements in `Model::getElAve` (tools/edge_v/src/models/Model.cpp:33-41). -/
def aveEl (nElVes : Nat) (elVe : Nat → Nat) (velVe : Nat → K) (o : Nat → K) (el : Nat) : Nat → K :=
  let o := Function.update o el 0
  let o := (List.range nElVes).foldl (aveVe nElVes elVe velVe el) o
  Function.update o el (o el / (nElVes : K))

/-- `Model::getElAve` (tools/edge_v/src/models/Model.cpp:25-42); the iterations of the parallel loop write disjoint entries. -/
def getElAve (nElVes nEls : Nat) (elVe : Nat → Nat) (velVe mem : Nat → K) : Nat → K := (List.range nEls).foldl (aveEl nElVes elVe velVe) mem

/-- Body of the loop which applies the dry tolerance (tools/edge_v/src/main.cpp:487-489). -/
def dryEl (tol : K) (bath : Nat → K) (el : Nat) : Nat → K := if bath el > tol then Function.update bath el (max (bath el) (-tol)) else bath

/-- Bathymetry of the elements (tools/edge_v/src/main.cpp:478-490); `mem` is the content of the fresh memory. -/
def elBath (nElVes nEls : Nat) (elVe : Nat → Nat) (bathVe : Nat → K) (tol : K) (mem : Nat → K) : Nat → K :=
  (List.range nEls).foldl (dryEl tol) (getElAve nElVes nEls elVe bathVe mem)

/-- Dry tolerance of the configuration (tools/edge_v/src/io/Config.h:69, Config.cpp:80): the initial value -25 is overwritten by what the file says, where `as_double` of pugixml returns 0 for a missing node. -/
def cfgTol (node : Option K) : K :=
  let dryTol : K := -25
  let _ := dryTol
  node.getD 0

/-! ### Specification -/

/-- Mean of the values at the vertices of the element. -/
def mean (nElVes : Nat) (elVe : Nat → Nat) (velVe : Nat → K) (el : Nat) : K := (∑ ve : Fin nElVes, velVe (elVe (el * nElVes + ve))) / (nElVes : K)

/-- The documentation (tools/edge_v/src/io/Config.h:200-206): the tolerance is negative; elements with a negative bathymetry larger than the tolerance obtain the negative tolerance, the others keep their value. -/
def documented (tol b : K) : K := if b < 0 ∧ tol < b then -tol else b

/-! ### Proofs -/

theorem ave_loop (nElVes : Nat) (elVe : Nat → Nat) (velVe : Nat → K) (el : Nat) (o : Nat → K) : ∀ n,
    (List.range n).foldl (aveVe nElVes elVe velVe el) o = Function.update o el (o el + ∑ ve : Fin n, velVe (elVe (el * nElVes + ve))) := by
  intro n
  induction n with
  | zero => simp
  | succ n ih =>
    rw [List.range_succ, List.foldl_append, ih, Fin.sum_univ_castSucc]
    simp [aveVe, add_assoc]

theorem aveEl_eq (nElVes : Nat) (elVe : Nat → Nat) (velVe : Nat → K) (o : Nat → K) (el : Nat) : aveEl nElVes elVe velVe o el = Function.update o el (mean nElVes elVe velVe el) := by
  unfold aveEl
  simp only [ave_loop]
  simp [mean]

theorem foldl_update (f : Nat → K → K) (step : (Nat → K) → Nat → Nat → K) (hs : ∀ o el, step o el = Function.update o el (f el (o el))) (mem : Nat → K) : ∀ n el, (List.range n).foldl step mem el = if el < n then f el (mem el) else mem el := by
  intro n
  induction n with
  | zero => intro el; simp
  | succ n ih =>
    intro el
    rw [List.range_succ, List.foldl_append]
    simp only [List.foldl_cons, List.foldl_nil, hs]
    by_cases c : el = n
    · subst c; rw [Function.update_self, ih]; simp
    · rw [Function.update_of_ne c, ih]
      have : el < n + 1 ↔ el < n := by omega
      simp only [this]

/-- C121: the average of an element is the mean of the values at its vertices, whatever was in the memory before. -/
theorem C121_average (nElVes nEls : Nat) (elVe : Nat → Nat) (velVe mem : Nat → K) {el : Nat} (hel : el < nEls) : getElAve nElVes nEls elVe velVe mem el = mean nElVes elVe velVe el := by
  unfold getElAve
  rw [foldl_update (fun el _ => mean nElVes elVe velVe el) _ (fun o el => aveEl_eq _ _ _ _ _), if_pos hel]

theorem elBath_eq (nElVes nEls : Nat) (elVe : Nat → Nat) (bathVe mem : Nat → K) (tol : K) {el : Nat} (hel : el < nEls) :
    elBath nElVes nEls elVe bathVe tol mem el = if mean nElVes elVe bathVe el > tol then max (mean nElVes elVe bathVe el) (-tol) else mean nElVes elVe bathVe el := by
  unfold elBath
  rw [foldl_update (fun _ b => if b > tol then max b (-tol) else b) (dryEl tol), if_pos hel, C121_average _ _ _ _ _ hel]
  intro o el
  unfold dryEl
  split_ifs
  · rfl
  · simp

/-- C121: no element is shallow (neither between the tolerance and the negative tolerance), wet elements which are deep enough and land which is high enough keep their mean, the value is never lowered, and the value is the documented one unless the element is land lower than the negative tolerance. Missing: low land (`C121_land_refuted`). -/
theorem C121_dry_partial (nElVes nEls : Nat) (elVe : Nat → Nat) (bathVe mem : Nat → K) (tol : K) {el : Nat} (hel : el < nEls) :
    (elBath nElVes nEls elVe bathVe tol mem el ≤ tol ∨ -tol ≤ elBath nElVes nEls elVe bathVe tol mem el) ∧
    mean nElVes elVe bathVe el ≤ elBath nElVes nEls elVe bathVe tol mem el ∧
    (mean nElVes elVe bathVe el < 0 ∨ -tol ≤ mean nElVes elVe bathVe el → elBath nElVes nEls elVe bathVe tol mem el = documented tol (mean nElVes elVe bathVe el)) := by
  rw [elBath_eq _ _ _ _ _ _ hel]
  generalize mean nElVes elVe bathVe el = b
  unfold documented
  by_cases c : b > tol
  · rw [if_pos c]
    refine ⟨.inr (le_max_right _ _), le_max_left _ _, ?_⟩
    rintro (h | h)
    · rw [if_pos ⟨h, c⟩, max_eq_right (by linarith)]
    · rw [max_eq_left h, if_neg]
      rintro ⟨h1, _⟩
      linarith
  · rw [if_neg c]
    refine ⟨.inl (not_lt.mp c), le_refl _, fun _ => ?_⟩
    rw [if_neg]
    rintro ⟨_, h⟩
    exact c h

/-- C121: land lower than the negative tolerance is raised to it, in contrast to the documentation. -/
theorem C121_land_refuted (nElVes nEls : Nat) (elVe : Nat → Nat) (bathVe mem : Nat → K) {tol : K} {el : Nat} (hel : el < nEls) (h0 : 0 ≤ mean nElVes elVe bathVe el) (h1 : mean nElVes elVe bathVe el < -tol) :
    elBath nElVes nEls elVe bathVe tol mem el = -tol ∧ elBath nElVes nEls elVe bathVe tol mem el ≠ documented tol (mean nElVes elVe bathVe el) := by
  have e : elBath nElVes nEls elVe bathVe tol mem el = -tol := by
    rw [elBath_eq _ _ _ _ _ _ hel, if_pos (show tol < _ by linarith), max_eq_right h1.le]
  refine ⟨e, ?_⟩
  rw [e, documented, if_neg (by rintro ⟨h, _⟩; linarith)]
  exact ne_of_gt h1

/-- C121: without a dry tolerance in the configuration, the default value of -25 is lost: the bathymetry of an element is the mean, and elements with a negative bathymetry larger than -25 differ from the documentation with the default tolerance. -/
theorem C121_default_refuted (nElVes nEls : Nat) (elVe : Nat → Nat) (bathVe mem : Nat → K) {el : Nat} (hel : el < nEls) :
    elBath nElVes nEls elVe bathVe (cfgTol none) mem el = mean nElVes elVe bathVe el ∧
    (-25 < mean nElVes elVe bathVe el → mean nElVes elVe bathVe el < 0 → elBath nElVes nEls elVe bathVe (cfgTol none) mem el ≠ documented (-25) (mean nElVes elVe bathVe el)) := by
  have e : elBath nElVes nEls elVe bathVe (cfgTol none) mem el = mean nElVes elVe bathVe el := by
    rw [elBath_eq _ _ _ _ _ _ hel]
    simp only [cfgTol, Option.getD_none, neg_zero]
    split_ifs with c
    · exact max_eq_left c.le
    · rfl
  refine ⟨e, fun h1 h2 => ?_⟩
  rw [e, documented, if_pos ⟨h2, h1⟩]
  exact ne_of_lt (by linarith)

/-- Triangles 0-1-2 and 1-2-3 with bathymetry -30, -60, 0 and 0: means of -30 (kept) and -20 (raised to 25). -/
example : elBath 3 2 (fun i => [0, 1, 2, 1, 2, 3].getD i 0) (fun ve => ([-30, -60, 0, 0] : List ℚ).getD ve 0) (-25) (fun _ => 7) 0 = -30 ∧
    elBath 3 2 (fun i => [0, 1, 2, 1, 2, 3].getD i 0) (fun ve => ([-30, -60, 0, 0] : List ℚ).getD ve 0) (-25) (fun _ => 7) 1 = 25 := by
  rw [elBath_eq _ _ _ _ _ _ (by decide), elBath_eq _ _ _ _ _ _ (by decide)]
  have h0 : mean 3 (fun i => [0, 1, 2, 1, 2, 3].getD i 0) (fun ve => ([-30, -60, 0, 0] : List ℚ).getD ve 0) 0 = -30 := by
    rw [mean, Fin.sum_univ_three]
    show ((-30 : ℚ) + -60 + 0) / ((3 : Nat) : ℚ) = -30
    norm_num
  have h1 : mean 3 (fun i => [0, 1, 2, 1, 2, 3].getD i 0) (fun ve => ([-30, -60, 0, 0] : List ℚ).getD ve 0) 1 = -20 := by
    rw [mean, Fin.sum_univ_three]
    show ((-60 : ℚ) + 0 + 0) / ((3 : Nat) : ℚ) = -20
    norm_num
  rw [h0, h1]
  norm_num

/-- Low land: a mean of 10 is raised to 25. -/
example : elBath 3 1 id (fun _ => (10 : ℚ)) (-25) (fun _ => 7) 0 = 25 := by
  have := (C121_land_refuted 3 1 id (fun _ => (10 : ℚ)) (fun _ => 7) (tol := -25) (el := 0) (by decide) (by norm_num [mean]) (by norm_num [mean])).1
  norm_num at this
  exact this

end Edge.EdgeV.Bath
