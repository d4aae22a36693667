import Mathlib.Algebra.Order.Field.Basic
import Mathlib.Algebra.BigOperators.Group.Finset.Basic
import Mathlib.Algebra.BigOperators.Field
import Mathlib.Algebra.BigOperators.Fin
import Mathlib.Algebra.Order.BigOperators.Group.Finset
import Mathlib.Algebra.Field.Rat
import Mathlib.Algebra.Order.Ring.Rat
import Mathlib.Data.List.OfFn
import Mathlib.Tactic.FieldSimp
import Mathlib.Tactic.Positivity
import Mathlib.Tactic.Linarith
import Mathlib.Tactic.NormNum
import Mathlib.Tactic.FinCases

/-!
C119: centroids of the elements. Model of `edge_v::mesh::Mesh::getCentroidsEl` and `edge_v::geom::Generic::centroid`. Exact numbers replace floating point numbers.
-/

namespace Edge.EdgeV.Centroid

set_option linter.unusedSectionVars false

variable {K : Type} [Field K] [LinearOrder K] [IsStrictOrderedRing K]

/-! ### Model -/

/-- `Generic::centroid` (tools/edge_v/src/geom/Generic.cpp:27-41): adds to the values in the output array. -/
def centroid {n : Nat} (v : Fin n → Fin 3 → K) (cen : Fin 3 → K) : Fin 3 → K :=
  let cen := (List.finRange n).foldl (fun c ve => fun di => c di + v ve di) cen
  fun di => cen di / (n : K)

/-- Coordinates of the vertices of an element (`getEnVeCrds`, tools/edge_v/src/mesh/Mesh.cpp:75-90). -/
def elCrds (n : Nat) (elVe : Nat → Nat) (veCrds : Nat → Fin 3 → K) (el : Nat) : Fin n → Fin 3 → K := fun ve => veCrds (elVe (n * el + ve))

/-- `Mesh::getCentroidsEl` (tools/edge_v/src/mesh/Mesh.cpp:676-704) at the first call: `mem` is the content of the memory which `new` returned, i.e., arbitrary. -/
def getCentroidsEl (n nEls : Nat) (elVe : Nat → Nat) (veCrds : Nat → Fin 3 → K) (mem : Nat → Fin 3 → K) : Nat → Fin 3 → K :=
  (List.range nEls).foldl (fun c el => Function.update c el (centroid (elCrds n elVe veCrds el) (c el))) mem

/-! ### Specification -/

/-- `p` is the centroid of the points `v`: the differences to the points cancel. -/
def IsCentroid {n : Nat} (v : Fin n → Fin 3 → K) (p : Fin 3 → K) : Prop := ∀ di, ∑ ve, (v ve di - p di) = 0

/-! ### Proofs -/

theorem run (n : Nat) (elVe : Nat → Nat) (veCrds mem : Nat → Fin 3 → K) : ∀ nEls el, getCentroidsEl n nEls elVe veCrds mem el = if el < nEls then centroid (elCrds n elVe veCrds el) (mem el) else mem el := by
  intro nEls
  induction nEls with
  | zero => intro el; simp [getCentroidsEl]
  | succ m ih =>
    intro el
    unfold getCentroidsEl at ih ⊢
    rw [List.range_succ, List.foldl_append]
    simp only [List.foldl_cons, List.foldl_nil]
    by_cases c : el = m
    · subst c
      rw [Function.update_self, ih]
      simp
    · rw [Function.update_of_ne c, ih]
      have : el < m + 1 ↔ el < m := by omega
      simp only [this]

theorem centroid_eq {n : Nat} (v : Fin n → Fin 3 → K) (cen : Fin 3 → K) (di : Fin 3) : centroid v cen di = (cen di + ∑ ve, v ve di) / (n : K) := by
  have : ∀ (l : List (Fin n)) (c : Fin 3 → K), l.foldl (fun c ve => fun di => c di + v ve di) c di = c di + (l.map fun ve => v ve di).sum := by
    intro l
    induction l with
    | nil => intro c; simp
    | cons a l ih => intro c; rw [List.foldl_cons, ih]; simp [add_assoc]
  unfold centroid
  simp only [this]
  rw [← List.ofFn_eq_map, List.sum_ofFn]

theorem isCentroid_iff {n : Nat} (hn : 0 < n) (v : Fin n → Fin 3 → K) (p : Fin 3 → K) : IsCentroid v p ↔ ∀ di, p di = (∑ ve, v ve di) / (n : K) := by
  have h0 : (n : K) ≠ 0 := by exact_mod_cast hn.ne'
  unfold IsCentroid
  refine forall_congr' fun di => ?_
  rw [Finset.sum_sub_distrib, Finset.sum_const, Finset.card_univ, Fintype.card_fin, nsmul_eq_mul, eq_div_iff h0, sub_eq_zero, mul_comm, eq_comm]

/-- C119: if the new memory happens to hold zeros, then the centroids of all elements are right, and they lie in their elements: a half-space with all vertices of the element contains the centroid. Missing: memory with other content (`C119_memory_refuted`). -/
theorem C119_centroids_partial {n : Nat} (hn : 0 < n) (nEls : Nat) (elVe : Nat → Nat) (veCrds mem : Nat → Fin 3 → K) (hmem : ∀ el di, mem el di = 0) {el : Nat} (hel : el < nEls) :
    IsCentroid (fun ve : Fin n => veCrds (elVe (n * el + ve))) (getCentroidsEl n nEls elVe veCrds mem el) ∧
    ∀ (a : Fin 3 → K) (b : K), (∀ ve : Fin n, ∑ di, a di * veCrds (elVe (n * el + ve)) di ≤ b) → ∑ di, a di * getCentroidsEl n nEls elVe veCrds mem el di ≤ b := by
  have hnK : (0 : K) < n := by exact_mod_cast hn
  have e : ∀ di, getCentroidsEl n nEls elVe veCrds mem el di = (∑ ve : Fin n, veCrds (elVe (n * el + ve)) di) / (n : K) := by
    intro di
    rw [run, if_pos hel, centroid_eq, hmem, zero_add]
    rfl
  refine ⟨(isCentroid_iff hn _ _).mpr e, fun a b h => ?_⟩
  have h1 := Finset.sum_le_sum fun ve (_ : ve ∈ (Finset.univ : Finset (Fin n))) => h ve
  rw [Finset.sum_comm, Finset.sum_const, Finset.card_univ, Fintype.card_fin, nsmul_eq_mul] at h1
  have h2 : ∑ di, a di * getCentroidsEl n nEls elVe veCrds mem el di = (∑ di, ∑ ve : Fin n, a di * veCrds (elVe (n * el + ve)) di) / (n : K) := by
    rw [Finset.sum_div]
    refine Finset.sum_congr rfl fun di _ => ?_
    rw [e, ← Finset.mul_sum, mul_div_assoc]
  rw [h2, div_le_iff₀ hnK, mul_comm b]
  exact h1

/-- C119: the centroid of an element is right if and only if the new memory holds zeros. -/
theorem C119_memory {n : Nat} (hn : 0 < n) (nEls : Nat) (elVe : Nat → Nat) (veCrds mem : Nat → Fin 3 → K) {el : Nat} (hel : el < nEls) :
    IsCentroid (fun ve : Fin n => veCrds (elVe (n * el + ve))) (getCentroidsEl n nEls elVe veCrds mem el) ↔ ∀ di, mem el di = 0 := by
  have h0 : (n : K) ≠ 0 := by exact_mod_cast hn.ne'
  rw [isCentroid_iff hn]
  refine forall_congr' fun di => ?_
  rw [run, if_pos hel, centroid_eq, div_left_inj' h0]
  constructor
  · intro h
    have : mem el di + ∑ ve : Fin n, veCrds (elVe (n * el + ve)) di = ∑ ve : Fin n, veCrds (elVe (n * el + ve)) di := h
    linarith
  · intro h
    rw [h, zero_add]
    rfl

/-- C119: the centroids of the elements depend on the content of uninitialised memory. -/
theorem C119_memory_refuted : ¬ ∀ (nEls : Nat) (elVe : Nat → Nat) (veCrds mem : Nat → Fin 3 → ℚ), ∀ el < nEls, IsCentroid (fun ve : Fin 4 => veCrds (elVe (4 * el + ve))) (getCentroidsEl 4 nEls elVe veCrds mem el) := by
  intro h
  have := (C119_memory (by decide) 1 id (fun _ _ => 0) (fun _ _ => 1) (by decide : 0 < 1)).mp (h 1 id (fun _ _ => 0) (fun _ _ => 1) 0 (by decide)) 0
  norm_num at this

/-- Two tetrahedrons with a common face: the second one has the vertices 1, 2, 3 and 4. -/
example : getCentroidsEl 4 2 (fun i => if i < 4 then i else i - 3) (fun ve di => if ve = di + 1 then (1 : ℚ) else if ve = 4 then 1 else 0) (fun _ _ => 0) 1 0 = 1 / 2 := by
  rw [run, if_pos (by decide), centroid_eq]
  norm_num [elCrds, Fin.sum_univ_four]

end Edge.EdgeV.Centroid
