import Mathlib.Data.Nat.Bitwise
import Mathlib.Tactic.NormNum

/-!
C115: sparse types of the entities inside domains. Model of `SparseTypes::set` (src/mesh/SparseTypes.hpp). A domain is a query of type `V → Bool` for coordinates of type `V`; reads outside
of an array are the outcome `none`.
-/

namespace Edge.Mesh.SetTypes

variable {V : Type}

/-- The loop over the vertices of an entity, which ends at the first vertex outside (src/mesh/SparseTypes.hpp:83-95). -/
def inDom (inside : V → Bool) (veChars : List V) : List Nat → Option Bool
  | [] => some true
  | v :: vs => veChars[v]?.bind fun c => if !inside c then some false else inDom inside veChars vs

/-- The loop over the domains for an entity with vertices `ve` and sparse type `t` (src/mesh/SparseTypes.hpp:78-101), starting with domain `k`. -/
def setEn (spTypes : List Nat) (veChars : List V) (ve : List Nat) : Nat → List (V → Bool) → Nat → Option Nat
  | _, [], t => some t
  | k, dom :: doms, t => (inDom dom veChars ve).bind fun l_in =>
      if l_in then spTypes[k]?.bind fun s => setEn spTypes veChars ve (k + 1) doms (t ||| s) else setEn spTypes veChars ve (k + 1) doms t

/-- `SparseTypes::set` (src/mesh/SparseTypes.hpp:70-103): the sparse types of all entities. -/
def set (enVe : List (List Nat)) (spTypes : List Nat) (doms : List (V → Bool)) (veChars : List V) (types : List Nat) : Option (List Nat) :=
  (enVe.zip types).mapM fun e => setEn spTypes veChars e.1 0 doms e.2

/-- Specification: all vertices of an entity are inside a domain. -/
def AllIn (inside : V → Bool) (veChars : List V) (ve : List Nat) : Prop := ∀ v ∈ ve, ∀ c, veChars[v]? = some c → inside c = true

theorem inDom_spec {inside : V → Bool} {veChars : List V} {ve : List Nat} (hv : ∀ v ∈ ve, v < veChars.length) :
    ∃ b, inDom inside veChars ve = some b ∧ (b = true ↔ AllIn inside veChars ve) := by
  induction ve with
  | nil => exact ⟨true, rfl, by simp [AllIn]⟩
  | cons v vs ih =>
    obtain ⟨b, h1, h2⟩ := ih fun u hu => hv u (by simp [hu])
    have hg := List.getElem?_eq_getElem (hv v (by simp))
    simp only [inDom, hg, Option.bind_some]
    by_cases hin : inside (veChars[v]'(hv v (by simp))) = true
    · refine ⟨b, by simp [hin, h1], h2.trans ?_⟩
      simp [AllIn, hg, hin]
    · refine ⟨false, by simp [hin], ?_⟩
      simp [AllIn, hg, hin]

theorem setEn_spec {spTypes : List Nat} {veChars : List V} {ve : List Nat} (hv : ∀ v ∈ ve, v < veChars.length) (doms : List (V → Bool)) (k t : Nat)
    (hs : k + doms.length ≤ spTypes.length) : ∃ t', setEn spTypes veChars ve k doms t = some t' ∧
    ∀ bit, t'.testBit bit = true ↔ t.testBit bit = true ∨ ∃ i, ∃ dom s, doms[i]? = some dom ∧ spTypes[k + i]? = some s ∧ AllIn dom veChars ve ∧ s.testBit bit = true := by
  induction doms generalizing k t with
  | nil => exact ⟨t, rfl, by simp⟩
  | cons dom doms ih =>
    obtain ⟨b, h1, h2⟩ := inDom_spec (inside := dom) hv
    simp only [List.length_cons] at hs
    have hg : spTypes[k]? = some (spTypes[k]'(by omega)) := List.getElem?_eq_getElem (by omega)
    have split : ∀ bit, (∃ i, ∃ dom' s, (dom :: doms)[i]? = some dom' ∧ spTypes[k + i]? = some s ∧ AllIn dom' veChars ve ∧ s.testBit bit = true) ↔
        (AllIn dom veChars ve ∧ (spTypes[k]'(by omega)).testBit bit = true) ∨
        ∃ i, ∃ dom' s, doms[i]? = some dom' ∧ spTypes[k + 1 + i]? = some s ∧ AllIn dom' veChars ve ∧ s.testBit bit = true := by
      intro bit
      constructor
      · rintro ⟨i, d', s, e1, e2, e3, e4⟩
        cases i with
        | zero =>
          simp only [List.getElem?_cons_zero, Option.some.injEq] at e1
          rw [Nat.add_zero, hg, Option.some.injEq] at e2
          subst e1 e2
          exact .inl ⟨e3, e4⟩
        | succ i => exact .inr ⟨i, d', s, by simpa using e1, by rw [← e2]; congr 1; omega, e3, e4⟩
      · rintro (⟨e3, e4⟩ | ⟨i, d', s, e1, e2, e3, e4⟩)
        · exact ⟨0, dom, _, rfl, by simp [hg], e3, e4⟩
        · exact ⟨i + 1, d', s, by simpa using e1, by rw [← e2]; congr 1; omega, e3, e4⟩
    cases b with
    | true =>
      obtain ⟨t', g1, g2⟩ := ih (k + 1) (t ||| spTypes[k]'(by omega)) (by omega)
      refine ⟨t', by simp only [setEn, h1, hg, Option.bind_some, if_true, g1], fun bit => ?_⟩
      rw [g2, split, Nat.testBit_or, Bool.or_eq_true]
      have := h2.mp rfl
      tauto
    | false =>
      obtain ⟨t', g1, g2⟩ := ih (k + 1) t (by omega)
      refine ⟨t', by simp [setEn, h1, g1], fun bit => ?_⟩
      rw [g2, split]
      have : ¬ AllIn dom veChars ve := fun h => by simpa using h2.mpr h
      tauto

/-- C115: an entity gets exactly the types of the domains which contain all of its vertices, in addition to the types it had; the memory accesses are in range. -/
theorem C115_set {enVe : List (List Nat)} {spTypes : List Nat} {doms : List (V → Bool)} {veChars : List V} {types : List Nat} (hl : enVe.length = types.length)
    (hs : doms.length ≤ spTypes.length) (hv : ∀ ve ∈ enVe, ∀ v ∈ ve, v < veChars.length) :
    ∃ types', set enVe spTypes doms veChars types = some types' ∧ types'.length = types.length ∧
      ∀ (en : Nat) (ve : List Nat) (t t' : Nat), enVe[en]? = some ve → types[en]? = some t → types'[en]? = some t' →
        ∀ bit, t'.testBit bit = true ↔ t.testBit bit = true ∨
          ∃ (i : Nat) (dom : V → Bool) (s : Nat), doms[i]? = some dom ∧ spTypes[i]? = some s ∧ (∀ v ∈ ve, ∀ c, veChars[v]? = some c → dom c = true) ∧ s.testBit bit = true := by
  induction enVe generalizing types with
  | nil =>
    cases types with
    | nil => exact ⟨[], rfl, rfl, by simp⟩
    | cons _ _ => simp at hl
  | cons ve enVe ih =>
    cases types with
    | nil => simp at hl
    | cons t types =>
      obtain ⟨ts, g1, g2, g3⟩ := ih (types := types) (by simpa using hl) fun ve h => hv ve (by simp [h])
      obtain ⟨t', k1, k2⟩ := setEn_spec (spTypes := spTypes) (hv ve (by simp)) doms 0 t (by omega)
      refine ⟨t' :: ts, ?_, by simp [g2], fun en ve' u u' e1 e2 e3 => ?_⟩
      · unfold set at g1 ⊢
        rw [List.zip_cons_cons, List.mapM_cons, k1, g1]
        rfl
      · cases en with
        | zero =>
          simp only [List.getElem?_cons_zero, Option.some.injEq] at e1 e2 e3
          subst e1 e2 e3
          simpa [AllIn] using k2
        | succ en => exact g3 en ve' u u' (by simpa using e1) (by simpa using e2) (by simpa using e3)

/-- Two lines, of which the second one leaves the first domain. -/
example : set [[0, 1], [1, 2]] [4, 8] [fun x : Nat => decide (x < 15), fun x => decide (5 < x)] [0, 10, 20] [1, 2] = some [5, 10] := by decide

example : ∃ types', set [[0, 1], [1, 2]] [4, 8] [fun x : Nat => decide (x < 15), fun x => decide (5 < x)] [0, 10, 20] [1, 2] = some types' ∧ types'.length = 2 := by
  obtain ⟨ts, h1, h2, -⟩ := C115_set (enVe := [[0, 1], [1, 2]]) (spTypes := [4, 8]) (doms := [fun x : Nat => decide (x < 15), fun x => decide (5 < x)]) (veChars := [0, 10, 20])
    (types := [1, 2]) rfl (by decide) (by decide)
  exact ⟨ts, h1, h2⟩

end Edge.Mesh.SetTypes
