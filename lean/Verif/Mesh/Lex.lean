import Verif.Mesh.Model
/-! Lemmas on the lexicographic order of rows, on sorting and on the comparison of rows. -/
namespace Edge.Mesh
open Edge

theorem lexLt_irrefl (a : List Nat) : lexLt a a = false := by
  induction a with
  | nil => rfl
  | cons x a ih => simp [lexLt, ih]

theorem lexLt_trans : ∀ {a b c : List Nat}, lexLt a b = true → lexLt b c = true → lexLt a c = true
  | x :: a, y :: b, z :: c, h1, h2 => by
    simp only [lexLt] at h1 h2 ⊢
    split at h1
    · split at h2
      · rw [if_pos (by omega)]
      · split at h2
        · cases h2
        · rw [if_pos (by omega)]
    · split at h1
      · cases h1
      · split at h2
        · rw [if_pos (by omega)]
        · split at h2
          · cases h2
          · rw [if_neg (by omega), if_neg (by omega)]
            exact lexLt_trans h1 h2
  | [], _, _, h1, _ => by simp [lexLt] at h1
  | _ :: _, [], _, h1, _ => by simp [lexLt] at h1
  | _ :: _, _ :: _, [], _, h2 => by simp [lexLt] at h2

theorem lexLt_asymm {a b : List Nat} (h : lexLt a b = true) : lexLt b a = false := by
  cases h2 : lexLt b a with
  | false => rfl
  | true => have := lexLt_trans h h2; rw [lexLt_irrefl] at this; cases this

/-- Rows of the same length are ordered or equal. -/
theorem lexLt_tri : ∀ {a b : List Nat}, a.length = b.length → lexLt a b = true ∨ a = b ∨ lexLt b a = true
  | [], [], _ => Or.inr (Or.inl rfl)
  | x :: a, y :: b, h => by
    simp only [lexLt]
    rcases lt_trichotomy x y with hx | hx | hx
    · left; rw [if_pos hx]
    · subst hx
      simp only [lt_irrefl, if_false]
      rcases lexLt_tri (a := a) (b := b) (by simpa using h) with h' | h' | h'
      · exact Or.inl h'
      · exact Or.inr (Or.inl (by rw [h']))
      · exact Or.inr (Or.inr h')
    · right; right; rw [if_pos hx]
  | [], _ :: _, h => by simp at h
  | _ :: _, [], h => by simp at h

theorem lexLt_ne {a b : List Nat} (h : lexLt a b = true) : a ≠ b := by
  rintro rfl; rw [lexLt_irrefl] at h; cases h

/-- Not less and not greater: equal. -/
theorem eq_of_not_lexLt {a b : List Nat} (h : a.length = b.length) (h1 : lexLt a b = false) (h2 : lexLt b a = false) :
    a = b := by
  rcases lexLt_tri h with h' | h' | h'
  · rw [h1] at h'; cases h'
  · exact h'
  · rw [h2] at h'; cases h'

theorem lexLt_of_lt_of_le {a b c : List Nat} (hl : b.length = c.length) (h1 : lexLt a b = true)
    (h2 : lexLt c b = false) : lexLt a c = true := by
  rcases lexLt_tri hl with h' | h' | h'
  · exact lexLt_trans h1 h'
  · exact h' ▸ h1
  · rw [h2] at h'; cases h'

/-- The relation "not greater" is transitive on rows of one length. -/
theorem lexLe_trans {a b c : List Nat} (hab : a.length = b.length) (hbc : b.length = c.length)
    (h1 : lexLt b a = false) (h2 : lexLt c b = false) : lexLt c a = false := by
  cases h : lexLt c a with
  | false => rfl
  | true =>
    have := lexLt_of_lt_of_le hab h h1
    rw [h2] at this; cases this

theorem sortNat_perm (l : List Nat) : (sortNat l).Perm l := List.perm_insertionSort _ l

theorem sortNat_sorted (l : List Nat) : (sortNat l).Pairwise (· ≤ ·) := List.pairwise_insertionSort (· ≤ ·) l

theorem sortNat_length (l : List Nat) : (sortNat l).length = l.length := (sortNat_perm l).length_eq

/-- A sorted list is not changed. -/
theorem sortNat_id {l : List Nat} (h : l.Pairwise (· ≤ ·)) : sortNat l = l :=
  List.Perm.eq_of_pairwise (le := (· ≤ ·)) (fun _ _ _ _ h1 h2 => le_antisymm h1 h2) (sortNat_sorted l) h (sortNat_perm l)

/-- Sorted rows are equal if and only if the rows have the same vertices. -/
theorem sortNat_eq_iff {a b : List Nat} : sortNat a = sortNat b ↔ a.Perm b := by
  constructor
  · intro h
    exact (sortNat_perm a).symm.trans (h ▸ sortNat_perm b)
  · intro h
    exact List.Perm.eq_of_pairwise (le := (· ≤ ·)) (fun _ _ _ _ h1 h2 => le_antisymm h1 h2) (sortNat_sorted a)
      (sortNat_sorted b) ((sortNat_perm a).trans (h.trans (sortNat_perm b).symm))

/-- All entries of two rows are shared if and only if the rows are equal. -/
theorem nShared_spec {n : Nat} {a b : List Nat} (ha : a.length = n) (hb : b.length = n) :
    ∃ k, nShared n a b = some k ∧ (k = n ↔ a = b) := by
  obtain ⟨k, hk, h1, h2⟩ := forN_inv (n := n) (s := (0 : Nat)) (body := fun v (k : Nat) => do
      let x ← rd a v
      let y ← rd b v
      if x = y then return k + 1 else return k)
    (fun i (k : Nat) => k ≤ i ∧ (k = i ↔ ∀ j : Nat, j < i → a[j]? = b[j]?))
    (by simp)
    (by
      rintro i k hi ⟨h1, h2⟩
      have hia : i < a.length := by omega
      have hib : i < b.length := by omega
      by_cases hc : a[i] = b[i]
      · refine ⟨k + 1, by simp [rd, hia, hib, hc], by omega, ⟨fun h j hj => ?_, fun h => ?_⟩⟩
        · by_cases hji : j = i
          · subst hji; simp [hia, hib, hc]
          · exact (h2.1 (by omega)) j (by omega)
        · have := h2.2 (fun j hj => h j (by omega)); omega
      · refine ⟨k, by simp [rd, hia, hib, hc], by omega, ⟨fun h => by omega, fun h => ?_⟩⟩
        have := h i (by omega)
        simp [hia, hib] at this
        exact absurd this hc)
  refine ⟨k, hk, h2.trans ⟨fun h => ?_, fun h => by simp [h]⟩⟩
  apply List.ext_getElem?
  intro j
  by_cases hj : j < n
  · exact h j hj
  · rw [List.getElem?_eq_none (by omega), List.getElem?_eq_none (by omega)]

end Edge.Mesh
