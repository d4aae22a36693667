import Verif.Sparse.Model
/-!
Specification of sparse types, independent of the loops of the model.
-/
namespace Edge.Sparse

/-- Dense entity `e` carries the sparse type `ty`: it exists, and all bits of the type are set
(`C21_membership` shows that the bit test means exactly this). -/
def isSp (chars : List Nat) (ty e : Nat) : Bool := (chars[e]?).any (hasTy · ty)

/-- Number of naturals below `e` satisfying `p`. For a member `e` this is the sparse id: ids are given
consecutively in dense order. -/
def rank (p : Nat → Bool) (e : Nat) : Nat := ((List.range e).filter p).length

/-- Number of naturals in `[a, a+n)` satisfying `p`. -/
def countIn (p : Nat → Bool) (a n : Nat) : Nat := ((List.range n).filter (fun i => p (a + i))).length

@[simp] theorem rank_zero (p : Nat → Bool) : rank p 0 = 0 := rfl

theorem rank_succ (p : Nat → Bool) (n : Nat) : rank p (n + 1) = rank p n + if p n then 1 else 0 := by
  unfold rank
  rw [List.range_succ, List.filter_append, List.length_append]
  cases h : p n <;> simp [h]

theorem rank_mono (p : Nat → Bool) {a b : Nat} (h : a ≤ b) : rank p a ≤ rank p b := by
  induction h with
  | refl => exact Nat.le_refl _
  | step _ ih => rw [rank_succ]; omega

theorem rank_lt (p : Nat → Bool) {a b : Nat} (h : a < b) (hp : p a = true) : rank p a < rank p b := by
  have := rank_mono p (show a + 1 ≤ b from h)
  rw [rank_succ, hp] at this
  simp at this
  omega

theorem rank_inj (p : Nat → Bool) {a b : Nat} (ha : p a = true) (hb : p b = true)
    (h : rank p a = rank p b) : a = b := by
  rcases Nat.lt_trichotomy a b with h' | h' | h'
  · have := rank_lt p h' ha; omega
  · exact h'
  · have := rank_lt p h' hb; omega

theorem rank_le (p : Nat → Bool) (n : Nat) : rank p n ≤ n := by
  induction n with
  | zero => simp
  | succ n ih => rw [rank_succ]; split <;> omega

@[simp] theorem countIn_zero (p : Nat → Bool) (a : Nat) : countIn p a 0 = 0 := rfl

theorem countIn_succ (p : Nat → Bool) (a n : Nat) :
    countIn p a (n + 1) = countIn p a n + if p (a + n) then 1 else 0 := by
  unfold countIn
  rw [List.range_succ, List.filter_append, List.length_append]
  cases h : p (a + n) <;> simp [h]

theorem rank_add (p : Nat → Bool) (a n : Nat) : rank p (a + n) = rank p a + countIn p a n := by
  induction n with
  | zero => simp
  | succ n ih => rw [← Nat.add_assoc, rank_succ, ih, countIn_succ]; omega

/-- Every sparse id below the count is the id of some member. -/
theorem rank_surj (p : Nat → Bool) (n i : Nat) (h : i < rank p n) :
    ∃ e, e < n ∧ p e = true ∧ rank p e = i := by
  induction n with
  | zero => simp at h
  | succ n ih =>
    rw [rank_succ] at h
    by_cases h1 : i < rank p n
    · obtain ⟨e, he, h2⟩ := ih h1
      exact ⟨e, by omega, h2⟩
    · cases hp : p n with
      | false => simp [hp] at h; omega
      | true => simp [hp] at h; exact ⟨n, by omega, hp, by omega⟩

theorem isSp_of {chars : List Nat} {ty e : Nat} (h : e < chars.length) :
    isSp chars ty e = hasTy chars[e] ty := by
  simp [isSp, h]

end Edge.Sparse
