import Verif.Data.Model
/-!
Specification of layouts: regions which follow one another without gaps.
-/
namespace Edge.Data
open Edge

/-- The regions `rs` follow one another without gaps, the first begins at `a`, the last ends at `b`. -/
def Contig : Nat → List Reg → Nat → Prop
  | a, [], b => a = b
  | a, r :: rs, b => r.first = a ∧ Contig (a + r.size) rs b

theorem contig_append {a c : Nat} (l l' : List Reg) :
    Contig a (l ++ l') c ↔ ∃ b, Contig a l b ∧ Contig b l' c := by
  induction l generalizing a with
  | nil => simp [Contig]
  | cons r rs ih => simp [Contig, ih, and_assoc]

theorem contig_le {a b : Nat} {l : List Reg} (h : Contig a l b) : a ≤ b := by
  induction l generalizing a with
  | nil => exact Nat.le_of_eq h
  | cons r rs ih => have := ih h.2; omega

/-- End of a contiguous sequence: begin plus the sum of the sizes. -/
theorem contig_total {a b : Nat} {l : List Reg} (h : Contig a l b) : b = a + (l.map (·.size)).sum := by
  induction l generalizing a with
  | nil => simpa using (show a = b from h).symm
  | cons r rs ih => have := ih h.2; simp; omega

/-- Every region lies inside. -/
theorem contig_mem {a b : Nat} {l : List Reg} (h : Contig a l b) {r : Reg} (hr : r ∈ l) :
    a ≤ r.first ∧ r.first + r.size ≤ b := by
  induction l generalizing a with
  | nil => simp at hr
  | cons q rs ih =>
    rcases List.mem_cons.1 hr with e | hr
    · subst e; have := contig_le h.2; have := h.1; omega
    · have := ih h.2 hr; omega

/-- Different regions are disjoint. -/
theorem contig_disj {a b : Nat} {l : List Reg} (h : Contig a l b) {i j : Nat} {r q : Reg} (hij : i < j)
    (hr : l[i]? = some r) (hq : l[j]? = some q) : r.first + r.size ≤ q.first := by
  induction l generalizing a i j with
  | nil => simp at hr
  | cons p rs ih =>
    cases j with
    | zero => omega
    | succ j =>
      cases i with
      | zero =>
        simp at hr hq
        subst hr
        have := (contig_mem h.2 (List.mem_of_getElem? hq)).1
        have := h.1
        omega
      | succ i => exact ih h.2 (by omega : i < j) (by simpa using hr) (by simpa using hq)

/-- Every position is covered. -/
theorem contig_cover {a b : Nat} {l : List Reg} (h : Contig a l b) {e : Nat} (h1 : a ≤ e) (h2 : e < b) :
    ∃ (i : Nat) (r : Reg), l[i]? = some r ∧ inReg r e = true := by
  induction l generalizing a with
  | nil => have : a = b := h; omega
  | cons p rs ih =>
    by_cases hc : e < a + p.size
    · exact ⟨0, p, rfl, by have := h.1; simp [inReg]; omega⟩
    · obtain ⟨i, r, hi, hr⟩ := ih h.2 (by omega)
      exact ⟨i + 1, r, by simpa using hi, hr⟩

/-- Every position belongs to exactly one region. -/
theorem contig_unique {a b : Nat} {l : List Reg} (h : Contig a l b) {e i j : Nat} {r q : Reg}
    (hr : l[i]? = some r) (hq : l[j]? = some q) (h1 : inReg r e = true) (h2 : inReg q e = true) : i = j := by
  simp [inReg] at h1 h2
  rcases Nat.lt_trichotomy i j with c | c | c
  · have := contig_disj h c hr hq; omega
  · exact c
  · have := contig_disj h c hq hr; omega

theorem contig_concat {a b : Nat} {l : List Reg} (h : Contig a l b) (n : Nat) :
    Contig a (l ++ [⟨b, n⟩]) (b + n) := by
  rw [contig_append]
  exact ⟨b, h, rfl, rfl⟩

/-- Owned entities of a layout in the order of the ids: the inner regions of all time groups, then the send regions of
all time groups. -/
def regions (lay : Layout) : List Reg := lay.tgs.map (·.inner) ++ lay.tgs.flatMap (·.send)

end Edge.Data
