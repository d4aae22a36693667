import Verif.Fused.Lines
/-!
The patterns of `FakeMats` fit the sparse star, source and flux solver matrices.
-/
namespace Edge.Fused
open Edge Edge.Linalg Edge.Dg

/-- Positions of the entries of the sparse elastic star matrices (`Elasticity::star`, C71). -/
def starEPos (d : Nat) : List (Nat × Nat) :=
  if d = 2 then Seismic.starPos2.map (fun p => (p.1.val, p.2.val)) else Seismic.starPos3.map (fun p => (p.1.val, p.2.val))

/-- All positions of a matrix. -/
def allPos (m n : Nat) : List (Nat × Nat) := (List.range m).flatMap (fun r => (List.range n).map (fun c => (r, c)))

/-- Two and three dimensions. -/
def Dims (d qE qM : Nat) : Prop := d = 2 ∧ qE = 5 ∧ qM = 3 ∨ d = 3 ∧ qE = 9 ∧ qM = 6

/-- Rows of the kernels for the sparse matrices. -/
structure PatOk (K : Type) [Field K] [LinearOrder K] (d qE qM : Nat) (pt : Pats) : Prop where
  starE : ∀ dn s : List K, SparseOf (starEPos d) qE qE dn s → ∀ r < qE, Line pt.starE.ptr pt.starE.idx s r qE (fun l => val dn (r * qE + l))
  starA : ∀ dn s : List K, SparseOf (starAPos d) qM d dn s → ∀ r < qM, Line pt.starA.ptr pt.starA.idx s r (qM + d) (fun l => if qM ≤ l then val dn (r * d + (l - qM)) else 0)
  srcA : pt.srcA.val.length = nzSrcA d → ∀ dn s : List K, SparseOf (srcPos d) qM qM dn s → ∀ r < qM, Line pt.srcA.ptr pt.srcA.idx s r qM (fun l => val dn (r * qM + l))
  fsE : ∀ dn : List K, qE * qE ≤ dn.length → ∀ r < qE, Line pt.fsE.ptr pt.fsE.idx dn r qE (fun l => val dn (r * qE + l))
  fsA : ∀ dn : List K, qM * qE ≤ dn.length → ∀ r < qM, Line pt.fsA.ptr pt.fsA.idx dn r qE (fun l => val dn (r * qE + l))

theorem flatMap_uniform {α : Type} (m n : Nat) (f : Nat → Nat → α) {i j : Nat} (hi : i < m) (hj : j < n) :
    ((List.range m).flatMap (fun i => (List.range n).map (f i)))[i * n + j]? = some (f i j) := by
  have h := flatMap_seg (fun i => (List.range n).map (f i)) hi
  have hl : ((List.range i).flatMap (fun i => (List.range n).map (f i))).length = i * n := by
    clear h hi
    induction i with
    | zero => simp
    | succ i ih => rw [flatMap_range_succ, List.length_append, ih, Nat.succ_mul]; simp
  rw [hl] at h
  have h2 : ((List.range n).map (f i))[j]? = some (f i j) := by simp [hj]
  rw [← h, List.getElem?_take_of_lt (by simpa using hj), List.getElem?_drop] at h2
  exact h2

theorem tab_mat {α : Type} (m n : Nat) (f : Nat → Nat → α) : Mat m n n (tab m n f) f := fun _ _ hi hj => flatMap_uniform m n f hi hj

theorem all_length (m n : Nat) : (allPos m n).length = m * n := by
  induction m with
  | zero => simp [allPos]
  | succ m ih => rw [allPos, flatMap_range_succ, List.length_append, ← allPos, ih, Nat.succ_mul]; simp

section
variable {K : Type} [Field K] [LinearOrder K]

theorem sparse_all {m n : Nat} {d : List K} (h : m * n ≤ d.length) : SparseOf (allPos m n) m n d d := by
  refine ⟨h, ?_, ?_⟩
  · intro r c hr hc hn
    exact absurd (List.mem_flatMap.2 ⟨r, List.mem_range.2 hr, List.mem_map.2 ⟨c, List.mem_range.2 hc, rfl⟩⟩) hn
  · intro k r c hk
    have hk' : k < m * n := all_length m n ▸ (List.getElem?_eq_some_iff.1 hk).1
    have hn : 0 < n := by
      rcases Nat.eq_zero_or_pos n with e | e
      · subst e; omega
      · exact e
    have e1 := flatMap_uniform m n (fun r c => (r, c)) (i := k / n) (j := k % n) (Nat.div_lt_of_lt_mul (by rw [Nat.mul_comm]; exact hk')) (Nat.mod_lt _ hn)
    rw [Nat.div_add_mod'] at e1
    rw [allPos, e1] at hk
    cases hk
    exact ⟨Nat.div_lt_of_lt_mul (by rw [Nat.mul_comm]; exact hk'), Nat.mod_lt _ hn, by rw [Nat.div_add_mod']⟩
end

/-- Positions depend on which entries are zero. -/
theorem posOf_congr {m n : Nat} {P Q : Nat → Nat → ℚ} (h : ∀ r c, r < m → c < n → (P r c = 0 ↔ Q r c = 0)) : posOf m n P = posOf m n Q := by
  have e : ∀ r ∈ List.range m, ((List.range n).filter (fun c => P r c ≠ 0)).map (fun c => (r, c)) = ((List.range n).filter (fun c => Q r c ≠ 0)).map (fun c => (r, c)) := by
    intro r hr
    congr 1
    apply List.filter_congr
    intro c hc
    simp [h r c (List.mem_range.1 hr) (List.mem_range.1 hc)]
  rw [posOf, posOf, List.flatMap_def, List.flatMap_def, List.map_congr_left e]

theorem posOf_one (m n : Nat) : posOf m n (fun _ _ => (1 : ℚ)) = allPos m n := by
  simp [posOf, allPos]

theorem starE_pos2 : posOf 5 5 (fun r c => ((fakeStarE 2)[r * 5 + c]?).getD 0) = starEPos 2 := by decide +kernel
theorem starE_pos3 : posOf 9 9 (fun r c => ((fakeStarE 3)[r * 9 + c]?).getD 0) = starEPos 3 := by decide +kernel
theorem starA_pos2 : posOf 3 2 (starA2 (K := ℚ) (fun _ _ => 1) 0) = starAPos 2 := by decide +kernel
theorem starA_pos3 : posOf 6 3 (starA3 (K := ℚ) (fun _ _ => 1) 0) = starAPos 3 := by decide +kernel
theorem starE_len2 : (fakeStarE 2).length = 25 := by decide +kernel
theorem starE_len3 : (fakeStarE 3).length = 81 := by decide +kernel

def ind (z : ℚ) : ℚ := if z = 0 then 0 else 1

theorem ind_zero (z : ℚ) : z = 0 ↔ ind z = 0 := by unfold ind; split <;> simp_all

theorem src_zero (d : Nat) (z0 z1 z2 : ℚ) (r c : Nat) : srcOf d z0 z1 z2 r c = 0 ↔ srcOf d (ind z0) (ind z1) (ind z2) r c = 0 := by
  unfold srcOf
  split_ifs <;> first | exact ind_zero _ | exact Iff.rfl

theorem ind_cases (z : ℚ) : ind z = 0 ∨ ind z = 1 := by unfold ind; split <;> simp

theorem src_pos {d q : Nat} (h : d = 2 ∧ q = 3 ∨ d = 3 ∧ q = 6) {z0 z1 z2 : ℚ} (hl : (posOf q q (srcOf d z0 z1 z2)).length = nzSrcA d) :
    posOf q q (srcOf d z0 z1 z2) = srcPos d := by
  rw [posOf_congr (Q := srcOf d (ind z0) (ind z1) (ind z2)) (fun r c _ _ => src_zero d z0 z1 z2 r c)] at hl ⊢
  rcases h with ⟨rfl, rfl⟩ | ⟨rfl, rfl⟩
  · rcases ind_cases z0 with e0 | e0 <;> rcases ind_cases z1 with e1 | e1 <;> rcases ind_cases z2 with e2 | e2 <;>
      rw [e0, e1, e2] at hl ⊢ <;> revert hl <;> decide +kernel
  · rcases ind_cases z0 with e0 | e0 <;> rcases ind_cases z1 with e1 | e1 <;> rcases ind_cases z2 with e2 | e2 <;>
      rw [e0, e1, e2] at hl ⊢ <;> revert hl <;> decide +kernel

theorem flat_mat {l : List ℚ} {m n : Nat} (h : m * n ≤ l.length) : Mat m n n l (fun r c => (l[r * n + c]?).getD 0) := by
  intro r c hr hc
  have := lt_of_lt_of_le (mad_lt hr hc) h
  simp [this]

variable (K : Type) [Field K] [LinearOrder K]

/-- The patterns of `FakeMats` are right. -/
theorem pats_ok {d qE qM : Nat} (hd : Dims d qE qM) {z0 z1 z2 : ℚ} {pt : Pats} (h : fakeMats d qE qM z0 z1 z2 = some pt) : PatOk K d qE qM pt := by
  simp only [fakeMats, Option.bind_eq_bind, Option.bind_eq_some_iff] at h
  obtain ⟨starE, h1, starA, h2, srcA, h3, fsE, h4, fsA, h5, h6⟩ := h
  cases h6
  refine ⟨?_, ?_, ?_, ?_, ?_⟩
  · intro dn s hs r hr
    rcases hd with ⟨rfl, rfl, rfl⟩ | ⟨rfl, rfl, rfl⟩
    · exact csr_line0 (flat_mat (by rw [starE_len2])) h1 starE_pos2 hs hr
    · exact csr_line0 (flat_mat (by rw [starE_len3])) h1 starE_pos3 hs hr
  · intro dn s hs r hr
    rcases hd with ⟨rfl, rfl, rfl⟩ | ⟨rfl, rfl, rfl⟩
    · exact csr_line (tab_mat 3 2 _) h2 starA_pos2 hs 3 hr
    · exact csr_line (tab_mat 6 3 _) h2 starA_pos3 hs 6 hr
  · intro hl dn s hs r hr
    have hm := tab_mat qM qM (srcOf d z0 z1 z2)
    rw [(csr_pattern hm h3).1] at hl
    refine csr_line0 hm h3 (src_pos ?_ hl) hs hr
    rcases hd with ⟨rfl, rfl, rfl⟩ | ⟨rfl, rfl, rfl⟩ <;> simp
  · intro dn hl r hr
    exact csr_line0 (tab_mat qE qE _) h4 (posOf_one qE qE) (sparse_all hl) hr
  · intro dn hl r hr
    exact csr_line0 (tab_mat qM qE _) h5 (posOf_one qM qE) (sparse_all hl) hr

end Edge.Fused
