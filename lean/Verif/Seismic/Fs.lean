import Verif.Linalg.Dense
import Verif.Seismic.Model
import Mathlib.Data.Matrix.Diagonal
/-! The flux solver arrays are the matrix products they are meant to be. -/
namespace Edge.Seismic
open Matrix Edge Edge.Linalg

theorem flat_length {K : Type} {m n : Nat} (a : Matrix (Fin m) (Fin n) K) : (flat a).length = m * n := by simp [flat]

theorem flat_get {K : Type} {m n : Nat} (a : Matrix (Fin m) (Fin n) K) {i j : Nat} (hi : i < m) (hj : j < n) :
    (flat a)[i * n + j]? = some (a ⟨i, hi⟩ ⟨j, hj⟩) := by
  have hlt : i * n + j < m * n := mad_lt hi hj
  rw [flat, List.getElem?_ofFn, dif_pos hlt]
  have h1 : (⟨i * n + j, hlt⟩ : Fin (m * n)).divNat = ⟨i, hi⟩ := by
    apply Fin.ext
    simp only [Fin.divNat]
    rw [Nat.mul_comm, Nat.mul_add_div (by omega), Nat.div_eq_of_lt hj, Nat.add_zero]
  have h2 : (⟨i * n + j, hlt⟩ : Fin (m * n)).modNat = ⟨j, hj⟩ := by
    apply Fin.ext
    simp only [Fin.modNat]
    rw [Nat.mul_comm, Nat.mul_add_mod, Nat.mod_eq_of_lt hj]
  rw [h1, h2]

/-- A list with the entries of a matrix is its storage. -/
theorem flat_ext {K : Type} {m n : Nat} {a : Matrix (Fin m) (Fin n) K} {l : List K} (hl : l.length = m * n)
    (h : ∀ (i j : Nat) (hi : i < m) (hj : j < n), l[i * n + j]? = some (a ⟨i, hi⟩ ⟨j, hj⟩)) : l = flat a := by
  apply List.ext_getElem?
  intro p
  by_cases hp : p < m * n
  · have hn : 0 < n := by
      rcases Nat.eq_zero_or_pos n with e | e
      · rw [e] at hp; omega
      · exact e
    have hi : p / n < m := Nat.div_lt_of_lt_mul (by rw [Nat.mul_comm]; exact hp)
    have hj : p % n < n := Nat.mod_lt _ hn
    have e : p = p / n * n + p % n := by rw [Nat.mul_comm]; exact (Nat.div_add_mod p n).symm
    have h1 := h _ _ hi hj
    have h2 := flat_get a hi hj
    rw [← e] at h1 h2
    rw [h1, h2]
  · rw [List.getElem?_eq_none (by omega), List.getElem?_eq_none (by rw [flat_length]; omega)]

theorem range_map_sum {K : Type} [AddCommMonoid K] (k : Nat) (f : Nat → K) :
    ((List.range k).map f).sum = ∑ l : Fin k, f l := by
  induction k with
  | zero => simp
  | succ k ih => rw [List.range_succ, List.map_append, List.sum_append, ih, Fin.sum_univ_castSucc]; simp

/-- The dense kernel on stored matrices. -/
theorem matMulB0_flat {m n k : Nat} (a : Matrix (Fin m) (Fin k) ℝ) (b : Matrix (Fin k) (Fin n) ℝ) {junk : List ℝ}
    (hj : junk.length = m * n) : matMulB0 m n k (flat a) (flat b) junk = some (flat (a * b)) := by
  obtain ⟨c, hc, hl, h1, -⟩ := C54_product (m := m) (n := n) (k := k) (a := flat a) (b := flat b) (c := junk)
    (fun i l => if h : i < m ∧ l < k then a ⟨i, h.1⟩ ⟨l, h.2⟩ else 0)
    (fun l j => if h : l < k ∧ j < n then b ⟨l, h.1⟩ ⟨j, h.2⟩ else 0)
    (fun i l hi hl => by rw [flat_get a hi hl, dif_pos ⟨hi, hl⟩])
    (fun l j hl hj => by rw [flat_get b hl hj, dif_pos ⟨hl, hj⟩]) (by omega)
  rw [hc]
  refine congrArg some (flat_ext (by omega) ?_)
  intro i j hi hj
  rw [h1 i j hi hj, range_map_sum, Matrix.mul_apply]
  refine congrArg some (Finset.sum_congr rfl (fun l _ => ?_))
  rw [dif_pos ⟨hi, l.2⟩, dif_pos ⟨l.2, hj⟩]

/-- Sign of a column of the mirrored state. -/
def mirrorMat (n : Nat) (cols : List Nat) : Matrix (Fin n) (Fin n) ℝ :=
  Matrix.diagonal (fun c => if c.val ∈ cols then -1 else 1)

theorem mirror_flat {m n : Nat} {cols : List Nat} (hnd : cols.Nodup) (hc : ∀ c ∈ cols, c < n)
    (a : Matrix (Fin m) (Fin n) ℝ) : mirror m n cols (flat a) = some (flat (a * mirrorMat n cols)) := by
  have e : mirror m n cols (flat a) = ((List.range m).flatMap (fun i => cols.map (fun c => (i, c)))).foldlM
      (fun (a : List ℝ) (p : Nat × Nat) => (do
        let x ← rd a (p.1 * n + p.2)
        wr a (p.1 * n + p.2) (x * -1))) (flat a) := by
    rw [mirror, forN_eq_foldlM, foldlM_flatMap']
    congr 1
    funext s i
    rw [foldlM_map']
  have hmem : ∀ p ∈ (List.range m).flatMap (fun i => cols.map (fun c => (i, c))), p.1 < m ∧ p.2 ∈ cols := by
    intro p hp
    obtain ⟨i, hi, hp⟩ := List.mem_flatMap.1 hp
    obtain ⟨c, hcm, rfl⟩ := List.mem_map.1 hp
    exact ⟨List.mem_range.1 hi, hcm⟩
  have hnd' : ((List.range m).flatMap (fun i => cols.map (fun c => (i, c)))).Nodup := by
    rw [List.nodup_flatMap]
    refine ⟨fun i _ => nodup_map_of_inj hnd (fun a _ b _ h => (Prod.mk.inj h).2), ?_⟩
    refine List.Pairwise.imp ?_ (List.nodup_range (n := m))
    intro i j hij
    show List.Disjoint _ _
    intro p h1 h2
    obtain ⟨c, -, rfl⟩ := List.mem_map.1 h1
    obtain ⟨d, -, h⟩ := List.mem_map.1 h2
    exact hij (Prod.mk.inj h).1.symm
  obtain ⟨c', h1, h2, h3, h4⟩ := scatter
    (ts := (List.range m).flatMap (fun i => cols.map (fun c => (i, c)))) (idx := fun p => p.1 * n + p.2)
    (f := fun (a : List ℝ) (p : Nat × Nat) => (do
        let x ← rd a (p.1 * n + p.2)
        wr a (p.1 * n + p.2) (x * -1))) (c := flat a) (fun _ x => x * -1)
    (nodup_map_of_inj hnd' (fun p hp q hq h => by
      have h1 := hmem p hp
      have h2 := hmem q hq
      obtain ⟨e1, e2⟩ := mad_inj h (hc _ h1.2) (hc _ h2.2)
      exact Prod.ext e1 e2))
    (fun p hp => by
      have h1 := hmem p hp
      rw [flat_length]
      exact mad_lt h1.1 (hc _ h1.2))
    (fun p hp c x hl hx _ => by
      have h1 := hmem p hp
      simp only [rd, hx, Option.bind_eq_bind, Option.bind_some]
      exact wr_some (by rw [hl, flat_length]; exact mad_lt h1.1 (hc _ h1.2)) _)
  rw [e, h1]
  refine congrArg some (flat_ext (by rw [h2, flat_length]) ?_)
  intro i j hi hj
  rw [mirrorMat, Matrix.mul_diagonal]
  by_cases hm : j ∈ cols
  · rw [h3 (i, j) (List.mem_flatMap.2 ⟨i, List.mem_range.2 hi, List.mem_map.2 ⟨j, hm, rfl⟩⟩), flat_get a hi hj]
    simp [hm]
  · rw [h4 (i * n + j), flat_get a hi hj]
    · simp [hm]
    · intro hp
      obtain ⟨q, hq, he⟩ := List.mem_map.1 hp
      have h5 := hmem q hq
      have := (mad_inj he (hc _ h5.2) hj).2
      exact hm (this ▸ h5.2)

/-- The two flux solver arrays: `T * Fl * T⁻¹` and `T * Fr * M * T⁻¹`, where `M` mirrors at free surfaces. -/
theorem fsApply_flat {m n : Nat} {cols : List Nat} (hnd : cols.Nodup) (hc : ∀ c ∈ cols, c < n)
    (fl fr : Matrix (Fin m) (Fin n) ℝ) (t : Matrix (Fin m) (Fin m) ℝ) (tm1 : Matrix (Fin n) (Fin n) ℝ) {junk : List ℝ}
    (hj : junk.length = m * n) (free : Bool) :
    fsApply m n cols (flat fl) (flat fr) (flat t) (flat tm1) junk free =
      some (flat (t * fl * tm1), flat (t * (fr * if free then mirrorMat n cols else 1) * tm1)) := by
  simp only [fsApply, matMulB0_flat t fl hj, matMulB0_flat t fr hj, Option.bind_eq_bind, Option.bind_some,
    matMulB0_flat (t * fl) tm1 hj]
  cases free
  · simp only [Bool.false_eq_true, if_false, Option.bind_some, matMulB0_flat (t * fr) tm1 hj, Matrix.mul_one]
    rfl
  · simp only [if_true, mirror_flat hnd hc, Option.bind_some, matMulB0_flat _ tm1 hj, Matrix.mul_assoc]
    rfl

end Edge.Seismic
