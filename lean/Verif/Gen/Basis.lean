import Verif.Gen.Model
/-!
The generated basis: order of the functions, and the formula before simplification.
-/
namespace Edge.Gen
open Edge Edge.Map Edge.Quad Edge.Basis Edge.Proj MvPolynomial

theorem flat_range {α : Type} (f : Nat → Nat → α) (a b : Nat) :
    (List.range a).flatMap (fun i => (List.range b).map (fun j => f j i)) = (List.range (a * b)).map (fun k => f (k % b) (k / b)) := by
  induction a with
  | zero => simp
  | succ a ih =>
    rw [List.range_succ, List.flatMap_append, ih, Nat.succ_mul, List.range_add, List.map_append]
    congr 1
    simp only [List.flatMap_cons, List.flatMap_nil, List.append_nil, List.map_map]
    refine List.map_congr_left (fun j hj => ?_)
    have hj := List.mem_range.1 hj
    simp only [Function.comp]
    rw [Nat.mul_comm a b, Nat.mul_add_mod, Nat.mod_eq_of_lt hj, Nat.mul_add_div (by omega), Nat.div_eq_of_lt hj, Nat.add_zero]

theorem filter_one (de p : Nat) : (List.range (de + 1)).filter (fun q => p + q == de) = if p ≤ de then [de - p] else [] := by
  by_cases h : p ≤ de
  · rw [if_pos h, List.filter_congr (q := fun q => q == de - p), List.filter_beq,
      List.count_eq_one_of_mem List.nodup_range (List.mem_range.2 (by omega)), List.replicate_one]
    intro x _
    rw [Bool.eq_iff_iff, beq_iff_eq, beq_iff_eq]; omega
  · rw [if_neg h, List.filter_eq_nil_iff]
    intro x _
    rw [beq_iff_eq]; omega

/-- The loops of the generator visit the functions in the order of the code's evaluation. -/
theorem genIdx_eq (e : Ent) (o : Nat) : genIdx e o = idx e o := by
  cases e
  · rfl
  · exact flat_range (fun d1 d2 => (d1, d2, 0)) o o
  · rw [genIdx, idx, triaIdx, List.map_flatMap]
    refine List.flatMap_congr (fun de _ => ?_)
    rw [List.map_map, List.map_eq_flatMap]
    refine List.flatMap_congr (fun p hp => ?_)
    have := List.mem_range.1 hp
    rw [filter_one, if_pos (by omega)]; rfl
  · have h : ∀ d3 : Nat, (List.range o).flatMap (fun d2 => (List.range o).map (fun d1 => (d1, d2, d3))) =
        (List.range (o * o)).map (fun k => (k % o, k / o, d3)) := fun d3 => flat_range (fun d1 d2 => (d1, d2, d3)) o o
    simp only [genIdx, h]
    rw [flat_range (fun k d3 => (k % o, k / o, d3)), idx, ← Nat.mul_assoc]
    simp only [Nat.mod_mul_right_mod]
  · rw [genIdx, idx, tetIdx]
    refine List.flatMap_congr (fun de _ => List.flatMap_congr (fun p hp => ?_))
    have hp := List.mem_range.1 hp
    simp only [filter_one]
    rw [show de + 1 = (de - p + 1) + p by omega, List.range_add, List.flatMap_append]
    have h2 : (List.map (fun x => de - p + 1 + x) (List.range p)).flatMap
        (fun q => List.map (fun p3 => (p, q, p3)) (if p + q ≤ de then [de - (p + q)] else [])) = [] := by
      rw [List.flatMap_eq_nil_iff]
      intro q hq
      obtain ⟨x, _, rfl⟩ := List.mem_map.1 hq
      rw [if_neg (by omega)]; rfl
    rw [h2, List.append_nil, List.map_eq_flatMap]
    refine List.flatMap_congr (fun q hq => ?_)
    have hq := List.mem_range.1 hq
    rw [if_pos (by omega), Nat.sub_sub]; rfl

section
variable {K : Type} [Field K] [CharZero K]

theorem jacobi_hom (n a : Nat) (t : K) {h : K} (hh : h ≠ 0) : h ^ n * jacobi n a (2 * t / h - 1) = hom n a t h := by
  rw [jacobi, hom, Finset.mul_sum]
  refine Finset.sum_congr rfl (fun s hs => ?_)
  have hs : s ≤ n := Nat.lt_succ_iff.1 (Finset.mem_range.1 hs)
  have e1 : (2 * t / h - 1 - 1) / 2 = (t - h) / h := by field_simp; ring
  have e2 : (2 * t / h - 1 + 1) / 2 = t / h := by field_simp; ring
  rw [e1, e2, div_pow, div_pow]
  have e3 : h ^ n = h ^ s * h ^ (n - s) := by rw [← pow_add, Nat.add_sub_cancel' hs]
  rw [e3]
  field_simp

theorem jacobi_line (n a : Nat) (t : K) : jacobi n a (2 * t - 1) = hom n a t 1 := by
  have := jacobi_hom n a t (h := 1) one_ne_zero
  rwa [one_pow, one_mul, div_one] at this

/-- The simplified functions are the formulas at all points at which these are defined. -/
theorem formula_phi (e : Ent) (i : Idx) (x y z : K) (hp : PtOk e x y z) : formula e i x y z = phi e i x y z := by
  cases e
  · simp only [formula, phi, phiLine, jacobi_line]
  · simp only [formula, phi, phiLine, jacobi_line]
  · have hy : 1 - y ≠ 0 := sub_ne_zero.2 (Ne.symm hp)
    simp only [formula, phi, phiTria]
    have e1 : 2 * (1 + (2 * x - 1)) / (1 - (2 * y - 1)) - 1 = 2 * x / (1 - y) - 1 := by
      rw [show 1 + (2 * x - 1) = 2 * x by ring, show 1 - (2 * y - 1) = 2 * (1 - y) by ring, mul_div_mul_left _ _ two_ne_zero]
    have e2 : (1 - (2 * y - 1)) / 2 = 1 - y := by field_simp; ring
    rw [e1, e2, jacobi_line, ← jacobi_hom _ _ _ hy]
    ring
  · simp only [formula, phi, phiLine, jacobi_line]
  · have hz : 1 - z ≠ 0 := sub_ne_zero.2 (Ne.symm hp.1)
    have hyz : 1 - y - z ≠ 0 := fun h => hp.2 (by linear_combination -h)
    simp only [formula, phi, phiTet]
    have e1 : 2 * (1 + (2 * x - 1)) / (-(2 * y - 1) - (2 * z - 1)) - 1 = 2 * x / (1 - y - z) - 1 := by
      rw [show 1 + (2 * x - 1) = 2 * x by ring, show -(2 * y - 1) - (2 * z - 1) = 2 * (1 - y - z) by ring, mul_div_mul_left _ _ two_ne_zero]
    have e2 : 2 * (1 + (2 * y - 1)) / (1 - (2 * z - 1)) - 1 = 2 * y / (1 - z) - 1 := by
      rw [show 1 + (2 * y - 1) = 2 * y by ring, show 1 - (2 * z - 1) = 2 * (1 - z) by ring, mul_div_mul_left _ _ two_ne_zero]
    have e3 : (1 - (2 * z - 1)) / 2 = 1 - z := by field_simp; ring
    have e4 : (1 - (2 * y / (1 - z) - 1)) / 2 = (1 - y - z) / (1 - z) := by field_simp; ring
    rw [e1, e2, e3, e4, jacobi_line, ← jacobi_hom _ _ _ hyz, ← jacobi_hom _ _ _ hz, div_pow, pow_add]
    field_simp

end

theorem gen_length (e : Ent) (o : Nat) : (gen e o).length = nModes e o := by rw [gen, List.length_map, genIdx_eq, idx_length]

/-- Degrees of a function of the basis. -/
def dgr (e : Ent) (o i : Nat) : Idx := (idx e o).getD i (0, 0, 0)

theorem dgr_get {e : Ent} {o i : Nat} (h : i < nModes e o) : (idx e o)[i]? = some (dgr e o i) := by
  rw [← idx_length] at h
  rw [dgr, List.getD_eq_getElem?_getD, List.getElem?_eq_getElem h]; rfl

theorem dgr_deg {e : Ent} {o i : Nat} (h : i < nModes e o) : Deg e o (dgr e o i) := mem_idx.1 (List.mem_of_getElem? (dgr_get h))

theorem dgr_inj {e : Ent} {o i j : Nat} (hi : i < nModes e o) (hj : j < nModes e o) : dgr e o i = dgr e o j ↔ i = j := by
  constructor
  · intro h
    have h1 := dgr_get hi
    have h2 := dgr_get hj
    rw [← h] at h2
    exact (List.getElem?_inj (by rwa [idx_length]) (idx_nodup e o)).1 (h1.trans h2.symm)
  · rintro rfl; rfl

theorem bf_eq {e : Ent} {o i : Nat} (h : i < nModes e o) : bf e o i = P e (dgr e o i) := by
  rw [bf, gen, genIdx_eq, List.getD_eq_getElem?_getD, List.getElem?_map, dgr_get h]; rfl

theorem bf_val {e : Ent} {o i : Nat} (h : i < nModes e o) (x y z : ℝ) : val (bf e o i) x y z = phi e (dgr e o i) x y z := by
  rw [bf_eq h, val_P]

/-- Sum over the degrees and over the modes. -/
theorem sum_degs {M : Type} [AddCommMonoid M] (e : Ent) (o : Nat) (f : Idx → M) :
    ∑ i ∈ degs e o, f i = ∑ i ∈ Finset.range (nModes e o), f (dgr e o i) := by
  have h : idx e o = (List.range (nModes e o)).map (dgr e o) := by
    refine List.ext_getElem? (fun i => ?_)
    rw [List.getElem?_map]
    by_cases hi : i < nModes e o
    · rw [dgr_get hi, List.getElem?_range hi]; rfl
    · rw [List.getElem?_eq_none (by rw [idx_length]; omega), List.getElem?_eq_none (by rw [List.length_range]; omega)]; rfl
  rw [degs, List.sum_toFinset _ (idx_nodup e o), h, List.map_map, ← List.toFinset_range, List.sum_toFinset _ List.nodup_range]
  rfl

end Edge.Gen
