import Verif.Gen.Store
/-!
The time prediction with the generated stiffness matrices.
-/
namespace Edge.Gen
open Edge Edge.Map Edge.Quad Edge.Basis Edge.Proj MvPolynomial

/-! ### Zero blocks -/

theorem Deg.le {e : Ent} {o o' : Nat} (h : o' ≤ o) {i : Idx} (hi : Deg e o' i) : Deg e o i := by
  cases e <;> simp only [Deg] at * <;> omega

/-- Triangles and tetrahedra: the functions of lower order come first. -/
theorem idx_prefix {e : Ent} (he : e = .tria ∨ e = .tet) {o' o : Nat} (h : o' ≤ o) : idx e o' <+: idx e o := by
  obtain ⟨k, rfl⟩ := Nat.exists_eq_add_of_le h
  rcases he with rfl | rfl
  · simp only [idx, triaIdx, List.range_add, List.flatMap_append, List.map_append]
    exact List.prefix_append _ _
  · simp only [idx, tetIdx, List.range_add, List.flatMap_append]
    exact List.prefix_append _ _

theorem nModes_le {e : Ent} (he : e = .tria ∨ e = .tet) {o' o : Nat} (h : o' ≤ o) : nModes e o' ≤ nModes e o := by
  rw [← idx_length, ← idx_length]; exact (idx_prefix he h).length_le

theorem dgr_low {e : Ent} (he : e = .tria ∨ e = .tet) {o' o m : Nat} (h : o' ≤ o) (hm : m < nModes e o') : dgr e o m = dgr e o' m := by
  have h1 := dgr_get hm
  have h2 := dgr_get (hm.trans_le (nModes_le he h))
  obtain ⟨t, ht⟩ := idx_prefix he h
  rw [← ht, List.getElem?_append_left (by rwa [idx_length]), h1] at h2
  exact (Option.some.inj h2).symm

theorem dgr_high {e : Ent} (he : e = .tria ∨ e = .tet) {o' o m : Nat} (h : o' ≤ o) (hm : nModes e o' ≤ m) (hm' : m < nModes e o) :
    ¬ Deg e o' (dgr e o m) := by
  intro hd
  obtain ⟨k, hk⟩ := List.getElem?_of_mem (mem_idx.2 hd)
  have hk' : k < nModes e o' := by rw [← idx_length]; exact (List.getElem?_eq_some_iff.1 hk).1
  have h1 := dgr_get hk'
  rw [hk, Option.some.injEq, ← dgr_low he h hk', dgr_inj hm' (hk'.trans_le (nModes_le he h))] at h1
  omega

/-- A function of lower degree is orthogonal to the functions beyond its degree. -/
theorem orth_low {e : Ent} {o' o md : Nat} (h : o' ≤ o) (hmd : md < nModes e o) (hd : ¬ Deg e o' (dgr e o md)) {f : MvPolynomial (Fin 3) ℝ}
    (hf : ∀ m ∈ f.support, Deg e o' (m 0, m 1, m 2)) : refInt e (val (bf e o md * f)) = 0 := by
  obtain ⟨pair, hp⟩ := C90_gauss_exists
  obtain ⟨c, hc⟩ := complete (hp (o' + 1) (by omega)) e hf
  have : val (bf e o md * f) = fun x y z => ∑ j ∈ degs e o', c j * (phi e (dgr e o md) x y z * phi e j x y z) := by
    funext x y z
    rw [val, map_mul, ← val, ← val, hc, bf_val hmd, Finset.mul_sum]
    exact Finset.sum_congr rfl (fun j _ => by ring)
  rw [this, refInt_sum]
  · refine Finset.sum_eq_zero (fun j hj => ?_)
    have hj := mem_degs.1 hj
    rw [refInt_orth (dgr_deg hmd) (Deg.le h hj), if_neg (fun hh => hd (by rw [hh]; exact hj)), mul_zero]
  · intro j _
    have : (fun x y z => phi e (dgr e o md) x y z * phi e j x y z) = val (P e (dgr e o md) * P e j) := by
      funext x y z
      rw [val, map_mul, ← val, ← val, val_P, val_P]
    rw [this]; exact C3_val _

/-- Derivatives lower the degree on triangles and tetrahedra. -/
theorem pderiv_low {e : Ent} (he : e = .tria ∨ e = .tet) {o' o m : Nat} (h : o' ≤ o) (hm : m < nModes e o') {d : Fin 3} {k : Fin 3 →₀ ℕ}
    (hk : k ∈ (pderiv d (bf e o m)).support) : Deg e (o' - 1) (k 0, k 1, k 2) := by
  obtain ⟨k', h1, rfl, h2⟩ := pderiv_support hk
  rw [bf_eq (hm.trans_le (nModes_le he h)), dgr_low he h hm] at h1
  have h3 := P_support (dgr_deg hm) h1
  rcases he with rfl | rfl <;> simp only [Deg] at h3 ⊢ <;> fin_cases d <;> simp at h2 ⊢ <;> omega

/-- Block of zeros of the stiffness matrices of the time kernel. -/
theorem entT_zero {e : Ent} (he : e = .tria ∨ e = .tet) {o' o m md : Nat} (h : o' ≤ o) (hm : m < nModes e o') (hmd : nModes e (o' - 1) ≤ md)
    (hmd' : md < nModes e o) (di : Fin 3) : entT e o di m md = 0 := by
  rw [entT, orth_low (o' := o' - 1) (by omega) hmd' (dgr_high he (by omega) hmd hmd') (fun k hk => pderiv_low he h hm hk), zero_div]

/-- Block of zeros of the stiffness matrices of the volume kernel. -/
theorem entV_zero {e : Ent} (he : e = .tria ∨ e = .tet) {o m md : Nat} (hm : nModes e (o - 1) ≤ m) (hm' : m < nModes e o) (hmd : md < nModes e o)
    (di : Fin 3) : entV e o di m md = 0 := by
  rw [entV, orth_low (o' := o - 1) (by omega) hm' (dgr_high he (by omega) hm hm') (fun k hk => pderiv_low he le_rfl hmd hk), zero_div]

/-! ### Functions in the reference element -/

/-- The function with modes `u`. -/
noncomputable def recon (e : Ent) (o : Nat) (u : Nat → ℝ) (p : Fin 3 → ℝ) : ℝ := ∑ md ∈ Finset.range (nModes e o), u md * eval p (bf e o md)

/-- Modes of the derivative, from the stiffness matrix of the time kernel. -/
noncomputable def diffModes (e : Ent) (o : Nat) (di : Fin 3) (u : Nat → ℝ) (md : Nat) : ℝ := ∑ m ∈ Finset.range (nModes e o), u m * entT e o di m md

theorem eval_curve (f : MvPolynomial (Fin 3) ℝ) {c : ℝ → Fin 3 → ℝ} {c' : Fin 3 → ℝ} {t : ℝ} (hc : ∀ i, HasDerivAt (fun s => c s i) (c' i) t) :
    HasDerivAt (fun s => eval (c s) f) (∑ i, c' i * eval (c t) (pderiv i f)) t := by
  induction f using MvPolynomial.induction_on with
  | C a => simp only [eval_C, pderiv_C, map_zero, mul_zero, Finset.sum_const_zero]; exact hasDerivAt_const _ _
  | add p q hp hq =>
    simp only [map_add, mul_add, Finset.sum_add_distrib]
    exact hp.add hq
  | mul_X p i hp =>
    have := hp.mul (hc i)
    simp only [map_mul, eval_X]
    refine this.congr_deriv ?_
    simp only [Derivation.leibniz, map_add, smul_eq_mul, map_mul, eval_X, mul_add, Finset.sum_add_distrib, Finset.sum_mul]
    rw [add_comm]
    congr 1
    · rw [Finset.sum_eq_single i]
      · rw [pderiv_X_self, map_one]; ring
      · intro j _ hj; rw [pderiv_X_of_ne hj.symm, map_zero]; ring
      · simp
    · exact Finset.sum_congr rfl (fun j _ => by ring)

theorem recon_diff (e : Ent) (o : Nat) (di : Fin 3) (u : Nat → ℝ) (p : Fin 3 → ℝ) :
    recon e o (diffModes e o di u) p = ∑ m ∈ Finset.range (nModes e o), u m * eval p (pderiv di (bf e o m)) := by
  simp only [recon, diffModes, Finset.sum_mul]
  rw [Finset.sum_comm]
  refine Finset.sum_congr rfl (fun m hm => ?_)
  have h := entT_diff (Finset.mem_range.1 hm) di (p 0) (p 1) (p 2)
  simp only [val] at h
  have hp : ![p 0, p 1, p 2] = p := by funext i; fin_cases i <;> rfl
  rw [hp] at h
  rw [← h, Finset.mul_sum]
  exact Finset.sum_congr rfl (fun md _ => by ring)

theorem recon_curve (e : Ent) (o : Nat) (u : Nat → ℝ) {c : ℝ → Fin 3 → ℝ} {c' : Fin 3 → ℝ} {t : ℝ} (hc : ∀ i, HasDerivAt (fun s => c s i) (c' i) t) :
    HasDerivAt (fun s => recon e o u (c s)) (∑ i, c' i * recon e o (diffModes e o i u) (c t)) t := by
  have h : HasDerivAt (fun s => ∑ md ∈ Finset.range (nModes e o), u md * eval (c s) (bf e o md))
      (∑ md ∈ Finset.range (nModes e o), u md * ∑ i, c' i * eval (c t) (pderiv i (bf e o md))) t :=
    HasDerivAt.fun_sum (fun md _ => (eval_curve (bf e o md) hc).const_mul (u md))
  refine h.congr_deriv ?_
  simp only [recon_diff, Finset.mul_sum]
  rw [Finset.sum_comm]
  exact Finset.sum_congr rfl (fun i _ => Finset.sum_congr rfl (fun m _ => by ring))

theorem recon_deriv (e : Ent) (o : Nat) (u : Nat → ℝ) (di : Fin 3) (p : Fin 3 → ℝ) :
    HasDerivAt (fun s => recon e o u (Function.update p di s)) (recon e o (diffModes e o di u) p) (p di) := by
  have h := recon_curve e o u (c := fun s => Function.update p di s) (c' := fun i => if i = di then 1 else 0) (t := p di) (fun i => by
    by_cases h : i = di
    · subst h; simp only [Function.update_self, if_true]; exact hasDerivAt_id _
    · simp only [Function.update_of_ne h, if_neg h]; exact hasDerivAt_const _ _)
  simpa using h

end Edge.Gen
