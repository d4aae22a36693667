import Verif.Gen.Basis
import Verif.Quad.Exists
import Mathlib.Analysis.Calculus.Deriv.Mul
import Mathlib.Topology.Algebra.MvPolynomial
import Mathlib.MeasureTheory.Integral.DominatedConvergence
/-!
Generated mass and stiffness matrices.
-/
namespace Edge.Gen
open Edge Edge.Map Edge.Quad Edge.Basis Edge.Proj MvPolynomial

/-! ### Linearity of the integrals -/

/-- Continuous functions of the three coordinates. -/
def C3 (f : ℝ → ℝ → ℝ → ℝ) : Prop := Continuous (fun v : ℝ × ℝ × ℝ => f v.1 v.2.1 v.2.2)

theorem C3_val (f : MvPolynomial (Fin 3) ℝ) : C3 (val f) := by
  have : (fun v : ℝ × ℝ × ℝ => val f v.1 v.2.1 v.2.2) = (fun w : Fin 3 → ℝ => eval w f) ∘ (fun v : ℝ × ℝ × ℝ => ![v.1, v.2.1, v.2.2]) := rfl
  rw [C3, this]
  refine (MvPolynomial.continuous_eval f).comp ?_
  refine continuous_pi (fun i => ?_)
  fin_cases i
  · exact continuous_fst
  · exact continuous_fst.comp continuous_snd
  · exact continuous_snd.comp continuous_snd

theorem C3.add {f g : ℝ → ℝ → ℝ → ℝ} (hf : C3 f) (hg : C3 g) : C3 (fun x y z => f x y z + g x y z) := Continuous.add hf hg
theorem C3.smul {f : ℝ → ℝ → ℝ → ℝ} (c : ℝ) (hf : C3 f) : C3 (fun x y z => c * f x y z) := continuous_const.mul hf

theorem C3.at {X : Type} [TopologicalSpace X] {f : ℝ → ℝ → ℝ → ℝ} (hf : C3 f) {a b c : X → ℝ} (ha : Continuous a) (hb : Continuous b)
    (hc : Continuous c) : Continuous (fun v => f (a v) (b v) (c v)) :=
  hf.comp (ha.prodMk (hb.prodMk hc))

theorem par {X : Type} [TopologicalSpace X] {f : X → ℝ → ℝ} (hf : Continuous (fun v : X × ℝ => f v.1 v.2)) {s : X → ℝ} (hs : Continuous s) :
    Continuous (fun x => ∫ t in (0 : ℝ)..s x, f x t) := intervalIntegral.continuous_parametric_intervalIntegral_of_continuous hf hs

theorem int_add {f g : ℝ → ℝ} {a b : ℝ} (hf : Continuous f) (hg : Continuous g) :
    ∫ x in a..b, (f x + g x) = (∫ x in a..b, f x) + ∫ x in a..b, g x :=
  intervalIntegral.integral_add (hf.intervalIntegrable _ _) (hg.intervalIntegrable _ _)

theorem refInt_add {e : Ent} {f g : ℝ → ℝ → ℝ → ℝ} (hf : C3 f) (hg : C3 g) :
    refInt e (fun x y z => f x y z + g x y z) = refInt e f + refInt e g := by
  have c0 : Continuous (fun _ : ℝ => (0 : ℝ)) := continuous_const
  cases e
  · exact int_add (hf.at continuous_id c0 c0) (hg.at continuous_id c0 c0)
  · have k : ∀ {f}, C3 f → ∀ y : ℝ, Continuous (fun x => f x y 0) := fun hf y => hf.at continuous_id continuous_const continuous_const
    have k2 : ∀ {f}, C3 f → Continuous (fun y => ∫ x in (0 : ℝ)..1, f x y 0) := fun {f} hf =>
      par (f := fun y x => f x y 0) (hf.at continuous_snd continuous_fst continuous_const) continuous_const
    simp only [refInt, int_add (k hf _) (k hg _)]
    exact int_add (k2 hf) (k2 hg)
  · have k : ∀ {f}, C3 f → ∀ y : ℝ, Continuous (fun x => f x y 0) := fun hf y => hf.at continuous_id continuous_const continuous_const
    have k2 : ∀ {f}, C3 f → Continuous (fun y => ∫ x in (0 : ℝ)..(1 - y), f x y 0) := fun {f} hf =>
      par (f := fun y x => f x y 0) (hf.at continuous_snd continuous_fst continuous_const) (continuous_const.sub continuous_id)
    simp only [refInt, int_add (k hf _) (k hg _)]
    exact int_add (k2 hf) (k2 hg)
  · have k : ∀ {f}, C3 f → ∀ y z : ℝ, Continuous (fun x => f x y z) := fun hf y z => hf.at continuous_id continuous_const continuous_const
    have k2 : ∀ {f}, C3 f → ∀ z : ℝ, Continuous (fun y => ∫ x in (0 : ℝ)..1, f x y z) := fun {f} hf z =>
      par (f := fun y x => f x y z) (hf.at continuous_snd continuous_fst continuous_const) continuous_const
    have k3 : ∀ {f}, C3 f → Continuous (fun z => ∫ y in (0 : ℝ)..1, ∫ x in (0 : ℝ)..1, f x y z) := fun {f} hf =>
      par (f := fun z y => ∫ x in (0 : ℝ)..1, f x y z) (par (f := fun (v : ℝ × ℝ) x => f x v.2 v.1) (hf.at continuous_snd (continuous_snd.comp continuous_fst) (continuous_fst.comp continuous_fst)) continuous_const) continuous_const
    simp only [refInt, int_add (k hf _ _) (k hg _ _), int_add (k2 hf _) (k2 hg _)]
    exact int_add (k3 hf) (k3 hg)
  · have k : ∀ {f}, C3 f → ∀ y z : ℝ, Continuous (fun x => f x y z) := fun hf y z => hf.at continuous_id continuous_const continuous_const
    have k2 : ∀ {f}, C3 f → ∀ z : ℝ, Continuous (fun y => ∫ x in (0 : ℝ)..(1 - y - z), f x y z) := fun {f} hf z =>
      par (f := fun y x => f x y z) (hf.at continuous_snd continuous_fst continuous_const) ((continuous_const.sub continuous_id).sub continuous_const)
    have k3 : ∀ {f}, C3 f → Continuous (fun z => ∫ y in (0 : ℝ)..(1 - z), ∫ x in (0 : ℝ)..(1 - y - z), f x y z) := fun {f} hf =>
      par (f := fun z y => ∫ x in (0 : ℝ)..(1 - y - z), f x y z) (par (f := fun (v : ℝ × ℝ) x => f x v.2 v.1) (hf.at continuous_snd (continuous_snd.comp continuous_fst) (continuous_fst.comp continuous_fst))
        ((continuous_const.sub continuous_snd).sub continuous_fst)) (continuous_const.sub continuous_id)
    simp only [refInt, int_add (k hf _ _) (k hg _ _), int_add (k2 hf _) (k2 hg _)]
    exact int_add (k3 hf) (k3 hg)

theorem refInt_smul {e : Ent} (c : ℝ) (f : ℝ → ℝ → ℝ → ℝ) : refInt e (fun x y z => c * f x y z) = c * refInt e f := by
  cases e <;> simp only [refInt, intervalIntegral.integral_const_mul]

theorem refInt_zero (e : Ent) : refInt e (fun _ _ _ => 0) = 0 := by
  cases e <;> simp [refInt]

theorem C3_sum {ι : Type} (s : Finset ι) (c : ι → ℝ) {f : ι → ℝ → ℝ → ℝ → ℝ} (hf : ∀ i ∈ s, C3 (f i)) : C3 (fun x y z => ∑ i ∈ s, c i * f i x y z) :=
  continuous_finsetSum _ (fun i hi => (hf i hi).smul (c i))

theorem refInt_sum {ι : Type} {e : Ent} (s : Finset ι) (c : ι → ℝ) {f : ι → ℝ → ℝ → ℝ → ℝ} (hf : ∀ i ∈ s, C3 (f i)) :
    refInt e (fun x y z => ∑ i ∈ s, c i * f i x y z) = ∑ i ∈ s, c i * refInt e (f i) := by
  classical
  induction s using Finset.induction_on with
  | empty => simp only [Finset.sum_empty]; exact refInt_zero e
  | insert a s ha ih =>
    simp only [Finset.sum_insert ha]
    rw [refInt_add ((hf a (by simp)).smul _) (C3_sum s c (fun i hi => hf i (by simp [hi]))), refInt_smul, ih (fun i hi => hf i (by simp [hi]))]

/-! ### Derivatives of polynomials -/

theorem eval_deriv (f : MvPolynomial (Fin 3) ℝ) (d : Fin 3) (v : Fin 3 → ℝ) :
    HasDerivAt (fun t => eval (Function.update v d t) f) (eval v (pderiv d f)) (v d) := by
  induction f using MvPolynomial.induction_on with
  | C a => simp only [eval_C, pderiv_C, map_zero]; exact hasDerivAt_const _ _
  | add p q hp hq => simp only [map_add]; exact hp.add hq
  | mul_X p i hp =>
    simp only [map_mul, eval_X, Derivation.leibniz, map_add, smul_eq_mul]
    have hx : HasDerivAt (fun t => Function.update v d t i) (eval v (pderiv d (X i))) (v d) := by
      by_cases h : i = d
      · subst h
        simp only [Function.update_self, pderiv_X_self, map_one]
        exact hasDerivAt_id _
      · simp only [Function.update_of_ne h, pderiv_X_of_ne h, map_zero]
        exact hasDerivAt_const _ _
    have := hp.mul hx
    simp only [Function.update_eq_self] at this
    exact this.congr_deriv (by ring)

/-- The point with a coordinate replaced. -/
theorem val_deriv (f : MvPolynomial (Fin 3) ℝ) (d : Fin 3) (x y z : ℝ) :
    HasDerivAt (fun t => eval (Function.update ![x, y, z] d t) f) (val (pderiv d f) x y z) (![x, y, z] d) := eval_deriv f d _

theorem pderiv_support {f : MvPolynomial (Fin 3) ℝ} {d : Fin 3} {m : Fin 3 →₀ ℕ} (hm : m ∈ (pderiv d f).support) :
    ∃ m' ∈ f.support, m = m' - Finsupp.single d 1 ∧ m' d ≠ 0 := by
  have h : pderiv d f = ∑ m' ∈ f.support, monomial (m' - Finsupp.single d 1) (f.coeff m' * m' d) := by
    conv_lhs => rw [as_sum f, map_sum]
    exact Finset.sum_congr rfl (fun m' _ => pderiv_monomial)
  rw [h] at hm
  obtain ⟨m', h1, h2⟩ := Finset.mem_biUnion.1 (support_sum hm)
  rw [support_monomial] at h2
  split_ifs at h2 with h3
  · simp at h2
  · refine ⟨m', h1, Finset.mem_singleton.1 h2, fun h4 => h3 ?_⟩
    rw [h4]; simp

theorem Deg.mono {e : Ent} {o : Nat} {i j : Idx} (h : Deg e o i) (h1 : j.1 ≤ i.1) (h2 : j.2.1 ≤ i.2.1) (h3 : j.2.2 ≤ i.2.2) : Deg e o j := by
  cases e <;> simp only [Deg] at * <;> omega

theorem bf_pderiv_support {e : Ent} {o i : Nat} (hi : i < nModes e o) {d : Fin 3} {m : Fin 3 →₀ ℕ} (hm : m ∈ (pderiv d (bf e o i)).support) :
    Deg e o (m 0, m 1, m 2) := by
  obtain ⟨m', h1, rfl, -⟩ := pderiv_support hm
  rw [bf_eq hi] at h1
  refine Deg.mono (P_support (dgr_deg hi) h1) ?_ ?_ ?_ <;> simp

/-! ### The matrices -/

theorem massM_eq (e : Ent) (o : Nat) : massM e o = Matrix.diagonal (fun i : Fin (nModes e o) => mass e (dgr e o i)) := by
  ext i j
  rw [massM, Matrix.of_apply, Matrix.diagonal_apply]
  have h : refInt e (val (bf e o i * bf e o j)) = refInt e (fun x y z => phi e (dgr e o i) x y z * phi e (dgr e o j) x y z) := by
    congr 1
    funext x y z
    rw [← bf_val i.2, ← bf_val j.2, val, val, val, map_mul]
  rw [h, refInt_orth (dgr_deg i.2) (dgr_deg j.2)]
  by_cases hij : i = j
  · subst hij; simp
  · rw [if_neg hij, if_neg (fun h => hij (Fin.ext ((dgr_inj i.2 j.2).1 h)))]

theorem massM_inv (e : Ent) (o : Nat) : (massM e o)⁻¹ = Matrix.diagonal (fun i : Fin (nModes e o) => (mass e (dgr e o i))⁻¹) := by
  refine Matrix.inv_eq_right_inv ?_
  rw [massM_eq, Matrix.diagonal_mul_diagonal]
  simp only [mul_inv_cancel₀ (mass_pos e _).ne', Matrix.diagonal_one]

/-- Coefficients of a function in the basis. -/
theorem coeffs {e : Ent} {o : Nat} {f : MvPolynomial (Fin 3) ℝ} (hf : ∀ m ∈ f.support, Deg e o (m 0, m 1, m 2)) (x y z : ℝ) :
    val f x y z = ∑ i ∈ Finset.range (nModes e o), refInt e (val (bf e o i * f)) / mass e (dgr e o i) * val (bf e o i) x y z := by
  obtain ⟨pair, hp⟩ := C90_gauss_exists
  obtain ⟨c, hc⟩ := complete (hp (o + 1) (by omega)) e hf
  have h1 : ∀ i < nModes e o, refInt e (val (bf e o i * f)) = c (dgr e o i) * mass e (dgr e o i) := by
    intro i hi
    have : val (bf e o i * f) = fun x y z => ∑ j ∈ degs e o, c j * (phi e (dgr e o i) x y z * phi e j x y z) := by
      funext x y z
      rw [val, map_mul, ← val, ← val, hc, bf_val hi, Finset.mul_sum]
      exact Finset.sum_congr rfl (fun j _ => by ring)
    rw [this, refInt_sum]
    · rw [Finset.sum_congr rfl (fun j hj => by rw [refInt_orth (dgr_deg hi) (mem_degs.1 hj)])]
      simp only [mul_ite, mul_zero]
      rw [Finset.sum_ite_eq, if_pos (mem_degs.2 (dgr_deg hi))]
    · intro j _
      have : (fun x y z => phi e (dgr e o i) x y z * phi e j x y z) = val (P e (dgr e o i) * P e j) := by
        funext x y z
        rw [val, map_mul, ← val, ← val, val_P, val_P]
      rw [this]; exact C3_val _
  rw [hc, sum_degs]
  refine Finset.sum_congr rfl (fun i hi => ?_)
  have hi := Finset.mem_range.1 hi
  rw [h1 i hi, bf_val hi, mul_div_cancel_right₀ _ (mass_pos e _).ne']

/-- Entries of the stiffness matrices of the time kernel. -/
noncomputable def entT (e : Ent) (o : Nat) (di : Fin 3) (m md : Nat) : ℝ := refInt e (val (bf e o md * pderiv di (bf e o m))) / mass e (dgr e o md)

/-- Entries of the stiffness matrices of the volume kernel. -/
noncomputable def entV (e : Ent) (o : Nat) (di : Fin 3) (m md : Nat) : ℝ := refInt e (val (bf e o m * pderiv di (bf e o md))) / mass e (dgr e o md)

theorem stiffT_apply (e : Ent) (o : Nat) (di : Fin 3) (i j : Fin (nModes e o)) : stiffT e o di i j = entT e o di i j := by
  rw [stiffT, massM_inv, Matrix.mul_diagonal, Matrix.transpose_apply, stiff, Matrix.of_apply, entT, div_eq_mul_inv]

theorem stiffV_apply (e : Ent) (o : Nat) (di : Fin 3) (i j : Fin (nModes e o)) : stiffV e o di i j = entV e o di i j := by
  rw [stiffV, massM_inv, Matrix.mul_diagonal, stiff, Matrix.of_apply, entV, div_eq_mul_inv]

/-- The rows of the stiffness matrices of the time kernel are the coefficients of the derivatives. -/
theorem entT_diff {e : Ent} {o m : Nat} (hm : m < nModes e o) (di : Fin 3) (x y z : ℝ) :
    ∑ md ∈ Finset.range (nModes e o), entT e o di m md * val (bf e o md) x y z = val (pderiv di (bf e o m)) x y z := by
  rw [coeffs (fun m' h => bf_pderiv_support hm h) x y z]
  rfl

end Edge.Gen
