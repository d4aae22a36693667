import Verif.Cons.Test
import Verif.Step.Exact
import Mathlib.Algebra.MvPolynomial.Funext
/-!
A time step of an element, tested with an affine function.
-/
namespace Edge.Cons
open Edge Edge.Map Edge.Quad Edge.Basis Edge.Proj Edge.Gen Edge.Flux Edge.Step MvPolynomial

theorem affine_map {e : Ent} (he : e = .tria ∨ e = .tet) (ves : Nat → Nat → ℝ) (p : Fin 3 → ℝ) {d : Nat} (hd : d < e.nDim) :
    refToPhy e ves (crd p) d = ves d 0 + ∑ di : Fin 3, if di.val < e.nDim then evalJac e ves di.val d * p di else 0 := by
  rcases he with rfl | rfl
  · have hd : d < 2 := hd
    simp [Fin.sum_univ_three, refToPhy, evalJac, hd, sumN_succ, sumN_zero, shTria, derShape, derTria, crd, Ent.nDim, Ent.nVe]
    ring
  · have hd : d < 3 := hd
    simp [Fin.sum_univ_three, refToPhy, evalJac, hd, sumN_succ, sumN_zero, shTet, derShape, derTet, crd, Ent.nDim, Ent.nVe]
    ring

/-- Affine function. -/
def affine (n : Nat) (b : ℝ) (g : Nat → ℝ) (x : Nat → ℝ) : ℝ := b + ∑ d ∈ Finset.range n, g d * x d

/-- Modes of an affine function, and the derivatives of the polynomial. -/
theorem affine_modes {e : Ent} (he : e = .tria ∨ e = .tet) {tol : ℝ} (ht : 0 ≤ tol) {ves : Nat → Nat → ℝ} (hr : Regular tol e ves) (hdet : 0 < jDet e ves) {o : Nat} (b : ℝ) (g : Nat → ℝ)
    (ho : 0 < o) (hg : (∃ d < e.nDim, g d ≠ 0) → 1 < o) :
    ∃ a : Nat → ℝ, (∀ p, recon e o a p = affine e.nDim b g (refToPhy e ves (crd p))) ∧
      ∀ di : Fin 3, di.val < e.nDim → ∀ p, eval p (pderiv di (poly e o a)) = ∑ d ∈ Finset.range e.nDim, g d * evalJac e ves di.val d := by
  have hn : e.nDim ≤ 3 := nDim_le e
  have h1 : (C b + ∑ d : Fin 3, if d.val < e.nDim then C (g d.val) * X d else 0 : MvPolynomial (Fin 3) ℝ).totalDegree < o := by
    by_cases h : ∃ d < e.nDim, g d ≠ 0
    · refine lt_of_le_of_lt (totalDegree_add _ _) (max_lt (by rw [totalDegree_C]; exact ho) (lt_of_le_of_lt ?_ (hg h)))
      refine totalDegree_finsetSum_le (fun d _ => ?_)
      split
      · exact (totalDegree_mul _ _).trans (by rw [totalDegree_C, totalDegree_X])
      · simp
    · push Not at h
      have : (∑ d : Fin 3, if d.val < e.nDim then C (g d.val) * X d else 0 : MvPolynomial (Fin 3) ℝ) = 0 :=
        Finset.sum_eq_zero (fun d _ => by split_ifs with hd; rw [h _ hd, C_0, zero_mul]; rfl)
      rw [this, add_zero, totalDegree_C]
      exact ho
  obtain ⟨a, ha⟩ := modes_of_poly he ht hr hdet (f := affine e.nDim b g) h1 (by
    intro x
    simp only [affine, map_add, eval_C, map_sum, apply_ite (eval _), map_mul, eval_X, map_zero]
    congr 1
    rw [sum_dims hn]
    refine Finset.sum_congr rfl (fun d _ => ?_)
    split_ifs <;> simp)
  have ha' : ∀ p, recon e o a p = affine e.nDim b g (refToPhy e ves (crd p)) := by
    intro p
    rw [← ha, physEval_pt ht he hr a (p := p) (fun d _ => rfl)]
  have hp : poly e o a = C (affine e.nDim b g (fun d => ves d 0)) + ∑ di : Fin 3, if di.val < e.nDim then C (∑ d ∈ Finset.range e.nDim, g d * evalJac e ves di.val d) * X di else 0 := by
    refine MvPolynomial.funext (fun p => ?_)
    rw [poly_eval, ha']
    simp only [affine, map_add, eval_C, map_sum, apply_ite (eval _), map_mul, eval_X, map_zero, add_assoc]
    congr 1
    rw [Finset.sum_congr rfl (fun d hd => by rw [affine_map he ves p (Finset.mem_range.1 hd)])]
    simp only [mul_add, Finset.sum_add_distrib, Finset.mul_sum]
    congr 1
    rw [Finset.sum_comm]
    refine Finset.sum_congr rfl (fun di _ => ?_)
    split_ifs
    · rw [Finset.sum_mul]
      exact Finset.sum_congr rfl (fun d _ => by ring)
    · simp
  refine ⟨a, ha', fun di hdi p => ?_⟩
  obtain ⟨G, hG⟩ : ∃ G : Nat → ℝ, ∀ i, ∑ d ∈ Finset.range e.nDim, g d * evalJac e ves i d = G i := ⟨_, fun _ => rfl⟩
  simp only [hG] at hp ⊢
  rw [hp]
  simp only [map_add, pderiv_C, map_sum, zero_add]
  rw [Finset.sum_eq_single di]
  · rw [if_pos hdi, pderiv_C_mul, pderiv_X_self, mul_one, eval_C]
  · intro j _ hj
    split_ifs
    · rw [pderiv_C_mul, pderiv_X_of_ne hj, mul_zero, map_zero]
    · simp
  · simp

/-- The flux through a face, scaled by `s`. -/
noncomputable def fluxAt (c : Dg.Cfg) (e : Ent) (o : Nat) (s : ℝ) (FL FN : Nat → Nat → Nat → ℝ) (fs : Nat → Dg.FaceIn ℝ) (T : Nat → Nat → Nat → ℝ) (Tn : Nat → Nat → Nat → Nat → ℝ)
    (r q fa : Nat) (x y : ℝ) : ℝ :=
  s * (∑ p ∈ Finset.range c.nQtsE, FL fa q p * recon e o (fun m => T p m r) (elPt e fa x y) +
    if (fs fa).outflow then 0 else ∑ p ∈ Finset.range c.nQtsE, FN fa q p * recon e o (fun m => Tn fa p m r) (sidePt e fa (fs fa) x y))

theorem cont_fluxAt (c : Dg.Cfg) (e : Ent) (o : Nat) (s : ℝ) (FL FN : Nat → Nat → Nat → ℝ) (fs : Nat → Dg.FaceIn ℝ) (T : Nat → Nat → Nat → ℝ) (Tn : Nat → Nat → Nat → Nat → ℝ)
    (r q fa : Nat) : C3 (fun x y _ => fluxAt c e o s FL FN fs T Tn r q fa x y) := by
  have hC : ∀ (p : Nat), C3 (fun x y _ => recon e o (fun m => T p m r) (elPt e fa x y)) := fun p =>
    cont_recon _ _ _ (cont_elPt e fa continuous_fst (continuous_fst.comp continuous_snd))
  have hN : ∀ (p : Nat), C3 (fun x y _ => recon e o (fun m => Tn fa p m r) (sidePt e fa (fs fa) x y)) := fun p => cont_recon _ _ _ (cont_sidePt e fa (fs fa))
  refine continuous_const.mul (Continuous.add (continuous_finsetSum _ (fun p _ => continuous_const.mul (hC p))) ?_)
  split_ifs
  · exact continuous_const
  · exact continuous_finsetSum _ (fun p _ => continuous_const.mul (hN p))

theorem c2_of_c3 {f : ℝ → ℝ → ℝ} (h : C3 (fun x y _ => f x y)) : Continuous (fun p : ℝ × ℝ => f p.1 p.2) := by
  have hxy : Continuous (fun p : ℝ × ℝ => ((p.1, p.2, 0) : ℝ × ℝ × ℝ)) := by fun_prop
  exact Continuous.comp (g := fun v : ℝ × ℝ × ℝ => f v.1 v.2.1) h hxy

/-- Test with an affine function. -/
theorem elem_test {c : Dg.Cfg} {e : Ent} (he : e = .tria ∨ e = .tet) {o : Nat} (hF : Flux.Fits c e o) (hc : Fit c e o) {tol : ℝ} (ht : 0 ≤ tol) {ves : Nat → Nat → ℝ} (hr : Regular tol e ves)
    (hdet : 0 < jDet e ves) {S FL FN : Nat → Nat → Nat → ℝ} {fs : Nat → Dg.FaceIn ℝ} {u u' T : Nat → Nat → Nat → ℝ}
    {Tn : Nat → Nat → Nat → Nat → ℝ} {src : Nat → Nat → Nat → ℝ} {A : Nat → Nat → Nat → Nat → ℝ} {q r : Nat}
    (hu : ∀ md < nModes e o, u' q md r = u q md r + Dg.rhsE c (GV e o) S src T A q md r +
        (∑ fa ∈ Finset.range e.nFa, onFace e o fa md (fun x y => ∑ p ∈ Finset.range c.nQtsE, FL fa q p * recon e o (fun m => T p m r) (elPt e fa x y))) / normSq e o md +
        (∑ fa ∈ Finset.range e.nFa, if (fs fa).outflow then 0 else onFace e o fa md (fun x y => ∑ p ∈ Finset.range c.nQtsE, FN fa q p *
          recon e o (fun m => Tn fa p m r) (sidePt e fa (fs fa) x y))) / normSq e o md)
    {J : Nat → Nat → ℝ} (hJ : ∀ d < e.nDim, ∀ d2 < e.nDim, ∑ di ∈ Finset.range e.nDim, J d di * evalJac e ves di d2 = if d = d2 then 1 else 0)
    {κ : ℝ} {sq : Nat → Nat} (hS : ∀ di < e.nDim, ∀ X : Nat → ℝ, ∑ p ∈ Finset.range c.nQtsE, S di q p * X p = -κ * ∑ d ∈ Finset.range e.nDim, J d di * X (sq d))
    (b : ℝ) (g : Nat → ℝ) (ho : 0 < o) (hg : (∃ d < e.nDim, g d ≠ 0) → 1 < o) :
    refInt e (fun x y z => recon e o (fun md => u' q md r) ![x, y, z] * affine e.nDim b g (refToPhy e ves (crd ![x, y, z]))) =
      refInt e (fun x y z => recon e o (fun md => u q md r) ![x, y, z] * affine e.nDim b g (refToPhy e ves (crd ![x, y, z]))) -
      κ * (∑ d ∈ Finset.range e.nDim, g d * refInt e (fun x y z => recon e o (fun md => T (sq d) md r) ![x, y, z])) +
      ∑ fa ∈ Finset.range e.nFa, refInt (faTy e) (fun x y _ => fluxAt c e o 1 FL FN fs T Tn r q fa x y * affine e.nDim b g (refToPhy e ves (crd (elPt e fa x y)))) := by
  obtain ⟨a, a1, a2⟩ := affine_modes he ht hr hdet b g ho hg
  have h := test_any hF hc hu a
  simp only [a1] at h
  rw [h]
  congr 1
  · rw [sub_eq_add_neg]
    congr 1
    have h1 : ∀ di : Fin 3, (if di.val < e.nDim then ∑ p ∈ Finset.range c.nQtsE, S di.val q p *
        refInt e (fun x y z => recon e o (fun md => T p md r) ![x, y, z] * eval ![x, y, z] (pderiv di (poly e o a))) else 0) =
        if di.val < e.nDim then (∑ d ∈ Finset.range e.nDim, g d * evalJac e ves di.val d) *
          (-κ * ∑ d ∈ Finset.range e.nDim, J d di.val * refInt e (fun x y z => recon e o (fun md => T (sq d) md r) ![x, y, z])) else 0 := by
      intro di
      split_ifs with hdi
      · rw [← hS di hdi (fun p => refInt e (fun x y z => recon e o (fun md => T p md r) ![x, y, z])), Finset.mul_sum]
        refine Finset.sum_congr rfl (fun p _ => ?_)
        simp only [a2 di hdi]
        simp only [mul_comm (recon e o _ _) (∑ d ∈ Finset.range e.nDim, g d * evalJac e ves di.val d)]
        rw [refInt_smul]
        ring
      · rfl
    rw [Finset.sum_congr rfl (fun di _ => h1 di), ← sum_dims (nDim_le e) (fun di => (∑ d ∈ Finset.range e.nDim, g d * evalJac e ves di d) *
          (-κ * ∑ d ∈ Finset.range e.nDim, J d di * refInt e (fun x y z => recon e o (fun md => T (sq d) md r) ![x, y, z])))]
    have h2 : ∀ d2 ∈ Finset.range e.nDim, refInt e (fun x y z => recon e o (fun md => T (sq d2) md r) ![x, y, z]) * g d2 =
        ∑ d ∈ Finset.range e.nDim, (∑ di ∈ Finset.range e.nDim, J d2 di * evalJac e ves di d) * (g d * refInt e (fun x y z => recon e o (fun md => T (sq d2) md r) ![x, y, z])) := by
      intro d2 hd2
      rw [Finset.sum_congr rfl (fun d hd => by rw [hJ d2 (Finset.mem_range.1 hd2) d (Finset.mem_range.1 hd)]), Finset.sum_eq_single d2]
      · simp; ring
      · intro d _ hne; rw [if_neg (Ne.symm hne), zero_mul]
      · intro h; exact absurd hd2 h
    have h3 : ∑ d ∈ Finset.range e.nDim, g d * refInt e (fun x y z => recon e o (fun md => T (sq d) md r) ![x, y, z]) =
        ∑ di ∈ Finset.range e.nDim, (∑ d ∈ Finset.range e.nDim, g d * evalJac e ves di d) * ∑ d ∈ Finset.range e.nDim, J d di * refInt e (fun x y z => recon e o (fun md => T (sq d) md r) ![x, y, z]) := by
      rw [Finset.sum_congr rfl (fun d hd => by rw [mul_comm, h2 d hd])]
      simp only [Finset.sum_mul, Finset.mul_sum]
      rw [Finset.sum_congr rfl (fun d _ => Finset.sum_comm), Finset.sum_comm]
      refine Finset.sum_congr rfl (fun di _ => Finset.sum_congr rfl (fun d _ => Finset.sum_congr rfl (fun d2 _ => by ring)))
    rw [h3, Finset.mul_sum, ← Finset.sum_neg_distrib]
    exact Finset.sum_congr rfl (fun di _ => by ring)
  · refine Finset.sum_congr rfl (fun fa _ => ?_)
    simp only [fluxAt, one_mul]

end Edge.Cons
