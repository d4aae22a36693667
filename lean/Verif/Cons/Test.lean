import Verif.Step.Mesh
/-!
A time step, tested with a polynomial: the weak form which the update satisfies for arbitrary data.
-/
namespace Edge.Cons
open Edge Edge.Map Edge.Quad Edge.Basis Edge.Proj Edge.Gen Edge.Flux Edge.Step MvPolynomial

/-- Orthogonality of the basis. -/
theorem refInt_recon {e : Ent} {o : Nat} (u a : Nat → ℝ) :
    refInt e (fun x y z => recon e o u ![x, y, z] * recon e o a ![x, y, z]) = ∑ md ∈ Finset.range (nModes e o), normSq e o md * (a md * u md) := by
  have h1 : ∀ i < nModes e o, ∀ j < nModes e o, refInt e (val (bf e o i * bf e o j)) = if i = j then normSq e o i else 0 := by
    intro i hi j hj
    have e1 : val (bf e o i * bf e o j) = fun x y z => phi e (dgr e o i) x y z * phi e (dgr e o j) x y z := by
      funext x y z
      rw [← bf_val hi, ← bf_val hj]
      simp [val]
    rw [e1, refInt_orth (dgr_deg hi) (dgr_deg hj), normSq_eq hi]
    by_cases hij : i = j
    · subst hij; simp
    · rw [if_neg hij, if_neg (fun h => hij ((dgr_inj hi hj).1 h))]
  have h2 : (fun x y z => recon e o u ![x, y, z] * recon e o a ![x, y, z]) =
      fun x y z => ∑ i ∈ Finset.range (nModes e o), u i * ∑ j ∈ Finset.range (nModes e o), a j * val (bf e o i * bf e o j) x y z := by
    funext x y z
    simp only [recon, val, map_mul]
    rw [Finset.sum_mul]
    refine Finset.sum_congr rfl (fun i _ => ?_)
    rw [Finset.mul_sum, Finset.mul_sum]
    exact Finset.sum_congr rfl (fun j _ => by ring)
  rw [h2, refInt_sum _ _ (f := fun i x y z => ∑ j ∈ Finset.range (nModes e o), a j * val (bf e o i * bf e o j) x y z) (fun i _ => continuous_finsetSum _ (fun j _ => continuous_const.mul (C3_val _)))]
  refine Finset.sum_congr rfl (fun i hi => ?_)
  rw [refInt_sum _ _ (f := fun j => val (bf e o i * bf e o j)) (fun j _ => C3_val _), Finset.sum_eq_single i]
  · rw [h1 i (Finset.mem_range.1 hi) i (Finset.mem_range.1 hi), if_pos rfl]; ring
  · intro j hj hji
    rw [h1 i (Finset.mem_range.1 hi) j (Finset.mem_range.1 hj), if_neg (Ne.symm hji), mul_zero]
  · intro h; exact absurd hi h

/-- Test with the polynomial of modes `a`: volume and surface terms. -/
theorem test_any {c : Dg.Cfg} {e : Ent} {o : Nat} (hF : Fits c e o) (hc : Fit c e o) {S FL FN : Nat → Nat → Nat → ℝ} {fs : Nat → Dg.FaceIn ℝ} {u u' T : Nat → Nat → Nat → ℝ}
    {Tn : Nat → Nat → Nat → Nat → ℝ} {src : Nat → Nat → Nat → ℝ} {A : Nat → Nat → Nat → Nat → ℝ} {q r : Nat}
    (hu : ∀ md < nModes e o, u' q md r = u q md r + Dg.rhsE c (GV e o) S src T A q md r +
        (∑ fa ∈ Finset.range e.nFa, onFace e o fa md (fun x y => ∑ p ∈ Finset.range c.nQtsE, FL fa q p * recon e o (fun m => T p m r) (elPt e fa x y))) / normSq e o md +
        (∑ fa ∈ Finset.range e.nFa, if (fs fa).outflow then 0 else onFace e o fa md (fun x y => ∑ p ∈ Finset.range c.nQtsE, FN fa q p *
          recon e o (fun m => Tn fa p m r) (sidePt e fa (fs fa) x y))) / normSq e o md) (a : Nat → ℝ) :
    refInt e (fun x y z => recon e o (fun md => u' q md r) ![x, y, z] * recon e o a ![x, y, z]) =
      refInt e (fun x y z => recon e o (fun md => u q md r) ![x, y, z] * recon e o a ![x, y, z]) +
      (∑ di : Fin 3, if di.val < e.nDim then ∑ p ∈ Finset.range c.nQtsE, S di.val q p *
        refInt e (fun x y z => recon e o (fun md => T p md r) ![x, y, z] * eval ![x, y, z] (pderiv di (poly e o a))) else 0) +
      ∑ fa ∈ Finset.range e.nFa, refInt (faTy e) (fun x y _ => (∑ p ∈ Finset.range c.nQtsE, FL fa q p * recon e o (fun m => T p m r) (elPt e fa x y) +
        if (fs fa).outflow then 0 else ∑ p ∈ Finset.range c.nQtsE, FN fa q p * recon e o (fun m => Tn fa p m r) (sidePt e fa (fs fa) x y)) * recon e o a (elPt e fa x y)) := by
  have hC : ∀ fa (p : Nat), C3 (fun x y _ => recon e o (fun m => T p m r) (elPt e fa x y)) := fun fa p =>
    cont_recon _ _ _ (cont_elPt e fa continuous_fst (continuous_fst.comp continuous_snd))
  have hN : ∀ fa (p : Nat), C3 (fun x y _ => recon e o (fun m => Tn fa p m r) (sidePt e fa (fs fa) x y)) := fun fa p => cont_recon _ _ _ (cont_sidePt e fa (fs fa))
  have hpos : ∀ md < nModes e o, normSq e o md ≠ 0 := fun md hmd => by rw [normSq_eq hmd]; exact (mass_pos _ _).ne'
  -- faces
  have hface : ∀ fa, refInt (faTy e) (fun x y _ => (∑ p ∈ Finset.range c.nQtsE, FL fa q p * recon e o (fun m => T p m r) (elPt e fa x y) +
        if (fs fa).outflow then 0 else ∑ p ∈ Finset.range c.nQtsE, FN fa q p * recon e o (fun m => Tn fa p m r) (sidePt e fa (fs fa) x y)) * recon e o a (elPt e fa x y)) =
      ∑ md ∈ Finset.range (nModes e o), a md * (onFace e o fa md (fun x y => ∑ p ∈ Finset.range c.nQtsE, FL fa q p * recon e o (fun m => T p m r) (elPt e fa x y)) +
        if (fs fa).outflow then 0 else onFace e o fa md (fun x y => ∑ p ∈ Finset.range c.nQtsE, FN fa q p * recon e o (fun m => Tn fa p m r) (sidePt e fa (fs fa) x y))) := by
    intro fa
    have hL : C3 (fun x y _ => ∑ p ∈ Finset.range c.nQtsE, FL fa q p * recon e o (fun m => T p m r) (elPt e fa x y)) :=
      continuous_finsetSum _ (fun p _ => continuous_const.mul (hC fa p))
    have hR : C3 (fun x y _ => ∑ p ∈ Finset.range c.nQtsE, FN fa q p * recon e o (fun m => Tn fa p m r) (sidePt e fa (fs fa) x y)) :=
      continuous_finsetSum _ (fun p _ => continuous_const.mul (hN fa p))
    have hb : ∀ md, C3 (fun x y _ => eval (elPt e fa x y) (bf e o md)) := fun md => cont_eval _ (cont_elPt e fa continuous_fst (continuous_fst.comp continuous_snd))
    have gen : ∀ {w : ℝ → ℝ → ℝ}, C3 (fun x y _ => w x y) → refInt (faTy e) (fun x y _ => w x y * recon e o a (elPt e fa x y)) =
        ∑ md ∈ Finset.range (nModes e o), a md * onFace e o fa md w := by
      intro w hw
      simp only [onFace]
      rw [← refInt_sum _ a (f := fun md x y _ => w x y * eval (elPt e fa x y) (bf e o md)) (fun md _ => hw.mul (hb md))]
      congr 1
      funext x y z
      simp only [recon, Finset.mul_sum]
      exact Finset.sum_congr rfl (fun md _ => by ring)
    rcases (fs fa).outflow with _ | _
    · simp only [Bool.false_eq_true, if_false]
      rw [gen (w := fun x y => ∑ p ∈ Finset.range c.nQtsE, FL fa q p * recon e o (fun m => T p m r) (elPt e fa x y) +
        ∑ p ∈ Finset.range c.nQtsE, FN fa q p * recon e o (fun m => Tn fa p m r) (sidePt e fa (fs fa) x y)) (hL.add hR)]
      exact Finset.sum_congr rfl (fun md _ => by rw [onFace_add hL hR])
    · simp only [if_true, add_zero]
      exact gen hL
  -- volume
  have hvol : ∀ (di : Fin 3) (p : Nat), refInt e (fun x y z => recon e o (fun md => T p md r) ![x, y, z] * eval ![x, y, z] (pderiv di (poly e o a))) =
      ∑ md ∈ Finset.range (nModes e o), a md * (normSq e o md * ∑ m ∈ Finset.range (nModes e o), T p m r * GV e o di.val m md) := by
    intro di p
    have h2 : (fun x y z => recon e o (fun md => T p md r) ![x, y, z] * eval ![x, y, z] (pderiv di (poly e o a))) =
        fun x y z => ∑ md ∈ Finset.range (nModes e o), a md * ∑ m ∈ Finset.range (nModes e o), T p m r * val (bf e o m * pderiv di (bf e o md)) x y z := by
      funext x y z
      simp only [poly, map_sum, pderiv_C_mul, map_mul, eval_C, recon, val]
      rw [Finset.mul_sum]
      refine Finset.sum_congr rfl (fun i _ => ?_)
      rw [Finset.sum_mul, Finset.mul_sum]
      exact Finset.sum_congr rfl (fun j _ => by ring)
    rw [h2, refInt_sum _ _ (f := fun md x y z => ∑ m ∈ Finset.range (nModes e o), T p m r * val (bf e o m * pderiv di (bf e o md)) x y z) (fun i _ => continuous_finsetSum _ (fun j _ => continuous_const.mul (C3_val _)))]
    refine Finset.sum_congr rfl (fun md hmd => ?_)
    have hmd := Finset.mem_range.1 hmd
    rw [refInt_sum _ _ (f := fun m => val (bf e o m * pderiv di (bf e o md))) (fun j _ => C3_val _)]
    congr 1
    rw [Finset.mul_sum]
    refine Finset.sum_congr rfl (fun m _ => ?_)
    rw [GV, dif_pos di.2, entV, ← normSq_eq hmd]
    have := hpos md hmd
    field_simp
  have hA : ∀ md, Dg.rhsE c (GV e o) S src T A q md r =
      ∑ di : Fin 3, if di.val < e.nDim then ∑ p ∈ Finset.range c.nQtsE, S di.val q p * ∑ m ∈ Finset.range (nModes e o), T p m r * GV e o di.val m md else 0 := by
    intro md
    simp only [Dg.rhsE, hc.rms, hc.mds, hc.dis, Finset.range_zero, Finset.sum_empty, ite_self, add_zero]
    exact sum_dims (nDim_le e) _
  rw [refInt_recon, refInt_recon, Finset.sum_congr rfl (fun fa _ => hface fa)]
  simp only [hvol]
  have hsplit : ∀ md ∈ Finset.range (nModes e o), normSq e o md * (a md * u' q md r) = normSq e o md * (a md * u q md r) +
      (∑ di : Fin 3, if di.val < e.nDim then ∑ p ∈ Finset.range c.nQtsE, S di.val q p * (a md * (normSq e o md * ∑ m ∈ Finset.range (nModes e o), T p m r * GV e o di.val m md)) else 0) +
      ∑ fa ∈ Finset.range e.nFa, a md * (onFace e o fa md (fun x y => ∑ p ∈ Finset.range c.nQtsE, FL fa q p * recon e o (fun m => T p m r) (elPt e fa x y)) +
        if (fs fa).outflow then 0 else onFace e o fa md (fun x y => ∑ p ∈ Finset.range c.nQtsE, FN fa q p * recon e o (fun m => Tn fa p m r) (sidePt e fa (fs fa) x y))) := by
    intro md hmd
    have hmd := Finset.mem_range.1 hmd
    have := hpos md hmd
    have e1 : (∑ di : Fin 3, if di.val < e.nDim then ∑ p ∈ Finset.range c.nQtsE, S di.val q p * (a md * (normSq e o md * ∑ m ∈ Finset.range (nModes e o), T p m r * GV e o di.val m md)) else 0) =
        a md * (normSq e o md * ∑ di : Fin 3, if di.val < e.nDim then ∑ p ∈ Finset.range c.nQtsE, S di.val q p * ∑ m ∈ Finset.range (nModes e o), T p m r * GV e o di.val m md else 0) := by
      rw [Finset.mul_sum, Finset.mul_sum]
      refine Finset.sum_congr rfl (fun di _ => ?_)
      split_ifs
      · rw [Finset.mul_sum, Finset.mul_sum]
        exact Finset.sum_congr rfl (fun p _ => by ring)
      · simp
    rw [e1, ← Finset.mul_sum, Finset.sum_add_distrib, hu md hmd, hA md]
    field_simp
    ring
  rw [Finset.sum_congr rfl hsplit, Finset.sum_add_distrib, Finset.sum_add_distrib]
  congr 1
  · congr 1
    rw [Finset.sum_comm]
    refine Finset.sum_congr rfl (fun di _ => ?_)
    split_ifs
    · rw [Finset.sum_comm]
      exact Finset.sum_congr rfl (fun p _ => by rw [Finset.mul_sum])
    · simp
  · rw [Finset.sum_comm]

end Edge.Cons
