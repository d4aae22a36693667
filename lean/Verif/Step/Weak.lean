import Verif.Step.Model
import Verif.Flux.Props
import Verif.Flux.Gauss
import Verif.Gen.Star
/-!
Integration by parts: volume and surface integrals of an element add up to the derivatives, if the fluxes at the faces are those of the element's own solution.
-/
namespace Edge.Step
open Edge Edge.Map Edge.Quad Edge.Basis Edge.Proj Edge.Gen Edge.Flux MvPolynomial

/-- The polynomial with modes `u`. -/
noncomputable def poly (e : Ent) (o : Nat) (u : Nat → ℝ) : MvPolynomial (Fin 3) ℝ := ∑ m ∈ Finset.range (nModes e o), C (u m) * bf e o m

theorem poly_eval (e : Ent) (o : Nat) (u : Nat → ℝ) (p : Fin 3 → ℝ) : eval p (poly e o u) = recon e o u p := by
  simp [poly, recon]

/-- Integration by parts. -/
theorem parts {e : Ent} (he : e ≠ .line) (o : Nat) (u : Nat → ℝ) (di : Fin 3) (hd : di.val < e.nDim) {md : Nat} (hmd : md < nModes e o) :
    ∑ m ∈ Finset.range (nModes e o), u m * GV e o di.val m md -
      (∑ fa ∈ Finset.range e.nFa, refNormal e fa di * onFace e o fa md (fun x y => recon e o u (elPt e fa x y))) / normSq e o md =
    ∑ m ∈ Finset.range (nModes e o), u m * GT e o di.val m md := by
  have hg := gauss he (poly e o u * bf e o md) di hd
  have h1 : refInt e (val (pderiv di (poly e o u * bf e o md))) =
      ∑ m ∈ Finset.range (nModes e o), u m * refInt e (val (bf e o md * pderiv di (bf e o m))) +
      ∑ m ∈ Finset.range (nModes e o), u m * refInt e (val (bf e o m * pderiv di (bf e o md))) := by
    rw [← refInt_sum _ _ (fun m _ => C3_val _), ← refInt_sum _ _ (fun m _ => C3_val _), ← refInt_add]
    · congr 1
      funext x y z
      simp only [val, poly, Derivation.leibniz, map_add, smul_eq_mul, map_mul, map_sum, pderiv_C, mul_zero, add_zero, eval_C, Finset.mul_sum, Finset.sum_mul]
      rw [← Finset.sum_add_distrib]
      exact Finset.sum_congr rfl (fun m _ => by ring)
    · exact continuous_finsetSum _ (fun m _ => continuous_const.mul (C3_val _))
    · exact continuous_finsetSum _ (fun m _ => continuous_const.mul (C3_val _))
  have h2 : ∀ fa, refInt (faTy e) (fun x y _ => eval (elPt e fa x y) (poly e o u * bf e o md)) = onFace e o fa md (fun x y => recon e o u (elPt e fa x y)) := by
    intro fa
    rw [onFace]
    congr 1
    funext x y z
    rw [map_mul, poly_eval]
  simp only [h2] at hg
  rw [← hg, h1, normSq_eq hmd, add_div, Finset.sum_div, Finset.sum_div]
  have e1 : ∀ m, u m * GV e o di.val m md = u m * refInt e (val (bf e o m * pderiv di (bf e o md))) / mass e (dgr e o md) := by
    intro m; rw [GV, dif_pos di.2, entV]; ring
  have e2 : ∀ m, u m * GT e o di.val m md = -(u m * refInt e (val (bf e o md * pderiv di (bf e o m))) / mass e (dgr e o md)) := by
    intro m; rw [GT, dif_pos di.2, entT]; ring
  simp only [e1, e2, Finset.sum_neg_distrib]
  ring

/-- The fluxes at the faces, of both updates, are those of the element's own (time integrated) solution `T`. -/
def Consistent (c : Dg.Cfg) (e : Ent) (o : Nat) (S FL FN : Nat → Nat → Nat → ℝ) (fs : Nat → Dg.FaceIn ℝ) (T : Nat → Nat → Nat → ℝ) (Tn : Nat → Nat → Nat → Nat → ℝ) : Prop :=
  ∀ fa < e.nFa, ∀ q < c.nQtsE, ∀ r < c.nCrs, ∀ x y,
    ∑ p ∈ Finset.range c.nQtsE, FL fa q p * recon e o (fun m => T p m r) (elPt e fa x y) +
      (if (fs fa).outflow then 0 else ∑ p ∈ Finset.range c.nQtsE, FN fa q p * recon e o (fun m => Tn fa p m r) (sidePt e fa (fs fa) x y)) =
    -∑ di : Fin 3, if di.val < e.nDim then refNormal e fa di * ∑ p ∈ Finset.range c.nQtsE, S di.val q p * recon e o (fun m => T p m r) (elPt e fa x y) else 0

theorem onFace_sum {e : Ent} {o fa md : Nat} {ι : Type} (s : Finset ι) (k : ι → ℝ) {w : ι → ℝ → ℝ → ℝ}
    (hw : ∀ i ∈ s, C3 (fun x y _ => w i x y)) : onFace e o fa md (fun x y => ∑ i ∈ s, k i * w i x y) = ∑ i ∈ s, k i * onFace e o fa md (w i) := by
  simp only [onFace]
  rw [← refInt_sum s k (f := fun i x y _ => w i x y * eval (elPt e fa x y) (bf e o md))]
  · congr 1
    funext x y z
    rw [Finset.sum_mul]
    exact Finset.sum_congr rfl (fun i _ => by ring)
  · intro i hi
    exact (hw i hi).mul (cont_eval _ (cont_elPt e fa continuous_fst (continuous_fst.comp continuous_snd)))

theorem onFace_add {e : Ent} {o fa md : Nat} {v w : ℝ → ℝ → ℝ} (hv : C3 (fun x y _ => v x y)) (hw : C3 (fun x y _ => w x y)) :
    onFace e o fa md v + onFace e o fa md w = onFace e o fa md (fun x y => v x y + w x y) := by
  have hc := cont_eval (bf e o md) (cont_elPt e fa continuous_fst (continuous_fst.comp continuous_snd : Continuous (fun v : ℝ × ℝ × ℝ => v.2.1)))
  have h1 : C3 (fun x y _ => v x y * eval (elPt e fa x y) (bf e o md)) := hv.mul hc
  have h2 : C3 (fun x y _ => w x y * eval (elPt e fa x y) (bf e o md)) := hw.mul hc
  rw [onFace, onFace, ← refInt_add h1 h2, onFace]
  congr 1
  funext x y z
  ring

theorem cont_sidePt (e : Ent) (fa : Nat) (f : Dg.FaceIn ℝ) : Continuous (fun v : ℝ × ℝ × ℝ => sidePt e fa f v.1 v.2.1) := by
  unfold sidePt
  split
  · exact cont_elPt e _ (cont_faPt e _ _ continuous_fst (continuous_fst.comp continuous_snd)) (cont_faPt e _ _ continuous_fst (continuous_fst.comp continuous_snd))
  · exact cont_elPt e fa continuous_fst (continuous_fst.comp continuous_snd)

/-- With consistent fluxes, the volume and surface integrals of a mode are the right-hand side of the prediction. -/
theorem weak_strong {c : Dg.Cfg} {e : Ent} {o : Nat} (hF : Fits c e o) (hc : Fit c e o) {S FL FN : Nat → Nat → Nat → ℝ} {fs : Nat → Dg.FaceIn ℝ} {T : Nat → Nat → Nat → ℝ}
    {Tn : Nat → Nat → Nat → Nat → ℝ} (h : Consistent c e o S FL FN fs T Tn) (src : Nat → Nat → Nat → ℝ) (a : Nat → Nat → Nat → Nat → ℝ) {q md r : Nat} (hq : q < c.nQtsE) (hmd : md < nModes e o) (hr : r < c.nCrs) :
    Dg.rhsE c (GV e o) S src T a q md r +
      (∑ fa ∈ Finset.range e.nFa, onFace e o fa md (fun x y => ∑ p ∈ Finset.range c.nQtsE, FL fa q p * recon e o (fun m => T p m r) (elPt e fa x y))) / normSq e o md +
      (∑ fa ∈ Finset.range e.nFa, if (fs fa).outflow then 0 else onFace e o fa md (fun x y =>
        ∑ p ∈ Finset.range c.nQtsE, FN fa q p * recon e o (fun m => Tn fa p m r) (sidePt e fa (fs fa) x y))) / normSq e o md =
    Dg.rhsE c (GT e o) S src T a q md r := by
  have hC : ∀ fa (p : Nat), C3 (fun x y _ => recon e o (fun m => T p m r) (elPt e fa x y)) := fun fa p =>
    cont_recon _ _ _ (cont_elPt e fa continuous_fst (continuous_fst.comp continuous_snd))
  have hN : ∀ fa (p : Nat), C3 (fun x y _ => recon e o (fun m => Tn fa p m r) (sidePt e fa (fs fa) x y)) := fun fa p => cont_recon _ _ _ (cont_sidePt e fa (fs fa))
  have key : ∀ fa ∈ Finset.range e.nFa,
      onFace e o fa md (fun x y => ∑ p ∈ Finset.range c.nQtsE, FL fa q p * recon e o (fun m => T p m r) (elPt e fa x y)) +
      (if (fs fa).outflow then 0 else onFace e o fa md (fun x y =>
        ∑ p ∈ Finset.range c.nQtsE, FN fa q p * recon e o (fun m => Tn fa p m r) (sidePt e fa (fs fa) x y))) =
      -∑ di : Fin 3, if di.val < e.nDim then ∑ p ∈ Finset.range c.nQtsE, S di.val q p * (refNormal e fa di * onFace e o fa md (fun x y => recon e o (fun m => T p m r) (elPt e fa x y))) else 0 := by
    intro fa hfa
    have h1 := h fa (Finset.mem_range.1 hfa) q hq r hr
    have h2 : onFace e o fa md (fun x y => -∑ di : Fin 3, if di.val < e.nDim then refNormal e fa di * ∑ p ∈ Finset.range c.nQtsE, S di.val q p * recon e o (fun m => T p m r) (elPt e fa x y) else 0) =
        -∑ di : Fin 3, if di.val < e.nDim then ∑ p ∈ Finset.range c.nQtsE, S di.val q p * (refNormal e fa di * onFace e o fa md (fun x y => recon e o (fun m => T p m r) (elPt e fa x y))) else 0 := by
      have e1 : (fun x y => -∑ di : Fin 3, if di.val < e.nDim then refNormal e fa di * ∑ p ∈ Finset.range c.nQtsE, S di.val q p * recon e o (fun m => T p m r) (elPt e fa x y) else 0) =
          fun x y => ∑ p ∈ Finset.range c.nQtsE, (-∑ di : Fin 3, if di.val < e.nDim then refNormal e fa di * S di.val q p else 0) * recon e o (fun m => T p m r) (elPt e fa x y) := by
        funext x y
        simp only [neg_mul, Finset.sum_neg_distrib, neg_inj, Finset.sum_mul]
        rw [Finset.sum_comm]
        refine Finset.sum_congr rfl (fun di _ => ?_)
        split_ifs
        · rw [Finset.mul_sum]; exact Finset.sum_congr rfl (fun p _ => by ring)
        · simp
      rw [e1, onFace_sum _ _ (fun p _ => hC fa p)]
      simp only [neg_mul, Finset.sum_neg_distrib, neg_inj, Finset.sum_mul]
      rw [Finset.sum_comm]
      refine Finset.sum_congr rfl (fun di _ => ?_)
      split_ifs
      · exact Finset.sum_congr rfl (fun p _ => by ring)
      · simp
    rw [← h2]
    split_ifs with ho
    · rw [add_zero]
      congr 1
      funext x y
      have := h1 x y
      rw [if_pos ho, add_zero] at this
      exact this
    · rw [onFace_add]
      · congr 1
        funext x y
        have := h1 x y
        rw [if_neg ho] at this
        exact this
      · exact continuous_finsetSum _ (fun p _ => continuous_const.mul (hC fa p))
      · exact continuous_finsetSum _ (fun p _ => continuous_const.mul (hN fa p))
  rw [add_assoc, ← add_div, ← Finset.sum_add_distrib, Finset.sum_congr rfl key]
  have hA : ∀ G : Nat → Nat → Nat → ℝ, Dg.rhsE c G S src T a q md r =
      ∑ di : Fin 3, if di.val < e.nDim then ∑ p ∈ Finset.range c.nQtsE, S di.val q p * ∑ m ∈ Finset.range (nModes e o), T p m r * G di.val m md else 0 := by
    intro G
    simp only [Dg.rhsE, hc.rms, hc.mds, hc.dis, Finset.range_zero, Finset.sum_empty, ite_self, add_zero]
    exact sum_dims (nDim_le e) _
  rw [hA, hA, Finset.sum_neg_distrib, neg_div, ← sub_eq_add_neg, Finset.sum_comm, Finset.sum_div, ← Finset.sum_sub_distrib]
  refine Finset.sum_congr rfl (fun di _ => ?_)
  split_ifs with hdi
  · rw [Finset.sum_comm, Finset.sum_div, ← Finset.sum_sub_distrib]
    refine Finset.sum_congr rfl (fun p _ => ?_)
    rw [← parts hF.noLine o (fun m => T p m r) di hdi hmd, mul_sub, ← Finset.mul_sum, mul_div_assoc]
  · simp

end Edge.Step
