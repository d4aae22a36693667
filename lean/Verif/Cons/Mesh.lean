import Verif.Cons.Elem
import Verif.Cons.Swap
import Verif.Step.MeshProps
import Mathlib.Algebra.BigOperators.Group.Finset.Basic
/-!
Conservation of linear and angular momentum by time steps of a mesh, for any flux which is the same, up to the sign, on both sides of a face.
-/
namespace Edge.Cons
open Edge Edge.Map Edge.Quad Edge.Basis Edge.Proj Edge.Gen Edge.Flux Edge.Step

/-! ### Specification -/

/-- Integral over an element. -/
noncomputable def elInt (e : Ent) (ves : Nat → Nat → ℝ) (f : (Nat → ℝ) → ℝ) : ℝ := jDet e ves * refInt e (fun x y z => f (refToPhy e ves (crd ![x, y, z])))

/-- The mesh has no outflow boundaries; the adjacent element of a face, which is not at the free surface, has the element as its own adjacent element. -/
def Closed (e : Ent) (N : Nat) (F : Nat → Nat → MFace ℝ) : Prop :=
  ∀ el < N, ∀ fa < e.nFa, (F el fa).outflow = false ∧ ((F el fa).freeSurface = false → (F el fa).ne < N ∧ (F el fa).fId < e.nFa ∧
    (F (F el fa).ne (F el fa).fId).freeSurface = false ∧ (F (F el fa).ne (F el fa).fId).ne = el ∧ (F (F el fa).ne (F el fa).fId).fId = fa ∧
    (F (F el fa).ne (F el fa).fId).vId = (F el fa).vId)

/-- Momentum of the mesh with densities `ρ`, along the motion with velocity `b + W x`; `vq j` is the quantity of the velocity in dimension `j`. -/
noncomputable def momentum (tol : ℝ) (e : Ent) (o N : Nat) (ves : Nat → Nat → Nat → ℝ) (ρ : Nat → ℝ) (vq : Nat → Nat) (b : Nat → ℝ) (W : Nat → Nat → ℝ) (u : Nat → Nat → Nat → Nat → ℝ) (r : Nat) : ℝ :=
  ∑ el ∈ Finset.range N, ρ el * elInt e (ves el) (fun x => ∑ j ∈ Finset.range e.nDim, physEval tol e o (ves el) (fun md => u el (vq j) md r) x * affine e.nDim (b j) (W j) x)

/-! ### Proofs -/

theorem anti_sum {n : Nat} {A : Nat → Nat → ℝ} (h : ∀ i < n, ∀ j < n, A i j = -A j i) : ∑ i ∈ Finset.range n, ∑ j ∈ Finset.range n, A i j = 0 := by
  have h1 : ∑ i ∈ Finset.range n, ∑ j ∈ Finset.range n, A i j = -∑ i ∈ Finset.range n, ∑ j ∈ Finset.range n, A i j := by
    conv_rhs => rw [Finset.sum_comm]
    rw [← Finset.sum_neg_distrib]
    refine Finset.sum_congr rfl (fun i hi => ?_)
    rw [← Finset.sum_neg_distrib]
    exact Finset.sum_congr rfl (fun j hj => h i (Finset.mem_range.1 hi) j (Finset.mem_range.1 hj))
  linarith

theorem cont_affine {e : Ent} (he : e = .tria ∨ e = .tet) (ves : Nat → Nat → ℝ) (b : ℝ) (g : Nat → ℝ) {α : Type} [TopologicalSpace α] {P : α → Fin 3 → ℝ} (hP : ∀ i, Continuous (fun x => P x i)) :
    Continuous (fun x => affine e.nDim b g (refToPhy e ves (crd (P x)))) := by
  have h : (fun x => affine e.nDim b g (refToPhy e ves (crd (P x)))) = fun x => b + ∑ d ∈ Finset.range e.nDim, g d *
      (ves d 0 + ∑ di : Fin 3, if di.val < e.nDim then evalJac e ves di.val d * P x di else 0) := by
    funext x
    rw [affine]
    congr 1
    exact Finset.sum_congr rfl (fun d hd => by rw [affine_map he ves _ (Finset.mem_range.1 hd)])
  rw [h]
  refine continuous_const.add (continuous_finsetSum _ (fun d _ => continuous_const.mul (continuous_const.add (continuous_finsetSum _ (fun di _ => ?_)))))
  split_ifs
  · exact continuous_const.mul (hP di)
  · exact continuous_const

theorem affine_shift {n : Nat} (b : ℝ) {g t : Nat → ℝ} (h : ∑ d ∈ Finset.range n, g d * t d = 0) {x x' : Nat → ℝ} (hx : ∀ d < n, x' d = x d + t d) : affine n b g x' = affine n b g x := by
  rw [affine, affine]
  congr 1
  rw [Finset.sum_congr rfl (fun d hd => by rw [hx d (Finset.mem_range.1 hd), mul_add]), Finset.sum_add_distrib, h, add_zero]

/-- Momentum of an element in terms of modes. -/
theorem elInt_modes {e : Ent} (he : e = .tria ∨ e = .tet) {o : Nat} {tol : ℝ} (ht : 0 ≤ tol) {ves : Nat → Nat → ℝ} (hr : Regular tol e ves) (b : Nat → ℝ) (W : Nat → Nat → ℝ) (v : Nat → Nat → ℝ) :
    elInt e ves (fun x => ∑ j ∈ Finset.range e.nDim, physEval tol e o ves (v j) x * affine e.nDim (b j) (W j) x) =
      ∑ j ∈ Finset.range e.nDim, jDet e ves * refInt e (fun x y z => recon e o (v j) ![x, y, z] * affine e.nDim (b j) (W j) (refToPhy e ves (crd ![x, y, z]))) := by
  rw [elInt, ← Finset.mul_sum]
  congr 1
  have h1 : (fun x y z => ∑ j ∈ Finset.range e.nDim, physEval tol e o ves (v j) (refToPhy e ves (crd ![x, y, z])) * affine e.nDim (b j) (W j) (refToPhy e ves (crd ![x, y, z]))) =
      fun x y z => ∑ j ∈ Finset.range e.nDim, 1 * (recon e o (v j) ![x, y, z] * affine e.nDim (b j) (W j) (refToPhy e ves (crd ![x, y, z]))) := by
    funext x y z
    refine Finset.sum_congr rfl (fun j _ => ?_)
    rw [physEval_pt ht he hr (v j) (p := ![x, y, z]) (fun d _ => rfl), one_mul]
  have hP : ∀ i, Continuous (fun p : ℝ × ℝ × ℝ => (![p.1, p.2.1, p.2.2] : Fin 3 → ℝ) i) := by
    intro i
    fin_cases i
    · exact continuous_fst
    · exact continuous_fst.comp continuous_snd
    · exact continuous_snd.comp continuous_snd
  rw [h1, refInt_sum _ _ (f := fun j x y z => recon e o (v j) ![x, y, z] * affine e.nDim (b j) (W j) (refToPhy e ves (crd ![x, y, z])))]
  · simp
  · intro j _
    exact (cont_recon _ _ _ (continuous_pi hP)).mul (cont_affine he ves _ _ hP)

theorem sum_faces {e : Ent} {N : Nat} {F : Nat → Nat → MFace ℝ} (hcl : Closed e N F) {G : Nat × Nat → ℝ} (hzero : ∀ el < N, ∀ fa < e.nFa, (F el fa).freeSurface = true → G (el, fa) = 0)
    (hneg : ∀ el < N, ∀ fa < e.nFa, (F el fa).freeSurface = false → G ((F el fa).ne, (F el fa).fId) = -G (el, fa)) : ∑ p ∈ Finset.range N ×ˢ Finset.range e.nFa, G p = 0 := by
  refine Finset.sum_involution (fun p _ => if (F p.1 p.2).freeSurface then p else ((F p.1 p.2).ne, (F p.1 p.2).fId)) ?_ ?_ ?_ ?_
  · rintro ⟨el, fa⟩ hp
    rw [Finset.mem_product, Finset.mem_range, Finset.mem_range] at hp
    rcases hfr : (F el fa).freeSurface with _ | _
    · simp only [hfr, Bool.false_eq_true, if_false]
      rw [hneg el hp.1 fa hp.2 hfr, add_neg_cancel]
    · simp only [hfr, if_true]
      rw [hzero el hp.1 fa hp.2 hfr, add_zero]
  · rintro ⟨el, fa⟩ hp hne heq
    rw [Finset.mem_product, Finset.mem_range, Finset.mem_range] at hp
    rcases hfr : (F el fa).freeSurface with _ | _
    · simp only [hfr, Bool.false_eq_true, if_false] at heq
      have := hneg el hp.1 fa hp.2 hfr
      rw [heq] at this
      exact hne (by linarith)
    · exact hne (hzero el hp.1 fa hp.2 hfr)
  · rintro ⟨el, fa⟩ hp
    rw [Finset.mem_product, Finset.mem_range, Finset.mem_range] at hp
    rcases hfr : (F el fa).freeSurface with _ | _
    · simp only [hfr, Bool.false_eq_true, if_false, Finset.mem_product, Finset.mem_range]
      exact ⟨((hcl el hp.1 fa hp.2).2 hfr).1, ((hcl el hp.1 fa hp.2).2 hfr).2.1⟩
    · simp only [hfr, if_true, Finset.mem_product, Finset.mem_range]
      exact hp
  · rintro ⟨el, fa⟩ hp
    rw [Finset.mem_product, Finset.mem_range, Finset.mem_range] at hp
    rcases hfr : (F el fa).freeSurface with _ | _
    · obtain ⟨-, -, k1, k2, k3, -⟩ := (hcl el hp.1 fa hp.2).2 hfr
      simp only [hfr, Bool.false_eq_true, if_false, k1, k2, k3]
    · simp only [hfr, if_true]

/-- A time step conserves momentum. -/
theorem cons_any {c : Dg.Cfg} {e : Ent} (he : e = .tria ∨ e = .tet) {o : Nat} (hF : Flux.Fits c e o) (hc : Fit c e o) {tol : ℝ} (ht : 0 ≤ tol) {N : Nat} {ves : Nat → Nat → Nat → ℝ}
    {F : Nat → Nat → MFace ℝ} {S FL FN : Nat → Nat → Nat → Nat → ℝ} {u u' T : Nat → Nat → Nat → Nat → ℝ} {t : Nat → Nat → Nat → ℝ} {ρ : Nat → ℝ} {J : Nat → Nat → Nat → ℝ} {r : Nat}
    {vq : Nat → Nat} {sq : Nat → Nat → Nat} (hsq : ∀ i < e.nDim, ∀ j < e.nDim, sq i j = sq j i)
    (hset : ∀ el < N, Regular tol e (ves el) ∧ 0 < jDet e (ves el) ∧ 0 < ρ el ∧
      (∀ d < e.nDim, ∀ d2 < e.nDim, ∑ di ∈ Finset.range e.nDim, J el d di * evalJac e (ves el) di d2 = if d = d2 then 1 else 0) ∧
      ∀ j < e.nDim, ∀ di < e.nDim, ∀ X : Nat → ℝ, ∑ p ∈ Finset.range c.nQtsE, S el di (vq j) p * X p = -(1 / ρ el) * ∑ d ∈ Finset.range e.nDim, J el d di * X (sq j d))
    (hcl : Closed e N F) (hjo : ∀ el < N, ∀ fa < e.nFa, Joined e ves el fa (F el fa) (t el fa))
    (hu : ∀ el < N, ∀ j < e.nDim, ∀ md < nModes e o, u' el (vq j) md r = u el (vq j) md r + Dg.rhsE c (GV e o) (S el) (S el) (T el) (fun _ => u el) (vq j) md r +
        (∑ fa ∈ Finset.range e.nFa, onFace e o fa md (fun x y => ∑ p ∈ Finset.range c.nQtsE, FL el fa (vq j) p * recon e o (fun m => T el p m r) (elPt e fa x y))) / normSq e o md +
        (∑ fa ∈ Finset.range e.nFa, if (F el fa).outflow then 0 else onFace e o fa md (fun x y => ∑ p ∈ Finset.range c.nQtsE, FN el fa (vq j) p *
          recon e o (fun m => T ((F el fa).nb el) p m r) (sidePt e fa ((F el fa).toIn []) x y))) / normSq e o md)
    (hfree : ∀ el < N, ∀ fa < e.nFa, (F el fa).freeSurface = true → ∀ j < e.nDim, ∀ x y,
      fluxAt c e o (ρ el * jDet e (ves el)) (FL el) (FN el) (fun fa => (F el fa).toIn []) (T el) (fun fa => T ((F el fa).nb el)) r (vq j) fa x y = 0)
    (hpair : ∀ el < N, ∀ fa < e.nFa, (F el fa).freeSurface = false → ∀ ve, (F el fa).vId = some ve → ∀ j < e.nDim, ∀ x y,
      fluxAt c e o (ρ (F el fa).ne * jDet e (ves (F el fa).ne)) (FL (F el fa).ne) (FN (F el fa).ne) (fun fb => (F (F el fa).ne fb).toIn []) (T (F el fa).ne)
          (fun fb => T ((F (F el fa).ne fb).nb (F el fa).ne)) r (vq j) (F el fa).fId (faPt e ve x y 0) (faPt e ve x y 1) =
        -fluxAt c e o (ρ el * jDet e (ves el)) (FL el) (FN el) (fun fa => (F el fa).toIn []) (T el) (fun fa => T ((F el fa).nb el)) r (vq j) fa x y)
    (b : Nat → ℝ) {W : Nat → Nat → ℝ} (hW : ∀ i < e.nDim, ∀ j < e.nDim, W i j = -W j i) (ho : 0 < o) (hW1 : (∃ i < e.nDim, ∃ j < e.nDim, W i j ≠ 0) → 1 < o)
    (hWt : ∀ el < N, ∀ fa < e.nFa, (F el fa).freeSurface = false → ∀ i < e.nDim, ∑ d ∈ Finset.range e.nDim, W i d * t el fa d = 0) :
    momentum tol e o N ves ρ vq b W u' r = momentum tol e o N ves ρ vq b W u r := by
  set G : Nat → Nat × Nat → ℝ := fun j p => refInt (faTy e) (fun x y _ => fluxAt c e o (ρ p.1 * jDet e (ves p.1)) (FL p.1) (FN p.1) (fun fa => (F p.1 fa).toIn []) (T p.1)
    (fun fa => T ((F p.1 fa).nb p.1)) r (vq j) p.2 x y * affine e.nDim (b j) (W j) (refToPhy e (ves p.1) (crd (elPt e p.2 x y)))) with hG
  -- one element
  have hel : ∀ el < N, ρ el * elInt e (ves el) (fun x => ∑ j ∈ Finset.range e.nDim, physEval tol e o (ves el) (fun md => u' el (vq j) md r) x * affine e.nDim (b j) (W j) x) =
      ρ el * elInt e (ves el) (fun x => ∑ j ∈ Finset.range e.nDim, physEval tol e o (ves el) (fun md => u el (vq j) md r) x * affine e.nDim (b j) (W j) x) +
        ∑ j ∈ Finset.range e.nDim, ∑ fa ∈ Finset.range e.nFa, G j (el, fa) := by
    intro el hel
    obtain ⟨s1, s2, s3, s4, s5⟩ := hset el hel
    rw [elInt_modes he ht s1 b W (fun j md => u' el (vq j) md r), elInt_modes he ht s1 b W (fun j md => u el (vq j) md r)]
    have hj : ∀ j ∈ Finset.range e.nDim, jDet e (ves el) * refInt e (fun x y z => recon e o (fun md => u' el (vq j) md r) ![x, y, z] * affine e.nDim (b j) (W j) (refToPhy e (ves el) (crd ![x, y, z]))) =
        jDet e (ves el) * refInt e (fun x y z => recon e o (fun md => u el (vq j) md r) ![x, y, z] * affine e.nDim (b j) (W j) (refToPhy e (ves el) (crd ![x, y, z]))) -
        jDet e (ves el) * (1 / ρ el) * (∑ d ∈ Finset.range e.nDim, W j d * refInt e (fun x y z => recon e o (fun md => T el (sq j d) md r) ![x, y, z])) +
        (1 / ρ el) * ∑ fa ∈ Finset.range e.nFa, G j (el, fa) := by
      intro j hj
      have hj := Finset.mem_range.1 hj
      rw [elem_test he hF hc ht s1 s2 (u := u el) (u' := u' el) (T := T el) (fs := fun fa => (F el fa).toIn []) (Tn := fun fa => T ((F el fa).nb el)) (q := vq j) (r := r)
        (S := S el) (FL := FL el) (FN := FN el) (src := S el) (A := fun _ => u el) (hu el hel j hj) s4 (κ := 1 / ρ el) (sq := sq j) (s5 j hj) (b j) (W j) ho (fun ⟨d, hd, h⟩ => hW1 ⟨j, hj, d, hd, h⟩)]
      rw [mul_add, mul_sub, ← mul_assoc, Finset.mul_sum _ _ (jDet e (ves el)), Finset.mul_sum _ _ (1 / ρ el)]
      congr 1
      refine Finset.sum_congr rfl (fun fa _ => ?_)
      rw [hG]
      beta_reduce
      rw [← refInt_smul, ← refInt_smul]
      congr 1
      funext x y z
      simp only [fluxAt, one_mul]
      field_simp
    rw [Finset.sum_congr rfl hj, Finset.sum_add_distrib, Finset.sum_sub_distrib]
    simp only [← Finset.mul_sum]
    rw [anti_sum (fun i hi j hj => by rw [hW i hi j hj, hsq i hi j hj]; ring)]
    have := s3.ne'
    rw [mul_zero, sub_zero, mul_add]
    congr 1
    rw [← mul_assoc, mul_one_div_cancel this, one_mul]
  -- faces
  have hfaces : ∀ j < e.nDim, ∑ p ∈ Finset.range N ×ˢ Finset.range e.nFa, G j p = 0 := by
    intro j hj
    have hzero : ∀ el < N, ∀ fa < e.nFa, (F el fa).freeSurface = true → G j (el, fa) = 0 := by
      intro el hel fa hfa hfr
      rw [hG]
      simp only [hfree el hel fa hfa hfr j hj, zero_mul]
      exact refInt_zero _
    have hneg : ∀ el < N, ∀ fa < e.nFa, (F el fa).freeSurface = false → G j ((F el fa).ne, (F el fa).fId) = -G j (el, fa) := by
      intro el hel fa hfa hfr
      obtain ⟨c1, c2⟩ := hcl el hel fa hfa
      obtain ⟨ve, v1, v2, v3, v4⟩ := hjo el hel fa hfa c1 hfr
      obtain ⟨d1, -⟩ := c2 hfr
      rw [hG]
      beta_reduce
      rw [← refInt_faPt he v2 (f := fun x y => fluxAt c e o (ρ (F el fa).ne * jDet e (ves (F el fa).ne)) (FL (F el fa).ne) (FN (F el fa).ne) (fun fb => (F (F el fa).ne fb).toIn []) (T (F el fa).ne)
          (fun fb => T ((F (F el fa).ne fb).nb (F el fa).ne)) r (vq j) (F el fa).fId x y * affine e.nDim (b j) (W j) (refToPhy e (ves (F el fa).ne) (crd (elPt e (F el fa).fId x y))))]
      · rw [← neg_one_mul, ← refInt_smul]
        congr 1
        funext x y z
        have ha : affine e.nDim (b j) (W j) (refToPhy e (ves (F el fa).ne) (crd (elPt e (F el fa).fId (faPt e ve x y 0) (faPt e ve x y 1)))) =
            affine e.nDim (b j) (W j) (refToPhy e (ves el) (crd (elPt e fa x y))) := affine_shift (b j) (hWt el hel fa hfa hfr j hj)
          (C94_point (by rcases he with rfl | rfl <;> decide) v2 hfa v3 (ves el) (ves (F el fa).ne) (t el fa) v4 x y)
        rw [hpair el hel fa hfa hfr ve v1 j hj, ha]
        ring
      · refine Continuous.mul (c2_of_c3 (cont_fluxAt c e o _ _ _ _ _ _ r (vq j) (F el fa).fId)) ?_
        exact cont_affine he _ _ _ (P := fun p : ℝ × ℝ => elPt e (F el fa).fId p.1 p.2) (fun i => (continuous_apply i).comp (cont_elPt e (F el fa).fId continuous_fst continuous_snd))
    exact sum_faces hcl hzero hneg
  rw [momentum, momentum, Finset.sum_congr rfl (fun el h => hel el (Finset.mem_range.1 h)), Finset.sum_add_distrib, Finset.sum_comm]
  rw [Finset.sum_eq_zero (s := Finset.range e.nDim), add_zero]
  intro j hj
  rw [← Finset.sum_product', hfaces j (Finset.mem_range.1 hj)]

end Edge.Cons
