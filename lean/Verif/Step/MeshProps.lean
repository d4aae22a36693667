import Verif.Step.Mesh
/-!
C97: polynomial solutions of the elastic wave equations are reproduced by any number of time steps on any mesh.
-/
namespace Edge.Step
open Edge Edge.Map Edge.Quad Edge.Basis Edge.Proj Edge.Gen Edge.Flux Edge.Seismic Matrix

/-! ### Specification -/

/-- `w τ q x`: a solution of the elastic wave equations in three dimensions, whose quantities are polynomials of degree less than `o` in space at any time. -/
structure Wave3 (m : Material) (o : Nat) (w : ℝ → Nat → (Nat → ℝ) → ℝ) : Prop where
  eqs : ∀ τ x, Elastic3 m.rho m.lam m.mu w τ x
  poly : ∀ τ, ∀ q < 9, ∃ p : MvPolynomial (Fin 3) ℝ, p.totalDegree < o ∧ ∀ x, w τ q x = MvPolynomial.eval (fun i : Fin 3 => x i.val) p

/-- The same in two dimensions. -/
structure Wave2 (m : Material) (o : Nat) (w : ℝ → Nat → (Nat → ℝ) → ℝ) : Prop where
  eqs : ∀ τ x, Elastic2 m.rho m.lam m.mu w τ x
  poly : ∀ τ, ∀ q < 5, ∃ p : MvPolynomial (Fin 3) ℝ, p.totalDegree < o ∧ ∀ x, w τ q x = MvPolynomial.eval ![x 0, x 1, 0] p

/-- The adjacent element of a face has its vertices, shifted by `t`, in the opposite order (C78, C79); `t` is zero if the face is not at a periodic boundary. -/
def Joined (e : Ent) (ves : Nat → Nat → Nat → ℝ) (el fa : Nat) (f : MFace ℝ) (t : Nat → ℝ) : Prop :=
  f.outflow = false → f.freeSurface = false → ∃ ve, f.vId = some ve ∧ ve < e.nVeOpts ∧ f.fId < e.nFa ∧
    ∀ d < e.nDim, Opposite e ve (fun k => faCrd e (ves el) fa d k + t d) (faCrd e (ves f.ne) f.fId d)

/-- Point of face `fa` of element `el`. -/
noncomputable def faceX (e : Ent) (ves : Nat → Nat → ℝ) (fa : Nat) (x y : ℝ) : Nat → ℝ := refToPhy e ves (crd (elPt e fa x y))

/-- The quantities at a point. -/
def at_ (n : Nat) (w : Nat → (Nat → ℝ) → ℝ) (x : Nat → ℝ) (k : Fin n) : ℝ := w k.val x

/-! ### Proofs -/

theorem int_lin {n : Nat} {d : Type} (L : (Fin n → ℝ) →ₗ[ℝ] (d → ℝ)) {q : ℝ → Fin n → ℝ} (hq : ∀ k, Continuous (fun τ => q τ k)) (dT : ℝ) (i : d) :
    L (fun k => ∫ τ in (0:ℝ)..dT, q τ k) i = ∫ τ in (0:ℝ)..dT, L (q τ) i := by
  have h : ∀ v : Fin n → ℝ, L v i = ∑ k, v k * L (fun j => if k = j then 1 else 0) i := by
    intro v
    conv_lhs => rw [LinearMap.pi_apply_eq_sum_univ L v]
    rw [Finset.sum_apply]
    rfl
  rw [h]
  simp only [fun τ => h (q τ)]
  rw [intervalIntegral.integral_finsetSum]
  · exact Finset.sum_congr rfl (fun k _ => by rw [intervalIntegral.integral_mul_const])
  · exact fun k _ => ((hq k).mul continuous_const).intervalIntegrable _ _

/-- The part in direction of the normal as linear map. -/
def nrmL {d : Type} [Fintype d] (ν : d → ℝ) : (d → ℝ) →ₗ[ℝ] (d → ℝ) where
  toFun := nrm ν
  map_add' := nrm_add ν
  map_smul' := nrm_smul ν

theorem quiet_int {n : Nat} {d : Type} [Fintype d] (tr vl : (Fin n → ℝ) →ₗ[ℝ] (d → ℝ)) {qL qR : ℝ → Fin n → ℝ} (hL : ∀ k, Continuous (fun τ => qL τ k))
    (hR : ∀ k, Continuous (fun τ => qR τ k)) {m' : Material} {ν : d → ℝ} {free out : Bool} (h : ∀ τ, Quiet m' ν free out (tr (qL τ)) (vl (qL τ)) (tr (qR τ)) (vl (qR τ))) (dT : ℝ) :
    Quiet m' ν free out (tr (fun k => ∫ τ in (0:ℝ)..dT, qL τ k)) (vl (fun k => ∫ τ in (0:ℝ)..dT, qL τ k)) (tr (fun k => ∫ τ in (0:ℝ)..dT, qR τ k)) (vl (fun k => ∫ τ in (0:ℝ)..dT, qR τ k)) := by
  have hz : ∀ L : (Fin n → ℝ) →ₗ[ℝ] (d → ℝ), (∀ τ, L (qL τ) = 0) → L (fun k => ∫ τ in (0:ℝ)..dT, qL τ k) = 0 := by
    intro L hL0
    funext i
    rw [int_lin L hL]
    simp [hL0]
  unfold Quiet at h ⊢
  rcases out with _ | _
  · rcases free with _ | _
    · simp only [Bool.false_eq_true, if_false] at h ⊢
      refine ⟨?_, ?_⟩ <;> funext i <;> rw [int_lin _ hL, int_lin _ hR] <;> congr 1 <;> funext τ
      · rw [(h τ).1]
      · rw [(h τ).2]
    · simp only [Bool.false_eq_true, if_false, if_true] at h ⊢
      exact hz tr h
  · simp only [if_true] at h ⊢
    have h1 := hz ((nrmL ν).comp tr + m'.zp • (nrmL ν).comp vl) (fun τ => by
      show nrm ν (tr (qL τ)) + m'.zp • nrm ν (vl (qL τ)) = 0
      rw [(h τ).1, neg_smul, neg_add_cancel])
    have h2 := hz ((LinearMap.id - nrmL ν).comp tr + m'.zs • (LinearMap.id - nrmL ν).comp vl) (fun τ => by
      show tng ν (tr (qL τ)) + m'.zs • tng ν (vl (qL τ)) = 0
      rw [(h τ).2, neg_smul, neg_add_cancel])
    refine ⟨?_, ?_⟩
    · rw [neg_smul]; exact eq_neg_of_add_eq_zero_left h1
    · rw [neg_smul]; exact eq_neg_of_add_eq_zero_left h2

theorem faceX_at {e : Ent} (he : e = .tria ∨ e = .tet) {tol : ℝ} (ht : 0 ≤ tol) {ves : Nat → Nat → Nat → ℝ} {el fa : Nat} (hfa : fa < e.nFa) {f : MFace ℝ} {t : Nat → ℝ}
    (hj : Joined e ves el fa f t) (hout : f.outflow = false) (hfree : f.freeSurface = false) (hr : Regular tol e (ves f.ne)) {o : Nat} (u : Nat → ℝ) (x y : ℝ) :
    physEval tol e o (ves f.ne) u (fun d => faceX e (ves el) fa x y d + t d) = recon e o u (sidePt e fa (f.toIn []) x y) := by
  obtain ⟨ve, h1, h2, h3, h4⟩ := hj hout hfree
  have h5 : sidePt e fa (f.toIn []) x y = outPt e ve f.fId x y := by
    simp only [sidePt, MFace.toIn, hfree, h1]
  rw [h5]
  have hne : e ≠ .line := by rcases he with rfl | rfl <;> simp
  exact physEval_pt ht he hr u (C94_point hne h2 hfa h3 (ves el) (ves f.ne) t h4 x y)

/-- Traction as linear map. -/
def tr3 (ν : Fin 3 → ℝ) : (Fin 9 → ℝ) →ₗ[ℝ] (Fin 3 → ℝ) where
  toFun q := stress3 q *ᵥ ν
  map_add' a b := by
    rw [← Matrix.add_mulVec]; congr 1; ext i j; fin_cases i <;> fin_cases j <;> simp [stress3]
  map_smul' k a := by
    rw [RingHom.id_apply, ← Matrix.smul_mulVec]; congr 1; ext i j; fin_cases i <;> fin_cases j <;> simp [stress3]

/-- Velocity as linear map. -/
def vl3 : (Fin 9 → ℝ) →ₗ[ℝ] (Fin 3 → ℝ) where
  toFun q := vel3 q
  map_add' a b := by funext i; fin_cases i <;> simp [vel3]
  map_smul' k a := by funext i; fin_cases i <;> simp [vel3]

set_option maxHeartbeats 1600000 in
theorem elastic3_op {rho lam mu : ℝ} {w : ℝ → Nat → (Nat → ℝ) → ℝ} {τ : ℝ} {x : Nat → ℝ} (h : Elastic3 rho lam mu w τ x) {q : Nat} (hq : q < 9) :
    HasDerivAt (fun t => w t q x) (-∑ d ∈ Finset.range 3, ∑ k ∈ Finset.range 9, (if h : d < 3 then Gen.ext (jac3 rho lam mu ⟨d, h⟩) else fun _ _ => 0) q k * dd d (w τ k) x) τ := by
  obtain ⟨h0, h1, h2, h3, h4, h5, h6, h7, h8⟩ := h
  interval_cases q
  · refine h0.congr_deriv ?_
    simp [Finset.sum_range_succ, Gen.ext, Seismic.jac3]
    try ring
  · refine h1.congr_deriv ?_
    simp [Finset.sum_range_succ, Gen.ext, Seismic.jac3]
    try ring
  · refine h2.congr_deriv ?_
    simp [Finset.sum_range_succ, Gen.ext, Seismic.jac3]
    try ring
  · refine h3.congr_deriv ?_
    simp [Finset.sum_range_succ, Gen.ext, Seismic.jac3]
    try ring
  · refine h4.congr_deriv ?_
    simp [Finset.sum_range_succ, Gen.ext, Seismic.jac3]
    try ring
  · refine h5.congr_deriv ?_
    simp [Finset.sum_range_succ, Gen.ext, Seismic.jac3]
    try ring
  · refine h6.congr_deriv ?_
    simp [Finset.sum_range_succ, Gen.ext, Seismic.jac3]
    try ring
  · refine h7.congr_deriv ?_
    simp [Finset.sum_range_succ, Gen.ext, Seismic.jac3]
    try ring
  · refine h8.congr_deriv ?_
    simp [Finset.sum_range_succ, Gen.ext, Seismic.jac3]
    try ring

/-- Matrices of the solver, modes of the solution, and consistency, 3D. -/
theorem exact_set3 {c : Dg.Cfg} {o : Nat} (ho : 0 < o) (hF : Flux.Fits c .tet o) (hc : Fit c .tet o) (hq : c.nQtsE = 9)
    {els : List (MEl ℝ)} {F : Nat → Nat → MFace ℝ} {tol tolL : ℝ} {ves : Nat → Nat → Nat → ℝ} {m : Nat → Material} {m' : Nat → Nat → Material} {ν : Nat → Nat → Fin 3 → ℝ}
    {t : Nat → Nat → Nat → ℝ}
    (hels : ∀ el E, els[el]? = some E → SetUp3 tol tolL (ves el) (m el) (m' el) (ν el) (fun fa => (F el fa).freeSurface) E.starE E.fsL (fun fa => (F el fa).fsE) ∧
      FacesOk .tet els.length E.faces (F el) ∧ ∀ fa < 4, Joined .tet ves el fa (F el fa) (t el fa))
    {R : Nat → Prop} {w : Nat → Nat → ℝ → Nat → (Nat → ℝ) → ℝ} (hw : ∀ el < els.length, R el → ∀ r < c.nCrs, Wave3 (m el) o (w el r))
    (hQ : ∀ el < els.length, R el → ∀ fa < 4, ((F el fa).outflow = false → (F el fa).freeSurface = false → R (F el fa).ne) → ∀ r < c.nCrs, ∀ τ x y, Quiet (m' el fa) (ν el fa) (F el fa).freeSurface (F el fa).outflow
      (stress3 (at_ 9 (w el r τ) (faceX .tet (ves el) fa x y)) *ᵥ ν el fa) (vel3 (at_ 9 (w el r τ) (faceX .tet (ves el) fa x y)))
      (stress3 (at_ 9 (w (F el fa).ne r τ) (fun d => faceX .tet (ves el) fa x y d + t el fa d)) *ᵥ ν el fa)
      (vel3 (at_ 9 (w (F el fa).ne r τ) (fun d => faceX .tet (ves el) fa x y d + t el fa d)))) :
    ∃ (S FL FN : Nat → Nat → Nat → Nat → ℝ) (U : Nat → ℝ → Nat → Nat → Nat → ℝ), (∀ el E, els[el]? = some E → Dg.Mats c.nDis c.nQtsE c.nQtsE c.nQtsE E.starE (S el) ∧
      Dg.Mats c.nFas c.nQtsE c.nQtsE c.nQtsE E.fsL (FL el) ∧ FacesOk .tet els.length E.faces (F el) ∧ ∀ fa < c.nFas, (F el fa).outflow = false → Dg.Mat c.nQtsE c.nQtsE c.nQtsE (F el fa).fsE (FN el fa)) ∧
    (∀ el < els.length, R el → ∀ r < c.nCrs, ∀ q < c.nQtsE, ∀ τ x, physEval tol .tet o (ves el) (fun md => U el τ q md r) x = w el r τ q x) ∧
    (∀ el < els.length, R el → Solution c .tet o (S el) (U el)) ∧
    (∀ s dT, ∀ el < els.length, Inside .tet F R 1 el → Consistent c .tet o (S el) (FL el) (FN el) (fun fa => (F el fa).toIn []) (tInt c .tet o (S el) (U el s) dT)
      (fun fa => tInt c .tet o (S ((F el fa).nb el)) (U ((F el fa).nb el) s) dT)) ∧
    (∀ el < els.length, ∀ (a b : Nat → ℝ), (∀ x, physEval tol .tet o (ves el) a x = physEval tol .tet o (ves el) b x) → ∀ md < nModes .tet o, a md = b md) := by
  have he : .tet = Ent.tria ∨ .tet = Ent.tet := by decide
  have hget : ∀ el (h : el < els.length), els[el]? = some els[el] := fun el h => List.getElem?_eq_getElem h
  have hset := fun el (h : el < els.length) => hels el _ (hget el h)
  -- matrices
  have hmat : ∀ el, ∃ (J : Nat → Nat → ℝ) (S FL FN : Nat → Nat → Nat → ℝ), ∀ E, els[el]? = some E → Dg.Mats c.nDis c.nQtsE c.nQtsE c.nQtsE E.starE S ∧
      (∀ d < Ent.nDim .tet, ∀ d2 < Ent.nDim .tet, ∑ di ∈ Finset.range (Ent.nDim .tet), J d di * evalJac .tet (ves el) di d2 = if d = d2 then 1 else 0) ∧
      (∀ di < 3, ∀ q < 9, ∀ k < 9, S di q k = ∑ d ∈ Finset.range 3, J d di * (if h : d < 3 then Gen.ext (jac3 (m el).rho (m el).lam (m el).mu ⟨d, h⟩) else fun _ _ => 0) q k) ∧
      Dg.Mats c.nFas c.nQtsE c.nQtsE c.nQtsE E.fsL FL ∧ (∀ fa < c.nFas, Dg.Mat c.nQtsE c.nQtsE c.nQtsE (F el fa).fsE (FN fa)) ∧
      ∀ T Tn, AllQuiet3 c o (m' el) (ν el) (fun fa => (F el fa).toIn []) T Tn → Consistent c .tet o S FL FN (fun fa => (F el fa).toIn []) T Tn := by
    intro el
    by_cases h : el < els.length
    · obtain ⟨hs, -, -⟩ := hset el h
      obtain ⟨J, S, s1, s2, s3⟩ := star3_spec hs.tols.2 hs.star
      obtain ⟨FL, FN, f1, f2, f3⟩ := consistent3 (fs := fun fa => (F el fa).toIn []) hc hq hs s2 s3
      refine ⟨J, S, FL, FN, fun E hE => ?_⟩
      rw [hget el h, Option.some_inj] at hE
      subst hE
      exact ⟨by rw [hq, hc.dis]; exact s1, s2, s3, by rw [hq, hF.fas]; exact f1, by rw [hq, hF.fas]; exact f2, f3⟩
    · exact ⟨fun _ _ => 0, fun _ _ _ => 0, fun _ _ _ => 0, fun _ _ _ => 0, fun E hE => by rw [List.getElem?_eq_none (by omega)] at hE; cases hE⟩
  choose J S FL FN hM using hmat
  -- modes of the solution
  have hmodes : ∀ el τ q r, ∃ v : Nat → ℝ, el < els.length → R el → q < 9 → r < c.nCrs → ∀ x, physEval tol .tet o (ves el) v x = w el r τ q x := by
    intro el τ q r
    by_cases h : el < els.length ∧ R el ∧ q < 9 ∧ r < c.nCrs
    · obtain ⟨hs, -, -⟩ := hset el h.1
      obtain ⟨p, p1, p2⟩ := (hw el h.1 h.2.1 r h.2.2.2).poly τ q h.2.2.1
      obtain ⟨v, hv⟩ := modes_of_poly (o := o) he hs.tols.1 hs.regular hs.det (f := w el r τ q) p1 (fun x => (p2 x).trans (by congr 2; funext i; fin_cases i <;> simp [Ent.nDim]))
      exact ⟨v, fun _ _ _ _ => hv⟩
    · exact ⟨fun _ => 0, fun h1 h2 h3 h4 => absurd ⟨h1, h2, h3, h4⟩ h⟩
  choose V hV using hmodes
  set U : Nat → ℝ → Nat → Nat → Nat → ℝ := fun el τ q md r => V el τ q r md with hUdef
  have hU : ∀ el < els.length, R el → ∀ r < c.nCrs, ∀ q < c.nQtsE, ∀ τ x, physEval tol .tet o (ves el) (fun md => U el τ q md r) x = w el r τ q x := by
    intro el hel hR r hr q hq' τ x
    exact hV el τ q r hel hR (by omega) hr x
  have hder : ∀ el < els.length, R el → ∀ r < c.nCrs, ∀ q < 9, ∀ τ x, HasDerivAt (fun t => w el r t q x) (-∑ d ∈ Finset.range 3, ∑ k ∈ Finset.range 9,
      (if h : d < 3 then Gen.ext (jac3 (m el).rho (m el).lam (m el).mu ⟨d, h⟩) else fun _ _ => 0) q k * dd d (w el r τ k) x) τ :=
    fun el hel hR r hr q hq' τ x => elastic3_op ((hw el hel hR r hr).eqs τ x) hq'
  have hsol : ∀ el < els.length, R el → Solution c .tet o (S el) (U el) := by
    intro el hel hR
    obtain ⟨hs, -, -⟩ := hset el hel
    obtain ⟨-, j1, j2, -⟩ := hM el _ (hget el hel)
    refine Solution.of_phys he hc hs.tols.1 hs.regular j1 (A := fun d => if h : d < 3 then Gen.ext (jac3 (m el).rho (m el).lam (m el).mu ⟨d, h⟩) else fun _ _ => 0)
      (by rw [hq]; exact j2) (w := w el) (hU el hel hR) ?_
    rw [hq]
    exact hder el hel hR
  have hcont : ∀ el < els.length, R el → ∀ r < c.nCrs, ∀ (k : Fin 9) (s : ℝ) (x : Nat → ℝ), Continuous (fun τ => at_ 9 (w el r (s + τ)) x k) := by
    intro el hel hR r hr k s x
    have h2 : Continuous (fun τ => w el r τ k.val x) := continuous_iff_continuousAt.2 (fun τ => (hder el hel hR r hr k.val k.2 τ x).continuousAt)
    exact h2.comp (continuous_const.add continuous_id)
  have hcons : ∀ s dT, ∀ el < els.length, Inside .tet F R 1 el → Consistent c .tet o (S el) (FL el) (FN el) (fun fa => (F el fa).toIn []) (tInt c .tet o (S el) (U el s) dT)
      (fun fa => tInt c .tet o (S ((F el fa).nb el)) (U ((F el fa).nb el) s) dT) := by
    intro s dT el hel hin
    have hR : R el := hin.1
    obtain ⟨hs, hfo, hjo⟩ := hset el hel
    obtain ⟨-, -, -, -, -, hcq⟩ := hM el _ (hget el hel)
    refine hcq _ _ (fun fa hfa => ⟨fun _ hfr q _ md _ r _ => ?_, fun r hr x y => ?_⟩)
    · have hfr : (F el fa).freeSurface = true := hfr
      simp only [MFace.nb, hfr, if_true]
    · have eL : state 9 .tet o (tInt c .tet o (S el) (U el s) dT) r (elPt .tet fa x y) = fun k => ∫ τ in (0:ℝ)..dT, at_ 9 (w el r (s + τ)) (faceX .tet (ves el) fa x y) k := by
        funext k
        rw [state, (hsol el hel hR).tInt he ho hc s dT (by rw [hq]; exact k.2) hr]
        congr 1
        funext τ
        rw [at_, ← hU el hel hR r hr k.val (by rw [hq]; exact k.2) (s + τ), physEval_pt hs.tols.1 he hs.regular _ (x := faceX .tet (ves el) fa x y) (fun d _ => rfl)]
      by_cases hbd : (F el fa).outflow = false ∧ (F el fa).freeSurface = false
      · have hnb : (F el fa).nb el = (F el fa).ne := by simp [MFace.nb, hbd.2]
        have hne := (hfo.2 fa hfa).2.1 hbd.1 hbd.2
        have hRn : R (F el fa).ne := hin.2 fa hfa hbd.1 hbd.2
        obtain ⟨hs', -, -⟩ := hset _ hne
        have eR : state 9 .tet o (tInt c .tet o (S ((F el fa).nb el)) (U ((F el fa).nb el) s) dT) r (sidePt .tet fa ((F el fa).toIn []) x y) =
            fun k => ∫ τ in (0:ℝ)..dT, at_ 9 (w (F el fa).ne r (s + τ)) (fun d => faceX .tet (ves el) fa x y d + t el fa d) k := by
          funext k
          rw [hnb, state, (hsol _ hne hRn).tInt he ho hc s dT (by rw [hq]; exact k.2) hr]
          congr 1
          funext τ
          rw [at_, ← hU _ hne hRn r hr k.val (by rw [hq]; exact k.2) (s + τ), faceX_at he hs'.tols.1 hfa (hjo fa hfa) hbd.1 hbd.2 hs'.regular]
        beta_reduce
        rw [eL, eR]
        exact quiet_int (tr3 (ν el fa)) vl3 (fun k => hcont el hel hR r hr k s _) (fun k => hcont _ hne hRn r hr k s _) (fun τ => hQ el hel hR fa hfa (fun h1 h2 => hin.2 fa hfa h1 h2) r hr (s + τ) x y) dT
      · have h3 := quiet_int (tr3 (ν el fa)) vl3 (qR := fun _ _ => 0) (m' := m' el fa) (ν := ν el fa) (free := (F el fa).freeSurface) (out := (F el fa).outflow)
          (fun k => hcont el hel hR r hr k s (faceX .tet (ves el) fa x y)) (fun k => continuous_const)
          (fun τ => by
            have := hQ el hel hR fa hfa (fun h1 h2 => hin.2 fa hfa h1 h2) r hr (s + τ) x y
            unfold Quiet at this ⊢
            rcases hb1 : (F el fa).outflow with _ | _
            · rcases hb2 : (F el fa).freeSurface with _ | _
              · exact absurd ⟨hb1, hb2⟩ hbd
              · simp only [hb1, hb2, Bool.false_eq_true, if_false, if_true] at this ⊢
                exact this
            · simp only [hb1, if_true] at this ⊢
              exact this) dT
        rw [← eL] at h3
        unfold Quiet at h3 ⊢
        rcases hb1 : (F el fa).outflow with _ | _
        · rcases hb2 : (F el fa).freeSurface with _ | _
          · exact absurd ⟨hb1, hb2⟩ hbd
          · simp only [hb1, hb2, Bool.false_eq_true, if_false, if_true, MFace.toIn] at h3 ⊢
            exact h3
        · simp only [hb1, if_true, MFace.toIn] at h3 ⊢
          exact h3
  refine ⟨S, FL, FN, U, fun el E hE => by
    obtain ⟨a1, -, -, a2, a3, -⟩ := hM el E hE
    exact ⟨a1, a2, (hels el E hE).2.1, fun fa hfa _ => a3 fa hfa⟩, hU, hsol, hcons, ?_⟩
  intro el hel a b hab md hmd
  obtain ⟨hs, -, -⟩ := hset el hel
  obtain ⟨pts, hp⟩ := mode_pts .tet o
  have h2 : ∀ p, recon .tet o a p = recon .tet o b p := by
    intro p
    rw [← physEval_pt hs.tols.1 he hs.regular a (x := refToPhy .tet (ves el) (crd p)) (fun d _ => rfl), hab, physEval_pt hs.tols.1 he hs.regular b (fun d _ => rfl)]
  rw [hp a md hmd, hp b md hmd]
  simp only [h2]

/-- C97, 3D: on any mesh of tetrahedra, with any materials and boundary conditions, and any region `R` of it. `w el` is the solution in element `el` of the region, a
polynomial of degree less than the order in space. If, in the region, traction and velocity are continuous at the inner faces (and equal at periodic boundaries), the
traction is zero at the free surface, and only outgoing waves reach outflow boundaries, then any number of time steps of any sizes, which start with the degrees of freedom
of `w` at time `s` in the region and with arbitrary ones elsewhere, give those of `w` at the time which is reached, in all elements which are as many faces away from the
boundary of the region as there are steps. -/
theorem C97_region3 {c : Dg.Cfg} {o : Nat} (ho : 0 < o) (hF : Flux.Fits c .tet o) (hc : Fit c .tet o) (hq : c.nQtsE = 9) {lT lV LN FT : List (List ℝ)} (hst : Stored c .tet o lT lV LN FT)
    {els : List (MEl ℝ)} {F : Nat → Nat → MFace ℝ} {tol tolL : ℝ} {ves : Nat → Nat → Nat → ℝ} {m : Nat → Material} {m' : Nat → Nat → Material} {ν : Nat → Nat → Fin 3 → ℝ}
    {t : Nat → Nat → Nat → ℝ}
    (hels : ∀ el E, els[el]? = some E → SetUp3 tol tolL (ves el) (m el) (m' el) (ν el) (fun fa => (F el fa).freeSurface) E.starE E.fsL (fun fa => (F el fa).fsE) ∧
      FacesOk .tet els.length E.faces (F el) ∧ ∀ fa < 4, Joined .tet ves el fa (F el fa) (t el fa))
    {R : Nat → Prop} {w : Nat → Nat → ℝ → Nat → (Nat → ℝ) → ℝ} (hw : ∀ el < els.length, R el → ∀ r < c.nCrs, Wave3 (m el) o (w el r))
    (hQ : ∀ el < els.length, R el → ∀ fa < 4, ((F el fa).outflow = false → (F el fa).freeSurface = false → R (F el fa).ne) → ∀ r < c.nCrs, ∀ τ x y, Quiet (m' el fa) (ν el fa) (F el fa).freeSurface (F el fa).outflow
      (stress3 (at_ 9 (w el r τ) (faceX .tet (ves el) fa x y)) *ᵥ ν el fa) (vel3 (at_ 9 (w el r τ) (faceX .tet (ves el) fa x y)))
      (stress3 (at_ 9 (w (F el fa).ne r τ) (fun d => faceX .tet (ves el) fa x y d + t el fa d)) *ᵥ ν el fa)
      (vel3 (at_ 9 (w (F el fa).ne r τ) (fun d => faceX .tet (ves el) fa x y d + t el fa d))))
    {sc0 sc1 : List ℝ} (h0 : sc0.length = c.nQtsE * c.nMdsFa * c.nCrs) (h1 : sc1.length = c.nQtsE * c.nMdsFa * c.nCrs)
    {st : List (List ℝ × Dg.CkMem ℝ)} (hlen : st.length = els.length) {s : ℝ} {u : Nat → Nat → Nat → Nat → ℝ} (hu : ∀ el < els.length, HasDofs c st el (u el) ∧
      (R el → ∀ r < c.nCrs, ∀ q < 9, ∀ x, physEval tol .tet o (ves el) (fun md => u el q md r) x = w el r s q x)) (dts : List ℝ) :
    ∃ st', runMesh c lT lV LN FT els sc0 sc1 dts st = some st' ∧ st'.length = els.length ∧ ∀ el < els.length, Inside .tet F R dts.length el → ∃ u', HasDofs c st' el u' ∧
      ∀ r < c.nCrs, ∀ q < 9, ∀ x, physEval tol .tet o (ves el) (fun md => u' q md r) x = w el r (s + dts.sum) q x := by
  have he : .tet = Ent.tria ∨ .tet = Ent.tet := by decide
  obtain ⟨S, FL, FN, U, hM, hU, hsol, hcons, hmd⟩ := exact_set3 ho hF hc hq hels hw hQ
  have hstart : ∀ el < els.length, Inside .tet F R 0 el → HasDofs c st el (U el s) := by
    intro el hel hR
    refine (hu el hel).1.congr (fun q md r hq' hmd' hr => ?_)
    rw [hc.mds] at hmd'
    exact hmd el hel (fun md => u el q md r) (fun md => U el s q md r) (fun x => by
      rw [(hu el hel).2 hR r hr q (by omega) x, hU el hel hR r hr q hq' s x]) md hmd'
  obtain ⟨st', k1, k2, -, k3⟩ := mesh_run he ho hF hc hst h0 h1 (F := F) (S := S) (FL := FL) (FN := FN) hM hsol hcons dts (fun el hel => ⟨_, (hu el hel).1⟩) hstart hlen
  exact ⟨st', k1, k2, fun el hel hin => ⟨_, k3 el hel (by rwa [Nat.zero_add]), fun r hr q hq' x => hU el hel hin.region r hr q (by omega) _ x⟩⟩

/-- C97, 3D: the same for a solution on all elements, with the boundary conditions at all boundaries: it is reproduced everywhere. -/
theorem C97_mesh3 {c : Dg.Cfg} {o : Nat} (ho : 0 < o) (hF : Flux.Fits c .tet o) (hc : Fit c .tet o) (hq : c.nQtsE = 9) {lT lV LN FT : List (List ℝ)} (hst : Stored c .tet o lT lV LN FT)
    {els : List (MEl ℝ)} {F : Nat → Nat → MFace ℝ} {tol tolL : ℝ} {ves : Nat → Nat → Nat → ℝ} {m : Nat → Material} {m' : Nat → Nat → Material} {ν : Nat → Nat → Fin 3 → ℝ}
    {t : Nat → Nat → Nat → ℝ}
    (hels : ∀ el E, els[el]? = some E → SetUp3 tol tolL (ves el) (m el) (m' el) (ν el) (fun fa => (F el fa).freeSurface) E.starE E.fsL (fun fa => (F el fa).fsE) ∧
      FacesOk .tet els.length E.faces (F el) ∧ ∀ fa < 4, Joined .tet ves el fa (F el fa) (t el fa))
    {w : Nat → Nat → ℝ → Nat → (Nat → ℝ) → ℝ} (hw : ∀ el < els.length, ∀ r < c.nCrs, Wave3 (m el) o (w el r))
    (hQ : ∀ el < els.length, ∀ fa < 4, ∀ r < c.nCrs, ∀ τ x y, Quiet (m' el fa) (ν el fa) (F el fa).freeSurface (F el fa).outflow
      (stress3 (at_ 9 (w el r τ) (faceX .tet (ves el) fa x y)) *ᵥ ν el fa) (vel3 (at_ 9 (w el r τ) (faceX .tet (ves el) fa x y)))
      (stress3 (at_ 9 (w (F el fa).ne r τ) (fun d => faceX .tet (ves el) fa x y d + t el fa d)) *ᵥ ν el fa)
      (vel3 (at_ 9 (w (F el fa).ne r τ) (fun d => faceX .tet (ves el) fa x y d + t el fa d))))
    {sc0 sc1 : List ℝ} (h0 : sc0.length = c.nQtsE * c.nMdsFa * c.nCrs) (h1 : sc1.length = c.nQtsE * c.nMdsFa * c.nCrs)
    {st : List (List ℝ × Dg.CkMem ℝ)} (hlen : st.length = els.length) {s : ℝ} {u : Nat → Nat → Nat → Nat → ℝ} (hu : ∀ el < els.length, HasDofs c st el (u el) ∧
      ∀ r < c.nCrs, ∀ q < 9, ∀ x, physEval tol .tet o (ves el) (fun md => u el q md r) x = w el r s q x) (dts : List ℝ) :
    ∃ st', runMesh c lT lV LN FT els sc0 sc1 dts st = some st' ∧ st'.length = els.length ∧ ∀ el < els.length, ∃ u', HasDofs c st' el u' ∧
      ∀ r < c.nCrs, ∀ q < 9, ∀ x, physEval tol .tet o (ves el) (fun md => u' q md r) x = w el r (s + dts.sum) q x := by
  obtain ⟨st', k1, k2, k3⟩ := C97_region3 ho hF hc hq hst (R := fun _ => True) hels (fun el hel _ => hw el hel) (fun el hel _ fa hfa _ => hQ el hel fa hfa) h0 h1 hlen
    (fun el hel => ⟨(hu el hel).1, fun _ => (hu el hel).2⟩) dts
  exact ⟨st', k1, k2, fun el hel => k3 el hel Inside.all⟩


/-- Traction as linear map. -/
def tr2 (ν : Fin 2 → ℝ) : (Fin 5 → ℝ) →ₗ[ℝ] (Fin 2 → ℝ) where
  toFun q := stress2 q *ᵥ ν
  map_add' a b := by
    rw [← Matrix.add_mulVec]; congr 1; ext i j; fin_cases i <;> fin_cases j <;> simp [stress2]
  map_smul' k a := by
    rw [RingHom.id_apply, ← Matrix.smul_mulVec]; congr 1; ext i j; fin_cases i <;> fin_cases j <;> simp [stress2]

/-- Velocity as linear map. -/
def vl2 : (Fin 5 → ℝ) →ₗ[ℝ] (Fin 2 → ℝ) where
  toFun q := vel2 q
  map_add' a b := by funext i; fin_cases i <;> simp [vel2]
  map_smul' k a := by funext i; fin_cases i <;> simp [vel2]

set_option maxHeartbeats 1600000 in
theorem elastic2_op {rho lam mu : ℝ} {w : ℝ → Nat → (Nat → ℝ) → ℝ} {τ : ℝ} {x : Nat → ℝ} (h : Elastic2 rho lam mu w τ x) {q : Nat} (hq : q < 5) :
    HasDerivAt (fun t => w t q x) (-∑ d ∈ Finset.range 2, ∑ k ∈ Finset.range 5, (if h : d < 2 then Gen.ext (jac2 rho lam mu ⟨d, h⟩) else fun _ _ => 0) q k * dd d (w τ k) x) τ := by
  obtain ⟨h0, h1, h2, h3, h4⟩ := h
  interval_cases q
  · refine h0.congr_deriv ?_
    simp [Finset.sum_range_succ, Gen.ext, Seismic.jac2]
    try ring
  · refine h1.congr_deriv ?_
    simp [Finset.sum_range_succ, Gen.ext, Seismic.jac2]
    try ring
  · refine h2.congr_deriv ?_
    simp [Finset.sum_range_succ, Gen.ext, Seismic.jac2]
    try ring
  · refine h3.congr_deriv ?_
    simp [Finset.sum_range_succ, Gen.ext, Seismic.jac2]
    try ring
  · refine h4.congr_deriv ?_
    simp [Finset.sum_range_succ, Gen.ext, Seismic.jac2]
    try ring

/-- Matrices of the solver, modes of the solution, and consistency, 2D. -/
theorem exact_set2 {c : Dg.Cfg} {o : Nat} (ho : 0 < o) (hF : Flux.Fits c .tria o) (hc : Fit c .tria o) (hq : c.nQtsE = 5)
    {els : List (MEl ℝ)} {F : Nat → Nat → MFace ℝ} {tol tolL : ℝ} {ves : Nat → Nat → Nat → ℝ} {m : Nat → Material} {m' : Nat → Nat → Material} {ν : Nat → Nat → Fin 2 → ℝ}
    {t : Nat → Nat → Nat → ℝ}
    (hels : ∀ el E, els[el]? = some E → SetUp2 tol tolL (ves el) (m el) (m' el) (ν el) (fun fa => (F el fa).freeSurface) E.starE E.fsL (fun fa => (F el fa).fsE) ∧
      FacesOk .tria els.length E.faces (F el) ∧ ∀ fa < 3, Joined .tria ves el fa (F el fa) (t el fa))
    {R : Nat → Prop} {w : Nat → Nat → ℝ → Nat → (Nat → ℝ) → ℝ} (hw : ∀ el < els.length, R el → ∀ r < c.nCrs, Wave2 (m el) o (w el r))
    (hQ : ∀ el < els.length, R el → ∀ fa < 3, ((F el fa).outflow = false → (F el fa).freeSurface = false → R (F el fa).ne) → ∀ r < c.nCrs, ∀ τ x y, Quiet (m' el fa) (ν el fa) (F el fa).freeSurface (F el fa).outflow
      (stress2 (at_ 5 (w el r τ) (faceX .tria (ves el) fa x y)) *ᵥ ν el fa) (vel2 (at_ 5 (w el r τ) (faceX .tria (ves el) fa x y)))
      (stress2 (at_ 5 (w (F el fa).ne r τ) (fun d => faceX .tria (ves el) fa x y d + t el fa d)) *ᵥ ν el fa)
      (vel2 (at_ 5 (w (F el fa).ne r τ) (fun d => faceX .tria (ves el) fa x y d + t el fa d)))) :
    ∃ (S FL FN : Nat → Nat → Nat → Nat → ℝ) (U : Nat → ℝ → Nat → Nat → Nat → ℝ), (∀ el E, els[el]? = some E → Dg.Mats c.nDis c.nQtsE c.nQtsE c.nQtsE E.starE (S el) ∧
      Dg.Mats c.nFas c.nQtsE c.nQtsE c.nQtsE E.fsL (FL el) ∧ FacesOk .tria els.length E.faces (F el) ∧ ∀ fa < c.nFas, (F el fa).outflow = false → Dg.Mat c.nQtsE c.nQtsE c.nQtsE (F el fa).fsE (FN el fa)) ∧
    (∀ el < els.length, R el → ∀ r < c.nCrs, ∀ q < c.nQtsE, ∀ τ x, physEval tol .tria o (ves el) (fun md => U el τ q md r) x = w el r τ q x) ∧
    (∀ el < els.length, R el → Solution c .tria o (S el) (U el)) ∧
    (∀ s dT, ∀ el < els.length, Inside .tria F R 1 el → Consistent c .tria o (S el) (FL el) (FN el) (fun fa => (F el fa).toIn []) (tInt c .tria o (S el) (U el s) dT)
      (fun fa => tInt c .tria o (S ((F el fa).nb el)) (U ((F el fa).nb el) s) dT)) ∧
    (∀ el < els.length, ∀ (a b : Nat → ℝ), (∀ x, physEval tol .tria o (ves el) a x = physEval tol .tria o (ves el) b x) → ∀ md < nModes .tria o, a md = b md) := by
  have he : .tria = Ent.tria ∨ .tria = Ent.tet := by decide
  have hget : ∀ el (h : el < els.length), els[el]? = some els[el] := fun el h => List.getElem?_eq_getElem h
  have hset := fun el (h : el < els.length) => hels el _ (hget el h)
  -- matrices
  have hmat : ∀ el, ∃ (J : Nat → Nat → ℝ) (S FL FN : Nat → Nat → Nat → ℝ), ∀ E, els[el]? = some E → Dg.Mats c.nDis c.nQtsE c.nQtsE c.nQtsE E.starE S ∧
      (∀ d < Ent.nDim .tria, ∀ d2 < Ent.nDim .tria, ∑ di ∈ Finset.range (Ent.nDim .tria), J d di * evalJac .tria (ves el) di d2 = if d = d2 then 1 else 0) ∧
      (∀ di < 2, ∀ q < 5, ∀ k < 5, S di q k = ∑ d ∈ Finset.range 2, J d di * (if h : d < 2 then Gen.ext (jac2 (m el).rho (m el).lam (m el).mu ⟨d, h⟩) else fun _ _ => 0) q k) ∧
      Dg.Mats c.nFas c.nQtsE c.nQtsE c.nQtsE E.fsL FL ∧ (∀ fa < c.nFas, Dg.Mat c.nQtsE c.nQtsE c.nQtsE (F el fa).fsE (FN fa)) ∧
      ∀ T Tn, AllQuiet2 c o (m' el) (ν el) (fun fa => (F el fa).toIn []) T Tn → Consistent c .tria o S FL FN (fun fa => (F el fa).toIn []) T Tn := by
    intro el
    by_cases h : el < els.length
    · obtain ⟨hs, -, -⟩ := hset el h
      obtain ⟨J, S, s1, s2, s3⟩ := star2_spec hs.tols.2 hs.star
      obtain ⟨FL, FN, f1, f2, f3⟩ := consistent2 (fs := fun fa => (F el fa).toIn []) hc hq hs s2 s3
      refine ⟨J, S, FL, FN, fun E hE => ?_⟩
      rw [hget el h, Option.some_inj] at hE
      subst hE
      exact ⟨by rw [hq, hc.dis]; exact s1, s2, s3, by rw [hq, hF.fas]; exact f1, by rw [hq, hF.fas]; exact f2, f3⟩
    · exact ⟨fun _ _ => 0, fun _ _ _ => 0, fun _ _ _ => 0, fun _ _ _ => 0, fun E hE => by rw [List.getElem?_eq_none (by omega)] at hE; cases hE⟩
  choose J S FL FN hM using hmat
  -- modes of the solution
  have hmodes : ∀ el τ q r, ∃ v : Nat → ℝ, el < els.length → R el → q < 5 → r < c.nCrs → ∀ x, physEval tol .tria o (ves el) v x = w el r τ q x := by
    intro el τ q r
    by_cases h : el < els.length ∧ R el ∧ q < 5 ∧ r < c.nCrs
    · obtain ⟨hs, -, -⟩ := hset el h.1
      obtain ⟨p, p1, p2⟩ := (hw el h.1 h.2.1 r h.2.2.2).poly τ q h.2.2.1
      obtain ⟨v, hv⟩ := modes_of_poly (o := o) he hs.tols.1 hs.regular hs.det (f := w el r τ q) p1 (fun x => (p2 x).trans (by congr 2; funext i; fin_cases i <;> simp [Ent.nDim]))
      exact ⟨v, fun _ _ _ _ => hv⟩
    · exact ⟨fun _ => 0, fun h1 h2 h3 h4 => absurd ⟨h1, h2, h3, h4⟩ h⟩
  choose V hV using hmodes
  set U : Nat → ℝ → Nat → Nat → Nat → ℝ := fun el τ q md r => V el τ q r md with hUdef
  have hU : ∀ el < els.length, R el → ∀ r < c.nCrs, ∀ q < c.nQtsE, ∀ τ x, physEval tol .tria o (ves el) (fun md => U el τ q md r) x = w el r τ q x := by
    intro el hel hR r hr q hq' τ x
    exact hV el τ q r hel hR (by omega) hr x
  have hder : ∀ el < els.length, R el → ∀ r < c.nCrs, ∀ q < 5, ∀ τ x, HasDerivAt (fun t => w el r t q x) (-∑ d ∈ Finset.range 2, ∑ k ∈ Finset.range 5,
      (if h : d < 2 then Gen.ext (jac2 (m el).rho (m el).lam (m el).mu ⟨d, h⟩) else fun _ _ => 0) q k * dd d (w el r τ k) x) τ :=
    fun el hel hR r hr q hq' τ x => elastic2_op ((hw el hel hR r hr).eqs τ x) hq'
  have hsol : ∀ el < els.length, R el → Solution c .tria o (S el) (U el) := by
    intro el hel hR
    obtain ⟨hs, -, -⟩ := hset el hel
    obtain ⟨-, j1, j2, -⟩ := hM el _ (hget el hel)
    refine Solution.of_phys he hc hs.tols.1 hs.regular j1 (A := fun d => if h : d < 2 then Gen.ext (jac2 (m el).rho (m el).lam (m el).mu ⟨d, h⟩) else fun _ _ => 0)
      (by rw [hq]; exact j2) (w := w el) (hU el hel hR) ?_
    rw [hq]
    exact hder el hel hR
  have hcont : ∀ el < els.length, R el → ∀ r < c.nCrs, ∀ (k : Fin 5) (s : ℝ) (x : Nat → ℝ), Continuous (fun τ => at_ 5 (w el r (s + τ)) x k) := by
    intro el hel hR r hr k s x
    have h2 : Continuous (fun τ => w el r τ k.val x) := continuous_iff_continuousAt.2 (fun τ => (hder el hel hR r hr k.val k.2 τ x).continuousAt)
    exact h2.comp (continuous_const.add continuous_id)
  have hcons : ∀ s dT, ∀ el < els.length, Inside .tria F R 1 el → Consistent c .tria o (S el) (FL el) (FN el) (fun fa => (F el fa).toIn []) (tInt c .tria o (S el) (U el s) dT)
      (fun fa => tInt c .tria o (S ((F el fa).nb el)) (U ((F el fa).nb el) s) dT) := by
    intro s dT el hel hin
    have hR : R el := hin.1
    obtain ⟨hs, hfo, hjo⟩ := hset el hel
    obtain ⟨-, -, -, -, -, hcq⟩ := hM el _ (hget el hel)
    refine hcq _ _ (fun fa hfa => ⟨fun _ hfr q _ md _ r _ => ?_, fun r hr x y => ?_⟩)
    · have hfr : (F el fa).freeSurface = true := hfr
      simp only [MFace.nb, hfr, if_true]
    · have eL : state 5 .tria o (tInt c .tria o (S el) (U el s) dT) r (elPt .tria fa x y) = fun k => ∫ τ in (0:ℝ)..dT, at_ 5 (w el r (s + τ)) (faceX .tria (ves el) fa x y) k := by
        funext k
        rw [state, (hsol el hel hR).tInt he ho hc s dT (by rw [hq]; exact k.2) hr]
        congr 1
        funext τ
        rw [at_, ← hU el hel hR r hr k.val (by rw [hq]; exact k.2) (s + τ), physEval_pt hs.tols.1 he hs.regular _ (x := faceX .tria (ves el) fa x y) (fun d _ => rfl)]
      by_cases hbd : (F el fa).outflow = false ∧ (F el fa).freeSurface = false
      · have hnb : (F el fa).nb el = (F el fa).ne := by simp [MFace.nb, hbd.2]
        have hne := (hfo.2 fa hfa).2.1 hbd.1 hbd.2
        have hRn : R (F el fa).ne := hin.2 fa hfa hbd.1 hbd.2
        obtain ⟨hs', -, -⟩ := hset _ hne
        have eR : state 5 .tria o (tInt c .tria o (S ((F el fa).nb el)) (U ((F el fa).nb el) s) dT) r (sidePt .tria fa ((F el fa).toIn []) x y) =
            fun k => ∫ τ in (0:ℝ)..dT, at_ 5 (w (F el fa).ne r (s + τ)) (fun d => faceX .tria (ves el) fa x y d + t el fa d) k := by
          funext k
          rw [hnb, state, (hsol _ hne hRn).tInt he ho hc s dT (by rw [hq]; exact k.2) hr]
          congr 1
          funext τ
          rw [at_, ← hU _ hne hRn r hr k.val (by rw [hq]; exact k.2) (s + τ), faceX_at he hs'.tols.1 hfa (hjo fa hfa) hbd.1 hbd.2 hs'.regular]
        beta_reduce
        rw [eL, eR]
        exact quiet_int (tr2 (ν el fa)) vl2 (fun k => hcont el hel hR r hr k s _) (fun k => hcont _ hne hRn r hr k s _) (fun τ => hQ el hel hR fa hfa (fun h1 h2 => hin.2 fa hfa h1 h2) r hr (s + τ) x y) dT
      · have h3 := quiet_int (tr2 (ν el fa)) vl2 (qR := fun _ _ => 0) (m' := m' el fa) (ν := ν el fa) (free := (F el fa).freeSurface) (out := (F el fa).outflow)
          (fun k => hcont el hel hR r hr k s (faceX .tria (ves el) fa x y)) (fun k => continuous_const)
          (fun τ => by
            have := hQ el hel hR fa hfa (fun h1 h2 => hin.2 fa hfa h1 h2) r hr (s + τ) x y
            unfold Quiet at this ⊢
            rcases hb1 : (F el fa).outflow with _ | _
            · rcases hb2 : (F el fa).freeSurface with _ | _
              · exact absurd ⟨hb1, hb2⟩ hbd
              · simp only [hb1, hb2, Bool.false_eq_true, if_false, if_true] at this ⊢
                exact this
            · simp only [hb1, if_true] at this ⊢
              exact this) dT
        rw [← eL] at h3
        unfold Quiet at h3 ⊢
        rcases hb1 : (F el fa).outflow with _ | _
        · rcases hb2 : (F el fa).freeSurface with _ | _
          · exact absurd ⟨hb1, hb2⟩ hbd
          · simp only [hb1, hb2, Bool.false_eq_true, if_false, if_true, MFace.toIn] at h3 ⊢
            exact h3
        · simp only [hb1, if_true, MFace.toIn] at h3 ⊢
          exact h3
  refine ⟨S, FL, FN, U, fun el E hE => by
    obtain ⟨a1, -, -, a2, a3, -⟩ := hM el E hE
    exact ⟨a1, a2, (hels el E hE).2.1, fun fa hfa _ => a3 fa hfa⟩, hU, hsol, hcons, ?_⟩
  intro el hel a b hab md hmd
  obtain ⟨hs, -, -⟩ := hset el hel
  obtain ⟨pts, hp⟩ := mode_pts .tria o
  have h2 : ∀ p, recon .tria o a p = recon .tria o b p := by
    intro p
    rw [← physEval_pt hs.tols.1 he hs.regular a (x := refToPhy .tria (ves el) (crd p)) (fun d _ => rfl), hab, physEval_pt hs.tols.1 he hs.regular b (fun d _ => rfl)]
  rw [hp a md hmd, hp b md hmd]
  simp only [h2]

/-- C97, 2D: on any mesh of triangles, with any materials and boundary conditions, and any region `R` of it. `w el` is the solution in element `el` of the region, a
polynomial of degree less than the order in space. If, in the region, traction and velocity are continuous at the inner faces (and equal at periodic boundaries), the
traction is zero at the free surface, and only outgoing waves reach outflow boundaries, then any number of time steps of any sizes, which start with the degrees of freedom
of `w` at time `s` in the region and with arbitrary ones elsewhere, give those of `w` at the time which is reached, in all elements which are as many faces away from the
boundary of the region as there are steps. -/
theorem C97_region2 {c : Dg.Cfg} {o : Nat} (ho : 0 < o) (hF : Flux.Fits c .tria o) (hc : Fit c .tria o) (hq : c.nQtsE = 5) {lT lV LN FT : List (List ℝ)} (hst : Stored c .tria o lT lV LN FT)
    {els : List (MEl ℝ)} {F : Nat → Nat → MFace ℝ} {tol tolL : ℝ} {ves : Nat → Nat → Nat → ℝ} {m : Nat → Material} {m' : Nat → Nat → Material} {ν : Nat → Nat → Fin 2 → ℝ}
    {t : Nat → Nat → Nat → ℝ}
    (hels : ∀ el E, els[el]? = some E → SetUp2 tol tolL (ves el) (m el) (m' el) (ν el) (fun fa => (F el fa).freeSurface) E.starE E.fsL (fun fa => (F el fa).fsE) ∧
      FacesOk .tria els.length E.faces (F el) ∧ ∀ fa < 3, Joined .tria ves el fa (F el fa) (t el fa))
    {R : Nat → Prop} {w : Nat → Nat → ℝ → Nat → (Nat → ℝ) → ℝ} (hw : ∀ el < els.length, R el → ∀ r < c.nCrs, Wave2 (m el) o (w el r))
    (hQ : ∀ el < els.length, R el → ∀ fa < 3, ((F el fa).outflow = false → (F el fa).freeSurface = false → R (F el fa).ne) → ∀ r < c.nCrs, ∀ τ x y, Quiet (m' el fa) (ν el fa) (F el fa).freeSurface (F el fa).outflow
      (stress2 (at_ 5 (w el r τ) (faceX .tria (ves el) fa x y)) *ᵥ ν el fa) (vel2 (at_ 5 (w el r τ) (faceX .tria (ves el) fa x y)))
      (stress2 (at_ 5 (w (F el fa).ne r τ) (fun d => faceX .tria (ves el) fa x y d + t el fa d)) *ᵥ ν el fa)
      (vel2 (at_ 5 (w (F el fa).ne r τ) (fun d => faceX .tria (ves el) fa x y d + t el fa d))))
    {sc0 sc1 : List ℝ} (h0 : sc0.length = c.nQtsE * c.nMdsFa * c.nCrs) (h1 : sc1.length = c.nQtsE * c.nMdsFa * c.nCrs)
    {st : List (List ℝ × Dg.CkMem ℝ)} (hlen : st.length = els.length) {s : ℝ} {u : Nat → Nat → Nat → Nat → ℝ} (hu : ∀ el < els.length, HasDofs c st el (u el) ∧
      (R el → ∀ r < c.nCrs, ∀ q < 5, ∀ x, physEval tol .tria o (ves el) (fun md => u el q md r) x = w el r s q x)) (dts : List ℝ) :
    ∃ st', runMesh c lT lV LN FT els sc0 sc1 dts st = some st' ∧ st'.length = els.length ∧ ∀ el < els.length, Inside .tria F R dts.length el → ∃ u', HasDofs c st' el u' ∧
      ∀ r < c.nCrs, ∀ q < 5, ∀ x, physEval tol .tria o (ves el) (fun md => u' q md r) x = w el r (s + dts.sum) q x := by
  have he : .tria = Ent.tria ∨ .tria = Ent.tet := by decide
  obtain ⟨S, FL, FN, U, hM, hU, hsol, hcons, hmd⟩ := exact_set2 ho hF hc hq hels hw hQ
  have hstart : ∀ el < els.length, Inside .tria F R 0 el → HasDofs c st el (U el s) := by
    intro el hel hR
    refine (hu el hel).1.congr (fun q md r hq' hmd' hr => ?_)
    rw [hc.mds] at hmd'
    exact hmd el hel (fun md => u el q md r) (fun md => U el s q md r) (fun x => by
      rw [(hu el hel).2 hR r hr q (by omega) x, hU el hel hR r hr q hq' s x]) md hmd'
  obtain ⟨st', k1, k2, -, k3⟩ := mesh_run he ho hF hc hst h0 h1 (F := F) (S := S) (FL := FL) (FN := FN) hM hsol hcons dts (fun el hel => ⟨_, (hu el hel).1⟩) hstart hlen
  exact ⟨st', k1, k2, fun el hel hin => ⟨_, k3 el hel (by rwa [Nat.zero_add]), fun r hr q hq' x => hU el hel hin.region r hr q (by omega) _ x⟩⟩

/-- C97, 2D: the same for a solution on all elements, with the boundary conditions at all boundaries: it is reproduced everywhere. -/
theorem C97_mesh2 {c : Dg.Cfg} {o : Nat} (ho : 0 < o) (hF : Flux.Fits c .tria o) (hc : Fit c .tria o) (hq : c.nQtsE = 5) {lT lV LN FT : List (List ℝ)} (hst : Stored c .tria o lT lV LN FT)
    {els : List (MEl ℝ)} {F : Nat → Nat → MFace ℝ} {tol tolL : ℝ} {ves : Nat → Nat → Nat → ℝ} {m : Nat → Material} {m' : Nat → Nat → Material} {ν : Nat → Nat → Fin 2 → ℝ}
    {t : Nat → Nat → Nat → ℝ}
    (hels : ∀ el E, els[el]? = some E → SetUp2 tol tolL (ves el) (m el) (m' el) (ν el) (fun fa => (F el fa).freeSurface) E.starE E.fsL (fun fa => (F el fa).fsE) ∧
      FacesOk .tria els.length E.faces (F el) ∧ ∀ fa < 3, Joined .tria ves el fa (F el fa) (t el fa))
    {w : Nat → Nat → ℝ → Nat → (Nat → ℝ) → ℝ} (hw : ∀ el < els.length, ∀ r < c.nCrs, Wave2 (m el) o (w el r))
    (hQ : ∀ el < els.length, ∀ fa < 3, ∀ r < c.nCrs, ∀ τ x y, Quiet (m' el fa) (ν el fa) (F el fa).freeSurface (F el fa).outflow
      (stress2 (at_ 5 (w el r τ) (faceX .tria (ves el) fa x y)) *ᵥ ν el fa) (vel2 (at_ 5 (w el r τ) (faceX .tria (ves el) fa x y)))
      (stress2 (at_ 5 (w (F el fa).ne r τ) (fun d => faceX .tria (ves el) fa x y d + t el fa d)) *ᵥ ν el fa)
      (vel2 (at_ 5 (w (F el fa).ne r τ) (fun d => faceX .tria (ves el) fa x y d + t el fa d))))
    {sc0 sc1 : List ℝ} (h0 : sc0.length = c.nQtsE * c.nMdsFa * c.nCrs) (h1 : sc1.length = c.nQtsE * c.nMdsFa * c.nCrs)
    {st : List (List ℝ × Dg.CkMem ℝ)} (hlen : st.length = els.length) {s : ℝ} {u : Nat → Nat → Nat → Nat → ℝ} (hu : ∀ el < els.length, HasDofs c st el (u el) ∧
      ∀ r < c.nCrs, ∀ q < 5, ∀ x, physEval tol .tria o (ves el) (fun md => u el q md r) x = w el r s q x) (dts : List ℝ) :
    ∃ st', runMesh c lT lV LN FT els sc0 sc1 dts st = some st' ∧ st'.length = els.length ∧ ∀ el < els.length, ∃ u', HasDofs c st' el u' ∧
      ∀ r < c.nCrs, ∀ q < 5, ∀ x, physEval tol .tria o (ves el) (fun md => u' q md r) x = w el r (s + dts.sum) q x := by
  obtain ⟨st', k1, k2, k3⟩ := C97_region2 ho hF hc hq hst (R := fun _ => True) hels (fun el hel _ => hw el hel) (fun el hel _ fa hfa _ => hQ el hel fa hfa) h0 h1 hlen
    (fun el hel => ⟨(hu el hel).1, fun _ => (hu el hel).2⟩) dts
  exact ⟨st', k1, k2, fun el hel => k3 el hel Inside.all⟩


end Edge.Step
