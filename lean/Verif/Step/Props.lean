import Verif.Step.Elastic
/-!
C97: exact time steps.
-/
namespace Edge.Step
open Edge Edge.Map Edge.Quad Edge.Basis Edge.Proj Edge.Gen Edge.Flux Edge.Seismic Matrix

theorem pred_zero {c : Dg.Cfg} {e : Ent} {o : Nat} (ho : 0 < o) (S : Nat → Nat → Nat → ℝ) (e0 : Nat → Nat → Nat → ℝ) : pred c e o S e0 0 = e0 := by
  funext q md r
  obtain ⟨k, rfl⟩ := Nat.exists_eq_add_of_lt ho
  rw [pred, Dg.taylor, Nat.zero_add, Finset.sum_range_succ']
  simp [der, Dg.derivs]

theorem tInt_pred {c : Dg.Cfg} {e : Ent} {o : Nat} (S : Nat → Nat → Nat → ℝ) (e0 : Nat → Nat → Nat → ℝ) (dT : ℝ) (q md r : Nat) :
    tInt c e o S e0 dT q md r = ∫ τ in (0:ℝ)..dT, pred c e o S e0 τ q md r := by
  simp only [pred, tInt]
  rw [Dg.integral_taylor]
  simp [Dg.taylorInt]

/-- The prediction in time, reference element. -/
theorem pred_wave {c : Dg.Cfg} {e : Ent} (he : e = .tria ∨ e = .tet) {o : Nat} (ho : 0 < o) (hc : Fit c e o) (S : Nat → Nat → Nat → ℝ) (e0 : Nat → Nat → Nat → ℝ) (r q : Nat)
    (p : Fin 3 → ℝ) (τ : ℝ) : HasDerivAt (fun t => recon e o (fun md => pred c e o S e0 t q md r) p)
      (waveOp e.nDim c.nQtsE S (fun k => recon e o (fun md => pred c e o S e0 τ k md r)) q p) τ := by
  have h := pred_deriv ho hc 1 S S S (fun _ => 0) e0 (fun _ => e0) r q p τ
  rw [iter_zero he hc S e0 r q p, mul_zero, sub_zero] at h
  exact h

theorem elastic3_pred {c : Dg.Cfg} {o : Nat} (ho : 0 < o) (hc : Fit c .tet o) (hq : c.nQtsE = 9) {tol : ℝ} (ht : 0 ≤ tol) {ves : Nat → Nat → ℝ} (hr : Regular tol .tet ves)
    {rho lam mu : ℝ} {J : Nat → Nat → ℝ} {S : Nat → Nat → Nat → ℝ}
    (hJ : ∀ d < Ent.tet.nDim, ∀ d2 < Ent.tet.nDim, ∑ di ∈ Finset.range Ent.tet.nDim, J d di * evalJac .tet ves di d2 = if d = d2 then 1 else 0)
    (hS : ∀ di < 3, ∀ q < 9, ∀ k < 9, S di q k = ∑ d ∈ Finset.range 3, J d di * (if h : d < 3 then Gen.ext (jac3 rho lam mu ⟨d, h⟩) else fun _ _ => 0) q k)
    (e0 : Nat → Nat → Nat → ℝ) (r : Nat) (τ : ℝ) (x : Nat → ℝ) : Elastic3 rho lam mu (fun t q => physEval tol .tet o ves (fun md => pred c .tet o S e0 t q md r)) τ x := by
  have key := fun (q : Nat) (hq9 : q < c.nQtsE) => phys_pred (o := o) (Or.inr rfl) ht hr hJ (A := fun d => if h : d < 3 then Gen.ext (jac3 rho lam mu ⟨d, h⟩) else fun _ _ => 0)
    (P := fun t q md => pred c .tet o S e0 t q md r) (by rw [hq]; exact hS) (fun q p τ => pred_wave (Or.inr rfl) ho hc S e0 r q p τ) x τ hq9
  rw [hq] at key
  refine ⟨(key 0 (by omega)).congr_deriv ?_, (key 1 (by omega)).congr_deriv ?_, (key 2 (by omega)).congr_deriv ?_, (key 3 (by omega)).congr_deriv ?_, (key 4 (by omega)).congr_deriv ?_,
    (key 5 (by omega)).congr_deriv ?_, (key 6 (by omega)).congr_deriv ?_, (key 7 (by omega)).congr_deriv ?_, (key 8 (by omega)).congr_deriv ?_⟩ <;>
    simp [Ent.nDim, Finset.sum_range_succ, Gen.ext, Seismic.jac3] <;> ring

theorem elastic2_pred {c : Dg.Cfg} {o : Nat} (ho : 0 < o) (hc : Fit c .tria o) (hq : c.nQtsE = 5) {tol : ℝ} (ht : 0 ≤ tol) {ves : Nat → Nat → ℝ} (hr : Regular tol .tria ves)
    {rho lam mu : ℝ} {J : Nat → Nat → ℝ} {S : Nat → Nat → Nat → ℝ}
    (hJ : ∀ d < Ent.tria.nDim, ∀ d2 < Ent.tria.nDim, ∑ di ∈ Finset.range Ent.tria.nDim, J d di * evalJac .tria ves di d2 = if d = d2 then 1 else 0)
    (hS : ∀ di < 2, ∀ q < 5, ∀ k < 5, S di q k = ∑ d ∈ Finset.range 2, J d di * (if h : d < 2 then Gen.ext (jac2 rho lam mu ⟨d, h⟩) else fun _ _ => 0) q k)
    (e0 : Nat → Nat → Nat → ℝ) (r : Nat) (τ : ℝ) (x : Nat → ℝ) : Elastic2 rho lam mu (fun t q => physEval tol .tria o ves (fun md => pred c .tria o S e0 t q md r)) τ x := by
  have key := fun (q : Nat) (hq9 : q < c.nQtsE) => phys_pred (o := o) (Or.inl rfl) ht hr hJ (A := fun d => if h : d < 2 then Gen.ext (jac2 rho lam mu ⟨d, h⟩) else fun _ _ => 0)
    (P := fun t q md => pred c .tria o S e0 t q md r) (by rw [hq]; exact hS) (fun q p τ => pred_wave (Or.inl rfl) ho hc S e0 r q p τ) x τ hq9
  rw [hq] at key
  refine ⟨(key 0 (by omega)).congr_deriv ?_, (key 1 (by omega)).congr_deriv ?_, (key 2 (by omega)).congr_deriv ?_, (key 3 (by omega)).congr_deriv ?_, (key 4 (by omega)).congr_deriv ?_⟩ <;>
    simp [Ent.nDim, Finset.sum_range_succ, Gen.ext, Seismic.jac2] <;> ring

/-- C97, 3D: a time step of a tetrahedron with the generated matrices, the star matrices and flux solvers of the set-up, any material behind the faces, local time
stepping included. If the time integrated traction and velocity are continuous at the inner faces, the traction vanishes at the free surface, and only outgoing waves
reach outflow boundaries, the new degrees of freedom are those of the exact solution `P` of the elastic wave equations which starts at the old ones. -/
theorem C97_step3 {c : Dg.Cfg} {o : Nat} (ho : 0 < o) (hF : Fits c .tet o) (hc : Fit c .tet o) (hq : c.nQtsE = 9) {lT lV LN FT : List (List ℝ)} (hst : Stored c .tet o lT lV LN FT) (dT : ℝ)
    {tol tolL : ℝ} {ves : Nat → Nat → ℝ} {m : Material} {m' : Nat → Material} {ν : Nat → Fin 3 → ℝ} {fs : Nat → Dg.FaceIn ℝ} {starE fsL : List (List ℝ)}
    (hu : SetUp3 tol tolL ves m m' ν (fun fa => (fs fa).freeSurface) starE fsL (fun fa => (fs fa).fsE)) {firstTs : Bool} {fl : List (Dg.FaceIn ℝ)} {Tn : Nat → Nat → Nat → Nat → ℝ}
    (hfs : Faces c .tet firstTs fl fs Tn) {dofsE sc0 sc1 : List ℝ} {e0 : Nat → Nat → Nat → ℝ} (he : Dg.Rep c.nQtsE c.nMds c.nCrs dofsE e0) {cm : Dg.CkMem ℝ} (hm : Dg.CkOut c cm)
    (h0 : sc0.length = c.nQtsE * c.nMdsFa * c.nCrs) (h1 : sc1.length = c.nQtsE * c.nMdsFa * c.nCrs)
    (hQ : ∀ cm' T, Dg.ck c dT lT starE [] [] [] dofsE [] cm = some cm' → Dg.Rep c.nQtsE c.nMds c.nCrs cm'.tIntE T → AllQuiet3 c o m' ν fs T Tn) :
    ∃ (E' : List ℝ) (cm' : Dg.CkMem ℝ) (P : ℝ → Nat → Nat → Nat → ℝ), stepEl c dT lT lV LN FT starE [] [] fsL [] [] firstTs fl dofsE [] cm sc0 sc1 = some (E', [], cm') ∧
      (∀ q md r, P 0 q md r = e0 q md r) ∧ Dg.Rep c.nQtsE c.nMds c.nCrs cm'.tIntE (fun q md r => ∫ τ in (0:ℝ)..dT, P τ q md r) ∧
      (∀ r τ x, Elastic3 m.rho m.lam m.mu (fun t q => physEval tol .tet o ves (fun md => P t q md r)) τ x) ∧
      Dg.Rep c.nQtsE c.nMds c.nCrs E' (P dT) := by
  obtain ⟨J, S, s1, s2, s3⟩ := star3_spec hu.tols.2 hu.star
  obtain ⟨FL, FN, f1, f2, f3⟩ := consistent3 hc hq hu s2 s3
  have s1' : Dg.Mats c.nDis c.nQtsE c.nQtsE c.nQtsE starE S := by rw [hq, hc.dis]; exact s1
  have f1' : Dg.Mats c.nFas c.nQtsE c.nQtsE c.nQtsE fsL FL := by rw [hq, hF.fas]; exact f1
  have f2' : ∀ fa < c.nFas, (fs fa).outflow = false → Dg.Mat c.nQtsE c.nQtsE c.nQtsE (fs fa).fsE (FN fa) := by
    rw [hq, hF.fas]; exact fun fa hfa _ => f2 fa hfa
  obtain ⟨-, cm1, -, -, k1, k2, -⟩ := step_any hF hc hst dT s1' f1' hfs f2' he hm h0 h1
  obtain ⟨E', cm', g0, -, g2, g3, g4⟩ := step_consistent hF hc hst dT s1' f1' hfs f2' he hm h0 h1 (f3 _ _ (hQ cm1 _ k1 k2))
  refine ⟨E', cm', pred c .tet o S e0, g0, fun q md r => by rw [pred_zero ho], g3.congr (fun q md r _ _ _ => tInt_pred S e0 dT q md r),
    fun r τ x => elastic3_pred ho hc hq hu.tols.1 hu.regular s2 s3 e0 r τ x, g4.congr (fun q md r _ hmd _ => ?_)⟩
  rw [hc.mds] at hmd
  rw [der_top (Or.inr rfl) hc S e0 hmd, mul_zero, add_zero]

/-- C97, 2D. -/
theorem C97_step2 {c : Dg.Cfg} {o : Nat} (ho : 0 < o) (hF : Fits c .tria o) (hc : Fit c .tria o) (hq : c.nQtsE = 5) {lT lV LN FT : List (List ℝ)} (hst : Stored c .tria o lT lV LN FT) (dT : ℝ)
    {tol tolL : ℝ} {ves : Nat → Nat → ℝ} {m : Material} {m' : Nat → Material} {ν : Nat → Fin 2 → ℝ} {fs : Nat → Dg.FaceIn ℝ} {starE fsL : List (List ℝ)}
    (hu : SetUp2 tol tolL ves m m' ν (fun fa => (fs fa).freeSurface) starE fsL (fun fa => (fs fa).fsE)) {firstTs : Bool} {fl : List (Dg.FaceIn ℝ)} {Tn : Nat → Nat → Nat → Nat → ℝ}
    (hfs : Faces c .tria firstTs fl fs Tn) {dofsE sc0 sc1 : List ℝ} {e0 : Nat → Nat → Nat → ℝ} (he : Dg.Rep c.nQtsE c.nMds c.nCrs dofsE e0) {cm : Dg.CkMem ℝ} (hm : Dg.CkOut c cm)
    (h0 : sc0.length = c.nQtsE * c.nMdsFa * c.nCrs) (h1 : sc1.length = c.nQtsE * c.nMdsFa * c.nCrs)
    (hQ : ∀ cm' T, Dg.ck c dT lT starE [] [] [] dofsE [] cm = some cm' → Dg.Rep c.nQtsE c.nMds c.nCrs cm'.tIntE T → AllQuiet2 c o m' ν fs T Tn) :
    ∃ (E' : List ℝ) (cm' : Dg.CkMem ℝ) (P : ℝ → Nat → Nat → Nat → ℝ), stepEl c dT lT lV LN FT starE [] [] fsL [] [] firstTs fl dofsE [] cm sc0 sc1 = some (E', [], cm') ∧
      (∀ q md r, P 0 q md r = e0 q md r) ∧ Dg.Rep c.nQtsE c.nMds c.nCrs cm'.tIntE (fun q md r => ∫ τ in (0:ℝ)..dT, P τ q md r) ∧
      (∀ r τ x, Elastic2 m.rho m.lam m.mu (fun t q => physEval tol .tria o ves (fun md => P t q md r)) τ x) ∧
      Dg.Rep c.nQtsE c.nMds c.nCrs E' (P dT) := by
  obtain ⟨J, S, s1, s2, s3⟩ := star2_spec hu.tols.2 hu.star
  obtain ⟨FL, FN, f1, f2, f3⟩ := consistent2 hc hq hu s2 s3
  have s1' : Dg.Mats c.nDis c.nQtsE c.nQtsE c.nQtsE starE S := by rw [hq, hc.dis]; exact s1
  have f1' : Dg.Mats c.nFas c.nQtsE c.nQtsE c.nQtsE fsL FL := by rw [hq, hF.fas]; exact f1
  have f2' : ∀ fa < c.nFas, (fs fa).outflow = false → Dg.Mat c.nQtsE c.nQtsE c.nQtsE (fs fa).fsE (FN fa) := by
    rw [hq, hF.fas]; exact fun fa hfa _ => f2 fa hfa
  obtain ⟨-, cm1, -, -, k1, k2, -⟩ := step_any hF hc hst dT s1' f1' hfs f2' he hm h0 h1
  obtain ⟨E', cm', g0, -, g2, g3, g4⟩ := step_consistent hF hc hst dT s1' f1' hfs f2' he hm h0 h1 (f3 _ _ (hQ cm1 _ k1 k2))
  refine ⟨E', cm', pred c .tria o S e0, g0, fun q md r => by rw [pred_zero ho], g3.congr (fun q md r _ _ _ => tInt_pred S e0 dT q md r),
    fun r τ x => elastic2_pred ho hc hq hu.tols.1 hu.regular s2 s3 e0 r τ x, g4.congr (fun q md r _ hmd _ => ?_)⟩
  rw [hc.mds] at hmd
  rw [der_top (Or.inl rfl) hc S e0 hmd, mul_zero, add_zero]

end Edge.Step
