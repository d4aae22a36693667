import Verif.Step.Weak
/-!
A time step of an element with consistent fluxes.
-/
namespace Edge.Step
open Edge Edge.Map Edge.Quad Edge.Basis Edge.Proj Edge.Gen Edge.Flux

/-- Time derivatives of the modes, without relaxation mechanisms. -/
noncomputable def der (c : Dg.Cfg) (e : Ent) (o : Nat) (S : Nat → Nat → Nat → ℝ) (e0 : Nat → Nat → Nat → ℝ) (n q md r : Nat) : ℝ :=
  (Dg.derivs c 1 (GT e o) S S S (fun _ => 0) e0 (fun _ => e0) n).1 q md r

/-- Predicted modes at time `τ`. -/
noncomputable def pred (c : Dg.Cfg) (e : Ent) (o : Nat) (S : Nat → Nat → Nat → ℝ) (e0 : Nat → Nat → Nat → ℝ) (τ : ℝ) (q md r : Nat) : ℝ :=
  Dg.taylor o τ (fun n => der c e o S e0 n q md r)

/-- Time integrated modes. -/
noncomputable def tInt (c : Dg.Cfg) (e : Ent) (o : Nat) (S : Nat → Nat → Nat → ℝ) (e0 : Nat → Nat → Nat → ℝ) (dT : ℝ) (q md r : Nat) : ℝ :=
  Dg.taylorInt o dT (fun n => der c e o S e0 n q md r)

theorem rhs_lin {c : Dg.Cfg} (hr : c.nRms = 0) (G S src src' : Nat → Nat → Nat → ℝ) (k : Nat) (w : Nat → ℝ) (D : Nat → Nat → Nat → Nat → ℝ)
    (a : Nat → Nat → Nat → Nat → ℝ) (a' : Nat → Nat → Nat → Nat → Nat → ℝ) (q md r : Nat) :
    Dg.rhsE c G S src (fun q md r => ∑ n ∈ Finset.range k, w n * D n q md r) a q md r = ∑ n ∈ Finset.range k, w n * Dg.rhsE c G S src' (D n) (a' n) q md r := by
  simp only [Dg.rhsE, hr, Finset.range_zero, Finset.sum_empty, ite_self, add_zero, Finset.mul_sum, Finset.sum_mul]
  have h : ∀ n, (∑ di ∈ Finset.range c.nDis, ∑ p ∈ Finset.range c.nQtsE, ∑ m ∈ Finset.range c.nMds, w n * (S di q p * (D n p m r * G di m md))) =
    ∑ di ∈ Finset.range c.nDis, ∑ p ∈ Finset.range c.nQtsE, ∑ m ∈ Finset.range c.nMds, S di q p * (w n * D n p m r * G di m md) := by
    intro n
    exact Finset.sum_congr rfl (fun di _ => Finset.sum_congr rfl (fun p _ => Finset.sum_congr rfl (fun m _ => by ring)))
  simp only [h]
  conv_rhs => rw [Finset.sum_comm]
  refine Finset.sum_congr rfl (fun di _ => ?_)
  conv_rhs => rw [Finset.sum_comm]
  refine Finset.sum_congr rfl (fun p _ => ?_)
  conv_rhs => rw [Finset.sum_comm]

/-- The right-hand side of the time integrated modes. -/
theorem rhs_tInt {c : Dg.Cfg} {e : Ent} {o : Nat} (hc : Fit c e o) (S src : Nat → Nat → Nat → ℝ) (e0 : Nat → Nat → Nat → ℝ) (a : Nat → Nat → Nat → Nat → ℝ)
    (dT : ℝ) (q md r : Nat) :
    e0 q md r + Dg.rhsE c (GT e o) S src (tInt c e o S e0 dT) a q md r = pred c e o S e0 dT q md r + dT ^ o / (o.factorial : ℝ) * der c e o S e0 o q md r := by
  have h := rhs_lin hc.rms (GT e o) S src S o (fun k => dT ^ (k + 1) / ((k + 1).factorial : ℝ)) (der c e o S e0) a
    (fun n => (Dg.derivs c 1 (GT e o) S S S (fun _ => 0) e0 (fun _ => e0) n).2) q md r
  have h1 : Dg.rhsE c (GT e o) S src (tInt c e o S e0 dT) a q md r = ∑ n ∈ Finset.range o, dT ^ (n + 1) / ((n + 1).factorial : ℝ) * der c e o S e0 (n + 1) q md r := h
  rw [h1, pred, Dg.taylor, ← Finset.sum_range_succ (fun n => dT ^ n / (n.factorial : ℝ) * der c e o S e0 n q md r), Finset.sum_range_succ', add_comm]
  simp [der, Dg.derivs]

/-- On triangles and tetrahedra the `o`-th derivative is zero. -/
theorem der_top {c : Dg.Cfg} {e : Ent} (he : e = .tria ∨ e = .tet) {o : Nat} (hc : Fit c e o) (S : Nat → Nat → Nat → ℝ) (e0 : Nat → Nat → Nat → ℝ) {q md r : Nat}
    (hmd : md < nModes e o) : der c e o S e0 o q md r = 0 := by
  have h0 : nModes e (o - o) = 0 := by rw [Nat.sub_self]; rcases he with rfl | rfl <;> rfl
  exact derivs_low he hc _ _ _ _ _ _ _ o q md r (by omega) hmd

/-- The matrices which the solver uses: stiffness matrices in the time and in the volume kernel, flux matrices of the surface kernel. -/
structure Stored (c : Dg.Cfg) (e : Ent) (o : Nat) (lT lV LN FT : List (List ℝ)) : Prop where
  stiffT : storeStiffTDense (stiffVRaw e o) (stiffTRaw e o) e (nModes e o) = some lT
  stiffV : storeStiffDense (stiffVRaw e o) (stiffTRaw e o) e (nModes e o) = some lV
  flux : storeFluxDense (fluxLRaw e o) (fluxNRaw e o) (fluxTRaw e o) e c.nMds c.nMdsFa = some (LN, FT)

/-- Data of the faces of an element for the neighboring update: `Tn fa` are the time integrated modes of the adjacent element. -/
structure Faces (c : Dg.Cfg) (e : Ent) (firstTs : Bool) (fl : List (Dg.FaceIn ℝ)) (fs : Nat → Dg.FaceIn ℝ) (Tn : Nat → Nat → Nat → Nat → ℝ) : Prop where
  get : ∀ fa < c.nFas, rd fl fa = some (fs fa)
  ids : ∀ fa < c.nFas, (fs fa).freeSurface = false → ∀ ve, (fs fa).vId = some ve → ve < e.nVeOpts ∧ (fs fa).fId < e.nFa
  data : ∀ fa < c.nFas, (fs fa).outflow = false → (fs fa).recv = none ∧
    ∃ t, Dg.assemble c (fs fa).ad.eq (fs fa).ad.gt firstTs (fs fa).tNe = some t ∧ Dg.Rep c.nQtsE c.nMds c.nCrs t (Tn fa)

/-- The local update in terms of modes. -/
theorem local_any {c : Dg.Cfg} {e : Ent} {o : Nat} (hF : Fits c e o) (hc : Fit c e o) {lT lV LN FT : List (List ℝ)} (hst : Stored c e o lT lV LN FT) (dT : ℝ)
    {starE fsE : List (List ℝ)} {S FL : Nat → Nat → Nat → ℝ} (hS : Dg.Mats c.nDis c.nQtsE c.nQtsE c.nQtsE starE S) (hL : Dg.Mats c.nFas c.nQtsE c.nQtsE c.nQtsE fsE FL)
    {dofsE sc0 sc1 : List ℝ} {e0 : Nat → Nat → Nat → ℝ} (he : Dg.Rep c.nQtsE c.nMds c.nCrs dofsE e0) {m : Dg.CkMem ℝ} (hm : Dg.CkOut c m)
    (h0 : sc0.length = c.nQtsE * c.nMdsFa * c.nCrs) (h1 : sc1.length = c.nQtsE * c.nMdsFa * c.nCrs) :
    ∃ E' m', localEl c dT lT lV LN FT starE [] [] fsE [] [] dofsE [] m sc0 sc1 = some (E', [], m') ∧ Dg.CkOut c m' ∧
      Dg.ck c dT lT starE [] [] [] dofsE [] m = some m' ∧ Dg.Rep c.nQtsE c.nMds c.nCrs m'.tIntE (tInt c e o S e0 dT) ∧
      Dg.Rep c.nQtsE c.nMds c.nCrs E' (fun q md r => e0 q md r + Dg.rhsE c (GV e o) S S (tInt c e o S e0 dT) (fun _ => e0) q md r +
        (∑ fa ∈ Finset.range e.nFa, onFace e o fa md (fun x y => ∑ p ∈ Finset.range c.nQtsE, FL fa q p * recon e o (fun m => tInt c e o S e0 dT p m r) (elPt e fa x y))) / normSq e o md) := by
  have hno : ∀ {p : Prop} {i : Nat}, i < c.nRms → p := fun h => absurd h (by rw [hc.rms]; omega)
  have hm3 : Dg.Mats3 c starE [] [] [] S S S (fun _ => 0) := ⟨hS, fun h => hno h, fun i hi => hno hi, fun i hi => hno hi⟩
  have hA : Dg.PerRm c (fun _ => e0) [] := ⟨hc.rms.symm, fun i hi => hno hi⟩
  have hnil : ∀ {f : Nat → Nat → Nat → Nat → ℝ} {l : List (List ℝ)}, Dg.PerRm c f l → l = [] := fun h => List.length_eq_zero_iff.1 (h.1.trans hc.rms)
  obtain ⟨l, s1, s2⟩ := storeT e o
  obtain ⟨l', s3, s4⟩ := storeV e o
  rw [hst.stiffT, Option.some.injEq] at s1
  rw [hst.stiffV, Option.some.injEq] at s3
  subst s1 s3
  have hGT : Dg.Mats c.nDis c.nMds c.nMds c.nMds lT (GT e o) := by
    rw [hc.dis, hc.mds]; exact s2 _ (fun di m md h => by rw [GT, dif_pos h])
  have hGV : Dg.Mats c.nDis c.nMds c.nMds c.nMds lV (GV e o) := by
    rw [hc.dis, hc.mds]; exact s4 _ (fun di m md h => by rw [GV, dif_pos h])
  have hz : ∀ di m md, di < c.nDis → c.ck 1 ≤ m → m < c.nMds → md < c.nMds → GV e o di m md = 0 := by
    intro di m md hdi hm hm' hmd
    rw [hc.ck] at hm
    rw [hc.mds] at hm' hmd
    by_cases he : e = .tria ∨ e = .tet
    · rw [ck_simplex he] at hm
      have h3 : di < 3 := by rw [hc.dis] at hdi; exact hdi.trans_le (nDim_le e)
      rw [GV, dif_pos h3, entV_zero he hm hm' hmd]
    · rw [ck_other he] at hm; omega
  obtain ⟨m', k0, k1, -, -, k4, -⟩ := Dg.C74_ck_partial (dT := dT) hc.sizes hGT (hier hc.toShape) hm3 he hA hm
  rw [hc.ord] at k4
  have hTA : Dg.PerRm c (fun _ => e0) m'.tIntA := ⟨k1.tIntA.1, fun i hi => hno hi⟩
  obtain ⟨E1, A1, s', v0, v1, v2⟩ := Dg.C74_volInt hc.sizes hGV hz hm3 k4 hTA he hA k1.scratch
  obtain ⟨LN', FT', E2, A2, t0, t1, w0, w1, w2, w3⟩ := C94_local hF (rfs := []) (rf := fun _ => 0) (fsA := []) (FA := FL) hL (fun h => hno h) (fun i hi => hno hi) k4 v1 v2 h0 h1
  rw [hst.flux, Option.some.injEq, Prod.mk.injEq] at w0
  obtain ⟨rfl, rfl⟩ := w0
  have a2 := hnil w3
  subst a2
  refine ⟨E2, m', ?_, k1, k0, k4, w2⟩
  simp only [localEl, k0, v0, w1, Option.bind_eq_bind, Option.bind_some]

/-- A time step in terms of modes, any fluxes: volume integral and surface integrals of the time integrated modes are added. -/
theorem step_any {c : Dg.Cfg} {e : Ent} {o : Nat} (hF : Fits c e o) (hc : Fit c e o) {lT lV LN FT : List (List ℝ)} (hst : Stored c e o lT lV LN FT) (dT : ℝ)
    {starE fsE : List (List ℝ)} {S FL FN : Nat → Nat → Nat → ℝ} (hS : Dg.Mats c.nDis c.nQtsE c.nQtsE c.nQtsE starE S) (hL : Dg.Mats c.nFas c.nQtsE c.nQtsE c.nQtsE fsE FL)
    {firstTs : Bool} {fl : List (Dg.FaceIn ℝ)} {fs : Nat → Dg.FaceIn ℝ} {Tn : Nat → Nat → Nat → Nat → ℝ} (hfs : Faces c e firstTs fl fs Tn)
    (hN : ∀ fa < c.nFas, (fs fa).outflow = false → Dg.Mat c.nQtsE c.nQtsE c.nQtsE (fs fa).fsE (FN fa))
    {dofsE sc0 sc1 : List ℝ} {e0 : Nat → Nat → Nat → ℝ} (he : Dg.Rep c.nQtsE c.nMds c.nCrs dofsE e0) {m : Dg.CkMem ℝ} (hm : Dg.CkOut c m)
    (h0 : sc0.length = c.nQtsE * c.nMdsFa * c.nCrs) (h1 : sc1.length = c.nQtsE * c.nMdsFa * c.nCrs) :
    ∃ E' m', stepEl c dT lT lV LN FT starE [] [] fsE [] [] firstTs fl dofsE [] m sc0 sc1 = some (E', [], m') ∧ Dg.CkOut c m' ∧
      Dg.ck c dT lT starE [] [] [] dofsE [] m = some m' ∧ Dg.Rep c.nQtsE c.nMds c.nCrs m'.tIntE (tInt c e o S e0 dT) ∧
      Dg.Rep c.nQtsE c.nMds c.nCrs E' (fun q md r => e0 q md r + Dg.rhsE c (GV e o) S S (tInt c e o S e0 dT) (fun _ => e0) q md r +
        (∑ fa ∈ Finset.range e.nFa, onFace e o fa md (fun x y => ∑ p ∈ Finset.range c.nQtsE, FL fa q p * recon e o (fun m => tInt c e o S e0 dT p m r) (elPt e fa x y))) / normSq e o md +
        (∑ fa ∈ Finset.range e.nFa, if (fs fa).outflow then 0 else onFace e o fa md (fun x y =>
          ∑ p ∈ Finset.range c.nQtsE, FN fa q p * recon e o (fun m => Tn fa p m r) (sidePt e fa (fs fa) x y))) / normSq e o md) := by
  obtain ⟨E2, m', l0, l1, l2, l3, l4⟩ := local_any hF hc hst dT hS hL he hm h0 h1
  have hno : ∀ {p : Prop} {i : Nat}, i < c.nRms → p := fun h => absurd h (by rw [hc.rms]; omega)
  have hA : Dg.PerRm c (fun _ => e0) [] := ⟨hc.rms.symm, fun i hi => hno hi⟩
  obtain ⟨LN', FT', E3, A3, x0, x1, x2, x3⟩ := C94_neigh hF (rfs := []) (rf := fun _ => 0) (FA := FL) hfs.get hN (fun _ _ _ h => hno h) (fun i hi => hno hi) hfs.ids hfs.data l4 hA h0 h1
  rw [hst.flux, Option.some.injEq, Prod.mk.injEq] at x0
  obtain ⟨rfl, rfl⟩ := x0
  have a3 : A3 = [] := List.length_eq_zero_iff.1 (x3.1.trans hc.rms)
  subst a3
  refine ⟨E3, m', ?_, l1, l2, l3, x2⟩
  simp only [stepEl, l0, x1, Option.bind_eq_bind, Option.bind_some]

/-- A time step with consistent fluxes: the modes are the predicted ones, up to the `o`-th derivative, which vanishes on triangles and tetrahedra. -/
theorem step_consistent {c : Dg.Cfg} {e : Ent} {o : Nat} (hF : Fits c e o) (hc : Fit c e o) {lT lV LN FT : List (List ℝ)} (hst : Stored c e o lT lV LN FT) (dT : ℝ)
    {starE fsE : List (List ℝ)} {S FL FN : Nat → Nat → Nat → ℝ} (hS : Dg.Mats c.nDis c.nQtsE c.nQtsE c.nQtsE starE S) (hL : Dg.Mats c.nFas c.nQtsE c.nQtsE c.nQtsE fsE FL)
    {firstTs : Bool} {fl : List (Dg.FaceIn ℝ)} {fs : Nat → Dg.FaceIn ℝ} {Tn : Nat → Nat → Nat → Nat → ℝ} (hfs : Faces c e firstTs fl fs Tn)
    (hN : ∀ fa < c.nFas, (fs fa).outflow = false → Dg.Mat c.nQtsE c.nQtsE c.nQtsE (fs fa).fsE (FN fa))
    {dofsE sc0 sc1 : List ℝ} {e0 : Nat → Nat → Nat → ℝ} (he : Dg.Rep c.nQtsE c.nMds c.nCrs dofsE e0) {m : Dg.CkMem ℝ} (hm : Dg.CkOut c m)
    (h0 : sc0.length = c.nQtsE * c.nMdsFa * c.nCrs) (h1 : sc1.length = c.nQtsE * c.nMdsFa * c.nCrs) (h : Consistent c e o S FL FN fs (tInt c e o S e0 dT) Tn) :
    ∃ E' m', stepEl c dT lT lV LN FT starE [] [] fsE [] [] firstTs fl dofsE [] m sc0 sc1 = some (E', [], m') ∧ Dg.CkOut c m' ∧
      Dg.ck c dT lT starE [] [] [] dofsE [] m = some m' ∧ Dg.Rep c.nQtsE c.nMds c.nCrs m'.tIntE (tInt c e o S e0 dT) ∧
      Dg.Rep c.nQtsE c.nMds c.nCrs E' (fun q md r => pred c e o S e0 dT q md r + dT ^ o / (o.factorial : ℝ) * der c e o S e0 o q md r) := by
  obtain ⟨E', m', g0, g1, g2, g3, g4⟩ := step_any hF hc hst dT hS hL hfs hN he hm h0 h1
  refine ⟨E', m', g0, g1, g2, g3, g4.congr (fun q md r hq hmd hr => ?_)⟩
  rw [hc.mds] at hmd
  rw [← rhs_tInt hc S S e0 (fun _ => e0), ← weak_strong hF hc h S (fun _ => e0) hq hmd hr]
  ring

end Edge.Step
