import Verif.Seismic.FluxVisco
/-!
Properties C51 and C69: the flux solvers of a face compute the exact flux of the middle state of the Riemann problem, for
every orientation of the face, every pair of materials and all states.
-/
namespace Edge.Seismic
open Matrix Edge

/-! ### 3D -/

/-- The normal and the tangents of a face are orthonormal. -/
structure Orthonormal3 (n s t : Fin 3 → ℝ) : Prop where
  nn : n ⬝ᵥ n = 1
  ss : s ⬝ᵥ s = 1
  tt : t ⬝ᵥ t = 1
  ns : n ⬝ᵥ s = 0
  nt : n ⬝ᵥ t = 0
  st : s ⬝ᵥ t = 0

theorem Orthonormal3.frame {n s t : Fin 3 → ℝ} (h : Orthonormal3 n s t) :
    (frame3 (n 0) (n 1) (n 2) (s 0) (s 1) (s 2) (t 0) (t 1) (t 2))ᵀ *
      frame3 (n 0) (n 1) (n 2) (s 0) (s 1) (s 2) (t 0) (t 1) (t 2) = 1 := by
  obtain ⟨h1, h2, h3, h4, h5, h6⟩ := h
  simp only [dotProduct, Fin.sum_univ_three] at h1 h2 h3 h4 h5 h6
  ext i j
  fin_cases i <;> fin_cases j <;> simp [frame3, Matrix.mul_apply, Fin.sum_univ_three] <;> linarith

theorem Orthonormal3.flip {n s t : Fin 3 → ℝ} (h : Orthonormal3 n s t) : Orthonormal3 (-n) s t := by
  obtain ⟨h1, h2, h3, h4, h5, h6⟩ := h
  constructor <;> simp [*]

theorem trafoInv3_ortho {nx ny nz sx sy sz tx ty tz : ℝ}
    (h : (frame3 nx ny nz sx sy sz tx ty tz)ᵀ * frame3 nx ny nz sx sy sz tx ty tz = 1) (q : Fin 9 → ℝ) :
    stress3 (trafoInv3 nx ny nz sx sy sz tx ty tz *ᵥ q) =
      (frame3 nx ny nz sx sy sz tx ty tz)ᵀ * stress3 q * frame3 nx ny nz sx sy sz tx ty tz ∧
    vel3 (trafoInv3 nx ny nz sx sy sz tx ty tz *ᵥ q) = (frame3 nx ny nz sx sy sz tx ty tz)ᵀ *ᵥ vel3 q := by
  have hd : (frame3 nx ny nz sx sy sz tx ty tz).det ≠ 0 := by
    intro e
    have := congrArg Matrix.det h
    rw [Matrix.det_mul, e, mul_zero, Matrix.det_one] at this
    exact zero_ne_one this
  have := C50_rotateInv3 hd q
  rwa [Matrix.inv_eq_left_inv h, Matrix.transpose_transpose] at this

/-- Leading block of the transformation rotates symmetric tensors. -/
theorem lead3 (nx ny nz sx sy sz tx ty tz : ℝ) (x : Fin 6 → ℝ) :
    strain3 ((Matrix.of (fun q0 q1 : Fin 6 => trafo3 nx ny nz sx sy sz tx ty tz (q0.castLE (by omega))
      (q1.castLE (by omega))) : Matrix (Fin 6) (Fin 6) ℝ) *ᵥ x) =
      frame3 nx ny nz sx sy sz tx ty tz * strain3 x * (frame3 nx ny nz sx sy sz tx ty tz)ᵀ := by
  have h := (C50_rotate3 nx ny nz sx sy sz tx ty tz ![x 0, x 1, x 2, x 3, x 4, x 5, 0, 0, 0]).1
  have e : stress3 ![x 0, x 1, x 2, x 3, x 4, x 5, 0, 0, 0] = strain3 x := by
    ext i j; fin_cases i <;> fin_cases j <;> simp [stress3, strain3]
  rw [e] at h
  rw [← h]
  ext i j
  fin_cases i <;> fin_cases j <;>
    simp [stress3, strain3, trafo3, Matrix.mulVec, dotProduct, Fin.sum_univ_succ, Fin.castLE]

/-- State seen by the right solver: the neighboring state or, at a free surface, the mirrored one. -/
theorem mirror3 (a : Fin 9 → ℝ) :
    stress3 (mirrorMat 9 [0, 3, 5] *ᵥ a) *ᵥ e3 = -(stress3 a *ᵥ e3) ∧ vel3 (mirrorMat 9 [0, 3, 5] *ᵥ a) = vel3 a := by
  constructor
  · funext i; fin_cases i <;>
      simp [stress3, e3, mirrorMat, Matrix.mulVec_diagonal, Matrix.mulVec, dotProduct, Fin.sum_univ_succ]
  · funext i; fin_cases i <;> simp [vel3, mirrorMat, Matrix.mulVec_diagonal]

/-- Solvers of one side of a 3D face. `tR`, `vR` are the traction and the velocity the right solver sees. -/
theorem face3 {l r : Material} (hl : l.Elastic) (hr : r.Elastic) {n s t : Fin 3 → ℝ} (hO : Orthonormal3 n s t)
    {jE jA : List ℝ} (hE : jE.length = 9 * 9) (hA : jA.length = 6 * 9) (visco free : Bool) :
    ∃ (el er : Matrix (Fin 9) (Fin 9) ℝ) (al ar : Matrix (Fin 6) (Fin 9) ℝ),
      setUpFs3 l.rho r.rho l.lam r.lam l.mu r.mu (n 0) (n 1) (n 2) (s 0) (s 1) (s 2) (t 0) (t 1) (t 2) visco jE jA free =
        some ⟨flat el, flat er, if visco then some (flat al, flat ar) else none⟩ ∧
      ∀ qL qR : Fin 9 → ℝ, ∃ τ v : Fin 3 → ℝ,
        IsMiddle l r n (stress3 qL *ᵥ n) (vel3 qL) (if free then -(stress3 qR *ᵥ n) else stress3 qR *ᵥ n) (vel3 qR) τ v ∧
        stress3 (el *ᵥ qL + er *ᵥ qR) = fluxS l n v ∧ vel3 (el *ᵥ qL + er *ᵥ qR) = fluxV l τ ∧
        strain3 (al *ᵥ qL + ar *ᵥ qR) = fluxE n v := by
  obtain ⟨m, hm, hmid⟩ := viscoMid3_spec hl hr
  have hF := hO.frame
  have hn : frame3 (n 0) (n 1) (n 2) (s 0) (s 1) (s 2) (t 0) (t 1) (t 2) *ᵥ e3 = n := by
    rw [frame3_e]; funext i; fin_cases i <;> rfl
  have hnd : ([0, 3, 5] : List Nat).Nodup := by decide
  have hc : ∀ c ∈ ([0, 3, 5] : List Nat), c < 9 := by decide
  refine ⟨trafo3 (n 0) (n 1) (n 2) (s 0) (s 1) (s 2) (t 0) (t 1) (t 2) *
      flMid3raw l.rho r.rho l.lam r.lam l.mu r.mu * trafoInv3 (n 0) (n 1) (n 2) (s 0) (s 1) (s 2) (t 0) (t 1) (t 2),
    trafo3 (n 0) (n 1) (n 2) (s 0) (s 1) (s 2) (t 0) (t 1) (t 2) *
      (frMid3raw l.rho r.rho l.lam r.lam l.mu r.mu * if free then mirrorMat 9 [0, 3, 5] else 1) *
      trafoInv3 (n 0) (n 1) (n 2) (s 0) (s 1) (s 2) (t 0) (t 1) (t 2),
    (Matrix.of (fun q0 q1 : Fin 6 => trafo3 (n 0) (n 1) (n 2) (s 0) (s 1) (s 2) (t 0) (t 1) (t 2)
      (q0.castLE (by omega)) (q1.castLE (by omega))) : Matrix (Fin 6) (Fin 6) ℝ) * m.1 *
      trafoInv3 (n 0) (n 1) (n 2) (s 0) (s 1) (s 2) (t 0) (t 1) (t 2),
    (Matrix.of (fun q0 q1 : Fin 6 => trafo3 (n 0) (n 1) (n 2) (s 0) (s 1) (s 2) (t 0) (t 1) (t 2)
      (q0.castLE (by omega)) (q1.castLE (by omega))) : Matrix (Fin 6) (Fin 6) ℝ) *
      (m.2 * if free then mirrorMat 9 [0, 3, 5] else 1) *
      trafoInv3 (n 0) (n 1) (n 2) (s 0) (s 1) (s 2) (t 0) (t 1) (t 2), ?_, ?_⟩
  · simp only [setUpFs3, fs3, viscoFs3, setupFlMid3, setupFrMid3, elasticDen_some hl hr, hm, Option.bind_eq_bind,
      Option.bind_some, Option.pure_def, fsApply_flat hnd hc _ _ _ _ hE, fsApply_flat hnd hc _ _ _ _ hA]
    cases visco <;> rfl
  · intro qL qR
    have hT := C50_rotate3 (n 0) (n 1) (n 2) (s 0) (s 1) (s 2) (t 0) (t 1) (t 2)
    have hI := trafoInv3_ortho hF
    have hA := lead3 (n 0) (n 1) (n 2) (s 0) (s 1) (s 2) (t 0) (t 1) (t 2)
    generalize (Matrix.of (fun q0 q1 : Fin 6 => trafo3 (n 0) (n 1) (n 2) (s 0) (s 1) (s 2) (t 0) (t 1) (t 2)
      (q0.castLE (by omega)) (q1.castLE (by omega))) : Matrix (Fin 6) (Fin 6) ℝ) = TA at *
    generalize trafo3 (n 0) (n 1) (n 2) (s 0) (s 1) (s 2) (t 0) (t 1) (t 2) = T at *
    generalize trafoInv3 (n 0) (n 1) (n 2) (s 0) (s 1) (s 2) (t 0) (t 1) (t 2) = Tm at *
    generalize frame3 (n 0) (n 1) (n 2) (s 0) (s 1) (s 2) (t 0) (t 1) (t 2) = F at *
    have hF' : F * Fᵀ = 1 := mul_eq_one_comm.1 hF
    have hloc : ∀ q, F *ᵥ (stress3 (Tm *ᵥ q) *ᵥ e3) = stress3 q *ᵥ n := by
      intro q
      rw [(hI q).1, ← hn]
      simp only [Matrix.mulVec_mulVec, ← Matrix.mul_assoc, hF', Matrix.one_mul]
    have hlocv : ∀ q, F *ᵥ vel3 (Tm *ᵥ q) = vel3 q := by
      intro q
      rw [(hI q).2, Matrix.mulVec_mulVec, hF', Matrix.one_mulVec]
    have hb : ∃ b, b = (if free then mirrorMat 9 [0, 3, 5] else 1) *ᵥ (Tm *ᵥ qR) ∧
        F *ᵥ (stress3 b *ᵥ e3) = (if free then -(stress3 qR *ᵥ n) else stress3 qR *ᵥ n) ∧ F *ᵥ vel3 b = vel3 qR := by
      refine ⟨_, rfl, ?_⟩
      cases free
      · simp only [Bool.false_eq_true, if_false, Matrix.one_mulVec]
        exact ⟨hloc qR, hlocv qR⟩
      · simp only [if_true]
        rw [(mirror3 _).1, (mirror3 _).2, Matrix.mulVec_neg, hloc, hlocv]
        exact ⟨rfl, rfl⟩
    obtain ⟨b, eb, hb1, hb2⟩ := hb
    obtain ⟨τ, v, h1, h2, h3⟩ := mid3 hl hr (Tm *ᵥ qL) b
    obtain ⟨τ', v', h1', h4⟩ := hmid (Tm *ᵥ qL) b
    obtain ⟨rfl, rfl⟩ := h1.unique hl hr h1'
    refine ⟨F *ᵥ τ, F *ᵥ v, ?_, ?_⟩
    · have := h1.rot hF
      rwa [hn, hloc, hlocv, hb1, hb2] at this
    · have ex : ∀ {k : Nat} (X : Matrix (Fin k) (Fin k) ℝ) (fl fr : Matrix (Fin k) (Fin 9) ℝ), (X * fl * Tm) *ᵥ qL +
          (X * (fr * if free then mirrorMat 9 [0, 3, 5] else 1) * Tm) *ᵥ qR = X *ᵥ (fl *ᵥ (Tm *ᵥ qL) + fr *ᵥ b) := by
        intro k X fl fr
        rw [eb, Matrix.mulVec_add]
        simp only [Matrix.mulVec_mulVec, Matrix.mul_assoc]
      rw [ex, ex, (hT _).1, (hT _).2, h2, h3, hA, h4, ← fluxV_rot, ← fluxS_rot hF, ← fluxE_rot, hn]
      exact ⟨rfl, rfl, rfl⟩

/-- Normal Jacobian of the elastic wave equations: stress part and velocity part. -/
theorem normal3 {m : Material} (n : Fin 3 → ℝ) (q : Fin 9 → ℝ) :
    stress3 ((n 0 • jac3 m.rho m.lam m.mu 0 + n 1 • jac3 m.rho m.lam m.mu 1 + n 2 • jac3 m.rho m.lam m.mu 2) *ᵥ q) =
      fluxS m n (vel3 q) ∧
    vel3 ((n 0 • jac3 m.rho m.lam m.mu 0 + n 1 • jac3 m.rho m.lam m.mu 1 + n 2 • jac3 m.rho m.lam m.mu 2) *ᵥ q) =
      fluxV m (stress3 q *ᵥ n) := by
  constructor
  · funext i j
    fin_cases i <;> fin_cases j <;>
      simp [stress3, vel3, jac3, fluxS, Matrix.mulVec, dotProduct, Fin.sum_univ_succ, vecMulVec, Matrix.add_apply] <;> ring
  · funext i
    fin_cases i <;>
      simp [stress3, vel3, jac3, fluxV, Matrix.mulVec, dotProduct, Fin.sum_univ_succ, Matrix.add_apply] <;> ring

/-- C69, 3D: for every face (orthonormal frame), every pair of elastic materials and all states of the two elements the
two flux solvers of an element return the flux of the middle state of the Riemann problem. -/
theorem C69_godunov3 {l r : Material} (hl : l.Elastic) (hr : r.Elastic) {n s t : Fin 3 → ℝ} (hO : Orthonormal3 n s t)
    {jE jA : List ℝ} (hE : jE.length = 9 * 9) (hA : jA.length = 6 * 9) (visco : Bool) :
    ∃ (el er : Matrix (Fin 9) (Fin 9) ℝ) (an : Option (List ℝ × List ℝ)),
      setUpFs3 l.rho r.rho l.lam r.lam l.mu r.mu (n 0) (n 1) (n 2) (s 0) (s 1) (s 2) (t 0) (t 1) (t 2) visco jE jA false =
        some ⟨flat el, flat er, an⟩ ∧
      ∀ qL qR : Fin 9 → ℝ, ∃ τ v : Fin 3 → ℝ,
        IsMiddle l r n (stress3 qL *ᵥ n) (vel3 qL) (stress3 qR *ᵥ n) (vel3 qR) τ v ∧
        stress3 (el *ᵥ qL + er *ᵥ qR) = fluxS l n v ∧ vel3 (el *ᵥ qL + er *ᵥ qR) = fluxV l τ := by
  obtain ⟨el, er, al, ar, h, hq⟩ := face3 hl hr hO hE hA visco false
  refine ⟨el, er, _, h, fun qL qR => ?_⟩
  obtain ⟨τ, v, h1, h2, h3, -⟩ := hq qL qR
  exact ⟨τ, v, h1, h2, h3⟩

/-- C69, 3D: at a free surface the two solvers of an element, both applied to the element's own state, return the flux of
the state with vanishing traction that is connected to the element's state by outgoing waves. -/
theorem C69_free3 {l : Material} (hl : l.Elastic) {n s t : Fin 3 → ℝ} (hO : Orthonormal3 n s t)
    {jE jA : List ℝ} (hE : jE.length = 9 * 9) (hA : jA.length = 6 * 9) (visco : Bool) :
    ∃ (el er : Matrix (Fin 9) (Fin 9) ℝ) (an : Option (List ℝ × List ℝ)),
      setUpFs3 l.rho l.rho l.lam l.lam l.mu l.mu (n 0) (n 1) (n 2) (s 0) (s 1) (s 2) (t 0) (t 1) (t 2) visco jE jA true =
        some ⟨flat el, flat er, an⟩ ∧
      ∀ q : Fin 9 → ℝ, ∃ v : Fin 3 → ℝ,
        -nrm n (stress3 q *ᵥ n) = l.zp • nrm n (v - vel3 q) ∧ -tng n (stress3 q *ᵥ n) = l.zs • tng n (v - vel3 q) ∧
        stress3 (el *ᵥ q + er *ᵥ q) = fluxS l n v ∧ vel3 (el *ᵥ q + er *ᵥ q) = 0 := by
  obtain ⟨el, er, al, ar, h, hq⟩ := face3 hl hl hO hE hA visco true
  refine ⟨el, er, _, h, fun q => ?_⟩
  obtain ⟨τ, v, h1, h2, h3, -⟩ := hq q q
  rw [if_pos rfl] at h1
  have h0 := h1.free hl
  subst h0
  refine ⟨v, ?_, ?_, h2, ?_⟩
  · have := h1.leftP; rwa [zero_sub, nrm_neg] at this
  · have := h1.leftS; rwa [zero_sub, tng_neg] at this
  · rw [h3, fluxV, smul_zero]

/-- C69, 3D: the fluxes computed by the elements on the two sides of a face belong to the same middle state: the momentum
leaving one element enters the other one, and both sides see the same velocity. The right element sees exchanged
materials and the reversed normal (src/impl/seismic/solvers/AderDgInit.hpp:549-588). -/
theorem C69_conserves3 {l r : Material} (hl : l.Elastic) (hr : r.Elastic) {n s t : Fin 3 → ℝ} (hO : Orthonormal3 n s t)
    {jE jA jE' jA' : List ℝ} (hE : jE.length = 9 * 9) (hA : jA.length = 6 * 9) (hE' : jE'.length = 9 * 9)
    (hA' : jA'.length = 6 * 9) (visco : Bool) :
    ∃ (el er fl fr : Matrix (Fin 9) (Fin 9) ℝ) (an an' : Option (List ℝ × List ℝ)),
      setUpFs3 l.rho r.rho l.lam r.lam l.mu r.mu (n 0) (n 1) (n 2) (s 0) (s 1) (s 2) (t 0) (t 1) (t 2) visco jE jA false =
        some ⟨flat el, flat er, an⟩ ∧
      setUpFs3 r.rho l.rho r.lam l.lam r.mu l.mu (-n 0) (-n 1) (-n 2) (s 0) (s 1) (s 2) (t 0) (t 1) (t 2) visco jE' jA'
        false = some ⟨flat fl, flat fr, an'⟩ ∧
      ∀ qL qR : Fin 9 → ℝ,
        l.rho • vel3 (el *ᵥ qL + er *ᵥ qR) = -(r.rho • vel3 (fl *ᵥ qR + fr *ᵥ qL)) ∧
        ∃ v : Fin 3 → ℝ, stress3 (el *ᵥ qL + er *ᵥ qR) = fluxS l n v ∧ stress3 (fl *ᵥ qR + fr *ᵥ qL) = fluxS r (-n) v := by
  obtain ⟨el, er, al, ar, h, hq⟩ := face3 hl hr hO hE hA visco false
  obtain ⟨fl, fr, al', ar', h', hq'⟩ := face3 hr hl hO.flip hE' hA' visco false
  refine ⟨el, er, fl, fr, _, _, h, h', fun qL qR => ?_⟩
  obtain ⟨τ, v, h1, h2, h3, -⟩ := hq qL qR
  obtain ⟨τ', v', h1', h2', h3', -⟩ := hq' qR qL
  simp only [Bool.false_eq_true, if_false] at h1 h1'
  have hs := h1.swap
  simp only [← Matrix.mulVec_neg] at hs
  obtain ⟨rfl, rfl⟩ := h1'.unique hr hl hs
  have hl0 := hl.1.ne'
  have hr0 := hr.1.ne'
  refine ⟨?_, _, h2, h2'⟩
  rw [h3, h3', fluxV_neg, fluxV, fluxV, smul_smul, smul_neg, neg_neg, smul_smul]
  congr 1
  field_simp

/-- C51, 3D: for equal materials and equal states the flux is the exact flux in direction of the normal. -/
theorem C51_consistent3 {m : Material} (hm : m.Elastic) {n s t : Fin 3 → ℝ} (hO : Orthonormal3 n s t)
    {jE jA : List ℝ} (hE : jE.length = 9 * 9) (hA : jA.length = 6 * 9) (visco : Bool) :
    ∃ (el er : Matrix (Fin 9) (Fin 9) ℝ) (an : Option (List ℝ × List ℝ)),
      setUpFs3 m.rho m.rho m.lam m.lam m.mu m.mu (n 0) (n 1) (n 2) (s 0) (s 1) (s 2) (t 0) (t 1) (t 2) visco jE jA false =
        some ⟨flat el, flat er, an⟩ ∧
      ∀ q : Fin 9 → ℝ, el *ᵥ q + er *ᵥ q =
        (n 0 • jac3 m.rho m.lam m.mu 0 + n 1 • jac3 m.rho m.lam m.mu 1 + n 2 • jac3 m.rho m.lam m.mu 2) *ᵥ q := by
  obtain ⟨el, er, al, ar, h, hq⟩ := face3 hm hm hO hE hA visco false
  refine ⟨el, er, _, h, fun q => ?_⟩
  obtain ⟨τ, v, h1, h2, h3, -⟩ := hq q q
  obtain ⟨rfl, rfl⟩ := h1.unique hm hm (by simpa using IsMiddle.self m m n (stress3 q *ᵥ n) (vel3 q))
  refine ext3 ?_ ?_
  · rw [h2, (normal3 n q).1]
  · rw [h3, (normal3 n q).2]

/-- C51: in 3D there is no flux solver for fluids. With a vanishing shear modulus on one of the sides the coefficients
contain a division by zero. -/
theorem C51_acoustic3_refuted {rhoL rhoR lamL lamR muL muR : ℝ} (h : muL = 0 ∨ muR = 0) (nx ny nz sx sy sz tx ty tz : ℝ)
    (visco : Bool) (jE jA : List ℝ) (free : Bool) :
    setUpFs3 rhoL rhoR lamL lamR muL muR nx ny nz sx sy sz tx ty tz visco jE jA free = none := by
  have : elasticDen rhoL rhoR lamL lamR muL muR = none := by
    have e : muR * Real.sqrt (muL / rhoL) + muL * Real.sqrt (muR / rhoR) = 0 := by
      rcases h with h | h <;> simp [h]
    simp [elasticDen, check, e]
  simp [setUpFs3, fs3, setupFlMid3, this]

/-- C70, 3D: the anelastic flux solvers return the strain rate of the same middle state as the elastic ones. -/
theorem C70_strain3 {l r : Material} (hl : l.Elastic) (hr : r.Elastic) {n s t : Fin 3 → ℝ} (hO : Orthonormal3 n s t)
    {jE jA : List ℝ} (hE : jE.length = 9 * 9) (hA : jA.length = 6 * 9) :
    ∃ (el er : List ℝ) (al ar : Matrix (Fin 6) (Fin 9) ℝ),
      setUpFs3 l.rho r.rho l.lam r.lam l.mu r.mu (n 0) (n 1) (n 2) (s 0) (s 1) (s 2) (t 0) (t 1) (t 2) true jE jA false =
        some ⟨el, er, some (flat al, flat ar)⟩ ∧
      ∀ qL qR : Fin 9 → ℝ, ∃ τ v : Fin 3 → ℝ,
        IsMiddle l r n (stress3 qL *ᵥ n) (vel3 qL) (stress3 qR *ᵥ n) (vel3 qR) τ v ∧
        strain3 (al *ᵥ qL + ar *ᵥ qR) = fluxE n v := by
  obtain ⟨el, er, al, ar, h, hq⟩ := face3 hl hr hO hE hA true false
  refine ⟨_, _, al, ar, h, fun qL qR => ?_⟩
  obtain ⟨τ, v, h1, -, -, h4⟩ := hq qL qR
  exact ⟨τ, v, h1, h4⟩

/-- C70, 3D: at a free surface the anelastic solvers use the velocity of the traction-free middle state. -/
theorem C70_free3 {l : Material} (hl : l.Elastic) {n s t : Fin 3 → ℝ} (hO : Orthonormal3 n s t)
    {jE jA : List ℝ} (hE : jE.length = 9 * 9) (hA : jA.length = 6 * 9) :
    ∃ (el er : List ℝ) (al ar : Matrix (Fin 6) (Fin 9) ℝ),
      setUpFs3 l.rho l.rho l.lam l.lam l.mu l.mu (n 0) (n 1) (n 2) (s 0) (s 1) (s 2) (t 0) (t 1) (t 2) true jE jA true =
        some ⟨el, er, some (flat al, flat ar)⟩ ∧
      ∀ q : Fin 9 → ℝ, ∃ v : Fin 3 → ℝ,
        -nrm n (stress3 q *ᵥ n) = l.zp • nrm n (v - vel3 q) ∧ -tng n (stress3 q *ᵥ n) = l.zs • tng n (v - vel3 q) ∧
        strain3 (al *ᵥ q + ar *ᵥ q) = fluxE n v := by
  obtain ⟨el, er, al, ar, h, hq⟩ := face3 hl hl hO hE hA true true
  refine ⟨_, _, al, ar, h, fun q => ?_⟩
  obtain ⟨τ, v, h1, -, -, h4⟩ := hq q q
  rw [if_pos rfl] at h1
  have h0 := h1.free hl
  subst h0
  refine ⟨v, ?_, ?_, h4⟩
  · have := h1.leftP; rwa [zero_sub, nrm_neg] at this
  · have := h1.leftS; rwa [zero_sub, tng_neg] at this

/-- An oblique face between two rocks. -/
example : Orthonormal3 ![3 / 5, 4 / 5, 0] ![-4 / 5, 3 / 5, 0] ![0, 0, 1] := by
  constructor <;> norm_num [dotProduct, Fin.sum_univ_succ]
example : Material.Elastic ⟨2700, 32, 32⟩ ∧ Material.Elastic ⟨2600, 20, 10⟩ := by
  norm_num [Material.Elastic]

/-! ### 2D -/

theorem unit2 {n : Fin 2 → ℝ} (h : n ⬝ᵥ n = 1) : n 0 ^ 2 + n 1 ^ 2 = 1 := by
  simp only [dotProduct, Fin.sum_univ_two] at h; linarith

theorem lead2 (nx ny : ℝ) (x : Fin 3 → ℝ) :
    strain2 ((Matrix.of (fun q0 q1 : Fin 3 => trafo2 nx ny (q0.castLE (by omega)) (q1.castLE (by omega))) :
      Matrix (Fin 3) (Fin 3) ℝ) *ᵥ x) = frame2 nx ny * strain2 x * (frame2 nx ny)ᵀ := by
  have h := (C50_rotate2 nx ny ![x 0, x 1, x 2, 0, 0]).1
  have e : stress2 ![x 0, x 1, x 2, 0, 0] = strain2 x := by
    ext i j; fin_cases i <;> fin_cases j <;> simp [stress2, strain2]
  rw [e] at h
  rw [← h]
  ext i j
  fin_cases i <;> fin_cases j <;>
    simp [stress2, strain2, trafo2, Matrix.mulVec, dotProduct, Fin.sum_univ_succ, Fin.castLE]

theorem mirror2 (a : Fin 5 → ℝ) :
    stress2 (mirrorMat 5 [0, 2] *ᵥ a) *ᵥ e2 = -(stress2 a *ᵥ e2) ∧ vel2 (mirrorMat 5 [0, 2] *ᵥ a) = vel2 a := by
  constructor
  · funext i; fin_cases i <;>
      simp [stress2, e2, mirrorMat, Matrix.mulVec, dotProduct, Fin.sum_univ_succ]
  · funext i; fin_cases i <;> simp [vel2, mirrorMat, Matrix.mulVec_diagonal]

theorem setupMid2_elastic {l r : Material} (hl : l.Elastic) (hr : r.Elastic) :
    setupFlMid2 l.rho r.rho l.lam r.lam l.mu r.mu = some (flMidElastic2 l.rho r.rho l.lam r.lam l.mu r.mu) ∧
    setupFrMid2 l.rho r.rho l.lam r.lam l.mu r.mu = some (frMidElastic2 l.rho r.rho l.lam r.lam l.mu r.mu) := by
  have h : l.mu > 0 ∧ r.mu > 0 := ⟨hl.2.1, hr.2.1⟩
  constructor
  · rw [setupFlMid2, if_pos h, elasticDen_some hl hr]; rfl
  · rw [setupFrMid2, if_pos h, elasticDen_some hl hr]; rfl

theorem setupMid2_acoustic {l r : Material} (hl : l.Acoustic) (hr : r.Acoustic) :
    setupFlMid2 l.rho r.rho l.lam r.lam l.mu r.mu = some (flMidAcoustic2 l.rho r.rho l.lam r.lam l.mu r.mu) ∧
    setupFrMid2 l.rho r.rho l.lam r.lam l.mu r.mu = some (frMidAcoustic2 l.rho r.rho l.lam r.lam l.mu r.mu) := by
  have h : ¬(l.mu > 0 ∧ r.mu > 0) := by rw [hl.2.1]; simp
  have h' : l.mu = 0 ∧ r.mu = 0 := ⟨hl.2.1, hr.2.1⟩
  have hd : acousticDen l.rho r.rho l.lam r.lam = some () := by
    obtain ⟨c1, c2, c3⟩ := hl
    obtain ⟨d1, d2, d3⟩ := hr
    have h1 : 0 < Real.sqrt (l.lam / l.rho) := Real.sqrt_pos.2 (by positivity)
    have h2 : r.lam * Real.sqrt (l.lam / l.rho) + l.lam * Real.sqrt (r.lam / r.rho) ≠ 0 := by positivity
    simp [acousticDen, check, c1.ne', d1.ne', h2]
  constructor
  · rw [setupFlMid2, if_neg h, if_pos h', hd]; rfl
  · rw [setupFrMid2, if_neg h, if_pos h', hd]; rfl

section
variable {n : Fin 2 → ℝ} {free : Bool} {qL qR : Fin 5 → ℝ}

/-- Local states and back-rotation of a 2D face. -/
theorem local2 (hn : n ⬝ᵥ n = 1) (free : Bool) (qL qR : Fin 5 → ℝ) :
    ∃ a b : Fin 5 → ℝ,
      frame2 (n 0) (n 1) *ᵥ (stress2 a *ᵥ e2) = stress2 qL *ᵥ n ∧ frame2 (n 0) (n 1) *ᵥ vel2 a = vel2 qL ∧
      frame2 (n 0) (n 1) *ᵥ (stress2 b *ᵥ e2) = (if free then -(stress2 qR *ᵥ n) else stress2 qR *ᵥ n) ∧
      frame2 (n 0) (n 1) *ᵥ vel2 b = vel2 qR ∧
      ∀ {k : Nat} (X : Matrix (Fin k) (Fin k) ℝ) (fl fr : Matrix (Fin k) (Fin 5) ℝ),
        (X * fl * trafoInv2 (n 0) (n 1)) *ᵥ qL +
          (X * (fr * if free then mirrorMat 5 [0, 2] else 1) * trafoInv2 (n 0) (n 1)) *ᵥ qR =
          X *ᵥ (fl *ᵥ a + fr *ᵥ b) := by
  have hu := unit2 hn
  have hI := C50_rotateInv2 hu
  have hF' := frame2_unit hu
  have hne : frame2 (n 0) (n 1) *ᵥ e2 = n := by
    rw [frame2_e]; funext i; fin_cases i <;> rfl
  generalize trafoInv2 (n 0) (n 1) = Tm at *
  generalize frame2 (n 0) (n 1) = F at *
  have hloc : ∀ q, F *ᵥ (stress2 (Tm *ᵥ q) *ᵥ e2) = stress2 q *ᵥ n := by
    intro q
    rw [(hI q).1, ← hne]
    simp only [Matrix.mulVec_mulVec, ← Matrix.mul_assoc, hF', Matrix.one_mul]
  have hlocv : ∀ q, F *ᵥ vel2 (Tm *ᵥ q) = vel2 q := by
    intro q
    rw [(hI q).2, Matrix.mulVec_mulVec, hF', Matrix.one_mulVec]
  refine ⟨Tm *ᵥ qL, (if free then mirrorMat 5 [0, 2] else 1) *ᵥ (Tm *ᵥ qR), hloc qL, hlocv qL, ?_, ?_, ?_⟩
  · cases free
    · simp only [Bool.false_eq_true, if_false, Matrix.one_mulVec]
      exact hloc qR
    · simp only [if_true]
      rw [(mirror2 _).1, Matrix.mulVec_neg, hloc]
  · cases free
    · simp only [Bool.false_eq_true, if_false, Matrix.one_mulVec]
      exact hlocv qR
    · simp only [if_true]
      rw [(mirror2 _).2, hlocv]
  · intro k X fl fr
    rw [Matrix.mulVec_add]
    simp only [Matrix.mulVec_mulVec, Matrix.mul_assoc]
end

theorem face2 {l r : Material} (hl : l.Elastic) (hr : r.Elastic) {n : Fin 2 → ℝ} (hn : n ⬝ᵥ n = 1)
    {jE jA : List ℝ} (hE : jE.length = 5 * 5) (hA : jA.length = 3 * 5) (visco free : Bool) :
    ∃ (el er : Matrix (Fin 5) (Fin 5) ℝ) (al ar : Matrix (Fin 3) (Fin 5) ℝ),
      setUpFs2 l.rho r.rho l.lam r.lam l.mu r.mu (n 0) (n 1) visco jE jA free =
        some ⟨flat el, flat er, if visco then some (flat al, flat ar) else none⟩ ∧
      ∀ qL qR : Fin 5 → ℝ, ∃ τ v : Fin 2 → ℝ,
        IsMiddle l r n (stress2 qL *ᵥ n) (vel2 qL) (if free then -(stress2 qR *ᵥ n) else stress2 qR *ᵥ n) (vel2 qR) τ v ∧
        stress2 (el *ᵥ qL + er *ᵥ qR) = fluxS l n v ∧ vel2 (el *ᵥ qL + er *ᵥ qR) = fluxV l τ ∧
        strain2 (al *ᵥ qL + ar *ᵥ qR) = fluxE n v := by
  obtain ⟨m, hm, hmid⟩ := viscoMid2_spec hl hr
  have hne : frame2 (n 0) (n 1) *ᵥ e2 = n := by
    rw [frame2_e]; funext i; fin_cases i <;> rfl
  have hF : (frame2 (n 0) (n 1))ᵀ * frame2 (n 0) (n 1) = 1 := mul_eq_one_comm.1 (frame2_unit (unit2 hn))
  have hnd : ([0, 2] : List Nat).Nodup := by decide
  have hc : ∀ c ∈ ([0, 2] : List Nat), c < 5 := by decide
  obtain ⟨hfl, hfr⟩ := setupMid2_elastic hl hr
  refine ⟨trafo2 (n 0) (n 1) * flMidElastic2 l.rho r.rho l.lam r.lam l.mu r.mu * trafoInv2 (n 0) (n 1),
    trafo2 (n 0) (n 1) * (frMidElastic2 l.rho r.rho l.lam r.lam l.mu r.mu * if free then mirrorMat 5 [0, 2] else 1) *
      trafoInv2 (n 0) (n 1),
    (Matrix.of (fun q0 q1 : Fin 3 => trafo2 (n 0) (n 1) (q0.castLE (by omega)) (q1.castLE (by omega))) :
      Matrix (Fin 3) (Fin 3) ℝ) * m.1 * trafoInv2 (n 0) (n 1),
    (Matrix.of (fun q0 q1 : Fin 3 => trafo2 (n 0) (n 1) (q0.castLE (by omega)) (q1.castLE (by omega))) :
      Matrix (Fin 3) (Fin 3) ℝ) * (m.2 * if free then mirrorMat 5 [0, 2] else 1) * trafoInv2 (n 0) (n 1), ?_, ?_⟩
  · simp only [setUpFs2, fs2, viscoFs2, hfl, hfr, hm, Option.bind_eq_bind,
      Option.bind_some, Option.pure_def, fsApply_flat hnd hc _ _ _ _ hE, fsApply_flat hnd hc _ _ _ _ hA]
    cases visco <;> rfl
  · intro qL qR
    obtain ⟨a, b, a1, a2, b1, b2, ex⟩ := local2 hn free qL qR
    obtain ⟨τ, v, h1, h2, h3⟩ := mid2 hl hr a b
    obtain ⟨τ', v', h1', h4⟩ := hmid a b
    obtain ⟨rfl, rfl⟩ := h1.unique hl hr h1'
    refine ⟨frame2 (n 0) (n 1) *ᵥ τ, frame2 (n 0) (n 1) *ᵥ v, ?_, ?_⟩
    · have := h1.rot hF
      rwa [hne, a1, a2, b1, b2] at this
    · rw [ex, ex, (C50_rotate2 _ _ _).1, (C50_rotate2 _ _ _).2, h2, h3, lead2, h4, ← fluxV_rot, ← fluxS_rot hF,
        ← fluxE_rot, hne]
      exact ⟨rfl, rfl, rfl⟩

theorem faceA2 {l r : Material} (hl : l.Acoustic) (hr : r.Acoustic) {n : Fin 2 → ℝ} (hn : n ⬝ᵥ n = 1)
    {jE jA : List ℝ} (hE : jE.length = 5 * 5) (free : Bool) :
    ∃ (el er : Matrix (Fin 5) (Fin 5) ℝ),
      setUpFs2 l.rho r.rho l.lam r.lam l.mu r.mu (n 0) (n 1) false jE jA free = some ⟨flat el, flat er, none⟩ ∧
      ∀ qL qR : Fin 5 → ℝ, ∃ τ v : Fin 2 → ℝ,
        IsMiddleA l r n (stress2 qL *ᵥ n) (vel2 qL) (if free then -(stress2 qR *ᵥ n) else stress2 qR *ᵥ n) (vel2 qR) τ v ∧
        stress2 (el *ᵥ qL + er *ᵥ qR) = fluxS l n v ∧ vel2 (el *ᵥ qL + er *ᵥ qR) = fluxV l τ := by
  have hne : frame2 (n 0) (n 1) *ᵥ e2 = n := by
    rw [frame2_e]; funext i; fin_cases i <;> rfl
  have hF : (frame2 (n 0) (n 1))ᵀ * frame2 (n 0) (n 1) = 1 := mul_eq_one_comm.1 (frame2_unit (unit2 hn))
  have hnd : ([0, 2] : List Nat).Nodup := by decide
  have hc : ∀ c ∈ ([0, 2] : List Nat), c < 5 := by decide
  obtain ⟨hfl, hfr⟩ := setupMid2_acoustic hl hr
  refine ⟨trafo2 (n 0) (n 1) * flMidAcoustic2 l.rho r.rho l.lam r.lam l.mu r.mu * trafoInv2 (n 0) (n 1),
    trafo2 (n 0) (n 1) * (frMidAcoustic2 l.rho r.rho l.lam r.lam l.mu r.mu * if free then mirrorMat 5 [0, 2] else 1) *
      trafoInv2 (n 0) (n 1), ?_, ?_⟩
  · simp only [setUpFs2, fs2, hfl, hfr, Option.bind_eq_bind, Option.bind_some, Option.pure_def,
      fsApply_flat hnd hc _ _ _ _ hE]
    rfl
  · intro qL qR
    obtain ⟨a, b, a1, a2, b1, b2, ex⟩ := local2 hn free qL qR
    obtain ⟨τ, v, h1, h2, h3⟩ := midA2 hl hr a b
    refine ⟨frame2 (n 0) (n 1) *ᵥ τ, frame2 (n 0) (n 1) *ᵥ v, ?_, ?_⟩
    · have := h1.rot hF
      rwa [hne, a1, a2, b1, b2] at this
    · rw [ex, (C50_rotate2 _ _ _).1, (C50_rotate2 _ _ _).2, h2, h3, ← fluxV_rot, ← fluxS_rot hF, hne]
      exact ⟨rfl, rfl⟩

theorem normal2 {m : Material} (n : Fin 2 → ℝ) (q : Fin 5 → ℝ) :
    stress2 ((n 0 • jac2 m.rho m.lam m.mu 0 + n 1 • jac2 m.rho m.lam m.mu 1) *ᵥ q) = fluxS m n (vel2 q) ∧
    vel2 ((n 0 • jac2 m.rho m.lam m.mu 0 + n 1 • jac2 m.rho m.lam m.mu 1) *ᵥ q) = fluxV m (stress2 q *ᵥ n) := by
  constructor
  · funext i j
    fin_cases i <;> fin_cases j <;>
      simp [stress2, vel2, jac2, fluxS, Matrix.mulVec, dotProduct, Fin.sum_univ_succ, vecMulVec, Matrix.add_apply] <;> ring
  · funext i
    fin_cases i <;>
      simp [stress2, vel2, jac2, fluxV, Matrix.mulVec, dotProduct, Fin.sum_univ_succ, Matrix.add_apply] <;> ring

/-- C69, 2D: the same in two dimensions. -/
theorem C69_godunov2 {l r : Material} (hl : l.Elastic) (hr : r.Elastic) {n : Fin 2 → ℝ} (hn : n ⬝ᵥ n = 1)
    {jE jA : List ℝ} (hE : jE.length = 5 * 5) (hA : jA.length = 3 * 5) (visco : Bool) :
    ∃ (el er : Matrix (Fin 5) (Fin 5) ℝ) (an : Option (List ℝ × List ℝ)),
      setUpFs2 l.rho r.rho l.lam r.lam l.mu r.mu (n 0) (n 1) visco jE jA false = some ⟨flat el, flat er, an⟩ ∧
      ∀ qL qR : Fin 5 → ℝ, ∃ τ v : Fin 2 → ℝ,
        IsMiddle l r n (stress2 qL *ᵥ n) (vel2 qL) (stress2 qR *ᵥ n) (vel2 qR) τ v ∧
        stress2 (el *ᵥ qL + er *ᵥ qR) = fluxS l n v ∧ vel2 (el *ᵥ qL + er *ᵥ qR) = fluxV l τ := by
  obtain ⟨el, er, al, ar, h, hq⟩ := face2 hl hr hn hE hA visco false
  refine ⟨el, er, _, h, fun qL qR => ?_⟩
  obtain ⟨τ, v, h1, h2, h3, -⟩ := hq qL qR
  exact ⟨τ, v, h1, h2, h3⟩

/-- C69, 2D: the solvers of two fluids return the flux of the middle state with p-waves only. -/
theorem C69_acoustic2 {l r : Material} (hl : l.Acoustic) (hr : r.Acoustic) {n : Fin 2 → ℝ} (hn : n ⬝ᵥ n = 1)
    {jE jA : List ℝ} (hE : jE.length = 5 * 5) :
    ∃ (el er : Matrix (Fin 5) (Fin 5) ℝ),
      setUpFs2 l.rho r.rho l.lam r.lam l.mu r.mu (n 0) (n 1) false jE jA false = some ⟨flat el, flat er, none⟩ ∧
      ∀ qL qR : Fin 5 → ℝ, ∃ τ v : Fin 2 → ℝ,
        IsMiddleA l r n (stress2 qL *ᵥ n) (vel2 qL) (stress2 qR *ᵥ n) (vel2 qR) τ v ∧
        stress2 (el *ᵥ qL + er *ᵥ qR) = fluxS l n v ∧ vel2 (el *ᵥ qL + er *ᵥ qR) = fluxV l τ :=
  faceA2 hl hr hn hE false

/-- C69, 2D: free surface. -/
theorem C69_free2 {l : Material} (hl : l.Elastic) {n : Fin 2 → ℝ} (hn : n ⬝ᵥ n = 1)
    {jE jA : List ℝ} (hE : jE.length = 5 * 5) (hA : jA.length = 3 * 5) (visco : Bool) :
    ∃ (el er : Matrix (Fin 5) (Fin 5) ℝ) (an : Option (List ℝ × List ℝ)),
      setUpFs2 l.rho l.rho l.lam l.lam l.mu l.mu (n 0) (n 1) visco jE jA true = some ⟨flat el, flat er, an⟩ ∧
      ∀ q : Fin 5 → ℝ, ∃ v : Fin 2 → ℝ,
        -nrm n (stress2 q *ᵥ n) = l.zp • nrm n (v - vel2 q) ∧ -tng n (stress2 q *ᵥ n) = l.zs • tng n (v - vel2 q) ∧
        stress2 (el *ᵥ q + er *ᵥ q) = fluxS l n v ∧ vel2 (el *ᵥ q + er *ᵥ q) = 0 := by
  obtain ⟨el, er, al, ar, h, hq⟩ := face2 hl hl hn hE hA visco true
  refine ⟨el, er, _, h, fun q => ?_⟩
  obtain ⟨τ, v, h1, h2, h3, -⟩ := hq q q
  rw [if_pos rfl] at h1
  have h0 := h1.free hl
  subst h0
  refine ⟨v, ?_, ?_, h2, ?_⟩
  · have := h1.leftP; rwa [zero_sub, nrm_neg] at this
  · have := h1.leftS; rwa [zero_sub, tng_neg] at this
  · rw [h3, fluxV, smul_zero]

/-- C69, 2D: momentum is conserved across a face. -/
theorem C69_conserves2 {l r : Material} (hl : l.Elastic) (hr : r.Elastic) {n : Fin 2 → ℝ} (hn : n ⬝ᵥ n = 1)
    {jE jA jE' jA' : List ℝ} (hE : jE.length = 5 * 5) (hA : jA.length = 3 * 5) (hE' : jE'.length = 5 * 5)
    (hA' : jA'.length = 3 * 5) (visco : Bool) :
    ∃ (el er fl fr : Matrix (Fin 5) (Fin 5) ℝ) (an an' : Option (List ℝ × List ℝ)),
      setUpFs2 l.rho r.rho l.lam r.lam l.mu r.mu (n 0) (n 1) visco jE jA false = some ⟨flat el, flat er, an⟩ ∧
      setUpFs2 r.rho l.rho r.lam l.lam r.mu l.mu (-n 0) (-n 1) visco jE' jA' false = some ⟨flat fl, flat fr, an'⟩ ∧
      ∀ qL qR : Fin 5 → ℝ,
        l.rho • vel2 (el *ᵥ qL + er *ᵥ qR) = -(r.rho • vel2 (fl *ᵥ qR + fr *ᵥ qL)) ∧
        ∃ v : Fin 2 → ℝ, stress2 (el *ᵥ qL + er *ᵥ qR) = fluxS l n v ∧ stress2 (fl *ᵥ qR + fr *ᵥ qL) = fluxS r (-n) v := by
  obtain ⟨el, er, al, ar, h, hq⟩ := face2 hl hr hn hE hA visco false
  obtain ⟨fl, fr, al', ar', h', hq'⟩ := face2 hr hl (n := -n) (by simpa using hn) hE' hA' visco false
  refine ⟨el, er, fl, fr, _, _, h, h', fun qL qR => ?_⟩
  obtain ⟨τ, v, h1, h2, h3, -⟩ := hq qL qR
  obtain ⟨τ', v', h1', h2', h3', -⟩ := hq' qR qL
  simp only [Bool.false_eq_true, if_false] at h1 h1'
  have hs := h1.swap
  simp only [← Matrix.mulVec_neg] at hs
  obtain ⟨rfl, rfl⟩ := h1'.unique hr hl hs
  have hl0 := hl.1.ne'
  have hr0 := hr.1.ne'
  refine ⟨?_, _, h2, h2'⟩
  rw [h3, h3', fluxV_neg, fluxV, fluxV, smul_smul, smul_neg, neg_neg, smul_smul]
  congr 1
  field_simp

/-- C51, 2D: equal elastic materials and states. -/
theorem C51_consistent2 {m : Material} (hm : m.Elastic) {n : Fin 2 → ℝ} (hn : n ⬝ᵥ n = 1)
    {jE jA : List ℝ} (hE : jE.length = 5 * 5) (hA : jA.length = 3 * 5) (visco : Bool) :
    ∃ (el er : Matrix (Fin 5) (Fin 5) ℝ) (an : Option (List ℝ × List ℝ)),
      setUpFs2 m.rho m.rho m.lam m.lam m.mu m.mu (n 0) (n 1) visco jE jA false = some ⟨flat el, flat er, an⟩ ∧
      ∀ q : Fin 5 → ℝ, el *ᵥ q + er *ᵥ q =
        (n 0 • jac2 m.rho m.lam m.mu 0 + n 1 • jac2 m.rho m.lam m.mu 1) *ᵥ q := by
  obtain ⟨el, er, al, ar, h, hq⟩ := face2 hm hm hn hE hA visco false
  refine ⟨el, er, _, h, fun q => ?_⟩
  obtain ⟨τ, v, h1, h2, h3, -⟩ := hq q q
  obtain ⟨rfl, rfl⟩ := h1.unique hm hm (by simpa using IsMiddle.self m m n (stress2 q *ᵥ n) (vel2 q))
  refine ext2 ?_ ?_
  · rw [h2, (normal2 n q).1]
  · rw [h3, (normal2 n q).2]

/-- C51, 2D: equal fluids and states. -/
theorem C51_consistentA2 {m : Material} (hm : m.Acoustic) {n : Fin 2 → ℝ} (hn : n ⬝ᵥ n = 1)
    {jE jA : List ℝ} (hE : jE.length = 5 * 5) :
    ∃ (el er : Matrix (Fin 5) (Fin 5) ℝ),
      setUpFs2 m.rho m.rho m.lam m.lam m.mu m.mu (n 0) (n 1) false jE jA false = some ⟨flat el, flat er, none⟩ ∧
      ∀ q : Fin 5 → ℝ, el *ᵥ q + er *ᵥ q =
        (n 0 • jac2 m.rho m.lam m.mu 0 + n 1 • jac2 m.rho m.lam m.mu 1) *ᵥ q := by
  obtain ⟨el, er, h, hq⟩ := faceA2 hm hm hn hE (jA := jA) false
  refine ⟨el, er, h, fun q => ?_⟩
  obtain ⟨τ, v, h1, h2, h3⟩ := hq q q
  obtain ⟨h4, h5⟩ := h1.self_eq hm
  refine ext2 ?_ ?_
  · rw [h2, (normal2 n q).1, fluxS, fluxS, hm.2.1, zero_smul, zero_smul, h5 hn]
  · rw [h3, (normal2 n q).2, h4]

/-- C51: an interface between a solid and a fluid aborts in 2D. -/
theorem C51_mixed2 {rhoL rhoR lamL lamR muL muR : ℝ} (h : (0 < muL ∧ muR = 0) ∨ (muL = 0 ∧ 0 < muR)) (nx ny : ℝ)
    (visco : Bool) (jE jA : List ℝ) (free : Bool) :
    setUpFs2 rhoL rhoR lamL lamR muL muR nx ny visco jE jA free = none := by
  have h1 : ¬(muL > 0 ∧ muR > 0) := by rcases h with ⟨h, h'⟩ | ⟨h, h'⟩ <;> simp [h, h']
  have h2 : ¬(muL = 0 ∧ muR = 0) := by
    rcases h with ⟨h, h'⟩ | ⟨h, h'⟩
    · rintro ⟨e, -⟩; exact h.ne' e
    · rintro ⟨-, e⟩; exact h'.ne' e
  simp [setUpFs2, fs2, setupFlMid2, h1, h2]

/-- C70, 2D: anelastic flux. -/
theorem C70_strain2 {l r : Material} (hl : l.Elastic) (hr : r.Elastic) {n : Fin 2 → ℝ} (hn : n ⬝ᵥ n = 1)
    {jE jA : List ℝ} (hE : jE.length = 5 * 5) (hA : jA.length = 3 * 5) :
    ∃ (el er : List ℝ) (al ar : Matrix (Fin 3) (Fin 5) ℝ),
      setUpFs2 l.rho r.rho l.lam r.lam l.mu r.mu (n 0) (n 1) true jE jA false = some ⟨el, er, some (flat al, flat ar)⟩ ∧
      ∀ qL qR : Fin 5 → ℝ, ∃ τ v : Fin 2 → ℝ,
        IsMiddle l r n (stress2 qL *ᵥ n) (vel2 qL) (stress2 qR *ᵥ n) (vel2 qR) τ v ∧
        strain2 (al *ᵥ qL + ar *ᵥ qR) = fluxE n v := by
  obtain ⟨el, er, al, ar, h, hq⟩ := face2 hl hr hn hE hA true false
  refine ⟨_, _, al, ar, h, fun qL qR => ?_⟩
  obtain ⟨τ, v, h1, -, -, h4⟩ := hq qL qR
  exact ⟨τ, v, h1, h4⟩

/-- C70, 2D: free surface. -/
theorem C70_free2 {l : Material} (hl : l.Elastic) {n : Fin 2 → ℝ} (hn : n ⬝ᵥ n = 1)
    {jE jA : List ℝ} (hE : jE.length = 5 * 5) (hA : jA.length = 3 * 5) :
    ∃ (el er : List ℝ) (al ar : Matrix (Fin 3) (Fin 5) ℝ),
      setUpFs2 l.rho l.rho l.lam l.lam l.mu l.mu (n 0) (n 1) true jE jA true = some ⟨el, er, some (flat al, flat ar)⟩ ∧
      ∀ q : Fin 5 → ℝ, ∃ v : Fin 2 → ℝ,
        -nrm n (stress2 q *ᵥ n) = l.zp • nrm n (v - vel2 q) ∧ -tng n (stress2 q *ᵥ n) = l.zs • tng n (v - vel2 q) ∧
        strain2 (al *ᵥ q + ar *ᵥ q) = fluxE n v := by
  obtain ⟨el, er, al, ar, h, hq⟩ := face2 hl hl hn hE hA true true
  refine ⟨_, _, al, ar, h, fun q => ?_⟩
  obtain ⟨τ, v, h1, -, -, h4⟩ := hq q q
  rw [if_pos rfl] at h1
  have h0 := h1.free hl
  subst h0
  refine ⟨v, ?_, ?_, h4⟩
  · have := h1.leftP; rwa [zero_sub, nrm_neg] at this
  · have := h1.leftS; rwa [zero_sub, tng_neg] at this

example : (![3 / 5, 4 / 5] : Fin 2 → ℝ) ⬝ᵥ ![3 / 5, 4 / 5] = 1 := by norm_num [dotProduct, Fin.sum_univ_succ]
example : Material.Acoustic ⟨1000, 2, 0⟩ := by norm_num [Material.Acoustic]

end Edge.Seismic
