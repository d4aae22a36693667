import Verif.Seismic.IntBnd
/-!
The internal boundary solvers compute the fluxes of a Riemann problem with friction (property C72).
-/
namespace Edge.Seismic
open Matrix Classical

variable {d : Type} [Fintype d] [DecidableEq d]

/-! ### Specification -/

/-- Rankine-Hugoniot conditions at an interface which may slip: the two sides share the traction `t` and the normal
velocity, and may have different tangential velocities `wL`, `wR`; each of the two states is connected to the state of its
element by outgoing p- and s-waves. For `wL = wR` this is a welded interface. -/
structure IsFault (l r : Material) (n tL vL tR vR t wL wR : d → ℝ) : Prop where
  leftP : nrm n (t - tL) = l.zp • nrm n (wL - vL)
  leftS : tng n (t - tL) = l.zs • tng n (wL - vL)
  rightP : nrm n (tR - t) = -r.zp • nrm n (vR - wR)
  rightS : tng n (tR - t) = -r.zs • tng n (vR - wR)
  noGap : nrm n wL = nrm n wR

omit [DecidableEq d] in
/-- A fault which does not slip is a welded interface. -/
theorem IsFault.welded {l r : Material} {n tL vL tR vR t w : d → ℝ} (h : IsFault l r n tL vL tR vR t w w) :
    IsMiddle l r n tL vL tR vR t w := ⟨h.leftP, h.leftS, h.rightP, h.rightS⟩

omit [DecidableEq d] in
/-- For a given shear traction the two states are unique. -/
theorem IsFault.unique {l r : Material} (hl : l.Elastic) (hr : r.Elastic) {n tL vL tR vR t wL wR t' wL' wR' : d → ℝ}
    (h : IsFault l r n tL vL tR vR t wL wR) (h' : IsFault l r n tL vL tR vR t' wL' wR') (ht : tng n t = tng n t') :
    t = t' ∧ wL = wL' ∧ wR = wR' := by
  obtain ⟨a1, -, a3, -⟩ := hl.facts
  obtain ⟨b1, -, b3, -⟩ := hr.facts
  have zl : 0 < l.zp := mul_pos hl.1 a1
  have zr : 0 < r.zp := mul_pos hr.1 b1
  have sl : 0 < l.zs := mul_pos hl.1 a3
  have sr : 0 < r.zs := mul_pos hr.1 b3
  obtain ⟨p1, p2, p3, p4, p5⟩ := h
  obtain ⟨q1, q2, q3, q4, q5⟩ := h'
  simp only [nrm_sub, tng_sub] at p1 p2 p3 p4 q1 q2 q3 q4
  have h1 : nrm n t - nrm n t' = l.zp • (nrm n wL - nrm n wL') := by
    have := congrArg₂ (· - ·) p1 q1
    rw [show nrm n t - nrm n t' = (nrm n t - nrm n tL) - (nrm n t' - nrm n tL) by abel, this]; module
  have h2 : nrm n t' - nrm n t = r.zp • (nrm n wL - nrm n wL') := by
    have := congrArg₂ (· - ·) p3 q3
    rw [p5, q5, show nrm n t' - nrm n t = (nrm n tR - nrm n t) - (nrm n tR - nrm n t') by abel, this]; module
  have h3 : (l.zp + r.zp) • (nrm n wL - nrm n wL') = 0 := by rw [add_smul, ← h1, ← h2]; abel
  have h4 : nrm n wL - nrm n wL' = 0 := (smul_eq_zero.1 h3).resolve_left (add_pos zl zr).ne'
  have e1 : nrm n t = nrm n t' := by rw [h4, smul_zero] at h1; exact sub_eq_zero.1 h1
  have e2 : nrm n wL = nrm n wL' := sub_eq_zero.1 h4
  have e3 : nrm n wR = nrm n wR' := by rw [← p5, ← q5, e2]
  have e4 : tng n wL = tng n wL' := by
    have := congrArg₂ (· - ·) p2 q2
    rw [ht, sub_self, ← smul_sub] at this
    have := (smul_eq_zero.1 this.symm).resolve_left sl.ne'
    exact sub_eq_zero.1 (by rw [← this]; abel)
  have e5 : tng n wR = tng n wR' := by
    have := congrArg₂ (· - ·) p4 q4
    rw [ht, sub_self, ← smul_sub] at this
    have := (smul_eq_zero.1 this.symm).resolve_left (neg_ne_zero.2 sr.ne')
    rw [show tng n vR - tng n wR - (tng n vR - tng n wR') = tng n wR' - tng n wR by abel] at this
    exact (sub_eq_zero.1 this).symm
  exact ⟨by rw [← nrm_tng n t, e1, ht, nrm_tng], by rw [← nrm_tng n wL, e2, e4, nrm_tng],
    by rw [← nrm_tng n wR, e3, e5, nrm_tng]⟩

omit [DecidableEq d] in
theorem IsFault.swap {l r : Material} {n tL vL tR vR t wL wR : d → ℝ} (h : IsFault l r n tL vL tR vR t wL wR) :
    IsFault r l (-n) (-tR) vR (-tL) vL (-t) wR wL := by
  obtain ⟨p1, p2, p3, p4, p5⟩ := h
  simp only [nrm_sub, tng_sub] at p1 p2 p3 p4
  refine ⟨?_, ?_, ?_, ?_, ?_⟩ <;> simp only [nrm_flip, tng_flip, nrm_sub, tng_sub, nrm_neg, tng_neg]
  · rw [show -nrm n t - -nrm n tR = nrm n tR - nrm n t by abel, p3]; module
  · rw [show -tng n t - -tng n tR = tng n tR - tng n t by abel, p4]; module
  · rw [show -nrm n tL - -nrm n t = nrm n t - nrm n tL by abel, p1]; module
  · rw [show -tng n tL - -tng n t = tng n t - tng n tL by abel, p2]; module
  · exact p5.symm

theorem IsFault.rot {l r : Material} {R : Matrix d d ℝ} (hR : Rᵀ * R = 1) {n tL vL tR vR t wL wR : d → ℝ}
    (h : IsFault l r n tL vL tR vR t wL wR) :
    IsFault l r (R *ᵥ n) (R *ᵥ tL) (R *ᵥ vL) (R *ᵥ tR) (R *ᵥ vR) (R *ᵥ t) (R *ᵥ wL) (R *ᵥ wR) := by
  obtain ⟨p1, p2, p3, p4, p5⟩ := h
  refine ⟨?_, ?_, ?_, ?_, ?_⟩ <;> simp only [← Matrix.mulVec_sub, nrm_rot hR, tng_rot hR, ← Matrix.mulVec_smul]
  · rw [p1]
  · rw [p2]
  · rw [p3]
  · rw [p4]
  · rw [p5]

omit [DecidableEq d] in
/-- Changing the shear traction of the welded middle state by outgoing s-waves on both sides. -/
theorem IsMiddle.slip {l r : Material} {n tL vL tR vR t v t' wL wR : d → ℝ} (h : IsMiddle l r n tL vL tR vR t v)
    (hn : nrm n (t' - t) = 0) (hL : t' - t = l.zs • (wL - v)) (hR : t' - t = -r.zs • (wR - v))
    (hl0 : l.zs ≠ 0) (hr0 : r.zs ≠ 0) : IsFault l r n tL vL tR vR t' wL wR := by
  obtain ⟨p1, p2, p3, p4⟩ := h
  have nL : nrm n (wL - v) = 0 := by
    rw [hL, nrm_smul] at hn; exact (smul_eq_zero.1 hn).resolve_left hl0
  have nR : nrm n (wR - v) = 0 := by
    rw [hR, nrm_smul] at hn; exact (smul_eq_zero.1 hn).resolve_left (neg_ne_zero.2 hr0)
  have tS : ∀ (c : ℝ) (x : d → ℝ), tng n (c • x) = c • tng n x := by
    intro c x; rw [tng, tng, nrm_smul, smul_sub]
  have sL : tng n (t' - t) = l.zs • tng n (wL - v) := by rw [hL, tS]
  have sR : tng n (t' - t) = -r.zs • tng n (wR - v) := by rw [hR, tS]
  simp only [nrm_sub, tng_sub] at p1 p2 p3 p4 hn nL nR sL sR
  have e1 := sub_eq_zero.1 hn
  have e2 := sub_eq_zero.1 nL
  have e3 := sub_eq_zero.1 nR
  refine ⟨?_, ?_, ?_, ?_, by rw [e2, e3]⟩ <;> simp only [nrm_sub, tng_sub]
  · rw [e1, e2, p1]
  · rw [show tng n t' - tng n tL = (tng n t' - tng n t) + (tng n t - tng n tL) by abel, sL, p2]; module
  · rw [e1, e3, p3]
  · rw [show tng n tR - tng n t' = (tng n tR - tng n t) - (tng n t' - tng n t) by abel, p4, sR]; module

theorem zs_inv {m : Material} (h : m.Elastic) : Real.sqrt (1 / (m.mu * m.rho)) = 1 / m.zs ∧ 0 < m.zs := by
  obtain ⟨-, -, h3, h4⟩ := h.facts
  have hz : 0 < m.zs := mul_pos h.1 h3
  refine ⟨?_, hz⟩
  have : 1 / (m.mu * m.rho) = (1 / m.zs) ^ 2 := by
    rw [← h4, Material.zs]; have := h.1.ne'; have := h3.ne'; field_simp
  rw [this, Real.sqrt_sq (by positivity)]

/-! ### 2D -/

set_option maxHeartbeats 1000000 in
/-- The jump solvers lead to the middle state of the welded interface, 2D. -/
theorem jump2 {l r : Material} (hl : l.Elastic) (hr : r.Elastic) (a b : Fin 5 → ℝ) (ms : Fin 5 → ℝ)
    (h : ms = a + msJumpL2 l.rho r.rho l.lam r.lam l.mu r.mu *ᵥ (b - a) ∨
      ms = b + msJumpR2 l.rho r.rho l.lam r.lam l.mu r.mu *ᵥ (b - a)) :
    IsMiddle l r e2 (stress2 a *ᵥ e2) (vel2 a) (stress2 b *ᵥ e2) (vel2 b) (stress2 ms *ᵥ e2) (vel2 ms) := by
  obtain ⟨a1, a2, a3, a4⟩ := hl.facts
  obtain ⟨b1, b2, b3, b4⟩ := hr.facts
  have hl0 := hl.1
  have hr0 := hr.1
  have zl : 0 < l.zp + r.zp := add_pos (mul_pos hl0 a1) (mul_pos hr0 b1)
  have zs : 0 < l.zs + r.zs := add_pos (mul_pos hl0 a3) (mul_pos hr0 b3)
  have c1 : Real.sqrt ((l.lam + 2 * l.mu) / l.rho) = l.cp := rfl
  have c2 : Real.sqrt ((r.lam + 2 * r.mu) / r.rho) = r.cp := rfl
  have c3 : Real.sqrt (l.mu / l.rho) = l.cs := rfl
  have c4 : Real.sqrt (r.mu / r.rho) = r.cs := rfl
  unfold msJumpL2 msJumpR2 at h
  simp only [c1, c2, c3, c4] at h
  unfold Material.zp Material.zs at *
  have f1 : l.lam = l.rho * l.cp ^ 2 - 2 * (l.rho * l.cs ^ 2) := by rw [a2, a4]; ring
  have f2 : r.lam = r.rho * r.cp ^ 2 - 2 * (r.rho * r.cs ^ 2) := by rw [b2, b4]; ring
  have g1 : r.lam * l.cp + 2 * r.mu * l.cp + (l.lam + 2 * l.mu) * r.cp =
      l.cp * r.cp * (l.rho * l.cp + r.rho * r.cp) := by rw [f1, f2, ← a4, ← b4]; ring
  have g2 : r.mu * l.cs + l.mu * r.cs = l.cs * r.cs * (l.rho * l.cs + r.rho * r.cs) := by rw [← a4, ← b4]; ring
  rw [g1, g2, f1, f2, ← a4, ← b4] at h
  apply isMiddle_e2 <;>
    simp only [Material.zp, Material.zs] <;>
    clear f1 f2 c1 c2 c3 c4 a2 a4 b2 b4 g1 g2 <;>
    generalize l.cp = pl at * <;>
    generalize r.cp = pr at * <;>
    generalize l.cs = sl at * <;>
    generalize r.cs = sr at * <;>
    generalize l.rho = rl at * <;>
    generalize r.rho = rr at * <;>
    rcases h with rfl | rfl <;>
    simp [stress2, vel2, e2, Matrix.mulVec, dotProduct, Fin.sum_univ_succ] <;> field_simp <;> ring

/-- The flux solver applied to a fault-aligned state is the flux of that state, 2D. -/
theorem flux2 {m : Material} {n : Fin 2 → ℝ} (hn : n ⬝ᵥ n = 1) (q : Fin 5 → ℝ) :
    stress2 (msFlux2 (n 0) (n 1) m.rho m.lam m.mu *ᵥ q) = fluxS m n (frame2 (n 0) (n 1) *ᵥ vel2 q) ∧
    vel2 (msFlux2 (n 0) (n 1) m.rho m.lam m.mu *ᵥ q) = fluxV m (frame2 (n 0) (n 1) *ᵥ (stress2 q *ᵥ e2)) := by
  have hu := unit2 hn
  have hx : n 0 ^ 2 = 1 - n 1 ^ 2 := by linarith
  constructor
  · ext i j
    fin_cases i <;> fin_cases j <;>
      simp [stress2, vel2, msFlux2, fluxS, frame2, vecMulVec, Matrix.mulVec, dotProduct, Fin.sum_univ_succ] <;>
      ring_nf <;> simp only [hx] <;> ring_nf
  · ext i
    fin_cases i <;>
      simp [stress2, vel2, msFlux2, fluxV, frame2, e2, Matrix.mulVec, dotProduct, Fin.sum_univ_succ] <;> ring

/-- The slip weakening law in the fault-aligned frame: plus side left, minus side right. -/
theorem lswFault2 {p m : Material} (hp : p.Elastic) (hm : m.Elastic) {tL vL tR vR : Fin 2 → ℝ} {ms : Fin 5 → ℝ}
    (h : IsMiddle p m e2 tL vL tR vR (stress2 ms *ᵥ e2) (vel2 ms)) (dt : ℝ) {q : LswPars}
    (hP : q.csDmuP = 1 / p.zs) (hM : q.csDmuM = 1 / m.zs) (sf : Sf2) :
    let o := lsw2 dt q ms sf
    IsFault p m e2 tL vL tR vR (stress2 o.msP *ᵥ e2) (vel2 o.msP) (vel2 o.msM) ∧
      stress2 o.msM *ᵥ e2 = stress2 o.msP *ᵥ e2 := by
  intro o
  obtain ⟨-, -, -, -, -, s6, s7⟩ := C48_strength2 dt q ms sf
  obtain ⟨w1, w2, -⟩ := C48_waves2 dt q ms sf
  have zp := (zs_inv hp).2.ne'
  have zm := (zs_inv hm).2.ne'
  have s0 := s7 0 (by decide) (by decide)
  have s3 := s7 3 (by decide) (by decide)
  change o.msM 2 = o.msP 2 at s6
  change o.msM 0 = ms 0 ∧ o.msP 0 = ms 0 at s0
  change o.msM 3 = ms 3 ∧ o.msP 3 = ms 3 at s3
  change o.msP 4 - ms 4 = q.csDmuP * (o.msP 2 - ms 2) at w1
  change o.msM 4 - ms 4 = -q.csDmuM * (o.msM 2 - ms 2) at w2
  rw [hP] at w1
  rw [hM, s6] at w2
  have tr : ∀ x : Fin 5 → ℝ, stress2 x *ᵥ e2 = ![x 0, x 2] := by
    intro x; funext i; fin_cases i <;> simp [stress2, e2, Matrix.mulVec, dotProduct, Fin.sum_univ_succ]
  refine ⟨h.slip ?_ ?_ ?_ zp zm, ?_⟩
  · rw [nrm_e2, tr, tr]; funext i; fin_cases i <;> simp [s0.2]
  · rw [tr, tr]; funext i; fin_cases i
    · simp [vel2, s0.2, s3.2]
    · simp only [vel2]; simp; rw [w1]; field_simp
  · rw [tr, tr]; funext i; fin_cases i
    · simp [vel2, s0.2, s3.1]
    · simp only [vel2]; simp; rw [w2]; field_simp
  · rw [tr, tr, s6, s0.1, s0.2]

/-- Rotation of a 2D state to the frame of direction `n` and back. -/
theorem align2 {n : Fin 2 → ℝ} (hn : n ⬝ᵥ n = 1) (q : Fin 5 → ℝ) :
    frame2 (n 0) (n 1) *ᵥ (stress2 (trafoInv2 (n 0) (n 1) *ᵥ q) *ᵥ e2) = stress2 q *ᵥ n ∧
    frame2 (n 0) (n 1) *ᵥ vel2 (trafoInv2 (n 0) (n 1) *ᵥ q) = vel2 q := by
  have hu := unit2 hn
  have hI := C50_rotateInv2 hu q
  have hF' := frame2_unit hu
  have hne : frame2 (n 0) (n 1) *ᵥ e2 = n := by
    rw [frame2_e]; funext i; fin_cases i <;> rfl
  generalize trafoInv2 (n 0) (n 1) = Tm at *
  generalize frame2 (n 0) (n 1) = F at *
  constructor
  · rw [hI.1, ← hne]
    simp only [Matrix.mulVec_mulVec, ← Matrix.mul_assoc, hF', Matrix.one_mul]
  · rw [hI.2, Matrix.mulVec_mulVec, hF', Matrix.one_mulVec]

theorem stress2_smul (c : ℝ) (q : Fin 5 → ℝ) : stress2 (c • q) = c • stress2 q := by
  ext i j; fin_cases i <;> fin_cases j <;> simp [stress2]
theorem vel2_smul (c : ℝ) (q : Fin 5 → ℝ) : vel2 (c • q) = c • vel2 q := by
  ext i; fin_cases i <;> simp [vel2]

theorem stress2_neg (q : Fin 5 → ℝ) : stress2 (-q) = -stress2 q := by
  ext i j; fin_cases i <;> fin_cases j <;> simp [stress2]
theorem vel2_neg (q : Fin 5 → ℝ) : vel2 (-q) = -vel2 q := by
  ext i; fin_cases i <;> simp [vel2]

theorem scaled_neg {k : Nat} (M : Matrix (Fin k) (Fin k) ℝ) (c dt : ℝ) (x : Fin k → ℝ) :
    (c • M) *ᵥ (fun i => -x i * dt) = -((dt * c) • (M *ᵥ x)) := by
  have : (fun i => -x i * dt) = (-dt) • x := by funext i; simp; ring
  rw [this, Matrix.smul_mulVec, Matrix.mulVec_smul, smul_smul, ← neg_smul]; congr 1; ring
theorem scaled_pos {k : Nat} (M : Matrix (Fin k) (Fin k) ℝ) (c dt : ℝ) (x : Fin k → ℝ) :
    (c • M) *ᵥ (fun i => x i * dt) = (dt * c) • (M *ᵥ x) := by
  have : (fun i => x i * dt) = dt • x := by funext i; simp; ring
  rw [this, Matrix.smul_mulVec, Matrix.mulVec_smul, smul_smul, mul_comm]

theorem ibPref_some {k : Nat} {tol : ℝ} {b n : Fin k → ℝ} (h : |b ⬝ᵥ n| > tol) :
    ibPref tol (some b) n = some (decide (b ⬝ᵥ n > 0)) := by
  simp [ibPref, check, h]

theorem ibSca_some {vol nSfs nScs : ℝ} (hv : 0 < vol) (h1 : 0 < nSfs) (h2 : 0 < nScs) (area : ℝ) (pref : Bool) :
    ibSca area vol nSfs nScs pref = some ((if pref then 1 else -1) * (area / nSfs / (vol / nScs))) := by
  cases pref <;> simp [ibSca, check, hv.ne', h1.ne', h2.ne']

theorem lswFace_some {k : Nat} {tol : ℝ} (htol : 0 ≤ tol) {l r : Material} (hl : l.Elastic) (hr : r.Elastic) {b n : Fin k → ℝ}
    (hb : |b ⬝ᵥ n| > tol) : lswFace tol b n l r = some (if b ⬝ᵥ n > 0 then (false, 1 / r.zs, 1 / l.zs)
      else (true, 1 / l.zs, 1 / r.zs)) := by
  have hml : l.mu * l.rho ≠ 0 := (mul_pos hl.2.1 hl.1).ne'
  have hmr : r.mu * r.rho ≠ 0 := (mul_pos hr.2.1 hr.1).ne'
  unfold lswFace
  generalize b ⬝ᵥ n = x at *
  rw [(zs_inv hl).1, (zs_inv hr).1]
  by_cases h : x < 0
  · simp only [check, hb, decide_true, hml, hmr, ne_eq, not_false_eq_true, and_self, Option.bind_eq_bind, Option.bind_some,
      h, if_true, if_neg (not_lt.2 h.le)]
  · have h' : x > 0 := by
      rcases lt_or_eq_of_le (not_lt.1 h) with h | h
      · exact h
      · rw [← h, abs_zero] at hb; exact absurd hb (not_lt.2 htol)
    simp only [check, hb, decide_true, hml, hmr, ne_eq, not_false_eq_true, and_self, Option.bind_eq_bind, Option.bind_some,
      h, if_true, if_pos h', decide_false, Bool.false_eq_true, if_false]

/-- Both orientations of a face, seen in the direction `d` from the plus to the minus side. -/
theorem core2 {p m : Material} (hp : p.Elastic) (hm : m.Elastic) {d : Fin 2 → ℝ} (hd : d ⬝ᵥ d = 1) (qP qM ms : Fin 5 → ℝ)
    (hms : IsMiddle p m e2 (stress2 (trafoInv2 (d 0) (d 1) *ᵥ qP) *ᵥ e2) (vel2 (trafoInv2 (d 0) (d 1) *ᵥ qP))
      (stress2 (trafoInv2 (d 0) (d 1) *ᵥ qM) *ᵥ e2) (vel2 (trafoInv2 (d 0) (d 1) *ᵥ qM)) (stress2 ms *ᵥ e2) (vel2 ms))
    (dt : ℝ) {q : LswPars} (hP : q.csDmuP = 1 / p.zs) (hM : q.csDmuM = 1 / m.zs) (sf : Sf2) :
    let o := lsw2 dt q ms sf
    ∃ t wP wM : Fin 2 → ℝ,
      IsFault p m d (stress2 qP *ᵥ d) (vel2 qP) (stress2 qM *ᵥ d) (vel2 qM) t wP wM ∧
      (∀ μ : Material, stress2 (msFlux2 (d 0) (d 1) μ.rho μ.lam μ.mu *ᵥ o.msP) = fluxS μ d wP ∧
        vel2 (msFlux2 (d 0) (d 1) μ.rho μ.lam μ.mu *ᵥ o.msP) = fluxV μ t ∧
        stress2 (msFlux2 (d 0) (d 1) μ.rho μ.lam μ.mu *ᵥ o.msM) = fluxS μ d wM ∧
        vel2 (msFlux2 (d 0) (d 1) μ.rho μ.lam μ.mu *ᵥ o.msM) = fluxV μ t) ∧
      let dirS : Fin 2 → ℝ := ![-d 1, d 0]
      let strength := coulomb sf.muf (sf.sn0 + d ⬝ᵥ t) sf.co0
      let shear := sf.ss0 + dirS ⬝ᵥ t
      |shear| ≤ strength ∧ (wP ≠ wM → |shear| = strength) ∧ o.tr = shear ∧
        o.sf.dd = sf.dd + |dirS ⬝ᵥ (wP - wM)| * dt ∧ o.sf.muf = q.law o.sf.dd := by
  intro o
  obtain ⟨f1, f2⟩ := lswFault2 hp hm hms dt hP hM sf
  obtain ⟨s1, s2, s3, s4, s5, s6, s7⟩ := C48_strength2 dt q ms sf
  obtain ⟨-, -, w3, w4, w5, -⟩ := C48_waves2 dt q ms sf
  have hF : (frame2 (d 0) (d 1))ᵀ * frame2 (d 0) (d 1) = 1 := mul_eq_one_comm.1 (frame2_unit (unit2 hd))
  have hne : frame2 (d 0) (d 1) *ᵥ e2 = d := by
    rw [frame2_e]; funext i; fin_cases i <;> rfl
  have hns : frame2 (d 0) (d 1) *ᵥ ![0, 1] = ![-d 1, d 0] := by
    funext i; fin_cases i <;> simp [frame2, Matrix.mulVec, dotProduct, Fin.sum_univ_succ]
  change IsFault p m e2 _ _ _ _ (stress2 o.msP *ᵥ e2) (vel2 o.msP) (vel2 o.msM) at f1
  change stress2 o.msM *ᵥ e2 = stress2 o.msP *ᵥ e2 at f2
  have f1' := f1.rot hF
  rw [hne, (align2 hd qP).1, (align2 hd qP).2, (align2 hd qM).1, (align2 hd qM).2] at f1'
  have tr : ∀ x : Fin 5 → ℝ, stress2 x *ᵥ e2 = ![x 0, x 2] := by
    intro x; funext i; fin_cases i <;> simp [stress2, e2, Matrix.mulVec, dotProduct, Fin.sum_univ_succ]
  refine ⟨frame2 (d 0) (d 1) *ᵥ (stress2 o.msP *ᵥ e2), frame2 (d 0) (d 1) *ᵥ vel2 o.msP, frame2 (d 0) (d 1) *ᵥ vel2 o.msM,
    f1', ?_, ?_⟩
  · intro μ
    refine ⟨(flux2 hd _).1, (flux2 hd _).2, (flux2 hd _).1, ?_⟩
    rw [(flux2 hd _).2, f2]
  · intro dirS strength shear
    have e1 : d ⬝ᵥ (frame2 (d 0) (d 1) *ᵥ (stress2 o.msP *ᵥ e2)) = ms 0 := by
      nth_rewrite 1 [← hne]
      rw [dot_rot hF, tr]
      have := (s7 0 (by decide) (by decide)).2
      change o.msP 0 = ms 0 at this
      simp [e2, dotProduct, Fin.sum_univ_succ, this]
    have e2' : dirS ⬝ᵥ (frame2 (d 0) (d 1) *ᵥ (stress2 o.msP *ᵥ e2)) = o.msP 2 := by
      change ![-d 1, d 0] ⬝ᵥ _ = _
      rw [← hns, dot_rot hF, tr]
      simp [dotProduct, Fin.sum_univ_succ]
    have e3 : dirS ⬝ᵥ (frame2 (d 0) (d 1) *ᵥ vel2 o.msP - frame2 (d 0) (d 1) *ᵥ vel2 o.msM) = o.sr := by
      change ![-d 1, d 0] ⬝ᵥ _ = _
      rw [← hns, ← Matrix.mulVec_sub, dot_rot hF]
      simp [dotProduct, Fin.sum_univ_succ, vel2]
      exact w3.symm
    have e4 : strength = coulomb sf.muf (sf.sn0 + ms 0) sf.co0 := by simp only [strength, e1]
    have e5 : o.tr = shear := by simp only [shear, e2']; rw [← s6]; exact s5
    rw [e4, ← e5, e3]
    refine ⟨s3, fun hne' => s4 ?_, rfl, w4, w5⟩
    by_contra hper
    obtain ⟨l1, l2, -⟩ := C48_locked2 dt q ms sf (by simpa using hper)
    change o.msM = ms at l1
    change o.msP = ms at l2
    rw [l1, l2] at hne'
    exact hne' rfl

/-- C72 (2D): for every pair of elastic materials, every unit normal, every preferred direction and every pair of states,
the net-updates of a face on a fault are the fluxes, scaled by time step, area and volume and signed as flux out of the
left and into the right element, of an interface state with common traction and normal velocity, connected to the two
elements by outgoing waves. In the direction of the fault the total shear traction does not exceed the Coulomb strength,
equals it if the two sides move against each other, and the slip grows by the difference of the two velocities. -/
theorem C72_fault2 {tol : ℝ} (htol : 0 ≤ tol) {l r : Material} (hl : l.Elastic) (hr : r.Elastic) {n b : Fin 2 → ℝ}
    (hn : n ⬝ᵥ n = 1) (hb : |b ⬝ᵥ n| > tol) {area volL volR nSfs nScs : ℝ} (hvL : 0 < volL) (hvR : 0 < volR)
    (h1 : 0 < nSfs) (h2 : 0 < nScs) :
    ∃ (s : Ib 5) (lEqM : Bool) (cM cP : ℝ), ibInit2 tol (some b) l r n area volL volR nSfs nScs = some s ∧
      lswFace tol b n l r = some (lEqM, cM, cP) ∧
      ∀ (mus mud dcInv dt : ℝ) (sf : Sf2) (qL qR : Fin 5 → ℝ),
        let q : LswPars := ⟨mus, mud, dcInv, lEqM, cM, cP⟩
        let u := netUpdates s dt (fun ms => perturb2 dt q ms sf) qL qR
        let cL := dt * (area / nSfs / (volL / nScs))
        let cR := dt * (area / nSfs / (volR / nScs))
        ∃ t wL wR : Fin 2 → ℝ,
          IsFault l r n (stress2 qL *ᵥ n) (vel2 qL) (stress2 qR *ᵥ n) (vel2 qR) t wL wR ∧
          stress2 u.1 = -(cL • fluxS l n wL) ∧ vel2 u.1 = -(cL • fluxV l t) ∧
          stress2 u.2.1 = cR • fluxS r n wR ∧ vel2 u.2.1 = cR • fluxV r t ∧
          -- fault direction: `dir` points from the plus to the minus side, `dirS` is its left-turned tangent
          let sgn : ℝ := if b ⬝ᵥ n > 0 then 1 else -1
          let dirS : Fin 2 → ℝ := ![-(sgn * n 1), sgn * n 0]
          let strength := coulomb sf.muf (sf.sn0 + n ⬝ᵥ t) sf.co0
          let shear := sf.ss0 + dirS ⬝ᵥ (sgn • t)
          |shear| ≤ strength ∧ (wL ≠ wR → |shear| = strength) ∧ u.2.2.tr = shear ∧
            u.2.2.sf.dd = sf.dd + |dirS ⬝ᵥ (wL - wR)| * dt ∧ u.2.2.sf.muf = q.law u.2.2.sf.dd := by
  by_cases hpos : b ⬝ᵥ n > 0
  · refine ⟨⟨trafoInv2 (n 0) (n 1), msJumpL2 l.rho r.rho l.lam r.lam l.mu r.mu,
      (area / nSfs / (volL / nScs)) • msFlux2 (n 0) (n 1) l.rho l.lam l.mu,
      (area / nSfs / (volR / nScs)) • msFlux2 (n 0) (n 1) r.rho r.lam r.mu⟩, false, 1 / r.zs, 1 / l.zs, ?_, ?_, ?_⟩
    · simp only [ibInit2, ibPref_some hb, Option.bind_eq_bind, Option.bind_some, hpos, decide_true, if_true,
        elasticDen_some hl hr, ibSca_some hvL h1 h2, ibSca_some hvR h1 h2, one_mul]
    · rw [lswFace_some htol hl hr hb, if_pos hpos]
    · intro mus mud dcInv dt sf qL qR q u cL cR
      have hms := jump2 hl hr (trafoInv2 (n 0) (n 1) *ᵥ qL) (trafoInv2 (n 0) (n 1) *ᵥ qR) _ (Or.inl rfl)
      obtain ⟨t, wP, wM, g1, g2, g3⟩ := core2 hl hr hn qL qR _ hms dt (q := q) rfl rfl sf
      have u1 : u.1 = -(cL • (msFlux2 (n 0) (n 1) l.rho l.lam l.mu *ᵥ u.2.2.msP)) := scaled_neg _ _ _ _
      have u2 : u.2.1 = cR • (msFlux2 (n 0) (n 1) r.rho r.lam r.mu *ᵥ u.2.2.msM) := scaled_pos _ _ _ _
      refine ⟨t, wP, wM, g1, ?_, ?_, ?_, ?_, ?_⟩
      · rw [u1, stress2_neg, stress2_smul]; exact congrArg (fun x => -(cL • x)) (g2 l).1
      · rw [u1, vel2_neg, vel2_smul]; exact congrArg (fun x => -(cL • x)) (g2 l).2.1
      · rw [u2, stress2_smul]; exact congrArg (fun x => cR • x) (g2 r).2.2.1
      · rw [u2, vel2_smul]; exact congrArg (fun x => cR • x) (g2 r).2.2.2
      · simp only [hpos, if_true, one_mul, one_smul]
        exact g3
  · have hn' : (-n) ⬝ᵥ (-n) = 1 := by simpa using hn
    refine ⟨⟨trafoInv2 ((-n) 0) ((-n) 1), -msJumpR2 r.rho l.rho r.lam l.lam r.mu l.mu,
      (-1 * (area / nSfs / (volL / nScs))) • msFlux2 ((-n) 0) ((-n) 1) l.rho l.lam l.mu,
      (-1 * (area / nSfs / (volR / nScs))) • msFlux2 ((-n) 0) ((-n) 1) r.rho r.lam r.mu⟩, true, 1 / l.zs, 1 / r.zs,
      ?_, ?_, ?_⟩
    · simp only [ibInit2, ibPref_some hb, Option.bind_eq_bind, Option.bind_some, hpos, decide_false, if_false,
        elasticDen_some hl hr, ibSca_some hvL h1 h2, ibSca_some hvR h1 h2, Bool.false_eq_true]
    · rw [lswFace_some htol hl hr hb, if_neg hpos]
    · intro mus mud dcInv dt sf qL qR q u cL cR
      have hms := jump2 hr hl (trafoInv2 ((-n) 0) ((-n) 1) *ᵥ qR) (trafoInv2 ((-n) 0) ((-n) 1) *ᵥ qL)
        (trafoInv2 ((-n) 0) ((-n) 1) *ᵥ qL + -msJumpR2 r.rho l.rho r.lam l.lam r.mu l.mu *ᵥ
          (fun i => (trafoInv2 ((-n) 0) ((-n) 1) *ᵥ qR) i - (trafoInv2 ((-n) 0) ((-n) 1) *ᵥ qL) i))
        (Or.inr (by
          rw [Matrix.neg_mulVec, ← Matrix.mulVec_neg]; congr 2; funext i; simp))
      obtain ⟨t, wP, wM, g1, g2, g3⟩ := core2 hr hl hn' qR qL _ hms dt (q := q) rfl rfl sf
      have u1 : u.1 = -((dt * (-1 * (area / nSfs / (volL / nScs)))) • (msFlux2 ((-n) 0) ((-n) 1) l.rho l.lam l.mu *ᵥ u.2.2.msM)) :=
        scaled_neg _ _ _ _
      have u2 : u.2.1 = (dt * (-1 * (area / nSfs / (volR / nScs)))) • (msFlux2 ((-n) 0) ((-n) 1) r.rho r.lam r.mu *ᵥ u.2.2.msP) :=
        scaled_pos _ _ _ _
      have kL : dt * (-1 * (area / nSfs / (volL / nScs))) = -cL := by simp only [cL]; ring
      have kR : dt * (-1 * (area / nSfs / (volR / nScs))) = -cR := by simp only [cR]; ring
      have g1' := g1.swap
      simp only [Matrix.mulVec_neg, neg_neg] at g1'
      refine ⟨-t, wM, wP, g1', ?_, ?_, ?_, ?_, ?_⟩
      · rw [u1, stress2_neg, stress2_smul, kL, show stress2 (_ *ᵥ u.2.2.msM) = _ from (g2 l).2.2.1, fluxS_flip]; simp
      · rw [u1, vel2_neg, vel2_smul, kL, show vel2 (_ *ᵥ u.2.2.msM) = _ from (g2 l).2.2.2, fluxV_neg]; simp
      · rw [u2, stress2_smul, kR, show stress2 (_ *ᵥ u.2.2.msP) = _ from (g2 r).1, fluxS_flip]; simp
      · rw [u2, vel2_smul, kR, show vel2 (_ *ᵥ u.2.2.msP) = _ from (g2 r).2.1, fluxV_neg]; simp
      · simp only [hpos, if_false]
        have e1 : (![-(-1 * n 1), -1 * n 0] : Fin 2 → ℝ) = ![-(-n) 1, (-n) 0] := by
          funext i; fin_cases i <;> simp
        have e2 : n ⬝ᵥ (-t) = (-n) ⬝ᵥ t := by simp
        have e3 : (-1 : ℝ) • (-t) = t := by simp
        have e4 : ∀ x : Fin 2 → ℝ, |x ⬝ᵥ (wM - wP)| = |x ⬝ᵥ (wP - wM)| := by
          intro x; rw [← neg_sub wP wM, dotProduct_neg, abs_neg]
        rw [e1, e2, e3, e4]
        obtain ⟨k1, k2, k3, k4, k5⟩ := g3
        exact ⟨k1, fun h => k2 h.symm, k3, k4, k5⟩

/-- The hypotheses of `C72_fault2`: a fault with a normal against the preferred direction and two materials. -/
example : ∃ (l r : Material) (n b : Fin 2 → ℝ), l.Elastic ∧ r.Elastic ∧ n ⬝ᵥ n = 1 ∧ |b ⬝ᵥ n| > 1 / 1000 ∧ b ⬝ᵥ n < 0 ∧
    l.rho ≠ r.rho :=
  ⟨⟨2700, 32, 32⟩, ⟨2600, 20, 10⟩, ![3 / 5, 4 / 5], ![0, -1], by norm_num [Material.Elastic], by norm_num [Material.Elastic],
    by norm_num [dotProduct, Fin.sum_univ_succ], by norm_num [dotProduct, Fin.sum_univ_succ, abs_of_pos],
    by norm_num [dotProduct, Fin.sum_univ_succ], by norm_num⟩

/-! ### Initial values of the friction law -/

/-- C48: a sub-face inside of a domain starts with the stresses of the first domain containing it, without slip, with the
static friction coefficient, i.e. in a state which the histories of `C48_history2` may start with; cohesion is the one of
the fault data. -/
theorem C48_init2 {big : ℝ} {q : LswPars} (hq : q.Valid) (fault : Option (ℝ × ℝ × ℝ)) (pre post : List (Bool × ℝ × ℝ))
    (sn ss : ℝ) (hpre : ∀ x ∈ pre, x.1 = false) :
    let sf := lswInit2 big q.mus fault (pre ++ (true, sn, ss) :: post)
    sf.sn0 = sn ∧ sf.ss0 = ss ∧ sf.co0 = (match fault with | none => 0 | some f => f.2.1) ∧ sf.dd = 0 ∧
      sf.muf = q.mus ∧ sf.muf = q.law sf.dd := by
  have hfind : (pre ++ (true, sn, ss) :: post).find? (fun x => x.1) = some (true, sn, ss) := by
    rw [List.find?_append, List.find?_eq_none.2 (by simpa using hpre)]; simp
  have hlaw : q.law 0 = q.mus := by rw [LswPars.law, mul_zero, mul_zero, sub_zero, max_eq_right hq.2.1]
  intro sf
  cases fault <;> simp [sf, lswInit2, hfind, hlaw]

/-- C48, 3D. -/
theorem C48_init3 {big : ℝ} {q : LswPars} (hq : q.Valid) (fault : Option (ℝ × ℝ × (ℝ × ℝ)))
    (pre post : List (Bool × ℝ × (ℝ × ℝ))) (sn : ℝ) (ss : ℝ × ℝ) (hpre : ∀ x ∈ pre, x.1 = false) :
    let sf := lswInit3 big q.mus fault (pre ++ (true, sn, ss) :: post)
    sf.sn0 = sn ∧ sf.ss0 = ss ∧ sf.co0 = (match fault with | none => 0 | some f => f.2.1) ∧ sf.dd = (0, 0) ∧
      sf.muf = q.mus ∧ sf.muf = q.law (mag sf.dd) := by
  have hfind : (pre ++ (true, sn, ss) :: post).find? (fun x => x.1) = some (true, sn, ss) := by
    rw [List.find?_append, List.find?_eq_none.2 (by simpa using hpre)]; simp
  have hlaw : q.law (mag (0, 0)) = q.mus := by
    have : mag (0, 0) = 0 := by simp [mag]
    rw [this, LswPars.law, mul_zero, mul_zero, sub_zero, max_eq_right hq.2.1]
  intro sf
  cases fault <;> simp [sf, lswInit3, hfind, hlaw]

/-- C48 is false for faults which are described by fault data only (no domain contains the face): stresses and cohesion are
set, the friction coefficient is not; it stays at the largest floating point number. In the first evaluation the strength is
(for compression) huge, whatever the static friction coefficient. -/
theorem C48_data_refuted {big : ℝ} (q : LswPars) (hbig : q.mus < big) (sn co ss : ℝ) :
    (lswInit2 big q.mus (some (sn, co, ss)) []).sn0 = sn ∧ (lswInit2 big q.mus (some (sn, co, ss)) []).muf ≠ q.mus ∧
      (lswInit3 big q.mus (some (sn, co, (ss, ss))) []).sn0 = sn ∧
      (lswInit3 big q.mus (some (sn, co, (ss, ss))) []).muf ≠ q.mus := by
  simp [lswInit2, lswInit3, hbig.ne']

end Edge.Seismic
