import Verif.Seismic.IntBndProps
/-!
The internal boundary solvers in 3D (property C72).
-/
namespace Edge.Seismic
open Matrix Classical

set_option maxHeartbeats 2000000 in
/-- The jump solvers lead to the middle state of the welded interface, 3D. -/
theorem jump3 {l r : Material} (hl : l.Elastic) (hr : r.Elastic) (a b : Fin 9 → ℝ) (ms : Fin 9 → ℝ)
    (h : ms = a + msJumpL3 l.rho r.rho l.lam r.lam l.mu r.mu *ᵥ (b - a) ∨
      ms = b + msJumpR3 l.rho r.rho l.lam r.lam l.mu r.mu *ᵥ (b - a)) :
    IsMiddle l r e3 (stress3 a *ᵥ e3) (vel3 a) (stress3 b *ᵥ e3) (vel3 b) (stress3 ms *ᵥ e3) (vel3 ms) := by
  obtain ⟨a1, a2, a3, a4⟩ := hl.facts
  obtain ⟨b1, b2, b3, b4⟩ := hr.facts
  have hl0 := hl.1
  have hr0 := hr.1
  have zl : 0 < l.zp + r.zp := add_pos (mul_pos hl0 a1) (mul_pos hr0 b1)
  have zs : 0 < l.zs + r.zs := add_pos (mul_pos hl0 a3) (mul_pos hr0 b3)
  have c1 : Real.sqrt ((l.lam + 2 * l.mu) / l.rho) = l.cp := rfl
  have c2 : Real.sqrt ((r.lam + 2 * r.mu) / r.rho) = r.cp := rfl
  have c3 : Real.sqrt (l.mu / l.rho) = l.cs := rfl
  have c4 : Real.sqrt (r.mu / r.rho) = r.cs := rfl
  unfold msJumpL3 msJumpR3 at h
  simp only [c1, c2, c3, c4] at h
  unfold Material.zp Material.zs at *
  have f1 : l.lam = l.rho * l.cp ^ 2 - 2 * (l.rho * l.cs ^ 2) := by rw [a2, a4]; ring
  have f2 : r.lam = r.rho * r.cp ^ 2 - 2 * (r.rho * r.cs ^ 2) := by rw [b2, b4]; ring
  have g1 : (r.lam + 2 * r.mu) * l.cp + (l.lam + 2 * l.mu) * r.cp =
      l.cp * r.cp * (l.rho * l.cp + r.rho * r.cp) := by rw [f1, f2, ← a4, ← b4]; ring
  have g2 : r.mu * l.cs + l.mu * r.cs = l.cs * r.cs * (l.rho * l.cs + r.rho * r.cs) := by rw [← a4, ← b4]; ring
  rw [g1, g2, f1, f2, ← a4, ← b4] at h
  apply isMiddle_e3 <;>
    simp only [Material.zp, Material.zs] <;>
    clear f1 f2 c1 c2 c3 c4 a2 a4 b2 b4 g1 g2 <;>
    generalize l.cp = pl at * <;>
    generalize r.cp = pr at * <;>
    generalize l.cs = sl at * <;>
    generalize r.cs = sr at * <;>
    generalize l.rho = rl at * <;>
    generalize r.rho = rr at * <;>
    rcases h with rfl | rfl <;>
    simp [stress3, vel3, e3, Matrix.mulVec, dotProduct, Fin.sum_univ_succ] <;> field_simp <;> ring

/-- The flux solver applied to a fault-aligned state is the flux of that state, 3D. -/
theorem flux3 {m : Material} {n s t : Fin 3 → ℝ} (hO : Orthonormal3 n s t) (q : Fin 9 → ℝ) :
    stress3 (msFlux3 (n 0) (n 1) (n 2) (s 0) (s 1) (s 2) (t 0) (t 1) (t 2) m.rho m.lam m.mu *ᵥ q) =
      fluxS m n (frame3 (n 0) (n 1) (n 2) (s 0) (s 1) (s 2) (t 0) (t 1) (t 2) *ᵥ vel3 q) ∧
    vel3 (msFlux3 (n 0) (n 1) (n 2) (s 0) (s 1) (s 2) (t 0) (t 1) (t 2) m.rho m.lam m.mu *ᵥ q) =
      fluxV m (frame3 (n 0) (n 1) (n 2) (s 0) (s 1) (s 2) (t 0) (t 1) (t 2) *ᵥ (stress3 q *ᵥ e3)) := by
  have hF := hO.frame
  have hF' : frame3 (n 0) (n 1) (n 2) (s 0) (s 1) (s 2) (t 0) (t 1) (t 2) *
      (frame3 (n 0) (n 1) (n 2) (s 0) (s 1) (s 2) (t 0) (t 1) (t 2))ᵀ = 1 := mul_eq_one_comm.1 hF
  have hn : frame3 (n 0) (n 1) (n 2) (s 0) (s 1) (s 2) (t 0) (t 1) (t 2) *ᵥ e3 = n := by
    rw [frame3_e]; funext i; fin_cases i <;> rfl
  have key : ∀ i j : Fin 3, n i * n j + s i * s j + t i * t j = if i = j then 1 else 0 := by
    intro i j
    have := congrFun (congrFun hF' i) j
    rw [Matrix.one_apply] at this
    rw [← this]
    fin_cases i <;> fin_cases j <;> simp [frame3, Matrix.mul_apply, Fin.sum_univ_succ] <;> ring
  constructor
  · have dotn : n ⬝ᵥ (frame3 (n 0) (n 1) (n 2) (s 0) (s 1) (s 2) (t 0) (t 1) (t 2) *ᵥ vel3 q) = q 6 := by
      nth_rewrite 1 [← hn]
      rw [dot_rot hF]; simp [e3, vel3, dotProduct, Fin.sum_univ_succ]
    have k00 := key 0 0
    have k11 := key 1 1
    have k22 := key 2 2
    have k01 := key 0 1
    have k12 := key 1 2
    have k02 := key 0 2
    simp only [if_true] at k00 k11 k22
    rw [if_neg (by decide)] at k01 k12 k02
    rw [fluxS, dotn]
    ext i j
    fin_cases i <;> fin_cases j <;>
      simp [stress3, vel3, msFlux3, frame3, vecMulVec, Matrix.mulVec, dotProduct, Fin.sum_univ_succ]
    · linear_combination (-m.lam * q 6) * k00
    · linear_combination (-m.lam * q 6) * k01
    · linear_combination (-m.lam * q 6) * k02
    · linear_combination (-m.lam * q 6) * k01
    · linear_combination (-m.lam * q 6) * k11
    · linear_combination (-m.lam * q 6) * k12
    · linear_combination (-m.lam * q 6) * k02
    · linear_combination (-m.lam * q 6) * k12
    · linear_combination (-m.lam * q 6) * k22
  · ext i
    fin_cases i <;>
      simp [stress3, vel3, msFlux3, fluxV, frame3, e3, Matrix.mulVec, dotProduct, Fin.sum_univ_succ] <;> ring

/-- The slip weakening law in the fault-aligned frame, 3D: plus side left, minus side right. -/
theorem lswFault3 {p m : Material} (hp : p.Elastic) (hm : m.Elastic) {tL vL tR vR : Fin 3 → ℝ} {ms : Fin 9 → ℝ}
    (h : IsMiddle p m e3 tL vL tR vR (stress3 ms *ᵥ e3) (vel3 ms)) (dt : ℝ) {q : LswPars}
    (hP : q.csDmuP = 1 / p.zs) (hM : q.csDmuM = 1 / m.zs) (sf : Sf3) :
    let o := lsw3 dt q ms sf
    IsFault p m e3 tL vL tR vR (stress3 o.msP *ᵥ e3) (vel3 o.msP) (vel3 o.msM) ∧
      stress3 o.msM *ᵥ e3 = stress3 o.msP *ᵥ e3 := by
  intro o
  obtain ⟨-, -, -, -, -, s6, s6', s7⟩ := C48_strength3 dt q ms sf
  obtain ⟨⟨w1, w1'⟩, ⟨w2, w2'⟩, -⟩ := C48_waves3 dt q ms sf
  have zp := (zs_inv hp).2.ne'
  have zm := (zs_inv hm).2.ne'
  have s0 := s7 0 (by decide) (by decide) (by decide) (by decide)
  have s3 := s7 6 (by decide) (by decide) (by decide) (by decide)
  change o.msM 3 = o.msP 3 at s6
  change o.msM 5 = o.msP 5 at s6'
  change o.msM 0 = ms 0 ∧ o.msP 0 = ms 0 at s0
  change o.msM 6 = ms 6 ∧ o.msP 6 = ms 6 at s3
  change o.msP 7 - ms 7 = q.csDmuP * (o.msP 3 - ms 3) at w1
  change o.msP 8 - ms 8 = q.csDmuP * (o.msP 5 - ms 5) at w1'
  change o.msM 7 - ms 7 = -q.csDmuM * (o.msM 3 - ms 3) at w2
  change o.msM 8 - ms 8 = -q.csDmuM * (o.msM 5 - ms 5) at w2'
  rw [hP] at w1 w1'
  rw [hM, s6] at w2
  rw [hM, s6'] at w2'
  have tr : ∀ x : Fin 9 → ℝ, stress3 x *ᵥ e3 = ![x 0, x 3, x 5] := by
    intro x; funext i; fin_cases i <;> simp [stress3, e3, Matrix.mulVec, dotProduct, Fin.sum_univ_succ]
  refine ⟨h.slip ?_ ?_ ?_ zp zm, ?_⟩
  · rw [nrm_e3, tr, tr]; funext i; fin_cases i <;> simp [s0.2]
  · rw [tr, tr]; funext i; fin_cases i
    · simp [vel3, s0.2, s3.2]
    · simp only [vel3]; simp; rw [w1]; field_simp
    · simp only [vel3]; simp; rw [w1']; field_simp
  · rw [tr, tr]; funext i; fin_cases i
    · simp [vel3, s0.2, s3.1]
    · simp only [vel3]; simp; rw [w2]; field_simp
    · simp only [vel3]; simp; rw [w2']; field_simp
  · rw [tr, tr, s6, s6', s0.1, s0.2]

/-- Rotation of a 3D state to an orthonormal frame and back. -/
theorem align3 {n s t : Fin 3 → ℝ} (hO : Orthonormal3 n s t) (q : Fin 9 → ℝ) :
    frame3 (n 0) (n 1) (n 2) (s 0) (s 1) (s 2) (t 0) (t 1) (t 2) *ᵥ
      (stress3 (trafoInv3 (n 0) (n 1) (n 2) (s 0) (s 1) (s 2) (t 0) (t 1) (t 2) *ᵥ q) *ᵥ e3) = stress3 q *ᵥ n ∧
    frame3 (n 0) (n 1) (n 2) (s 0) (s 1) (s 2) (t 0) (t 1) (t 2) *ᵥ
      vel3 (trafoInv3 (n 0) (n 1) (n 2) (s 0) (s 1) (s 2) (t 0) (t 1) (t 2) *ᵥ q) = vel3 q := by
  have hF := hO.frame
  have hn : frame3 (n 0) (n 1) (n 2) (s 0) (s 1) (s 2) (t 0) (t 1) (t 2) *ᵥ e3 = n := by
    rw [frame3_e]; funext i; fin_cases i <;> rfl
  have hI := trafoInv3_ortho hF q
  generalize trafoInv3 (n 0) (n 1) (n 2) (s 0) (s 1) (s 2) (t 0) (t 1) (t 2) = Tm at *
  generalize frame3 (n 0) (n 1) (n 2) (s 0) (s 1) (s 2) (t 0) (t 1) (t 2) = F at *
  have hF' : F * Fᵀ = 1 := mul_eq_one_comm.1 hF
  constructor
  · rw [hI.1, ← hn]
    simp only [Matrix.mulVec_mulVec, ← Matrix.mul_assoc, hF', Matrix.one_mul]
  · rw [hI.2, Matrix.mulVec_mulVec, hF', Matrix.one_mulVec]

theorem stress3_smul (c : ℝ) (q : Fin 9 → ℝ) : stress3 (c • q) = c • stress3 q := by
  ext i j; fin_cases i <;> fin_cases j <;> simp [stress3]
theorem vel3_smul (c : ℝ) (q : Fin 9 → ℝ) : vel3 (c • q) = c • vel3 q := by
  ext i; fin_cases i <;> simp [vel3]
theorem stress3_neg (q : Fin 9 → ℝ) : stress3 (-q) = -stress3 q := by
  ext i j; fin_cases i <;> fin_cases j <;> simp [stress3]
theorem vel3_neg (q : Fin 9 → ℝ) : vel3 (-q) = -vel3 q := by
  ext i; fin_cases i <;> simp [vel3]

/-- Both orientations of a face, seen in the direction `d` from the plus to the minus side. -/
theorem core3 {p m : Material} (hp : p.Elastic) (hm : m.Elastic) {d s t : Fin 3 → ℝ} (hO : Orthonormal3 d s t)
    {Tm : Matrix (Fin 9) (Fin 9) ℝ} (hT : Tm = trafoInv3 (d 0) (d 1) (d 2) (s 0) (s 1) (s 2) (t 0) (t 1) (t 2))
    (qP qM ms : Fin 9 → ℝ)
    (hms : IsMiddle p m e3 (stress3 (Tm *ᵥ qP) *ᵥ e3) (vel3 (Tm *ᵥ qP)) (stress3 (Tm *ᵥ qM) *ᵥ e3) (vel3 (Tm *ᵥ qM))
      (stress3 ms *ᵥ e3) (vel3 ms))
    (dt : ℝ) {q : LswPars} (hP : q.csDmuP = 1 / p.zs) (hM : q.csDmuM = 1 / m.zs) (sf : Sf3) :
    let o := lsw3 dt q ms sf
    ∃ τ wP wM : Fin 3 → ℝ,
      IsFault p m d (stress3 qP *ᵥ d) (vel3 qP) (stress3 qM *ᵥ d) (vel3 qM) τ wP wM ∧
      (∀ μ : Material, ∀ Fl, Fl = msFlux3 (d 0) (d 1) (d 2) (s 0) (s 1) (s 2) (t 0) (t 1) (t 2) μ.rho μ.lam μ.mu →
        stress3 (Fl *ᵥ o.msP) = fluxS μ d wP ∧ vel3 (Fl *ᵥ o.msP) = fluxV μ τ ∧
        stress3 (Fl *ᵥ o.msM) = fluxS μ d wM ∧ vel3 (Fl *ᵥ o.msM) = fluxV μ τ) ∧
      let strength := coulomb sf.muf (sf.sn0 + d ⬝ᵥ τ) sf.co0
      let shear := (sf.ss0.1 + s ⬝ᵥ τ, sf.ss0.2 + t ⬝ᵥ τ)
      mag shear ≤ strength ∧ (wP ≠ wM → mag shear = strength) ∧ o.tr = shear ∧
        (q.Valid → (s ⬝ᵥ (wP - wM)) * shear.1 + (t ⬝ᵥ (wP - wM)) * shear.2 ≤ 0) ∧
        o.sf.dd = (sf.dd.1 + |s ⬝ᵥ (wP - wM)| * dt, sf.dd.2 + |t ⬝ᵥ (wP - wM)| * dt) ∧
        o.sf.muf = q.law (mag o.sf.dd) := by
  intro o
  obtain ⟨f1, f2⟩ := lswFault3 hp hm hms dt hP hM sf
  obtain ⟨s1, s2, s3, s4, s5, s6, s6', s7⟩ := C48_strength3 dt q ms sf
  obtain ⟨-, -, w3, w4, w5, -⟩ := C48_waves3 dt q ms sf
  have hF := hO.frame
  have hne : frame3 (d 0) (d 1) (d 2) (s 0) (s 1) (s 2) (t 0) (t 1) (t 2) *ᵥ e3 = d := by
    rw [frame3_e]; funext i; fin_cases i <;> rfl
  have hns : frame3 (d 0) (d 1) (d 2) (s 0) (s 1) (s 2) (t 0) (t 1) (t 2) *ᵥ ![0, 1, 0] = s := by
    funext i; fin_cases i <;> simp [frame3, Matrix.mulVec, dotProduct, Fin.sum_univ_succ]
  have hnt : frame3 (d 0) (d 1) (d 2) (s 0) (s 1) (s 2) (t 0) (t 1) (t 2) *ᵥ ![0, 0, 1] = t := by
    funext i; fin_cases i <;> simp [frame3, Matrix.mulVec, dotProduct, Fin.sum_univ_succ]
  have aP := align3 hO qP
  have aM := align3 hO qM
  have fl := fun (μ : Material) (x : Fin 9 → ℝ) => flux3 (m := μ) hO x
  rw [← hT] at aP aM
  change IsFault p m e3 _ _ _ _ (stress3 o.msP *ᵥ e3) (vel3 o.msP) (vel3 o.msM) at f1
  change stress3 o.msM *ᵥ e3 = stress3 o.msP *ᵥ e3 at f2
  generalize frame3 (d 0) (d 1) (d 2) (s 0) (s 1) (s 2) (t 0) (t 1) (t 2) = F at *
  have f1' := f1.rot hF
  rw [hne, aP.1, aP.2, aM.1, aM.2] at f1'
  have tr : ∀ x : Fin 9 → ℝ, stress3 x *ᵥ e3 = ![x 0, x 3, x 5] := by
    intro x; funext i; fin_cases i <;> simp [stress3, e3, Matrix.mulVec, dotProduct, Fin.sum_univ_succ]
  refine ⟨F *ᵥ (stress3 o.msP *ᵥ e3), F *ᵥ vel3 o.msP, F *ᵥ vel3 o.msM, f1', ?_, ?_⟩
  · rintro μ Fl rfl
    refine ⟨(fl μ _).1, (fl μ _).2, (fl μ _).1, ?_⟩
    rw [(fl μ _).2, f2]
  · intro strength shear
    have e1 : d ⬝ᵥ (F *ᵥ (stress3 o.msP *ᵥ e3)) = ms 0 := by
      nth_rewrite 1 [← hne]
      rw [dot_rot hF, tr]
      have := (s7 0 (by decide) (by decide) (by decide) (by decide)).2
      change o.msP 0 = ms 0 at this
      simp [e3, dotProduct, Fin.sum_univ_succ, this]
    have e2 : s ⬝ᵥ (F *ᵥ (stress3 o.msP *ᵥ e3)) = o.msP 3 := by
      nth_rewrite 1 [← hns]
      rw [dot_rot hF, tr]
      simp [dotProduct, Fin.sum_univ_succ]
    have e2' : t ⬝ᵥ (F *ᵥ (stress3 o.msP *ᵥ e3)) = o.msP 5 := by
      nth_rewrite 1 [← hnt]
      rw [dot_rot hF, tr]
      simp [dotProduct, Fin.sum_univ_succ]
    have e3' : s ⬝ᵥ (F *ᵥ vel3 o.msP - F *ᵥ vel3 o.msM) = o.sr.1 := by
      nth_rewrite 1 [← hns]
      rw [← Matrix.mulVec_sub, dot_rot hF, show o.sr.1 = _ from congrArg Prod.fst w3]
      simp [dotProduct, Fin.sum_univ_succ, vel3, o]
    have e3'' : t ⬝ᵥ (F *ᵥ vel3 o.msP - F *ᵥ vel3 o.msM) = o.sr.2 := by
      nth_rewrite 1 [← hnt]
      rw [← Matrix.mulVec_sub, dot_rot hF, show o.sr.2 = _ from congrArg Prod.snd w3]
      simp [dotProduct, Fin.sum_univ_succ, vel3, o]
    have e4 : strength = coulomb sf.muf (sf.sn0 + ms 0) sf.co0 := by simp only [strength, e1]
    have e5 : o.tr = shear := by simp only [shear, e2, e2']; rw [← s6, ← s6']; exact s5
    rw [e4, ← e5, e3', e3'']
    refine ⟨s3, fun hne' => s4 ?_, rfl, fun hv => ?_, w4, w5⟩
    · by_contra hper
      obtain ⟨l1, l2, -⟩ := C48_locked3 dt q ms sf (by simpa using hper)
      change o.msM = ms at l1
      change o.msP = ms at l2
      rw [l1, l2] at hne'
      exact hne' rfl
    · exact (C49_direction3 dt hv ms sf).2.1

/-- Frame of a face with a given orthonormal boundary system. -/
theorem ibFrame3_some {tol : ℝ} (htol : 0 < tol) {b0 b1 b2 n : Fin 3 → ℝ} (hB : Orthonormal3 b0 b1 b2) (hn : n ⬝ᵥ n = 1)
    (hb : |b0 ⬝ᵥ n| > tol) (t0 t1 : Fin 3 → ℝ) :
    ∃ R, rotMat tol b0 (if b0 ⬝ᵥ n > 0 then n else -n) = some R ∧
      Orthonormal3 (if b0 ⬝ᵥ n > 0 then n else -n) (R *ᵥ b1) (R *ᵥ b2) ∧
      ibFrame3 tol (some (b0, b1, b2)) n t0 t1 =
        some (decide (b0 ⬝ᵥ n > 0), if b0 ⬝ᵥ n > 0 then n else -n, R *ᵥ b1, R *ᵥ b2) := by
  have hd : (if b0 ⬝ᵥ n > 0 then n else -n) ⬝ᵥ (if b0 ⬝ᵥ n > 0 then n else -n) = 1 := by
    by_cases c : b0 ⬝ᵥ n > 0 <;> simp only [c, if_true, if_false] <;> simpa using hn
  have hbd : b0 ⬝ᵥ (if b0 ⬝ᵥ n > 0 then n else -n) > tol := by
    by_cases c : b0 ⬝ᵥ n > 0
    · simp only [c, if_true]; rwa [abs_of_pos c] at hb
    · simp only [c, if_false, dotProduct_neg]; rwa [abs_of_nonpos (not_lt.1 c)] at hb
  have hdef : ibFrame3 tol (some (b0, b1, b2)) n t0 t1 = ibFrame3 tol (some (b0, b1, b2)) n t0 t1 := rfl
  simp only [ibFrame3, ibPref_some hb, Option.bind_eq_bind, Option.bind_some, decide_eq_true_eq] at hdef ⊢
  generalize (if b0 ⬝ᵥ n > 0 then n else -n) = d at *
  have hs : (rotMat tol b0 d).isSome := by
    rw [C73_defined hB.nn hd]
    rw [abs_of_pos (by linarith)]; linarith
  obtain ⟨R, hR⟩ := Option.isSome_iff_exists.1 hs
  obtain ⟨r1, -, r3⟩ := C73_rotMat htol.le hR
  have nrm1 : ∀ x : Fin 3 → ℝ, x ⬝ᵥ x = 1 → norm3 x = 1 := by
    intro x hx; rw [norm3, sprod3_eq, hx, Real.sqrt_one]
  rw [nrm1 _ hB.nn, nrm1 _ hd] at r3
  simp only [div_one, one_smul] at r3
  have hO : Orthonormal3 d (R *ᵥ b1) (R *ᵥ b2) := by
    refine ⟨hd, ?_, ?_, ?_, ?_, ?_⟩
    · rw [dot_rot r1]; exact hB.ss
    · rw [dot_rot r1]; exact hB.tt
    · rw [← r3, dot_rot r1]; exact hB.ns
    · rw [← r3, dot_rot r1]; exact hB.nt
    · rw [dot_rot r1]; exact hB.st
  refine ⟨R, hR, hO, ?_⟩
  simp only [hR, Option.bind_some, sprod3_eq, nrm1 _ hB.nn, nrm1 _ hB.ss, nrm1 _ hB.tt, nrm1 _ hO.nn, nrm1 _ hO.ss,
    nrm1 _ hO.tt, hO.ns, hO.nt, hO.st, sub_self, abs_zero, htol, decide_true, check, if_true]

/-- The determinant check of the setup holds for an orthonormal frame. -/
theorem Orthonormal3.det_ne {n s t : Fin 3 → ℝ} (hO : Orthonormal3 n s t) :
    (frame3 (n 0) (n 1) (n 2) (s 0) (s 1) (s 2) (t 0) (t 1) (t 2)).det ≠ 0 := by
  intro h0
  have := congrArg Matrix.det hO.frame
  rw [Matrix.det_mul, Matrix.det_transpose, h0] at this
  simp at this

/-- C72, 3D: as `C72_fault2`. The tangents `s` and `t` of the fault are the given ones, rotated by the rotation which maps
the given normal to the one of the face. -/
theorem C72_fault3 {tol : ℝ} (htol : 0 < tol) {l r : Material} (hl : l.Elastic) (hr : r.Elastic) {n b0 b1 b2 : Fin 3 → ℝ}
    (hn : n ⬝ᵥ n = 1) (hB : Orthonormal3 b0 b1 b2) (hb : |b0 ⬝ᵥ n| > tol) (t0 t1 : Fin 3 → ℝ)
    {area volL volR nSfs nScs : ℝ} (hvL : 0 < volL) (hvR : 0 < volR) (h1 : 0 < nSfs) (h2 : 0 < nScs) :
    ∃ (R : Matrix (Fin 3) (Fin 3) ℝ) (s : Ib 9) (lEqM : Bool) (cM cP : ℝ),
      (Rᵀ * R = 1 ∧ R.det = 1 ∧ R *ᵥ b0 = (if b0 ⬝ᵥ n > 0 then n else -n)) ∧
      ibInit3 tol (some (b0, b1, b2)) l r n t0 t1 area volL volR nSfs nScs = some s ∧
      lswFace tol b0 n l r = some (lEqM, cM, cP) ∧
      ∀ (mus mud dcInv dt : ℝ) (sf : Sf3) (qL qR : Fin 9 → ℝ),
        let q : LswPars := ⟨mus, mud, dcInv, lEqM, cM, cP⟩
        let u := netUpdates s dt (fun ms => perturb3 dt q ms sf) qL qR
        let cL := dt * (area / nSfs / (volL / nScs))
        let cR := dt * (area / nSfs / (volR / nScs))
        ∃ t wL wR : Fin 3 → ℝ,
          IsFault l r n (stress3 qL *ᵥ n) (vel3 qL) (stress3 qR *ᵥ n) (vel3 qR) t wL wR ∧
          stress3 u.1 = -(cL • fluxS l n wL) ∧ vel3 u.1 = -(cL • fluxV l t) ∧
          stress3 u.2.1 = cR • fluxS r n wR ∧ vel3 u.2.1 = cR • fluxV r t ∧
          let sgn : ℝ := if b0 ⬝ᵥ n > 0 then 1 else -1
          let strength := coulomb sf.muf (sf.sn0 + n ⬝ᵥ t) sf.co0
          let shear := (sf.ss0.1 + (R *ᵥ b1) ⬝ᵥ (sgn • t), sf.ss0.2 + (R *ᵥ b2) ⬝ᵥ (sgn • t))
          let slip := sgn • (wL - wR)
          mag shear ≤ strength ∧ (wL ≠ wR → mag shear = strength) ∧ u.2.2.tr = shear ∧
            (q.Valid → ((R *ᵥ b1) ⬝ᵥ slip) * shear.1 + ((R *ᵥ b2) ⬝ᵥ slip) * shear.2 ≤ 0) ∧
            u.2.2.sf.dd = (sf.dd.1 + |(R *ᵥ b1) ⬝ᵥ slip| * dt, sf.dd.2 + |(R *ᵥ b2) ⬝ᵥ slip| * dt) ∧
            u.2.2.sf.muf = q.law (mag u.2.2.sf.dd) := by
  obtain ⟨R, hR, hO, hFr⟩ := ibFrame3_some htol hB hn hb t0 t1
  obtain ⟨r1, r2, r3⟩ := C73_rotMat htol.le hR
  have nrm1 : ∀ x : Fin 3 → ℝ, x ⬝ᵥ x = 1 → norm3 x = 1 := by
    intro x hx; rw [norm3, sprod3_eq, hx, Real.sqrt_one]
  rw [nrm1 _ hB.nn, nrm1 _ hO.nn] at r3
  simp only [div_one, one_smul] at r3
  have hdet := hO.det_ne
  have hRo : Rᵀ * R = 1 ∧ R.det = 1 ∧ R *ᵥ b0 = (if b0 ⬝ᵥ n > 0 then n else -n) := ⟨r1, r2, r3⟩
  clear r1 r2 r3 hR
  generalize hs' : R *ᵥ b1 = s at *
  generalize ht' : R *ᵥ b2 = t at *
  by_cases hpos : b0 ⬝ᵥ n > 0
  · simp only [hpos, if_true, decide_true] at hO hFr hdet
    refine ⟨R, ⟨trafoInv3 (n 0) (n 1) (n 2) (s 0) (s 1) (s 2) (t 0) (t 1) (t 2), msJumpL3 l.rho r.rho l.lam r.lam l.mu r.mu,
      (area / nSfs / (volL / nScs)) • msFlux3 (n 0) (n 1) (n 2) (s 0) (s 1) (s 2) (t 0) (t 1) (t 2) l.rho l.lam l.mu,
      (area / nSfs / (volR / nScs)) • msFlux3 (n 0) (n 1) (n 2) (s 0) (s 1) (s 2) (t 0) (t 1) (t 2) r.rho r.lam r.mu⟩,
      false, 1 / r.zs, 1 / l.zs, hRo, ?_, ?_, ?_⟩
    · simp only [ibInit3, hFr, Option.bind_eq_bind, Option.bind_some, check, hdet, ne_eq, not_false_eq_true, decide_true,
        if_true, elasticDen_some hl hr, ibSca_some hvL h1 h2, ibSca_some hvR h1 h2, one_mul]
    · rw [lswFace_some htol.le hl hr hb, if_pos hpos]
    · intro mus mud dcInv dt sf qL qR q u cL cR
      have hms := jump3 hl hr (trafoInv3 (n 0) (n 1) (n 2) (s 0) (s 1) (s 2) (t 0) (t 1) (t 2) *ᵥ qL)
        (trafoInv3 (n 0) (n 1) (n 2) (s 0) (s 1) (s 2) (t 0) (t 1) (t 2) *ᵥ qR) _ (Or.inl rfl)
      obtain ⟨τ, wP, wM, g1, g2, g3⟩ := core3 hl hr hO rfl qL qR _ hms dt (q := q) rfl rfl sf
      have u1 : u.1 = -(cL • (msFlux3 (n 0) (n 1) (n 2) (s 0) (s 1) (s 2) (t 0) (t 1) (t 2) l.rho l.lam l.mu *ᵥ u.2.2.msP)) :=
        scaled_neg _ _ _ _
      have u2 : u.2.1 = cR • (msFlux3 (n 0) (n 1) (n 2) (s 0) (s 1) (s 2) (t 0) (t 1) (t 2) r.rho r.lam r.mu *ᵥ u.2.2.msM) :=
        scaled_pos _ _ _ _
      refine ⟨τ, wP, wM, g1, ?_, ?_, ?_, ?_, ?_⟩
      · rw [u1, stress3_neg, stress3_smul]; exact congrArg (fun x => -(cL • x)) (g2 l _ rfl).1
      · rw [u1, vel3_neg, vel3_smul]; exact congrArg (fun x => -(cL • x)) (g2 l _ rfl).2.1
      · rw [u2, stress3_smul]; exact congrArg (fun x => cR • x) (g2 r _ rfl).2.2.1
      · rw [u2, vel3_smul]; exact congrArg (fun x => cR • x) (g2 r _ rfl).2.2.2
      · simp only [hpos, if_true, one_smul, hs', ht']
        exact g3
  · simp only [hpos, if_false, decide_false] at hO hFr hdet
    refine ⟨R, ⟨trafoInv3 ((-n) 0) ((-n) 1) ((-n) 2) (s 0) (s 1) (s 2) (t 0) (t 1) (t 2),
      -msJumpR3 r.rho l.rho r.lam l.lam r.mu l.mu,
      (-1 * (area / nSfs / (volL / nScs))) •
        msFlux3 ((-n) 0) ((-n) 1) ((-n) 2) (s 0) (s 1) (s 2) (t 0) (t 1) (t 2) l.rho l.lam l.mu,
      (-1 * (area / nSfs / (volR / nScs))) •
        msFlux3 ((-n) 0) ((-n) 1) ((-n) 2) (s 0) (s 1) (s 2) (t 0) (t 1) (t 2) r.rho r.lam r.mu⟩,
      true, 1 / l.zs, 1 / r.zs, hRo, ?_, ?_, ?_⟩
    · simp only [ibInit3, hFr, Option.bind_eq_bind, Option.bind_some, check, hdet, ne_eq, not_false_eq_true, decide_true,
        if_true, if_false, elasticDen_some hl hr, ibSca_some hvL h1 h2, ibSca_some hvR h1 h2, Bool.false_eq_true]
    · rw [lswFace_some htol.le hl hr hb, if_neg hpos]
    · intro mus mud dcInv dt sf qL qR q u cL cR
      have hms := jump3 hr hl (trafoInv3 ((-n) 0) ((-n) 1) ((-n) 2) (s 0) (s 1) (s 2) (t 0) (t 1) (t 2) *ᵥ qR)
        (trafoInv3 ((-n) 0) ((-n) 1) ((-n) 2) (s 0) (s 1) (s 2) (t 0) (t 1) (t 2) *ᵥ qL)
        (trafoInv3 ((-n) 0) ((-n) 1) ((-n) 2) (s 0) (s 1) (s 2) (t 0) (t 1) (t 2) *ᵥ qL +
          -msJumpR3 r.rho l.rho r.lam l.lam r.mu l.mu *ᵥ
          (fun i => (trafoInv3 ((-n) 0) ((-n) 1) ((-n) 2) (s 0) (s 1) (s 2) (t 0) (t 1) (t 2) *ᵥ qR) i -
            (trafoInv3 ((-n) 0) ((-n) 1) ((-n) 2) (s 0) (s 1) (s 2) (t 0) (t 1) (t 2) *ᵥ qL) i))
        (Or.inr (by
          rw [Matrix.neg_mulVec, ← Matrix.mulVec_neg]; congr 2; funext i; simp))
      obtain ⟨τ, wP, wM, g1, g2, g3⟩ := core3 hr hl hO rfl qR qL _ hms dt (q := q) rfl rfl sf
      have u1 : u.1 = -((dt * (-1 * (area / nSfs / (volL / nScs)))) •
          (msFlux3 ((-n) 0) ((-n) 1) ((-n) 2) (s 0) (s 1) (s 2) (t 0) (t 1) (t 2) l.rho l.lam l.mu *ᵥ u.2.2.msM)) :=
        scaled_neg _ _ _ _
      have u2 : u.2.1 = (dt * (-1 * (area / nSfs / (volR / nScs)))) •
          (msFlux3 ((-n) 0) ((-n) 1) ((-n) 2) (s 0) (s 1) (s 2) (t 0) (t 1) (t 2) r.rho r.lam r.mu *ᵥ u.2.2.msP) :=
        scaled_pos _ _ _ _
      have kL : dt * (-1 * (area / nSfs / (volL / nScs))) = -cL := by simp only [cL]; ring
      have kR : dt * (-1 * (area / nSfs / (volR / nScs))) = -cR := by simp only [cR]; ring
      have g1' := g1.swap
      simp only [Matrix.mulVec_neg, neg_neg] at g1'
      refine ⟨-τ, wM, wP, g1', ?_, ?_, ?_, ?_, ?_⟩
      · rw [u1, stress3_neg, stress3_smul, kL, show stress3 (_ *ᵥ u.2.2.msM) = _ from (g2 l _ rfl).2.2.1, fluxS_flip]; simp
      · rw [u1, vel3_neg, vel3_smul, kL, show vel3 (_ *ᵥ u.2.2.msM) = _ from (g2 l _ rfl).2.2.2, fluxV_neg]; simp
      · rw [u2, stress3_smul, kR, show stress3 (_ *ᵥ u.2.2.msP) = _ from (g2 r _ rfl).1, fluxS_flip]; simp
      · rw [u2, vel3_smul, kR, show vel3 (_ *ᵥ u.2.2.msP) = _ from (g2 r _ rfl).2.1, fluxV_neg]; simp
      · simp only [hpos, if_false, hs', ht']
        have e2 : n ⬝ᵥ (-τ) = (-n) ⬝ᵥ τ := by simp
        have e3 : (-1 : ℝ) • (-τ) = τ := by simp
        have e4 : (-1 : ℝ) • (wM - wP) = wP - wM := by simp
        rw [e2, e3, e4]
        obtain ⟨k1, k2, k3, k4, k5, k6⟩ := g3
        exact ⟨k1, fun h => k2 h.symm, k3, k4, k5, k6⟩

/-- The hypotheses of `C72_fault3`: a fault with a normal against the preferred direction and two materials. -/
example : ∃ (l r : Material) (n b0 b1 b2 : Fin 3 → ℝ), l.Elastic ∧ r.Elastic ∧ n ⬝ᵥ n = 1 ∧ Orthonormal3 b0 b1 b2 ∧
    |b0 ⬝ᵥ n| > 1 / 1000 ∧ b0 ⬝ᵥ n < 0 ∧ l.rho ≠ r.rho :=
  ⟨⟨2700, 32, 32⟩, ⟨2600, 20, 10⟩, ![3 / 5, 4 / 5, 0], ![0, -1, 0], ![1, 0, 0], ![0, 0, 1], by norm_num [Material.Elastic],
    by norm_num [Material.Elastic], by norm_num [dotProduct, Fin.sum_univ_succ],
    ⟨by norm_num [dotProduct, Fin.sum_univ_succ], by norm_num [dotProduct, Fin.sum_univ_succ],
      by norm_num [dotProduct, Fin.sum_univ_succ], by norm_num [dotProduct, Fin.sum_univ_succ],
      by norm_num [dotProduct, Fin.sum_univ_succ], by norm_num [dotProduct, Fin.sum_univ_succ]⟩,
    by norm_num [dotProduct, Fin.sum_univ_succ, abs_of_pos], by norm_num [dotProduct, Fin.sum_univ_succ], by norm_num⟩

end Edge.Seismic
