import Verif.Seismic.Fs
import Verif.Seismic.Rot
import Verif.Seismic.FluxSpec
/-!
The middle parts of the flux solvers compute, in the face-aligned frame, the flux of the middle state of the Riemann
problem.
-/
namespace Edge.Seismic
open Matrix Edge

theorem pow15_eq {x : ℝ} (h : 0 ≤ x) : pow15 x = x * Real.sqrt x := by
  rw [pow15, Real.sqrt_eq_rpow, ← Real.rpow_one_add' h (by norm_num)]
  norm_num

/-- The first unit vector: the normal in the face-aligned frame. -/
def e2 : Fin 2 → ℝ := ![1, 0]
def e3 : Fin 3 → ℝ := ![1, 0, 0]

theorem frame3_e (nx ny nz sx sy sz tx ty tz : ℝ) :
    frame3 nx ny nz sx sy sz tx ty tz *ᵥ e3 = ![nx, ny, nz] := by
  ext i; fin_cases i <;> simp [frame3, e3, Matrix.mulVec, dotProduct, Fin.sum_univ_succ]

theorem frame2_e (nx ny : ℝ) : frame2 nx ny *ᵥ e2 = ![nx, ny] := by
  ext i; fin_cases i <;> simp [frame2, e2, Matrix.mulVec, dotProduct, Fin.sum_univ_succ]

theorem elasticDen_some {l r : Material} (hl : l.Elastic) (hr : r.Elastic) :
    elasticDen l.rho r.rho l.lam r.lam l.mu r.mu = some () := by
  obtain ⟨a1, a2, a3, a4⟩ := hl.facts
  obtain ⟨b1, b2, b3, b4⟩ := hr.facts
  obtain ⟨c1, c2, c3⟩ := hl
  obtain ⟨d1, d2, d3⟩ := hr
  unfold Material.cp at a1 b1
  unfold Material.cs at a3 b3
  have h1 : (r.lam + 2 * r.mu) * Real.sqrt ((l.lam + 2 * l.mu) / l.rho) +
    (l.lam + 2 * l.mu) * Real.sqrt ((r.lam + 2 * r.mu) / r.rho) ≠ 0 := by positivity
  have h2 : r.mu * Real.sqrt (l.mu / l.rho) + l.mu * Real.sqrt (r.mu / r.rho) ≠ 0 := by positivity
  simp [elasticDen, check, c1.ne', d1.ne', h1, h2]

theorem nrm_e3 (x : Fin 3 → ℝ) : nrm e3 x = ![x 0, 0, 0] := by
  funext i; fin_cases i <;> simp [nrm, e3, dotProduct, Fin.sum_univ_succ]
theorem tng_e3 (x : Fin 3 → ℝ) : tng e3 x = ![0, x 1, x 2] := by
  funext i; rw [tng, nrm_e3]; fin_cases i <;> simp
theorem nrm_e2 (x : Fin 2 → ℝ) : nrm e2 x = ![x 0, 0] := by
  funext i; fin_cases i <;> simp [nrm, e2, dotProduct, Fin.sum_univ_succ]
theorem tng_e2 (x : Fin 2 → ℝ) : tng e2 x = ![0, x 1] := by
  funext i; rw [tng, nrm_e2]; fin_cases i <;> simp

/-- The conditions in the face-aligned frame, component by component. -/
theorem isMiddle_e3 {l r : Material} {tL vL tR vR t v : Fin 3 → ℝ}
    (h0 : t 0 - tL 0 = l.zp * (v 0 - vL 0)) (h1 : t 1 - tL 1 = l.zs * (v 1 - vL 1))
    (h2 : t 2 - tL 2 = l.zs * (v 2 - vL 2)) (h3 : tR 0 - t 0 = -r.zp * (vR 0 - v 0))
    (h4 : tR 1 - t 1 = -r.zs * (vR 1 - v 1)) (h5 : tR 2 - t 2 = -r.zs * (vR 2 - v 2)) :
    IsMiddle l r e3 tL vL tR vR t v := by
  constructor
  · rw [nrm_e3, nrm_e3]; funext i; fin_cases i <;> simp [h0]
  · rw [tng_e3, tng_e3]; funext i; fin_cases i <;> simp [h1, h2]
  · rw [nrm_e3, nrm_e3]; funext i; fin_cases i <;> simp [h3]
  · rw [tng_e3, tng_e3]; funext i; fin_cases i <;> simp [h4, h5]

set_option maxHeartbeats 1000000 in
/-- In the face-aligned frame, 3D. -/
theorem mid3 {l r : Material} (hl : l.Elastic) (hr : r.Elastic) (a b : Fin 9 → ℝ) :
    ∃ t v : Fin 3 → ℝ, IsMiddle l r e3 (stress3 a *ᵥ e3) (vel3 a) (stress3 b *ᵥ e3) (vel3 b) t v ∧
      stress3 (flMid3raw l.rho r.rho l.lam r.lam l.mu r.mu *ᵥ a + frMid3raw l.rho r.rho l.lam r.lam l.mu r.mu *ᵥ b)
        = fluxS l e3 v ∧
      vel3 (flMid3raw l.rho r.rho l.lam r.lam l.mu r.mu *ᵥ a + frMid3raw l.rho r.rho l.lam r.lam l.mu r.mu *ᵥ b)
        = fluxV l t := by
  obtain ⟨a1, a2, a3, a4⟩ := hl.facts
  obtain ⟨b1, b2, b3, b4⟩ := hr.facts
  have hl0 := hl.1
  have hr0 := hr.1
  have zl : 0 < l.zp + r.zp := add_pos (mul_pos hl0 a1) (mul_pos hr0 b1)
  have zs : 0 < l.zs + r.zs := add_pos (mul_pos hl0 a3) (mul_pos hr0 b3)
  refine ⟨![(r.zp * a 0 + l.zp * b 0 + l.zp * r.zp * (b 6 - a 6)) / (l.zp + r.zp),
            (r.zs * a 3 + l.zs * b 3 + l.zs * r.zs * (b 7 - a 7)) / (l.zs + r.zs),
            (r.zs * a 5 + l.zs * b 5 + l.zs * r.zs * (b 8 - a 8)) / (l.zs + r.zs)],
          ![(l.zp * a 6 + r.zp * b 6 + b 0 - a 0) / (l.zp + r.zp),
            (l.zs * a 7 + r.zs * b 7 + b 3 - a 3) / (l.zs + r.zs),
            (l.zs * a 8 + r.zs * b 8 + b 5 - a 5) / (l.zs + r.zs)], ?_, ?_, ?_⟩
  · apply isMiddle_e3 <;>
      simp [stress3, vel3, e3, Matrix.mulVec, dotProduct, Fin.sum_univ_succ] <;> field_simp <;> ring
  all_goals
    have e1 : Real.sqrt ((l.lam + 2 * l.mu) / l.rho) = l.cp := rfl
    have e2 : Real.sqrt ((r.lam + 2 * r.mu) / r.rho) = r.cp := rfl
    have e3 : Real.sqrt (l.mu / l.rho) = l.cs := rfl
    have e4 : Real.sqrt (r.mu / r.rho) = r.cs := rfl
    unfold flMid3raw frMid3raw
    simp only [fluxS, fluxV]
    simp only [e1, e2, e3, e4]
    unfold Material.zp Material.zs at *
    have f1 : l.lam = l.rho * l.cp ^ 2 - 2 * (l.rho * l.cs ^ 2) := by rw [a2, a4]; ring
    have f2 : r.lam = r.rho * r.cp ^ 2 - 2 * (r.rho * r.cs ^ 2) := by rw [b2, b4]; ring
    rw [f1, f2, ← a4, ← b4]
    clear f1 f2 e1 e2 e3 e4 a2 a4 b2 b4 zl zs
    generalize l.cp = pl at *
    generalize r.cp = pr at *
    generalize l.cs = sl at *
    generalize r.cs = sr at *
    generalize l.rho = rl at *
    generalize r.rho = rr at *
  · funext i j
    fin_cases i <;> fin_cases j <;>
      simp [stress3, Matrix.mulVec, dotProduct, Fin.sum_univ_succ, Seismic.e3, vecMulVec] <;> field_simp <;> ring
  · funext i
    fin_cases i <;>
      simp [vel3, Matrix.mulVec, dotProduct, Fin.sum_univ_succ] <;> field_simp <;> ring

theorem isMiddle_e2 {l r : Material} {tL vL tR vR t v : Fin 2 → ℝ}
    (h0 : t 0 - tL 0 = l.zp * (v 0 - vL 0)) (h1 : t 1 - tL 1 = l.zs * (v 1 - vL 1))
    (h3 : tR 0 - t 0 = -r.zp * (vR 0 - v 0)) (h4 : tR 1 - t 1 = -r.zs * (vR 1 - v 1)) :
    IsMiddle l r e2 tL vL tR vR t v := by
  constructor
  · rw [nrm_e2, nrm_e2]; funext i; fin_cases i <;> simp [h0]
  · rw [tng_e2, tng_e2]; funext i; fin_cases i <;> simp [h1]
  · rw [nrm_e2, nrm_e2]; funext i; fin_cases i <;> simp [h3]
  · rw [tng_e2, tng_e2]; funext i; fin_cases i <;> simp [h4]

set_option maxHeartbeats 1000000 in
/-- In the face-aligned frame, 2D. -/
theorem mid2 {l r : Material} (hl : l.Elastic) (hr : r.Elastic) (a b : Fin 5 → ℝ) :
    ∃ t v : Fin 2 → ℝ, IsMiddle l r e2 (stress2 a *ᵥ e2) (vel2 a) (stress2 b *ᵥ e2) (vel2 b) t v ∧
      stress2 (flMidElastic2 l.rho r.rho l.lam r.lam l.mu r.mu *ᵥ a +
        frMidElastic2 l.rho r.rho l.lam r.lam l.mu r.mu *ᵥ b) = fluxS l e2 v ∧
      vel2 (flMidElastic2 l.rho r.rho l.lam r.lam l.mu r.mu *ᵥ a +
        frMidElastic2 l.rho r.rho l.lam r.lam l.mu r.mu *ᵥ b) = fluxV l t := by
  obtain ⟨a1, a2, a3, a4⟩ := hl.facts
  obtain ⟨b1, b2, b3, b4⟩ := hr.facts
  have hl0 := hl.1
  have hr0 := hr.1
  have zl : 0 < l.zp + r.zp := add_pos (mul_pos hl0 a1) (mul_pos hr0 b1)
  have zs : 0 < l.zs + r.zs := add_pos (mul_pos hl0 a3) (mul_pos hr0 b3)
  refine ⟨![(r.zp * a 0 + l.zp * b 0 + l.zp * r.zp * (b 3 - a 3)) / (l.zp + r.zp),
            (r.zs * a 2 + l.zs * b 2 + l.zs * r.zs * (b 4 - a 4)) / (l.zs + r.zs)],
          ![(l.zp * a 3 + r.zp * b 3 + b 0 - a 0) / (l.zp + r.zp),
            (l.zs * a 4 + r.zs * b 4 + b 2 - a 2) / (l.zs + r.zs)], ?_, ?_, ?_⟩
  · apply isMiddle_e2 <;>
      simp [stress2, vel2, e2, Matrix.mulVec, dotProduct, Fin.sum_univ_succ] <;> field_simp <;> ring
  all_goals
    have e1 : Real.sqrt ((l.lam + 2 * l.mu) / l.rho) = l.cp := rfl
    have e2 : Real.sqrt ((r.lam + 2 * r.mu) / r.rho) = r.cp := rfl
    have e3 : Real.sqrt (l.mu / l.rho) = l.cs := rfl
    have e4 : Real.sqrt (r.mu / r.rho) = r.cs := rfl
    unfold flMidElastic2 frMidElastic2
    rw [pow15_eq (div_nonneg hl.2.2.le hl0.le)]
    simp only [e1, e2, e3, e4, fluxS, fluxV]
    unfold Material.zp Material.zs at *
    have f1 : l.lam = l.rho * l.cp ^ 2 - 2 * (l.rho * l.cs ^ 2) := by rw [a2, a4]; ring
    have f2 : r.lam = r.rho * r.cp ^ 2 - 2 * (r.rho * r.cs ^ 2) := by rw [b2, b4]; ring
    have g1 : r.lam * l.cp + 2 * r.mu * l.cp + (l.lam + 2 * l.mu) * r.cp =
      l.rho * r.rho * 0 + l.cp * r.cp * (l.rho * l.cp + r.rho * r.cp) := by rw [f1, f2, ← a4, ← b4]; ring
    rw [g1, f1, f2, ← a4, ← b4]
    clear f1 f2 e1 e2 e3 e4 a2 a4 b2 b4 zl zs g1
    generalize l.cp = pl at *
    generalize r.cp = pr at *
    generalize l.cs = sl at *
    generalize r.cs = sr at *
    generalize l.rho = rl at *
    generalize r.rho = rr at *
  · funext i j
    fin_cases i <;> fin_cases j <;>
      simp [stress2, Matrix.mulVec, dotProduct, Fin.sum_univ_succ, Seismic.e2, vecMulVec] <;> field_simp <;> ring
  · funext i
    fin_cases i <;>
      simp [vel2, Matrix.mulVec, dotProduct, Fin.sum_univ_succ] <;> field_simp <;> ring

/-- In the face-aligned frame, 2D acoustics. -/
theorem midA2 {l r : Material} (hl : l.Acoustic) (hr : r.Acoustic) (a b : Fin 5 → ℝ) :
    ∃ t v : Fin 2 → ℝ, IsMiddleA l r e2 (stress2 a *ᵥ e2) (vel2 a) (stress2 b *ᵥ e2) (vel2 b) t v ∧
      stress2 (flMidAcoustic2 l.rho r.rho l.lam r.lam l.mu r.mu *ᵥ a +
        frMidAcoustic2 l.rho r.rho l.lam r.lam l.mu r.mu *ᵥ b) = fluxS l e2 v ∧
      vel2 (flMidAcoustic2 l.rho r.rho l.lam r.lam l.mu r.mu *ᵥ a +
        frMidAcoustic2 l.rho r.rho l.lam r.lam l.mu r.mu *ᵥ b) = fluxV l t := by
  obtain ⟨a1, a2⟩ := hl.facts
  obtain ⟨b1, b2⟩ := hr.facts
  have hl0 := hl.1
  have hr0 := hr.1
  have zl : 0 < l.zp + r.zp := add_pos (mul_pos hl0 a1) (mul_pos hr0 b1)
  refine ⟨![(r.zp * a 0 + l.zp * b 0 + l.zp * r.zp * (b 3 - a 3)) / (l.zp + r.zp), a 2],
          ![(l.zp * a 3 + r.zp * b 3 + b 0 - a 0) / (l.zp + r.zp), 0], ?_, ?_, ?_⟩
  · constructor
    · rw [nrm_e2, nrm_e2]; funext i
      fin_cases i <;> simp [stress2, vel2, e2, Matrix.mulVec, dotProduct, Fin.sum_univ_succ] <;> field_simp <;> ring
    · rw [tng_e2, tng_e2]; funext i
      fin_cases i <;> simp [stress2, e2, Matrix.mulVec, dotProduct, Fin.sum_univ_succ]
    · rw [nrm_e2, nrm_e2]; funext i
      fin_cases i <;> simp [stress2, vel2, e2, Matrix.mulVec, dotProduct, Fin.sum_univ_succ] <;> field_simp <;> ring
  all_goals
    have e1 : Real.sqrt (l.lam / l.rho) = l.cp := by rw [Material.cp, hl.2.1]; simp
    have e2 : Real.sqrt (r.lam / r.rho) = r.cp := by rw [Material.cp, hr.2.1]; simp
    unfold flMidAcoustic2 frMidAcoustic2
    simp only [e1, e2, fluxS, fluxV, hl.2.1]
    unfold Material.zp at *
    rw [← a2, ← b2]
    clear e1 e2 a2 b2 zl
    generalize l.cp = pl at *
    generalize r.cp = pr at *
    generalize l.rho = rl at *
    generalize r.rho = rr at *
  · funext i j
    fin_cases i <;> fin_cases j <;>
      simp [stress2, Matrix.mulVec, dotProduct, Fin.sum_univ_succ, Seismic.e2] <;> field_simp <;> ring
  · funext i
    fin_cases i <;>
      simp [vel2, Matrix.mulVec, dotProduct, Fin.sum_univ_succ] <;> field_simp <;> ring

end Edge.Seismic
