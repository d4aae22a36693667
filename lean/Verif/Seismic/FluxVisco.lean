import Verif.Seismic.FluxMid
/-!
The middle parts of the anelastic flux solvers compute, in the face-aligned frame, the strain rate of the middle state.
-/
namespace Edge.Seismic
open Matrix Edge

/-- Symmetric tensor of the 2D strains (exx, eyy, exy). -/
def strain2 {K : Type} (q : Fin 3 → K) : Matrix (Fin 2) (Fin 2) K := !![q 0, q 2; q 2, q 1]

/-- Symmetric tensor of the 3D strains (exx, eyy, ezz, exy, eyz, exz). -/
def strain3 {K : Type} (q : Fin 6 → K) : Matrix (Fin 3) (Fin 3) K := !![q 0, q 3, q 5; q 3, q 1, q 4; q 5, q 4, q 2]

theorem viscoDen_some {l r : Material} (hl : l.Elastic) (hr : r.Elastic) :
    viscoDen l.rho r.rho l.lam r.lam l.mu r.mu = some () := by
  obtain ⟨a1, -, -, -⟩ := hl.facts
  obtain ⟨b1, -, -, -⟩ := hr.facts
  have h1 : (l.lam + 2 * l.mu) / l.rho > 0 := div_pos hl.2.2 hl.1
  have h2 : (r.lam + 2 * r.mu) / r.rho > 0 := div_pos hr.2.2 hr.1
  have h3 : l.mu / l.rho > 0 := div_pos hl.2.1 hl.1
  have h4 : r.mu / r.rho > 0 := div_pos hr.2.1 hr.1
  have h5 : l.lam + 2 * l.mu + r.rho * getVelP l.rho l.lam l.mu * getVelP r.rho r.lam r.mu ≠ 0 := by
    have c1 := hl.2.2
    have c2 := hr.1
    have e1 : getVelP l.rho l.lam l.mu = l.cp := rfl
    have e2 : getVelP r.rho r.lam r.mu = r.cp := rfl
    rw [e1, e2]; positivity
  rw [viscoDen, elasticDen_some hl hr]
  simp only [check, h1, h2, h3, h4, h5, decide_true, Option.bind_eq_bind, Option.bind_some, if_true, ne_eq,
    not_false_eq_true]

set_option maxHeartbeats 1000000 in
theorem viscoMid3_spec {l r : Material} (hl : l.Elastic) (hr : r.Elastic) :
    ∃ m, viscoMid3 l.rho r.rho l.lam r.lam l.mu r.mu = some m ∧ ∀ a b : Fin 9 → ℝ,
    ∃ t v : Fin 3 → ℝ, IsMiddle l r e3 (stress3 a *ᵥ e3) (vel3 a) (stress3 b *ᵥ e3) (vel3 b) t v ∧
      strain3 (m.1 *ᵥ a + m.2 *ᵥ b) = fluxE e3 v := by
  have e1 : getVelP l.rho l.lam l.mu = l.cp := rfl
  have e2 : getVelP r.rho r.lam r.mu = r.cp := rfl
  have e3 : getVelS l.rho l.mu = l.cs := rfl
  have e4 : getVelS r.rho r.mu = r.cs := rfl
  simp only [viscoMid3, viscoDen_some hl hr, Option.bind_eq_bind, Option.bind_some, e1, e2, e3, e4]
  refine ⟨_, rfl, ?_⟩
  intro a b
  obtain ⟨a1, a2, a3, a4⟩ := hl.facts
  obtain ⟨b1, b2, b3, b4⟩ := hr.facts
  have hl0 := hl.1
  have hr0 := hr.1
  have zl : 0 < l.zp + r.zp := add_pos (mul_pos hl0 a1) (mul_pos hr0 b1)
  have zs : 0 < l.zs + r.zs := add_pos (mul_pos hl0 a3) (mul_pos hr0 b3)
  refine ⟨![(r.zp * a 0 + l.zp * b 0 + l.zp * r.zp * (b 6 - a 6)) / (l.zp + r.zp),
            (r.zs * a 3 + l.zs * b 3 + l.zs * r.zs * (b 7 - a 7)) / (l.zs + r.zs),
            (r.zs * a 5 + l.zs * b 5 + l.zs * r.zs * (b 8 - a 8)) / (l.zs + r.zs)],
          ![(l.zp * a 6 + r.zp * b 6 + b 0 - a 0) / (l.zp + r.zp),
            (l.zs * a 7 + r.zs * b 7 + b 3 - a 3) / (l.zs + r.zs),
            (l.zs * a 8 + r.zs * b 8 + b 5 - a 5) / (l.zs + r.zs)], ?_, ?_⟩
  · apply isMiddle_e3 <;>
      simp [stress3, vel3, Seismic.e3, Matrix.mulVec, dotProduct, Fin.sum_univ_succ] <;> field_simp <;> ring
  · simp only [fluxE]
    unfold Material.zp Material.zs at *
    have f1 : l.lam = l.rho * l.cp ^ 2 - 2 * (l.rho * l.cs ^ 2) := by rw [a2, a4]; ring
    have f2 : r.lam = r.rho * r.cp ^ 2 - 2 * (r.rho * r.cs ^ 2) := by rw [b2, b4]; ring
    have g1 : l.lam * r.cp + r.lam * l.cp + 2 * l.mu * r.cp + 2 * r.mu * l.cp =
      l.cp * r.cp * (l.rho * l.cp + r.rho * r.cp) := by rw [f1, f2, ← a4, ← b4]; ring
    have g2 : l.lam + 2 * l.mu = l.rho * l.cp ^ 2 := a2.symm
    have g3 : r.lam + 2 * r.mu = r.rho * r.cp ^ 2 := b2.symm
    have g4 : 2 * l.mu * r.cs + 2 * r.mu * l.cs = 2 * l.cs * r.cs * (l.rho * l.cs + r.rho * r.cs) := by
      rw [← a4, ← b4]; ring
    rw [g1, g2, g3, g4, ← a4, ← b4]
    clear f1 f2 e1 e2 e3 e4 a2 a4 b2 b4 zl zs g1 g2 g3 g4
    generalize l.cp = pl at *
    generalize r.cp = pr at *
    generalize l.cs = sl at *
    generalize r.cs = sr at *
    generalize l.rho = rl at *
    generalize r.rho = rr at *
    funext i j
    fin_cases i <;> fin_cases j <;>
      simp [strain3, Matrix.mulVec, dotProduct, Fin.sum_univ_succ, Seismic.e3, vecMulVec] <;> field_simp <;> ring

set_option maxHeartbeats 1000000 in
theorem viscoMid2_spec {l r : Material} (hl : l.Elastic) (hr : r.Elastic) :
    ∃ m, viscoMid2 l.rho r.rho l.lam r.lam l.mu r.mu = some m ∧ ∀ a b : Fin 5 → ℝ,
    ∃ t v : Fin 2 → ℝ, IsMiddle l r e2 (stress2 a *ᵥ e2) (vel2 a) (stress2 b *ᵥ e2) (vel2 b) t v ∧
      strain2 (m.1 *ᵥ a + m.2 *ᵥ b) = fluxE e2 v := by
  have e1 : getVelP l.rho l.lam l.mu = l.cp := rfl
  have e2 : getVelP r.rho r.lam r.mu = r.cp := rfl
  have e3 : getVelS l.rho l.mu = l.cs := rfl
  have e4 : getVelS r.rho r.mu = r.cs := rfl
  simp only [viscoMid2, viscoDen_some hl hr, Option.bind_eq_bind, Option.bind_some, e1, e2, e3, e4]
  refine ⟨_, rfl, ?_⟩
  intro a b
  obtain ⟨a1, a2, a3, a4⟩ := hl.facts
  obtain ⟨b1, b2, b3, b4⟩ := hr.facts
  have hl0 := hl.1
  have hr0 := hr.1
  have zl : 0 < l.zp + r.zp := add_pos (mul_pos hl0 a1) (mul_pos hr0 b1)
  have zs : 0 < l.zs + r.zs := add_pos (mul_pos hl0 a3) (mul_pos hr0 b3)
  refine ⟨![(r.zp * a 0 + l.zp * b 0 + l.zp * r.zp * (b 3 - a 3)) / (l.zp + r.zp),
            (r.zs * a 2 + l.zs * b 2 + l.zs * r.zs * (b 4 - a 4)) / (l.zs + r.zs)],
          ![(l.zp * a 3 + r.zp * b 3 + b 0 - a 0) / (l.zp + r.zp),
            (l.zs * a 4 + r.zs * b 4 + b 2 - a 2) / (l.zs + r.zs)], ?_, ?_⟩
  · apply isMiddle_e2 <;>
      simp [stress2, vel2, Seismic.e2, Matrix.mulVec, dotProduct, Fin.sum_univ_succ] <;> field_simp <;> ring
  · simp only [fluxE]
    unfold Material.zp Material.zs at *
    have g2 : l.lam + 2 * l.mu = l.rho * l.cp ^ 2 := a2.symm
    have g3 : r.lam + 2 * r.mu = r.rho * r.cp ^ 2 := b2.symm
    have g1 : l.lam + 2 * l.mu + r.rho * l.cp * r.cp = l.cp * (l.rho * l.cp + r.rho * r.cp) := by rw [g2]; ring
    have g4 : 2 * l.mu * r.cs + 2 * r.mu * l.cs = 2 * l.cs * r.cs * (l.rho * l.cs + r.rho * r.cs) := by
      rw [← a4, ← b4]; ring
    rw [g1, g2, g3, g4, ← a4, ← b4]
    clear e1 e2 e3 e4 a2 a4 b2 b4 zl zs g1 g2 g3 g4
    generalize l.cp = pl at *
    generalize r.cp = pr at *
    generalize l.cs = sl at *
    generalize r.cs = sr at *
    generalize l.rho = rl at *
    generalize r.rho = rr at *
    funext i j
    fin_cases i <;> fin_cases j <;>
      simp [strain2, Matrix.mulVec, dotProduct, Fin.sum_univ_succ, Seismic.e2, vecMulVec] <;> field_simp <;> ring

end Edge.Seismic
