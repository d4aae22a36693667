import Mathlib.Data.Matrix.Mul
import Mathlib.LinearAlgebra.Matrix.NonsingularInverse
import Mathlib.Analysis.SpecialFunctions.Pow.Real
import Mathlib.Tactic.FieldSimp
import Mathlib.Tactic.Module
/-!
Specification of the Riemann problem of the (visco-)elastic wave equations at a face with unit normal `n`, in terms of
tractions and velocities, independent of the dimension and of coordinates.
-/
namespace Edge.Seismic
open Matrix

variable {d : Type} [Fintype d] [DecidableEq d]

/-- Material parameters. -/
structure Material where
  rho : ℝ
  lam : ℝ
  mu : ℝ

/-- Speed of p-waves. -/
noncomputable def Material.cp (m : Material) : ℝ := Real.sqrt ((m.lam + 2 * m.mu) / m.rho)
/-- Speed of s-waves. -/
noncomputable def Material.cs (m : Material) : ℝ := Real.sqrt (m.mu / m.rho)
/-- Impedance of p-waves. -/
noncomputable def Material.zp (m : Material) : ℝ := m.rho * m.cp
/-- Impedance of s-waves. -/
noncomputable def Material.zs (m : Material) : ℝ := m.rho * m.cs

/-- An elastic solid. -/
def Material.Elastic (m : Material) : Prop := 0 < m.rho ∧ 0 < m.mu ∧ 0 < m.lam + 2 * m.mu
/-- A fluid. -/
def Material.Acoustic (m : Material) : Prop := 0 < m.rho ∧ m.mu = 0 ∧ 0 < m.lam

/-- Part of `x` along the normal. -/
def nrm (n x : d → ℝ) : d → ℝ := (n ⬝ᵥ x) • n
/-- Part of `x` orthogonal to the normal. -/
def tng (n x : d → ℝ) : d → ℝ := x - nrm n x

/-- Stress part of the flux in direction `n` of a state with velocity `v`: the negative stress rate of Hooke's law for
the velocity gradient `n vᵀ`. -/
def fluxS (m : Material) (n v : d → ℝ) : Matrix d d ℝ :=
  -((m.lam * (n ⬝ᵥ v)) • (1 : Matrix d d ℝ) + m.mu • (vecMulVec n v + vecMulVec v n))

/-- Velocity part of the flux of a state with traction `t` (Newton's law). -/
noncomputable def fluxV (m : Material) (t : d → ℝ) : d → ℝ := -(1 / m.rho) • t

/-- Flux of the memory variables: the negative strain rate for the velocity gradient `n vᵀ`. -/
noncomputable def fluxE (n v : d → ℝ) : Matrix d d ℝ := -((1 / 2 : ℝ) • (vecMulVec n v + vecMulVec v n))

/-- Rankine-Hugoniot conditions: the middle state with traction `t` and velocity `v` is connected to the left state by
left-going p- and s-waves, and to the right state by right-going p- and s-waves. Traction and velocity are continuous
at the face: both sides see the same `t` and `v`. -/
structure IsMiddle (l r : Material) (n tL vL tR vR t v : d → ℝ) : Prop where
  leftP : nrm n (t - tL) = l.zp • nrm n (v - vL)
  leftS : tng n (t - tL) = l.zs • tng n (v - vL)
  rightP : nrm n (tR - t) = -r.zp • nrm n (vR - v)
  rightS : tng n (tR - t) = -r.zs • tng n (vR - v)

/-- The same for fluids: there are p-waves only; the tangential traction does not change from the left state. -/
structure IsMiddleA (l r : Material) (n tL vL tR vR t v : d → ℝ) : Prop where
  leftP : nrm n (t - tL) = l.zp • nrm n (v - vL)
  leftS : tng n t = tng n tL
  rightP : nrm n (tR - t) = -r.zp • nrm n (vR - v)

/-! ### Facts about the specification -/

theorem Material.Elastic.facts {m : Material} (h : m.Elastic) :
    0 < m.cp ∧ m.rho * m.cp ^ 2 = m.lam + 2 * m.mu ∧ 0 < m.cs ∧ m.rho * m.cs ^ 2 = m.mu := by
  obtain ⟨h1, h2, h3⟩ := h
  refine ⟨Real.sqrt_pos.2 (by positivity), ?_, Real.sqrt_pos.2 (by positivity), ?_⟩
  · rw [Material.cp, Real.sq_sqrt (by positivity)]; field_simp
  · rw [Material.cs, Real.sq_sqrt (by positivity)]; field_simp

theorem Material.Acoustic.facts {m : Material} (h : m.Acoustic) :
    0 < m.cp ∧ m.rho * m.cp ^ 2 = m.lam := by
  obtain ⟨h1, h2, h3⟩ := h
  refine ⟨Real.sqrt_pos.2 (by rw [h2]; simp; positivity), ?_⟩
  rw [Material.cp, h2, Real.sq_sqrt (by simp; positivity)]; field_simp; simp

omit [DecidableEq d] in
theorem nrm_add (n x y : d → ℝ) : nrm n (x + y) = nrm n x + nrm n y := by
  simp only [nrm, dotProduct_add, add_smul]
omit [DecidableEq d] in
theorem nrm_sub (n x y : d → ℝ) : nrm n (x - y) = nrm n x - nrm n y := by
  simp only [nrm, dotProduct_sub, sub_smul]
omit [DecidableEq d] in
theorem nrm_smul (n : d → ℝ) (c : ℝ) (x : d → ℝ) : nrm n (c • x) = c • nrm n x := by
  simp only [nrm, dotProduct_smul, smul_smul, smul_eq_mul]
omit [DecidableEq d] in
theorem nrm_neg (n x : d → ℝ) : nrm n (-x) = -nrm n x := by simp [nrm]
omit [DecidableEq d] in
theorem nrm_flip (n x : d → ℝ) : nrm (-n) x = nrm n x := by simp [nrm]
omit [DecidableEq d] in
theorem tng_flip (n x : d → ℝ) : tng (-n) x = tng n x := by simp [tng, nrm_flip]
omit [DecidableEq d] in
theorem tng_sub (n x y : d → ℝ) : tng n (x - y) = tng n x - tng n y := by simp only [tng, nrm_sub]; abel
omit [DecidableEq d] in
theorem tng_neg (n x : d → ℝ) : tng n (-x) = -tng n x := by simp only [tng, nrm_neg]; abel
omit [DecidableEq d] in
theorem nrm_tng (n x : d → ℝ) : nrm n x + tng n x = x := by simp [tng]

omit [DecidableEq d] in
/-- The middle state is unique. -/
theorem IsMiddle.unique {l r : Material} (hl : l.Elastic) (hr : r.Elastic) {n tL vL tR vR t v t' v' : d → ℝ}
    (h : IsMiddle l r n tL vL tR vR t v) (h' : IsMiddle l r n tL vL tR vR t' v') : t = t' ∧ v = v' := by
  obtain ⟨a1, -, a3, -⟩ := hl.facts
  obtain ⟨b1, -, b3, -⟩ := hr.facts
  have zl : 0 < l.zp + r.zp := add_pos (mul_pos hl.1 a1) (mul_pos hr.1 b1)
  have zs : 0 < l.zs + r.zs := add_pos (mul_pos hl.1 a3) (mul_pos hr.1 b3)
  have solve : ∀ {zl zr : ℝ} {x x' y y' xl yl xr yr : d → ℝ}, 0 < zl + zr → x - xl = zl • (y - yl) →
      xr - x = -zr • (yr - y) → x' - xl = zl • (y' - yl) → xr - x' = -zr • (yr - y') → x = x' ∧ y = y' := by
    intro zl zr x x' y y' xl yl xr yr hz e1 e2 e3 e4
    have h1 : x - x' = zl • (y - y') := by
      have := congrArg₂ (· - ·) e1 e3
      rw [show x - x' = (x - xl) - (x' - xl) by abel, this]; module
    have h2 : x' - x = zr • (y - y') := by
      have := congrArg₂ (· - ·) e2 e4
      rw [show x' - x = (xr - x) - (xr - x') by abel, this]; module
    have h3 : (zl + zr) • (y - y') = 0 := by
      rw [add_smul, ← h1, ← h2]; abel
    have h4 : y - y' = 0 := (smul_eq_zero.1 h3).resolve_left (ne_of_gt hz)
    refine ⟨?_, sub_eq_zero.1 h4⟩
    rw [h4, smul_zero] at h1
    exact sub_eq_zero.1 h1
  obtain ⟨p1, p2, p3, p4⟩ := h
  obtain ⟨q1, q2, q3, q4⟩ := h'
  simp only [nrm_sub] at p1 p3 q1 q3
  simp only [tng_sub] at p2 p4 q2 q4
  obtain ⟨r1, r2⟩ := solve zl p1 p3 q1 q3
  obtain ⟨r3, r4⟩ := solve zs p2 p4 q2 q4
  constructor
  · rw [← nrm_tng n t, r1, r3, nrm_tng]
  · rw [← nrm_tng n v, r2, r4, nrm_tng]

omit [DecidableEq d] in
/-- Seen from the other side (materials and states exchanged, normal reversed) the middle state has the opposite traction
and the same velocity. -/
theorem IsMiddle.swap {l r : Material} {n tL vL tR vR t v : d → ℝ} (h : IsMiddle l r n tL vL tR vR t v) :
    IsMiddle r l (-n) (-tR) vR (-tL) vL (-t) v := by
  obtain ⟨p1, p2, p3, p4⟩ := h
  simp only [nrm_sub, tng_sub] at p1 p2 p3 p4
  refine ⟨?_, ?_, ?_, ?_⟩ <;> simp only [nrm_flip, tng_flip, nrm_sub, tng_sub, nrm_neg, tng_neg]
  · rw [show -nrm n t - -nrm n tR = nrm n tR - nrm n t by abel, p3]; module
  · rw [show -tng n t - -tng n tR = tng n tR - tng n t by abel, p4]; module
  · rw [show -nrm n tL - -nrm n t = nrm n t - nrm n tL by abel, p1]; module
  · rw [show -tng n tL - -tng n t = tng n t - tng n tL by abel, p2]; module

omit [DecidableEq d] in
/-- Equal states on both sides are their own middle state. -/
theorem IsMiddle.self (l r : Material) (n t v : d → ℝ) : IsMiddle l r n t v t v t v := by
  constructor <;> simp [nrm, tng]

omit [DecidableEq d] in
/-- Free surface: a right state with the same material and velocity and the opposite traction makes the traction of the
middle state vanish. -/
theorem IsMiddle.free {l : Material} (hl : l.Elastic) {n tL vL t v : d → ℝ}
    (h : IsMiddle l l n tL vL (-tL) vL t v) : t = 0 := by
  obtain ⟨p1, p2, p3, p4⟩ := h
  have hp : nrm n t = 0 := by
    simp only [nrm_sub, nrm_neg] at p1 p3
    have : (2 : ℝ) • nrm n t = 0 := by
      have e : (2 : ℝ) • nrm n t = (nrm n t - nrm n tL) - (-nrm n tL - nrm n t) := by module
      rw [e, p1, p3]; module
    exact (smul_eq_zero.1 this).resolve_left two_ne_zero
  have hs : tng n t = 0 := by
    simp only [tng_sub, tng_neg] at p2 p4
    have : (2 : ℝ) • tng n t = 0 := by
      have e : (2 : ℝ) • tng n t = (tng n t - tng n tL) - (-tng n tL - tng n t) := by module
      rw [e, p2, p4]; module
    exact (smul_eq_zero.1 this).resolve_left two_ne_zero
  rw [← nrm_tng n t, hp, hs, add_zero]

omit [DecidableEq d] in
/-- Equal states of the same fluid: the traction and the normal velocity stay. -/
theorem IsMiddleA.self_eq {m : Material} (hm : m.Acoustic) {n τ w t v : d → ℝ} (h : IsMiddleA m m n τ w τ w t v) :
    t = τ ∧ (n ⬝ᵥ n = 1 → n ⬝ᵥ v = n ⬝ᵥ w) := by
  obtain ⟨p1, p2, p3⟩ := h
  have hz : m.zp ≠ 0 := (mul_pos hm.1 hm.facts.1).ne'
  simp only [nrm_sub] at p1 p3
  have h1 : nrm n t = nrm n τ := by
    have : (2 : ℝ) • (nrm n t - nrm n τ) = 0 := by
      have e : (2 : ℝ) • (nrm n t - nrm n τ) = (nrm n t - nrm n τ) - (nrm n τ - nrm n t) := by module
      rw [e, p1, p3]; module
    exact sub_eq_zero.1 ((smul_eq_zero.1 this).resolve_left two_ne_zero)
  refine ⟨by rw [← nrm_tng n t, h1, p2, nrm_tng], fun hn => ?_⟩
  rw [h1, sub_self] at p1
  have h2 : nrm n v = nrm n w := sub_eq_zero.1 ((smul_eq_zero.1 p1.symm).resolve_left hz)
  have h3 := congrArg (fun x => n ⬝ᵥ x) h2
  simpa [nrm, dotProduct_smul, hn] using h3

omit [DecidableEq d] in
theorem dot_rot {R : Matrix d d ℝ} [DecidableEq d] (h : Rᵀ * R = 1) (x y : d → ℝ) : (R *ᵥ x) ⬝ᵥ (R *ᵥ y) = x ⬝ᵥ y := by
  rw [Matrix.dotProduct_mulVec, Matrix.vecMul_mulVec, ← Matrix.dotProduct_mulVec, h, Matrix.one_mulVec]

theorem nrm_rot {R : Matrix d d ℝ} (h : Rᵀ * R = 1) (n x : d → ℝ) : nrm (R *ᵥ n) (R *ᵥ x) = R *ᵥ nrm n x := by
  rw [nrm, nrm, dot_rot h, Matrix.mulVec_smul]

theorem tng_rot {R : Matrix d d ℝ} (h : Rᵀ * R = 1) (n x : d → ℝ) : tng (R *ᵥ n) (R *ᵥ x) = R *ᵥ tng n x := by
  rw [tng, tng, nrm_rot h, Matrix.mulVec_sub]

/-- The conditions do not depend on the frame. -/
theorem IsMiddle.rot {l r : Material} {R : Matrix d d ℝ} (hR : Rᵀ * R = 1) {n tL vL tR vR t v : d → ℝ}
    (h : IsMiddle l r n tL vL tR vR t v) :
    IsMiddle l r (R *ᵥ n) (R *ᵥ tL) (R *ᵥ vL) (R *ᵥ tR) (R *ᵥ vR) (R *ᵥ t) (R *ᵥ v) := by
  obtain ⟨p1, p2, p3, p4⟩ := h
  refine ⟨?_, ?_, ?_, ?_⟩ <;> simp only [← Matrix.mulVec_sub, nrm_rot hR, tng_rot hR, ← Matrix.mulVec_smul]
  · rw [p1]
  · rw [p2]
  · rw [p3]
  · rw [p4]

theorem IsMiddleA.rot {l r : Material} {R : Matrix d d ℝ} (hR : Rᵀ * R = 1) {n tL vL tR vR t v : d → ℝ}
    (h : IsMiddleA l r n tL vL tR vR t v) :
    IsMiddleA l r (R *ᵥ n) (R *ᵥ tL) (R *ᵥ vL) (R *ᵥ tR) (R *ᵥ vR) (R *ᵥ t) (R *ᵥ v) := by
  obtain ⟨p1, p2, p3⟩ := h
  refine ⟨?_, ?_, ?_⟩ <;> simp only [← Matrix.mulVec_sub, nrm_rot hR, tng_rot hR, ← Matrix.mulVec_smul]
  · rw [p1]
  · rw [p2]
  · rw [p3]

theorem fluxS_rot {m : Material} {R : Matrix d d ℝ} (h : Rᵀ * R = 1) (n v : d → ℝ) :
    fluxS m (R *ᵥ n) (R *ᵥ v) = R * fluxS m n v * Rᵀ := by
  have h' : R * Rᵀ = 1 := mul_eq_one_comm.1 h
  have hv : ∀ x y : d → ℝ, vecMulVec (R *ᵥ x) (R *ᵥ y) = R * vecMulVec x y * Rᵀ := by
    intro x y
    rw [Matrix.mul_vecMulVec, Matrix.vecMulVec_mul, Matrix.vecMul_transpose]
  rw [fluxS, fluxS, dot_rot h, hv, hv]
  rw [Matrix.mul_neg, Matrix.neg_mul, Matrix.mul_add, Matrix.add_mul, Matrix.mul_smul, Matrix.smul_mul, Matrix.mul_one, h',
    Matrix.mul_smul, Matrix.smul_mul, Matrix.mul_add, Matrix.add_mul]

theorem fluxE_rot {R : Matrix d d ℝ} (n v : d → ℝ) :
    fluxE (R *ᵥ n) (R *ᵥ v) = R * fluxE n v * Rᵀ := by
  have hv : ∀ x y : d → ℝ, vecMulVec (R *ᵥ x) (R *ᵥ y) = R * vecMulVec x y * Rᵀ := by
    intro x y
    rw [Matrix.mul_vecMulVec, Matrix.vecMulVec_mul, Matrix.vecMul_transpose]
  rw [fluxE, fluxE, hv, hv]
  rw [Matrix.mul_neg, Matrix.neg_mul, Matrix.mul_smul, Matrix.smul_mul, Matrix.mul_add, Matrix.add_mul]

omit [DecidableEq d] in
theorem fluxV_rot {m : Material} (R : Matrix d d ℝ) (t : d → ℝ) : fluxV m (R *ᵥ t) = R *ᵥ fluxV m t := by
  rw [fluxV, fluxV, Matrix.mulVec_smul]

theorem fluxS_flip (m : Material) (n v : d → ℝ) : fluxS m (-n) v = -fluxS m n v := by
  simp only [fluxS, neg_dotProduct, mul_neg, neg_smul, neg_vecMulVec, vecMulVec_neg, neg_neg, smul_add, smul_neg]
  abel

omit [Fintype d] [DecidableEq d] in
theorem fluxV_neg (m : Material) (t : d → ℝ) : fluxV m (-t) = -fluxV m t := by simp [fluxV]

end Edge.Seismic
