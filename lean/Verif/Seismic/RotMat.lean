import Verif.Util.Loop
import Mathlib.Data.Real.Sqrt
import Mathlib.LinearAlgebra.Matrix.NonsingularInverse
import Mathlib.LinearAlgebra.Matrix.Determinant.Basic
import Mathlib.Tactic.FieldSimp
import Mathlib.Tactic.LinearCombination
import Mathlib.Tactic.FinCases
/-!
Model of `linalg::GeomTs< 3 >::rotMat` (`src/linalg/Geom.hpp`) over the real numbers: the matrix rotating one direction to
another one (property C73).
-/
namespace Edge.Seismic
open Matrix Classical

/-- `Geom::sprod3` (src/linalg/Geom.hpp:96-99). -/
def sprod3 (a b : Fin 3 → ℝ) : ℝ := a 0 * b 0 + a 1 * b 1 + a 2 * b 2

/-- `Geom::norm3` (src/linalg/Geom.hpp:170-172). -/
noncomputable def norm3 (a : Fin 3 → ℝ) : ℝ := Real.sqrt (sprod3 a a)

/-- `Geom::normalize3` (src/linalg/Geom.hpp:153-159); a vanishing norm has no outcome. -/
noncomputable def normalize3 (a : Fin 3 → ℝ) : Option (Fin 3 → ℝ) := do
  check (decide (norm3 a ≠ 0))
  some (fun i => a i / norm3 a)

/-- `Geom::cross3` (src/linalg/Geom.hpp:184-190). -/
def cross3 (a b : Fin 3 → ℝ) : Fin 3 → ℝ :=
  ![a 1 * b 2 - a 2 * b 1, a 2 * b 0 - a 0 * b 2, a 0 * b 1 - a 1 * b 0]

/-- `GeomTs< 3 >::rotMat` (src/linalg/Geom.hpp:941-994). The products of the matrices are the ones of `Matrix::matMulB0`
(see C54). -/
noncomputable def rotMat (tol : ℝ) (v0 v1 : Fin 3 → ℝ) : Option (Matrix (Fin 3) (Fin 3) ℝ) := do
  let v0 ← normalize3 v0
  let v1 ← normalize3 v1
  let cross := cross3 v0 v1
  let sm : Matrix (Fin 3) (Fin 3) ℝ := !![0, -cross 2, cross 1; cross 2, 0, -cross 0; -cross 1, cross 0, 0]
  let scale := sprod3 v0 v1
  check (decide (|scale + 1| > tol))
  let scale := 1 / (1 + scale)
  let rm := sm * sm
  let rm := Matrix.of (fun i j => rm i j * scale + sm i j)
  some (Matrix.of (fun i j => if i = j then rm i j + 1 else rm i j))

/-! ### Proofs -/

theorem sprod3_eq (a b : Fin 3 → ℝ) : sprod3 a b = a ⬝ᵥ b := by
  simp [sprod3, dotProduct, Fin.sum_univ_succ, add_assoc]

theorem normalize3_unit {a x : Fin 3 → ℝ} (h : normalize3 a = some x) : x ⬝ᵥ x = 1 ∧ 0 < norm3 a ∧ (1 / norm3 a) • a = x := by
  by_cases hn : norm3 a ≠ 0
  · simp only [normalize3, check, hn, ne_eq, not_false_eq_true, decide_true, if_true, Option.bind_eq_bind, Option.bind_some,
      Option.some.injEq] at h
    have hp : 0 < norm3 a := lt_of_le_of_ne (Real.sqrt_nonneg _) (Ne.symm hn)
    have h0 : 0 ≤ sprod3 a a := by
      unfold sprod3; linarith [mul_self_nonneg (a 0), mul_self_nonneg (a 1), mul_self_nonneg (a 2)]
    have hq : norm3 a ^ 2 = sprod3 a a := Real.sq_sqrt h0
    refine ⟨?_, hp, ?_⟩
    · rw [← h, ← sprod3_eq]; simp only [sprod3] at hq ⊢; field_simp; linarith
    · rw [← h]; funext i; simp; field_simp
  · simp [normalize3, check, hn] at h

theorem normalize3_of {a : Fin 3 → ℝ} (h : a ⬝ᵥ a = 1) : normalize3 a = some a := by
  have : norm3 a = 1 := by rw [norm3, sprod3_eq, h, Real.sqrt_one]
  simp [normalize3, check, this]

/-- Skew-symmetric matrix of a cross product. -/
def skew (w : Fin 3 → ℝ) : Matrix (Fin 3) (Fin 3) ℝ := !![0, -w 2, w 1; w 2, 0, -w 0; -w 1, w 0, 0]

theorem skew_rot (w : Fin 3 → ℝ) (s : ℝ) :
    (1 + skew w + s • (skew w * skew w))ᵀ * (1 + skew w + s • (skew w * skew w)) =
      1 + (2 * s - 1 - s ^ 2 * (w ⬝ᵥ w)) • (skew w * skew w) := by
  ext i j
  fin_cases i <;> fin_cases j <;>
    simp [skew, Matrix.mul_apply, Fin.sum_univ_succ, dotProduct, Matrix.one_apply] <;> ring

theorem skew_det (w : Fin 3 → ℝ) (s : ℝ) :
    (1 + skew w + s • (skew w * skew w)).det = (1 - s * (w ⬝ᵥ w)) ^ 2 + w ⬝ᵥ w := by
  simp [Matrix.det_fin_three, skew, Matrix.mul_apply, Fin.sum_univ_succ, dotProduct, Matrix.one_apply]; ring

theorem skew_cross (a b x : Fin 3 → ℝ) : skew (cross3 a b) *ᵥ x = (a ⬝ᵥ x) • b - (b ⬝ᵥ x) • a := by
  funext i
  fin_cases i <;> simp [skew, cross3, Matrix.mulVec, Fin.sum_univ_succ, dotProduct] <;> ring

theorem cross_sq (a b : Fin 3 → ℝ) : cross3 a b ⬝ᵥ cross3 a b = (a ⬝ᵥ a) * (b ⬝ᵥ b) - (a ⬝ᵥ b) ^ 2 := by
  simp [cross3, Fin.sum_univ_succ, dotProduct]; ring

theorem rodrigues {a b : Fin 3 → ℝ} (ha : a ⬝ᵥ a = 1) (hb : b ⬝ᵥ b = 1) (hab : 1 + a ⬝ᵥ b ≠ 0) :
    let R := 1 + skew (cross3 a b) + (1 / (1 + a ⬝ᵥ b)) • (skew (cross3 a b) * skew (cross3 a b))
    Rᵀ * R = 1 ∧ R.det = 1 ∧ R *ᵥ a = b := by
  intro R
  have hw : cross3 a b ⬝ᵥ cross3 a b = 1 - (a ⬝ᵥ b) ^ 2 := by rw [cross_sq, ha, hb]; ring
  refine ⟨?_, ?_, ?_⟩
  · rw [skew_rot, hw]
    have : 2 * (1 / (1 + a ⬝ᵥ b)) - 1 - (1 / (1 + a ⬝ᵥ b)) ^ 2 * (1 - (a ⬝ᵥ b) ^ 2) = 0 := by field_simp; ring
    rw [this, zero_smul, add_zero]
  · rw [skew_det, hw]; field_simp; ring
  · simp only [R, Matrix.add_mulVec, Matrix.one_mulVec, Matrix.smul_mulVec, ← Matrix.mulVec_mulVec]
    have hba : b ⬝ᵥ a = a ⬝ᵥ b := dotProduct_comm _ _
    rw [skew_cross, Matrix.mulVec_sub, Matrix.mulVec_smul, Matrix.mulVec_smul, skew_cross, skew_cross, ha, hb, hba]
    funext i
    simp
    field_simp
    ring

/-- C73: whenever the code does not abort, the result is a rotation (orthogonal, determinant one) which maps the direction
of `v0` to the direction of `v1`. -/
theorem C73_rotMat {tol : ℝ} (ht : 0 ≤ tol) {v0 v1 : Fin 3 → ℝ} {R : Matrix (Fin 3) (Fin 3) ℝ} (h : rotMat tol v0 v1 = some R) :
    Rᵀ * R = 1 ∧ R.det = 1 ∧ R *ᵥ ((1 / norm3 v0) • v0) = (1 / norm3 v1) • v1 := by
  simp only [rotMat, Option.bind_eq_bind, Option.bind_eq_some_iff] at h
  obtain ⟨a, ha, b, hb, u, hc, h⟩ := h
  obtain ⟨a1, a2, a3⟩ := normalize3_unit ha
  obtain ⟨b1, b2, b3⟩ := normalize3_unit hb
  have hc' : |a ⬝ᵥ b + 1| > tol := by
    by_contra hn
    rw [sprod3_eq] at hc
    simp [check, hn] at hc
  have hab : 1 + a ⬝ᵥ b ≠ 0 := by
    intro e
    rw [add_comm] at e
    rw [e, abs_zero] at hc'
    exact absurd hc' (not_lt.2 ht)
  have hR : R = 1 + skew (cross3 a b) + (1 / (1 + a ⬝ᵥ b)) • (skew (cross3 a b) * skew (cross3 a b)) := by
    rw [← Option.some.inj h, sprod3_eq]
    ext i j
    fin_cases i <;> fin_cases j <;>
      simp [skew, Matrix.mul_apply, Fin.sum_univ_succ] <;> ring
  rw [a3, b3, hR]
  exact rodrigues a1 b1 hab

/-- C73: the code aborts exactly for directions which are opposite up to the tolerance (zero vectors have no direction). -/
theorem C73_defined {tol : ℝ} {v0 v1 : Fin 3 → ℝ} (h0 : v0 ⬝ᵥ v0 = 1) (h1 : v1 ⬝ᵥ v1 = 1) :
    (rotMat tol v0 v1).isSome ↔ |v0 ⬝ᵥ v1 + 1| > tol := by
  simp only [rotMat, normalize3_of h0, normalize3_of h1, Option.bind_eq_bind, Option.bind_some, sprod3_eq]
  by_cases hc : |v0 ⬝ᵥ v1 + 1| > tol <;> simp [check, hc]

/-- A concrete case: x-axis to y-axis. -/
example : (rotMat (1 / 1000) ![1, 0, 0] ![0, 1, 0]).isSome := by
  rw [C73_defined (by simp [dotProduct, Fin.sum_univ_succ]) (by simp [dotProduct, Fin.sum_univ_succ])]
  norm_num [dotProduct, Fin.sum_univ_succ]

end Edge.Seismic
