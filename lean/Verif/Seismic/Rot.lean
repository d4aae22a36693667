import Verif.Seismic.Generated
import Mathlib.LinearAlgebra.Matrix.NonsingularInverse
import Mathlib.Tactic.FieldSimp
import Mathlib.Tactic.FinCases
/-!
Rotation of the quantities between the face-aligned and the physical frame (property C50). The specification reads a
vector of quantities as a symmetric stress tensor and a velocity.
-/
namespace Edge.Seismic
open Matrix

variable {K : Type} [Field K]

/-! ### Specification -/

/-- Stress tensor of the 2D quantities (sxx, syy, sxy, u, v). -/
def stress2 (q : Fin 5 → K) : Matrix (Fin 2) (Fin 2) K := !![q 0, q 2; q 2, q 1]

/-- Velocity of the 2D quantities. -/
def vel2 (q : Fin 5 → K) : Fin 2 → K := ![q 3, q 4]

/-- Stress tensor of the 3D quantities (sxx, syy, szz, sxy, syz, sxz, u, v, w). -/
def stress3 (q : Fin 9 → K) : Matrix (Fin 3) (Fin 3) K := !![q 0, q 3, q 5; q 3, q 1, q 4; q 5, q 4, q 2]

/-- Velocity of the 3D quantities. -/
def vel3 (q : Fin 9 → K) : Fin 3 → K := ![q 6, q 7, q 8]

/-- The frame of a 2D face: normal, and normal turned by 90 degrees, as columns. -/
def frame2 (nx ny : K) : Matrix (Fin 2) (Fin 2) K := !![nx, -ny; ny, nx]

/-- The frame of a 3D face: normal and two tangents as columns. -/
def frame3 (nx ny nz sx sy sz tx ty tz : K) : Matrix (Fin 3) (Fin 3) K := !![nx, sx, tx; ny, sy, ty; nz, sz, tz]

/-- Stress and velocity determine the quantities. -/
theorem ext2 {p q : Fin 5 → K} (hs : stress2 p = stress2 q) (hv : vel2 p = vel2 q) : p = q := by
  have a := congrFun (congrFun hs 0) 0
  have b := congrFun (congrFun hs 1) 1
  have c := congrFun (congrFun hs 0) 1
  have d := congrFun hv 0
  have e := congrFun hv 1
  simp [stress2, vel2] at a b c d e
  funext i
  fin_cases i <;> assumption

theorem ext3 {p q : Fin 9 → K} (hs : stress3 p = stress3 q) (hv : vel3 p = vel3 q) : p = q := by
  have a0 := congrFun (congrFun hs 0) 0
  have a1 := congrFun (congrFun hs 1) 1
  have a2 := congrFun (congrFun hs 2) 2
  have a3 := congrFun (congrFun hs 0) 1
  have a4 := congrFun (congrFun hs 1) 2
  have a5 := congrFun (congrFun hs 0) 2
  have a6 := congrFun hv 0
  have a7 := congrFun hv 1
  have a8 := congrFun hv 2
  simp [stress3, vel3] at a0 a1 a2 a3 a4 a5 a6 a7 a8
  funext i
  fin_cases i <;> assumption

theorem vecCons_congr {A : Type} {n : Nat} {a b : A} {v w : Fin n → A} (h : a = b) (hv : v = w) :
    Matrix.vecCons a v = Matrix.vecCons b w := by rw [h, hv]

/-! ### 2D -/

/-- C50: the 2D transformation maps the stress of the face-aligned frame to `R S Rᵀ` and the velocity to `R v`, where
`R` has the normal and its 90 degrees rotation as columns. -/
theorem C50_rotate2 (nx ny : K) (q : Fin 5 → K) :
    stress2 (trafo2 nx ny *ᵥ q) = frame2 nx ny * stress2 q * (frame2 nx ny)ᵀ ∧
    vel2 (trafo2 nx ny *ᵥ q) = frame2 nx ny *ᵥ vel2 q := by
  constructor
  · ext i j
    fin_cases i <;> fin_cases j <;>
      simp [stress2, trafo2, frame2, Matrix.mulVec, dotProduct, Fin.sum_univ_succ, Matrix.mul_apply] <;> ring
  · ext i
    fin_cases i <;>
      simp [vel2, trafo2, frame2, Matrix.mulVec, dotProduct, Fin.sum_univ_succ]

theorem frame2_unit {nx ny : K} (h : nx ^ 2 + ny ^ 2 = 1) : frame2 nx ny * (frame2 nx ny)ᵀ = 1 := by
  ext i j
  fin_cases i <;> fin_cases j <;> simp [frame2, Matrix.mul_apply, Fin.sum_univ_succ] <;>
    first | linear_combination h | ring

/-- For a unit normal the inverse transformation is the rotation by the transposed frame. -/
theorem trafoInv2_eq {nx ny : K} (h : nx ^ 2 + ny ^ 2 = 1) : trafoInv2 nx ny = trafo2 nx (-ny) := by
  ext i j
  fin_cases i <;> fin_cases j <;> simp [trafo2, trafoInv2] <;>
    first | linear_combination h | linear_combination -h

/-- C50: for every unit normal the two 2D transformations are inverse to each other. -/
theorem C50_inverse2 {nx ny : K} (h : nx ^ 2 + ny ^ 2 = 1) :
    trafo2 nx ny * trafoInv2 nx ny = 1 ∧ trafoInv2 nx ny * trafo2 nx ny = 1 := by
  have hn : frame2 nx (-ny) = (frame2 nx ny)ᵀ := by
    ext i j; fin_cases i <;> fin_cases j <;> simp [frame2]
  have h1 := frame2_unit h
  have h2 : (frame2 nx ny)ᵀ * frame2 nx ny = 1 := mul_eq_one_comm.1 h1
  have key : trafo2 nx ny * trafoInv2 nx ny = 1 := by
    rw [trafoInv2_eq h]
    apply Matrix.ext_of_mulVec_single
    intro i
    rw [← Matrix.mulVec_mulVec, Matrix.one_mulVec]
    refine ext2 ?_ ?_
    · rw [(C50_rotate2 _ _ _).1, (C50_rotate2 _ _ _).1, hn, Matrix.transpose_transpose]
      rw [show ∀ (a b c d : Matrix (Fin 2) (Fin 2) K), a * (b * c * d) * b = (a * b) * c * (d * b) from
        fun a b c d => by simp only [Matrix.mul_assoc], h1, Matrix.one_mul, Matrix.mul_one]
    · rw [(C50_rotate2 _ _ _).2, (C50_rotate2 _ _ _).2, hn, Matrix.mulVec_mulVec, h1, Matrix.one_mulVec]
  exact ⟨key, mul_eq_one_comm.1 key⟩

example : (3 / 5 : Rat) ^ 2 + (4 / 5) ^ 2 = 1 := by norm_num

/-! ### 3D -/

/-- C50: the 3D transformation maps the stress of the face-aligned frame to `R S Rᵀ` and the velocity to `R v`, where
`R` has the normal and the two tangents as columns. -/
theorem C50_rotate3 (nx ny nz sx sy sz tx ty tz : K) (q : Fin 9 → K) :
    stress3 (trafo3 nx ny nz sx sy sz tx ty tz *ᵥ q) =
      frame3 nx ny nz sx sy sz tx ty tz * stress3 q * (frame3 nx ny nz sx sy sz tx ty tz)ᵀ ∧
    vel3 (trafo3 nx ny nz sx sy sz tx ty tz *ᵥ q) = frame3 nx ny nz sx sy sz tx ty tz *ᵥ vel3 q := by
  constructor
  · ext i j
    fin_cases i <;> fin_cases j <;>
      simp [stress3, trafo3, frame3, Matrix.mulVec, dotProduct, Fin.sum_univ_succ, Matrix.mul_apply] <;> ring
  · ext i
    fin_cases i <;>
      simp [vel3, trafo3, frame3, Matrix.mulVec, dotProduct, Fin.sum_univ_succ]

/-- The determinant of the frame, up to sign: the code's common denominator. -/
def den3 (nx ny nz sx sy sz tx ty tz : K) : K :=
  nz*sy*tx - ny*sz*tx - nz*sx*ty + nx*sz*ty + ny*sx*tz - nx*sy*tz

theorem den3_det (nx ny nz sx sy sz tx ty tz : K) :
    den3 nx ny nz sx sy sz tx ty tz = - (frame3 nx ny nz sx sy sz tx ty tz).det := by
  rw [Matrix.det_fin_three]
  simp [frame3, den3]
  ring

/-- The inverse transformation is the transformation of the inverse frame. -/
theorem trafoInv3_eq {nx ny nz sx sy sz tx ty tz : K} (h : den3 nx ny nz sx sy sz tx ty tz ≠ 0) :
    trafoInv3 nx ny nz sx sy sz tx ty tz =
      (let d := den3 nx ny nz sx sy sz tx ty tz
       trafo3 ((sz*ty - sy*tz)/d) ((ny*tz - nz*ty)/d) ((nz*sy - ny*sz)/d)
         ((sx*tz - sz*tx)/d) ((nz*tx - nx*tz)/d) ((nx*sz - nz*sx)/d)
         ((sy*tx - sx*ty)/d) ((nx*ty - ny*tx)/d) ((ny*sx - nx*sy)/d)) := by
  have e : ∀ x : K, x = den3 nx ny nz sx sy sz tx ty tz → x ≠ 0 := fun x hx => hx ▸ h
  have h1 := e (nz*sy*tx - ny*sz*tx - nz*sx*ty + nx*sz*ty + ny*sx*tz - nx*sy*tz) rfl
  have h2 : -(nz*sy*tx) + ny*sz*tx + nz*sx*ty - nx*sz*ty - ny*sx*tz + nx*sy*tz =
      -(nz*sy*tx - ny*sz*tx - nz*sx*ty + nx*sz*ty + ny*sx*tz - nx*sy*tz) := by ring
  simp only [den3] at h ⊢
  unfold trafoInv3
  rw [h2]
  generalize hd : nz*sy*tx - ny*sz*tx - nz*sx*ty + nx*sz*ty + ny*sx*tz - nx*sy*tz = d at *
  unfold trafo3
  refine congrArg Matrix.of ?_
  repeat' apply vecCons_congr
  all_goals first | rfl | ring

/-- C50: for every frame of linearly independent vectors the two 3D transformations are inverse to each other. -/
theorem C50_inverse3 {nx ny nz sx sy sz tx ty tz : K} (h : (frame3 nx ny nz sx sy sz tx ty tz).det ≠ 0) :
    trafo3 nx ny nz sx sy sz tx ty tz * trafoInv3 nx ny nz sx sy sz tx ty tz = 1 ∧
    trafoInv3 nx ny nz sx sy sz tx ty tz * trafo3 nx ny nz sx sy sz tx ty tz = 1 := by
  have hd : den3 nx ny nz sx sy sz tx ty tz ≠ 0 := by rw [den3_det]; exact neg_ne_zero.2 h
  have hinv : frame3 nx ny nz sx sy sz tx ty tz *
      (let d := den3 nx ny nz sx sy sz tx ty tz
       frame3 ((sz*ty - sy*tz)/d) ((ny*tz - nz*ty)/d) ((nz*sy - ny*sz)/d)
         ((sx*tz - sz*tx)/d) ((nz*tx - nx*tz)/d) ((nx*sz - nz*sx)/d)
         ((sy*tx - sx*ty)/d) ((nx*ty - ny*tx)/d) ((ny*sx - nx*sy)/d)) = 1 := by
    ext i j
    fin_cases i <;> fin_cases j <;>
      simp [frame3, Matrix.mul_apply, Fin.sum_univ_succ] <;> field_simp <;> simp only [den3] <;> ring
  have key : trafo3 nx ny nz sx sy sz tx ty tz * trafoInv3 nx ny nz sx sy sz tx ty tz = 1 := by
    rw [trafoInv3_eq hd]
    simp only at hinv ⊢
    apply Matrix.ext_of_mulVec_single
    intro i
    rw [← Matrix.mulVec_mulVec, Matrix.one_mulVec]
    refine ext3 ?_ ?_
    · rw [(C50_rotate3 _ _ _ _ _ _ _ _ _ _).1, (C50_rotate3 _ _ _ _ _ _ _ _ _ _).1]
      rw [show ∀ (a b c : Matrix (Fin 3) (Fin 3) K), a * (b * c * bᵀ) * aᵀ = (a * b) * c * (a * b)ᵀ from
        fun a b c => by simp only [Matrix.mul_assoc, Matrix.transpose_mul], hinv]
      simp
    · rw [(C50_rotate3 _ _ _ _ _ _ _ _ _ _).2, (C50_rotate3 _ _ _ _ _ _ _ _ _ _).2, Matrix.mulVec_mulVec, hinv,
        Matrix.one_mulVec]
  exact ⟨key, mul_eq_one_comm.1 key⟩

/-- An orthonormal frame whose vectors are not the coordinate axes. -/
example : (frame3 (2/3 : Rat) (2/3) (1/3) (-2/3) (1/3) (2/3) (1/3) (-2/3) (2/3)).det ≠ 0 := by
  rw [Matrix.det_fin_three]; simp [frame3]; norm_num

/-- C50: hence the inverse transformation maps the physical stress `S` to `R⁻¹ S R⁻ᵀ` and the velocity to `R⁻¹ v`. -/
theorem C50_rotateInv3 {nx ny nz sx sy sz tx ty tz : K} (h : (frame3 nx ny nz sx sy sz tx ty tz).det ≠ 0)
    (q : Fin 9 → K) :
    stress3 (trafoInv3 nx ny nz sx sy sz tx ty tz *ᵥ q) =
      (frame3 nx ny nz sx sy sz tx ty tz)⁻¹ * stress3 q * ((frame3 nx ny nz sx sy sz tx ty tz)⁻¹)ᵀ ∧
    vel3 (trafoInv3 nx ny nz sx sy sz tx ty tz *ᵥ q) = (frame3 nx ny nz sx sy sz tx ty tz)⁻¹ *ᵥ vel3 q := by
  have h1 := C50_rotate3 nx ny nz sx sy sz tx ty tz (trafoInv3 nx ny nz sx sy sz tx ty tz *ᵥ q)
  rw [Matrix.mulVec_mulVec, (C50_inverse3 h).1, Matrix.one_mulVec] at h1
  have hu : IsUnit (frame3 nx ny nz sx sy sz tx ty tz).det := isUnit_iff_ne_zero.2 h
  have hm := Matrix.nonsing_inv_mul _ hu
  generalize frame3 nx ny nz sx sy sz tx ty tz = R at *
  have ht : Rᵀ * (R⁻¹)ᵀ = 1 := by rw [← Matrix.transpose_mul, hm, Matrix.transpose_one]
  constructor
  · rw [h1.1, show ∀ (a b c d e : Matrix (Fin 3) (Fin 3) K), a * (b * c * d) * e = (a * b) * c * (d * e) from
      fun a b c d e => by simp only [Matrix.mul_assoc], hm, ht, Matrix.one_mul, Matrix.mul_one]
  · rw [h1.2, Matrix.mulVec_mulVec, hm, Matrix.one_mulVec]

/-- C50: in 2D the inverse transformation of a unit normal maps `S` to `Rᵀ S R` and `v` to `Rᵀ v`. -/
theorem C50_rotateInv2 {nx ny : K} (h : nx ^ 2 + ny ^ 2 = 1) (q : Fin 5 → K) :
    stress2 (trafoInv2 nx ny *ᵥ q) = (frame2 nx ny)ᵀ * stress2 q * frame2 nx ny ∧
    vel2 (trafoInv2 nx ny *ᵥ q) = (frame2 nx ny)ᵀ *ᵥ vel2 q := by
  have hn : frame2 nx (-ny) = (frame2 nx ny)ᵀ := by
    ext i j; fin_cases i <;> fin_cases j <;> simp [frame2]
  rw [trafoInv2_eq h]
  have := C50_rotate2 nx (-ny) q
  rw [hn, Matrix.transpose_transpose] at this
  exact this

end Edge.Seismic
