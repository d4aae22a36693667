import Verif.Step.MeshProps
import Mathlib.LinearAlgebra.Matrix.Nondegenerate
/-!
Areas and normals of the two sides of a face.
-/
namespace Edge.Cons
open Edge Edge.Seismic Edge.Map Edge.Quad Edge.Basis Edge.Proj Edge.Gen Edge.Flux Edge.Step Matrix

/-- Cross product of two edges of a face, `f d k` is coordinate `d` of vertex `k`. -/
def crossF (f : Nat → Nat → ℝ) : Fin 3 → ℝ :=
  ![(f 1 1 - f 1 0) * (f 2 2 - f 2 0) - (f 2 1 - f 2 0) * (f 1 2 - f 1 0),
    (f 2 1 - f 2 0) * (f 0 2 - f 0 0) - (f 0 1 - f 0 0) * (f 2 2 - f 2 0),
    (f 0 1 - f 0 0) * (f 1 2 - f 1 0) - (f 1 1 - f 1 0) * (f 0 2 - f 0 0)]

/-- Edge of a triangle, turned by 90 degrees. -/
def perpF (f : Nat → Nat → ℝ) : Fin 2 → ℝ := ![f 1 1 - f 1 0, f 0 0 - f 0 1]

set_option maxHeartbeats 1600000 in
theorem cross_row (ves : Nat → Nat → ℝ) {fa : Nat} (hfa : fa < 4) (di : Fin 3) :
    ∑ d : Fin 3, evalJac .tet ves di d * crossF (faCrd .tet ves fa) d = jDet .tet ves * refNormal .tet fa di := by
  rw [jDet, C88_detTet, Fin.sum_univ_three]
  simp only [evalJac, Mesh.det3, pt3, sumN_succ, sumN_zero, Ent.nVe, crossF, faCrd]
  interval_cases fa <;> fin_cases di <;> simp [faVeCc, refNormal, derShape, derTet] <;> ring

theorem perp_row (ves : Nat → Nat → ℝ) {fa : Nat} (hfa : fa < 3) (di : Fin 2) :
    evalJac .tria ves di 0 * perpF (faCrd .tria ves fa) 0 + evalJac .tria ves di 1 * perpF (faCrd .tria ves fa) 1 = jDet .tria ves * refNormal .tria fa (di.castLE (by omega)) := by
  rw [jDet, C88_detTria]
  simp only [evalJac, Mesh.det2, pt3, sumN_succ, sumN_zero, Ent.nVe, perpF, faCrd]
  interval_cases fa <;> fin_cases di <;> simp [faVeCc, refNormal, derShape, derTria] <;> ring

/-- Area and normal of a face of a tetrahedron. -/
theorem geo3 {ves : Nat → Nat → ℝ} (hdet : 0 < jDet .tet ves) {fa : Nat} (hfa : fa < 4) {area : ℝ} {ν : Fin 3 → ℝ} (hg : FaceGeo3 ves fa area ν) :
    0 < area ∧ ν ⬝ᵥ ν = 1 ∧ ∀ d, 2 * area * ν d = crossF (faCrd .tet ves fa) d := by
  obtain ⟨w0, w1, w2, nPt, s, hw, hs, rfl, rfl⟩ := hg
  obtain ⟨h1, h2⟩ := Face.C95_nanson3 hdet hfa hw hs
  have hx : Face.side3 (Face.vePt .tet ves w0) (Face.vePt .tet ves w1) (Face.vePt .tet ves w2) nPt ≠ 0 := by
    intro h; rw [h, zero_mul] at hs; rcases hs with ⟨-, h⟩ | ⟨-, h⟩ <;> exact absurd h (lt_irrefl _)
  have hs2 : s * s = 1 := by rcases hs with ⟨rfl, -⟩ | ⟨rfl, -⟩ <;> norm_num
  obtain ⟨⟨k1, -⟩, -⟩ := Face.C95_tria hx
  refine ⟨h1, ?_, ?_⟩
  · rw [← k1]
    simp only [dotProduct, sprod3, Fin.sum_univ_three]
    linear_combination (Face.triaNormal (Face.vePt .tet ves w0) (Face.vePt .tet ves w1) (Face.vePt .tet ves w2) nPt 0 ^ 2 +
      Face.triaNormal (Face.vePt .tet ves w0) (Face.vePt .tet ves w1) (Face.vePt .tet ves w2) nPt 1 ^ 2 +
      Face.triaNormal (Face.vePt .tet ves w0) (Face.vePt .tet ves w1) (Face.vePt .tet ves w2) nPt 2 ^ 2) * hs2
  · have hd : (Matrix.of (fun i j : Fin 3 => evalJac .tet ves i j)).det ≠ 0 := by
      rw [← Linalg.C52_det3]; exact hdet.ne'
    have hz := Matrix.eq_zero_of_mulVec_eq_zero hd (v := fun d => 2 * Face.triaArea (Face.vePt .tet ves w0) (Face.vePt .tet ves w1) (Face.vePt .tet ves w2) *
      (s * Face.triaNormal (Face.vePt .tet ves w0) (Face.vePt .tet ves w1) (Face.vePt .tet ves w2) nPt d) - crossF (faCrd .tet ves fa) d) (by
      funext di
      have a := h2 di
      have b := cross_row ves hfa di
      simp only [Fin.sum_univ_three] at a b
      simp only [mulVec, dotProduct, Matrix.of_apply, Fin.sum_univ_three, Pi.zero_apply]
      linear_combination a - b)
    intro d
    have := congrFun hz d
    simp only [Pi.zero_apply] at this
    linarith

/-- Length and normal of a face of a triangle. -/
theorem geo2 {ves : Nat → Nat → ℝ} (hdet : 0 < jDet .tria ves) {fa : Nat} (hfa : fa < 3) {area : ℝ} {ν : Fin 2 → ℝ} (hg : FaceGeo2 ves fa area ν) :
    0 < area ∧ ν ⬝ᵥ ν = 1 ∧ ∀ d, 1 * area * ν d = perpF (faCrd .tria ves fa) d := by
  obtain ⟨w0, w1, nPt, s, hw, hs, rfl, rfl⟩ := hg
  obtain ⟨h1, h2⟩ := Face.C95_nanson2 hdet hfa hw hs
  have hx : Face.side2 (Face.vePt .tria ves w0) (Face.vePt .tria ves w1) nPt ≠ 0 := by
    intro h; rw [h, zero_mul] at hs; rcases hs with ⟨-, h⟩ | ⟨-, h⟩ <;> exact absurd h (lt_irrefl _)
  have hs2 : s * s = 1 := by rcases hs with ⟨rfl, -⟩ | ⟨rfl, -⟩ <;> norm_num
  obtain ⟨k1, k2, -⟩ := Face.C95_line (by simp [Face.vePt, Ent.nDim]) hx
  refine ⟨h1, ?_, ?_⟩
  · rw [← k1]
    simp only [dotProduct, sprod3, Fin.sum_univ_two, Fin.sum_univ_three, k2]
    change s * Face.lineNormal (Face.vePt .tria ves w0) (Face.vePt .tria ves w1) nPt 0 * (s * Face.lineNormal (Face.vePt .tria ves w0) (Face.vePt .tria ves w1) nPt 0) + s * Face.lineNormal (Face.vePt .tria ves w0) (Face.vePt .tria ves w1) nPt 1 * (s * Face.lineNormal (Face.vePt .tria ves w0) (Face.vePt .tria ves w1) nPt 1) = _
    linear_combination (Face.lineNormal (Face.vePt .tria ves w0) (Face.vePt .tria ves w1) nPt 0 ^ 2 + Face.lineNormal (Face.vePt .tria ves w0) (Face.vePt .tria ves w1) nPt 1 ^ 2) * hs2
  · have hd : (Matrix.of (fun i j : Fin 2 => evalJac .tria ves i j)).det ≠ 0 := by
      rw [← Linalg.C52_det2]; exact hdet.ne'
    have hz := Matrix.eq_zero_of_mulVec_eq_zero hd (v := fun d => 1 * Face.lineLen (Face.vePt .tria ves w0) (Face.vePt .tria ves w1) *
      (s * Face.lineNormal (Face.vePt .tria ves w0) (Face.vePt .tria ves w1) nPt (d.castLE (by omega))) - perpF (faCrd .tria ves fa) d) (by
      funext di
      have a := h2 (di.castLE (by omega)) di.2
      have b := perp_row ves hfa di
      simp [Fin.sum_univ_three] at a
      simp only [mulVec, dotProduct, Matrix.of_apply, Fin.sum_univ_two, Pi.zero_apply]
      change evalJac .tria ves di 0 * (1 * Face.lineLen (Face.vePt .tria ves w0) (Face.vePt .tria ves w1) * (s * Face.lineNormal (Face.vePt .tria ves w0) (Face.vePt .tria ves w1) nPt 0) - perpF (faCrd .tria ves fa) 0) + evalJac .tria ves di 1 * (1 * Face.lineLen (Face.vePt .tria ves w0) (Face.vePt .tria ves w1) * (s * Face.lineNormal (Face.vePt .tria ves w0) (Face.vePt .tria ves w1) nPt 1) - perpF (faCrd .tria ves fa) 1) = 0
      linear_combination a - b)
    intro d
    have := congrFun hz d
    simp only [Pi.zero_apply] at this
    linarith

theorem same_area {d : Type} [Fintype d] {k a a' : ℝ} (hk : 0 < k) (ha : 0 < a) (ha' : 0 < a') {ν ν' : d → ℝ} (h1 : ν ⬝ᵥ ν = 1) (h2 : ν' ⬝ᵥ ν' = 1) (h : ∀ i, k * a' * ν' i = -(k * a * ν i)) :
    a' = a ∧ ν' = -ν := by
  have h3 : (k * a') ^ 2 = (k * a) ^ 2 := by
    have e1 : (k * a') ^ 2 = ∑ i, (k * a' * ν' i) * (k * a' * ν' i) := by
      rw [← mul_one ((k * a') ^ 2), ← h2, dotProduct, Finset.mul_sum]
      exact Finset.sum_congr rfl (fun i _ => by ring)
    have e2 : (k * a) ^ 2 = ∑ i, (k * a * ν i) * (k * a * ν i) := by
      rw [← mul_one ((k * a) ^ 2), ← h1, dotProduct, Finset.mul_sum]
      exact Finset.sum_congr rfl (fun i _ => by ring)
    rw [e1, e2]
    exact Finset.sum_congr rfl (fun i _ => by rw [h i]; ring)
  have h4 : k * a' = k * a := (sq_eq_sq₀ (by positivity) (by positivity)).1 h3
  have h5 : a' = a := mul_left_cancel₀ hk.ne' h4
  refine ⟨h5, funext (fun i => ?_)⟩
  have := h i
  rw [h4, ← mul_neg] at this
  exact mul_left_cancel₀ (by positivity) this

/-- The two sides of a face between tetrahedra. -/
theorem sides3 {vesA vesB : Nat → Nat → ℝ} (hA : 0 < jDet .tet vesA) (hB : 0 < jDet .tet vesB) {fa fb ve : Nat} (hfa : fa < 4) (hfb : fb < 4) (hve : ve < 3) {t : Nat → ℝ}
    (ho : ∀ d < 3, Opposite .tet ve (fun k => faCrd .tet vesA fa d k + t d) (faCrd .tet vesB fb d)) {a a' : ℝ} {ν ν' : Fin 3 → ℝ} (hg : FaceGeo3 vesA fa a ν) (hg' : FaceGeo3 vesB fb a' ν') :
    a' = a ∧ ν' = -ν := by
  obtain ⟨a1, a2, a3⟩ := geo3 hA hfa hg
  obtain ⟨b1, b2, b3⟩ := geo3 hB hfb hg'
  refine same_area (k := 2) (by norm_num) a1 b1 a2 b2 (fun i => ?_)
  rw [a3, b3]
  obtain ⟨-, x0, x1, x2⟩ := ho 0 (by decide)
  obtain ⟨-, y0, y1, y2⟩ := ho 1 (by decide)
  obtain ⟨-, z0, z1, z2⟩ := ho 2 (by decide)
  generalize faCrd .tet vesA fa = f at *
  generalize faCrd .tet vesB fb = g at *
  interval_cases ve <;> simp only [Nat.reduceAdd, Nat.reduceMod] at x0 x1 x2 y0 y1 y2 z0 z1 z2 <;> fin_cases i <;>
    simp [crossF, x0, x1, x2, y0, y1, y2, z0, z1, z2] <;> ring

/-- The two sides of a face between triangles. -/
theorem sides2 {vesA vesB : Nat → Nat → ℝ} (hA : 0 < jDet .tria vesA) (hB : 0 < jDet .tria vesB) {fa fb ve : Nat} (hfa : fa < 3) (hfb : fb < 3) (_hve : ve < 1) {t : Nat → ℝ}
    (ho : ∀ d < 2, Opposite .tria ve (fun k => faCrd .tria vesA fa d k + t d) (faCrd .tria vesB fb d)) {a a' : ℝ} {ν ν' : Fin 2 → ℝ} (hg : FaceGeo2 vesA fa a ν) (hg' : FaceGeo2 vesB fb a' ν') :
    a' = a ∧ ν' = -ν := by
  obtain ⟨a1, a2, a3⟩ := geo2 hA hfa hg
  obtain ⟨b1, b2, b3⟩ := geo2 hB hfb hg'
  refine same_area (k := 1) (by norm_num) a1 b1 a2 b2 (fun i => ?_)
  rw [a3, b3]
  obtain ⟨x0, x1⟩ := ho 0 (by decide)
  obtain ⟨y0, y1⟩ := ho 1 (by decide)
  generalize faCrd .tria vesA fa = f at *
  generalize faCrd .tria vesB fb = g at *
  fin_cases i <;> simp [perpF, x0, x1, y0, y1]

end Edge.Cons
