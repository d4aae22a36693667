import Verif.Map.Model
import Verif.Mesh.Ids
import Verif.Linalg.Dense
import Mathlib.Tactic.Ring
import Mathlib.Tactic.FieldSimp
import Mathlib.Tactic.LinearCombination
import Mathlib.Tactic.IntervalCases
/-!
Mappings between the reference element and the elements: C88.
-/
namespace Edge.Map
open Edge

section
variable {K : Type} [Field K]

/-! ### Specification -/

/-- Elements whose sides are parallel to the axes: two vertices which agree in a coordinate of the reference element agree
in this coordinate. -/
def AxisAligned (ty : Ent) (ves : Nat → Nat → K) : Prop :=
  ∀ d < ty.nDim, ∀ v < ty.nVe, ∀ w < ty.nVe, (refVe ty d v : K) = refVe ty d w → ves d v = ves d w

/-- Elements whose map from the reference element is affine: simplices, parallelograms and parallelepipeds. -/
def IsAffine (ty : Ent) (ves : Nat → Nat → K) : Prop :=
  match ty with
  | .line | .tria | .tet => True
  | .quad => ∀ d < 2, ves d 2 = ves d 1 + ves d 3 - ves d 0
  | .hex => ∀ d < 3, ves d 2 = ves d 1 + ves d 3 - ves d 0 ∧ ves d 5 = ves d 1 + ves d 4 - ves d 0 ∧
      ves d 7 = ves d 3 + ves d 4 - ves d 0 ∧ ves d 6 = ves d 1 + ves d 3 + ves d 4 - 2 * ves d 0

/-- Coordinate of the point with parameters `p` of a face whose vertices have the coordinates `q`. -/
def facePt (ty : Ent) (q p : Nat → K) : K :=
  match ty with
  | .line => q 0
  | .quad | .tria => q 0 + p 0 * (q 1 - q 0)
  | .tet => q 0 + p 0 * (q 1 - q 0) + p 1 * (q 2 - q 0)
  | .hex => (1 - p 0) * (1 - p 1) * q 0 + p 0 * (1 - p 1) * q 1 + p 0 * p 1 * q 2 + (1 - p 0) * p 1 * q 3

/-- Coordinates of the vertices of face `fa` in dimension `d`. -/
def faCrd (ty : Ent) (ves : Nat → Nat → K) (fa d k : Nat) : K := ves d ((faVeCc ty fa).getD k 0)

/-- The two lists of a face's vertices are in opposite order, where `h` is the position in the second list of the first
vertex of the first list (tetrahedra). -/
def Opposite {α : Type _} (ty : Ent) (h : Nat) (a b : Nat → α) : Prop :=
  match ty with
  | .line => b 0 = a 0
  | .quad | .tria => b 0 = a 1 ∧ b 1 = a 0
  | .hex => b 0 = a 0 ∧ b 1 = a 3 ∧ b 2 = a 2 ∧ b 3 = a 1
  | .tet => h < 3 ∧ b h = a 0 ∧ b ((h + 2) % 3) = a 1 ∧ b ((h + 1) % 3) = a 2

/-- Vertex as a point. -/
def pt3 (ves : Nat → Nat → K) (v : Nat) : Mesh.V3 K := ⟨ves 0 v, ves 1 v, ves 2 v⟩

/-- Elements on which the map to the reference element is required to work. -/
def Regular [LinearOrder K] (tol : K) (ty : Ent) (ves : Nat → Nat → K) : Prop :=
  match ty with
  | .line => False
  | .quad => AxisAligned .quad ves ∧ tol < ves 0 1 - ves 0 0 ∧ tol < ves 1 3 - ves 1 0
  | .tria => tol < Mesh.det2 (pt3 ves 0) (pt3 ves 1) (pt3 ves 2)
  | .hex => AxisAligned .hex ves ∧ tol < ves 0 1 - ves 0 0 ∧ tol < ves 1 3 - ves 1 0 ∧ tol < ves 2 4 - ves 2 0
  | .tet => Mesh.det3 (pt3 ves 0) (pt3 ves 1) (pt3 ves 2) (pt3 ves 3) ≠ 0

/-! ### Vertices -/

theorem sumN_succ (n : Nat) (f : Nat → K) : sumN (n + 1) f = sumN n f + f n := by
  simp [sumN, List.range_succ]

theorem sumN_zero (f : Nat → K) : sumN 0 f = 0 := rfl

/-- C88: the vertices of the reference element are mapped to the vertices of the element. -/
theorem C88_vertices (ty : Ent) (ves : Nat → Nat → K) {v d : Nat} (hv : v < ty.nVe) (hd : d < ty.nDim) :
    refToPhy ty ves (fun e => refVe ty e v) d = ves d v := by
  cases ty <;> simp only [Ent.nVe, Ent.nDim] at hv hd <;> interval_cases v <;> interval_cases d <;>
    simp [refToPhy, refVe, tab, sumN_succ, sumN_zero, shQuad, shTria, shHex, shTet]

/-- C88: a vertex of a face of the reference element is the vertex of the reference element in the list of the face's
vertices. -/
theorem C88_faceVertices (ty : Ent) {fa k d : Nat} (hfa : fa < ty.nFa) (hk : k < ty.nFaVe) (hd : d < 3) :
    (faVeCc ty fa).length = ty.nFaVe ∧ (faVeCc ty fa).getD k 0 < ty.nVe ∧
      (refFa ty d fa k : K) = refVe ty d ((faVeCc ty fa).getD k 0) := by
  cases ty <;> simp only [Ent.nFa, Ent.nFaVe] at hfa hk <;> interval_cases fa <;> interval_cases k <;> interval_cases d <;>
    simp [refFa, refVe, tab, tab3, faVeCc, Ent.nVe, Ent.nFaVe]

/-! ### Jacobian -/

/-- C88: `evalJac` is the derivative of the map: moving the reference point by `t` in direction `d1` moves the point of the
element by `t` times the row `d1` of the Jacobian, at every point. -/
theorem C88_jacobian (ty : Ent) (ves : Nat → Nat → K) (ha : IsAffine ty ves) (xi : Nat → K) (t : K) {d1 d2 : Nat}
    (h1 : d1 < ty.nDim) (h2 : d2 < ty.nDim) :
    refToPhy ty ves (fun e => xi e + if e = d1 then t else 0) d2 - refToPhy ty ves xi d2 = t * evalJac ty ves d1 d2 := by
  cases ty <;> simp only [Ent.nDim, IsAffine] at h1 h2 ha
  · interval_cases d1; interval_cases d2
    simp [refToPhy, evalJac, derShape, derLine, sumN_succ, sumN_zero, Ent.nVe]; ring
  · have := ha d2 h2
    interval_cases d1 <;>
      simp [refToPhy, evalJac, derShape, derQuad, sumN_succ, sumN_zero, Ent.nVe, h2, shQuad, this] <;> ring
  · interval_cases d1 <;>
      simp [refToPhy, evalJac, derShape, derTria, sumN_succ, sumN_zero, Ent.nVe, h2, shTria] <;> ring
  · obtain ⟨a1, a2, a3, a4⟩ := ha d2 h2
    interval_cases d1 <;>
      simp [refToPhy, evalJac, derShape, derHex, sumN_succ, sumN_zero, Ent.nVe, h2, shHex, a1, a2, a3, a4] <;> ring
  · interval_cases d1 <;>
      simp [refToPhy, evalJac, derShape, derTet, sumN_succ, sumN_zero, Ent.nVe, h2, shTet] <;> ring

theorem AxisAligned.affine {ty : Ent} {ves : Nat → Nat → K} (h : AxisAligned ty ves) : IsAffine ty ves := by
  cases ty <;> simp only [IsAffine]
  · intro d hd
    have h' := fun v hv w hw => h d hd v hv w hw
    interval_cases d
    · have e1 := h' 2 (by decide) 1 (by decide) (by simp [refVe, tab])
      have e2 := h' 3 (by decide) 0 (by decide) (by simp [refVe, tab])
      rw [e1, e2]; ring
    · have e1 := h' 2 (by decide) 3 (by decide) (by simp [refVe, tab])
      have e2 := h' 1 (by decide) 0 (by decide) (by simp [refVe, tab])
      rw [e1, e2]; ring
  · intro d hd
    have h' := fun v hv w hw => h d hd v hv w hw
    interval_cases d
    · have e2 := h' 2 (by decide) 1 (by decide) (by simp [refVe, tab])
      have e3 := h' 3 (by decide) 0 (by decide) (by simp [refVe, tab])
      have e4 := h' 4 (by decide) 0 (by decide) (by simp [refVe, tab])
      have e5 := h' 5 (by decide) 1 (by decide) (by simp [refVe, tab])
      have e6 := h' 6 (by decide) 1 (by decide) (by simp [refVe, tab])
      have e7 := h' 7 (by decide) 0 (by decide) (by simp [refVe, tab])
      rw [e2, e3, e4, e5, e6, e7]; refine ⟨?_, ?_, ?_, ?_⟩ <;> ring
    · have e2 := h' 2 (by decide) 3 (by decide) (by simp [refVe, tab])
      have e3 := h' 1 (by decide) 0 (by decide) (by simp [refVe, tab])
      have e4 := h' 4 (by decide) 0 (by decide) (by simp [refVe, tab])
      have e5 := h' 5 (by decide) 0 (by decide) (by simp [refVe, tab])
      have e6 := h' 6 (by decide) 3 (by decide) (by simp [refVe, tab])
      have e7 := h' 7 (by decide) 3 (by decide) (by simp [refVe, tab])
      rw [e2, e3, e4, e5, e6, e7]; refine ⟨?_, ?_, ?_, ?_⟩ <;> ring
    · have e2 := h' 2 (by decide) 0 (by decide) (by simp [refVe, tab])
      have e3 := h' 3 (by decide) 0 (by decide) (by simp [refVe, tab])
      have e4 := h' 1 (by decide) 0 (by decide) (by simp [refVe, tab])
      have e5 := h' 5 (by decide) 4 (by decide) (by simp [refVe, tab])
      have e6 := h' 6 (by decide) 4 (by decide) (by simp [refVe, tab])
      have e7 := h' 7 (by decide) 4 (by decide) (by simp [refVe, tab])
      rw [e2, e3, e4, e5, e6, e7]; refine ⟨?_, ?_, ?_, ?_⟩ <;> ring

/-- C88: the determinant of the Jacobian of triangles and tetrahedra is the determinant of the vectors from the first to the
other vertices, which EDGE-V requires to be positive. -/
theorem C88_detTria (ves : Nat → Nat → K) :
    Linalg.det2 (fun i j : Fin 2 => evalJac .tria ves i j) = Mesh.det2 (pt3 ves 0) (pt3 ves 1) (pt3 ves 2) := by
  simp [Linalg.det2, evalJac, derShape, derTria, sumN_succ, sumN_zero, Ent.nVe, Mesh.det2, pt3]; ring

theorem C88_detTet (ves : Nat → Nat → K) :
    Linalg.det3 (fun i j : Fin 3 => evalJac .tet ves i j) = Mesh.det3 (pt3 ves 0) (pt3 ves 1) (pt3 ves 2) (pt3 ves 3) := by
  simp [Linalg.det3, evalJac, derShape, derTet, sumN_succ, sumN_zero, Ent.nVe, Mesh.det3, pt3]; ring

/-- C88: the determinant of the Jacobian of rectangles and cuboids is the area and the volume. -/
theorem C88_detQuad (ves : Nat → Nat → K) (h : AxisAligned .quad ves) :
    Linalg.det2 (fun i j : Fin 2 => evalJac .quad ves i j) = (ves 0 1 - ves 0 0) * (ves 1 3 - ves 1 0) := by
  have e1 := h 0 (by decide) 3 (by decide) 0 (by decide) (by simp [refVe, tab])
  have e2 := h 1 (by decide) 1 (by decide) 0 (by decide) (by simp [refVe, tab])
  simp [Linalg.det2, evalJac, derShape, derQuad, sumN_succ, sumN_zero, Ent.nVe, e1, e2]; ring

theorem C88_detHex (ves : Nat → Nat → K) (h : AxisAligned .hex ves) :
    Linalg.det3 (fun i j : Fin 3 => evalJac .hex ves i j) =
      (ves 0 1 - ves 0 0) * (ves 1 3 - ves 1 0) * (ves 2 4 - ves 2 0) := by
  have e1 := h 0 (by decide) 3 (by decide) 0 (by decide) (by simp [refVe, tab])
  have e2 := h 0 (by decide) 4 (by decide) 0 (by decide) (by simp [refVe, tab])
  have e3 := h 1 (by decide) 1 (by decide) 0 (by decide) (by simp [refVe, tab])
  have e4 := h 1 (by decide) 4 (by decide) 0 (by decide) (by simp [refVe, tab])
  have e5 := h 2 (by decide) 1 (by decide) 0 (by decide) (by simp [refVe, tab])
  have e6 := h 2 (by decide) 3 (by decide) 0 (by decide) (by simp [refVe, tab])
  simp [Linalg.det3, evalJac, derShape, derHex, sumN_succ, sumN_zero, Ent.nVe, e1, e2, e3, e4, e5, e6]; ring

/-! ### Inverse -/

variable [LinearOrder K]

theorem tetVol (v : Nat → Nat → K) :
    tetMat v 0 0 + tetMat v 1 0 + tetMat v 2 0 + tetMat v 3 0 = Mesh.det3 (pt3 v 0) (pt3 v 1) (pt3 v 2) (pt3 v 3) := by
  simp only [tetMat, Mesh.det3, pt3]; ring

/-- C88: for every point, `phyToRef` returns the only reference point which is mapped to the point. -/
theorem C88_inverse [IsStrictOrderedRing K] {tol : K} (ht : 0 ≤ tol) {ty : Ent} {ves : Nat → Nat → K}
    (hr : Regular tol ty ves) (x : Nat → K) :
    ∃ xi, phyToRef tol ty ves x = some xi ∧ (∀ d < ty.nDim, refToPhy ty ves xi d = x d) ∧
      ∀ xi', (∀ d < ty.nDim, refToPhy ty ves xi' d = x d) → ∀ d < ty.nDim, xi' d = xi d := by
  cases ty <;> simp only [Regular] at hr
  · obtain ⟨ha, h1, h2⟩ := hr
    have p1 : ves 0 1 - ves 0 0 ≠ 0 := (lt_of_le_of_lt ht h1).ne'
    have p2 : ves 1 3 - ves 1 0 ≠ 0 := (lt_of_le_of_lt ht h2).ne'
    have c1 : ves 0 1 - ves 0 0 > tol := h1
    have c2 : ves 1 3 - ves 1 0 > tol := h2
    have e1 := ha 0 (by decide) 3 (by decide) 0 (by decide) (by simp [refVe, tab])
    have e2 := ha 0 (by decide) 2 (by decide) 1 (by decide) (by simp [refVe, tab])
    have e3 := ha 1 (by decide) 1 (by decide) 0 (by decide) (by simp [refVe, tab])
    have e4 := ha 1 (by decide) 2 (by decide) 3 (by decide) (by simp [refVe, tab])
    refine ⟨_, by simp only [phyToRef, phyToRefQuad, c1, c2, check, decide_true, if_true, Option.bind_eq_bind,
      Option.bind_some]; rfl, ?_, ?_⟩
    · intro d hd
      simp only [Ent.nDim] at hd
      interval_cases d <;> simp [refToPhy, sumN_succ, sumN_zero, shQuad, e1, e2, e3, e4] <;> field_simp <;> ring
    · intro xi' hx d hd
      have q0 := hx 0 (by decide)
      have q1 := hx 1 (by decide)
      simp [refToPhy, sumN_succ, sumN_zero, shQuad, e1, e2, e3, e4] at q0 q1
      simp only [Ent.nDim] at hd
      interval_cases d
      · simp only [if_true]; rw [eq_div_iff p1, ← q0]; ring
      · simp; rw [eq_div_iff p2, ← q1]; ring
  · have p : Mesh.det2 (pt3 ves 0) (pt3 ves 1) (pt3 ves 2) ≠ 0 := (lt_of_le_of_lt ht hr).ne'
    have hd : (ves 0 1 - ves 0 0) * (ves 1 2 - ves 1 0) - (ves 0 2 - ves 0 0) * (ves 1 1 - ves 1 0) =
        Mesh.det2 (pt3 ves 0) (pt3 ves 1) (pt3 ves 2) := rfl
    generalize hD : Mesh.det2 (pt3 ves 0) (pt3 ves 1) (pt3 ves 2) = D at *
    have c : D > tol := hr
    refine ⟨_, by simp only [phyToRef, phyToRefTria, hd, c, check, decide_true, if_true, Option.bind_eq_bind,
      Option.bind_some]; rfl, ?_, ?_⟩
    · intro d hdim
      simp only [Ent.nDim] at hdim
      interval_cases d <;> simp [refToPhy, sumN_succ, sumN_zero, shTria] <;> field_simp <;> rw [← hd] <;> ring
    · intro xi' hx d hdim
      have q0 := hx 0 (by decide)
      have q1 := hx 1 (by decide)
      simp [refToPhy, sumN_succ, sumN_zero, shTria] at q0 q1
      simp only [Ent.nDim] at hdim
      interval_cases d
      · simp only [if_true]; rw [eq_div_iff p, ← q0, ← q1, ← hd]; ring
      · simp; rw [eq_div_iff p, ← q0, ← q1, ← hd]; ring
  · obtain ⟨ha, h1, h2, h3⟩ := hr
    have p1 : ves 0 1 - ves 0 0 ≠ 0 := (lt_of_le_of_lt ht h1).ne'
    have p2 : ves 1 3 - ves 1 0 ≠ 0 := (lt_of_le_of_lt ht h2).ne'
    have p3 : ves 2 4 - ves 2 0 ≠ 0 := (lt_of_le_of_lt ht h3).ne'
    have c1 : ves 0 1 - ves 0 0 > tol := h1
    have c2 : ves 1 3 - ves 1 0 > tol := h2
    have c3 : ves 2 4 - ves 2 0 > tol := h3
    have ex : ∀ v < 8, ∀ w < 8, (refVe .hex 0 v : K) = refVe .hex 0 w → ves 0 v = ves 0 w := ha 0 (by decide)
    have ey : ∀ v < 8, ∀ w < 8, (refVe .hex 1 v : K) = refVe .hex 1 w → ves 1 v = ves 1 w := ha 1 (by decide)
    have ez : ∀ v < 8, ∀ w < 8, (refVe .hex 2 v : K) = refVe .hex 2 w → ves 2 v = ves 2 w := ha 2 (by decide)
    have x2 := ex 2 (by decide) 1 (by decide) (by simp [refVe, tab])
    have x3 := ex 3 (by decide) 0 (by decide) (by simp [refVe, tab])
    have x4 := ex 4 (by decide) 0 (by decide) (by simp [refVe, tab])
    have x5 := ex 5 (by decide) 1 (by decide) (by simp [refVe, tab])
    have x6 := ex 6 (by decide) 1 (by decide) (by simp [refVe, tab])
    have x7 := ex 7 (by decide) 0 (by decide) (by simp [refVe, tab])
    have y1 := ey 1 (by decide) 0 (by decide) (by simp [refVe, tab])
    have y2 := ey 2 (by decide) 3 (by decide) (by simp [refVe, tab])
    have y4 := ey 4 (by decide) 0 (by decide) (by simp [refVe, tab])
    have y5 := ey 5 (by decide) 0 (by decide) (by simp [refVe, tab])
    have y6 := ey 6 (by decide) 3 (by decide) (by simp [refVe, tab])
    have y7 := ey 7 (by decide) 3 (by decide) (by simp [refVe, tab])
    have z1 := ez 1 (by decide) 0 (by decide) (by simp [refVe, tab])
    have z2 := ez 2 (by decide) 0 (by decide) (by simp [refVe, tab])
    have z3 := ez 3 (by decide) 0 (by decide) (by simp [refVe, tab])
    have z5 := ez 5 (by decide) 4 (by decide) (by simp [refVe, tab])
    have z6 := ez 6 (by decide) 4 (by decide) (by simp [refVe, tab])
    have z7 := ez 7 (by decide) 4 (by decide) (by simp [refVe, tab])
    have key : ∀ xi : Nat → K, refToPhy .hex ves xi 0 = ves 0 0 + (ves 0 1 - ves 0 0) * xi 0 ∧
        refToPhy .hex ves xi 1 = ves 1 0 + (ves 1 3 - ves 1 0) * xi 1 ∧
        refToPhy .hex ves xi 2 = ves 2 0 + (ves 2 4 - ves 2 0) * xi 2 := by
      intro xi
      refine ⟨?_, ?_, ?_⟩
      · simp [refToPhy, sumN_succ, sumN_zero, shHex, x2, x3, x4, x5, x6, x7]; ring
      · simp [refToPhy, sumN_succ, sumN_zero, shHex, y1, y2, y4, y5, y6, y7]; ring
      · simp [refToPhy, sumN_succ, sumN_zero, shHex, z1, z2, z3, z5, z6, z7]; ring
    refine ⟨_, by simp only [phyToRef, phyToRefHex, c1, c2, c3, check, decide_true, if_true, Option.bind_eq_bind,
      Option.bind_some]; rfl, ?_, ?_⟩
    · intro d hd
      obtain ⟨k0, k1, k2⟩ := key (fun d => if d = 0 then (x 0 - ves 0 0) / (ves 0 1 - ves 0 0) else
        if d = 1 then (x 1 - ves 1 0) / (ves 1 3 - ves 1 0) else if d = 2 then (x 2 - ves 2 0) / (ves 2 4 - ves 2 0) else 0)
      simp only [Ent.nDim] at hd
      interval_cases d
      · rw [k0]; simp only [if_true]; rw [mul_div_cancel₀ _ p1]; ring
      · rw [k1]; simp only [one_ne_zero, if_false, if_true]; rw [mul_div_cancel₀ _ p2]; ring
      · rw [k2]; simp only [OfNat.ofNat_ne_zero, OfNat.ofNat_ne_one, if_false, if_true]; rw [mul_div_cancel₀ _ p3]; ring
    · intro xi' hx d hd
      obtain ⟨k0, k1, k2⟩ := key xi'
      have q0 := hx 0 (by decide)
      have q1 := hx 1 (by decide)
      have q2 := hx 2 (by decide)
      rw [k0] at q0; rw [k1] at q1; rw [k2] at q2
      simp only [Ent.nDim] at hd
      interval_cases d
      · simp only [if_true]; rw [eq_div_iff p1, ← q0]; ring
      · simp; rw [eq_div_iff p2, ← q1]; ring
      · simp; rw [eq_div_iff p3, ← q2]; ring
  · generalize hD : Mesh.det3 (pt3 ves 0) (pt3 ves 1) (pt3 ves 2) (pt3 ves 3) = D at *
    have hv := tetVol ves
    rw [hD] at hv
    have hd := hD
    simp only [Mesh.det3, pt3] at hd
    refine ⟨_, by simp only [phyToRef, phyToRefTet, hv, ne_eq, hr, not_false_eq_true, check, decide_true, if_true,
      Option.bind_eq_bind, Option.bind_some]; rfl, ?_, ?_⟩
    · intro d hdim
      simp only [Ent.nDim] at hdim
      interval_cases d <;> simp [refToPhy, sumN_succ, sumN_zero, shTet, tetMat] <;> field_simp <;> rw [← hd] <;> ring
    · intro xi' hx d hdim
      have q0 := hx 0 (by decide)
      have q1 := hx 1 (by decide)
      have q2 := hx 2 (by decide)
      simp [refToPhy, sumN_succ, sumN_zero, shTet] at q0 q1 q2
      simp only [Ent.nDim] at hdim
      interval_cases d <;> simp [tetMat] <;> field_simp <;> rw [← q0, ← q1, ← q2, ← hd] <;> ring

/-- C88: lines are not supported; the map of every other type fails for degenerate triangles, rectangles and cuboids. -/
theorem C88_line_aborts (tol : K) (ves : Nat → Nat → K) (x : Nat → K) : phyToRef tol .line ves x = none := rfl

/-- C88: rectangles which are not parallel to the axes are accepted, and the returned reference point is wrong. -/
theorem C88_rotated_refuted : ∃ (ves : Nat → Nat → Rat) (x xi : Nat → Rat), IsAffine .quad ves ∧
    evalJac .quad ves 0 0 * evalJac .quad ves 1 0 + evalJac .quad ves 0 1 * evalJac .quad ves 1 1 = 0 ∧
    Linalg.det2 (fun i j : Fin 2 => evalJac .quad ves i j) = 2 ∧
    phyToRef (1 / 1000000) .quad ves x = some xi ∧ refToPhy .quad ves xi 0 ≠ x 0 := by
  let ves : Nat → Nat → Rat := fun d v => (([[0, 1, 0, -1], [0, 1, 2, 1]] : List (List Rat)).getD d []).getD v 0
  let x : Nat → Rat := fun d => ([1, 1] : List Rat).getD d 0
  refine ⟨ves, x, fun d => if d = 0 then (x 0 - ves 0 0) / (ves 0 1 - ves 0 0) else if d = 1 then
    (x 1 - ves 1 0) / (ves 1 3 - ves 1 0) else 0, ?_, ?_, ?_, ?_, ?_⟩
  · intro d hd; interval_cases d <;> norm_num [ves]
  · norm_num [ves, evalJac, derShape, derQuad, sumN_succ, sumN_zero, Ent.nVe]
  · norm_num [ves, Linalg.det2, evalJac, derShape, derQuad, sumN_succ, sumN_zero, Ent.nVe]
  · have c1 : ves 0 1 - ves 0 0 > 1 / 1000000 := by norm_num [ves]
    have c2 : ves 1 3 - ves 1 0 > 1 / 1000000 := by norm_num [ves]
    simp only [phyToRef, phyToRefQuad, c1, c2, check, decide_true, if_true, Option.bind_eq_bind, Option.bind_some]; rfl
  · norm_num [refToPhy, sumN_succ, sumN_zero, shQuad, ves, x]

end

/-! ### Examples -/

/-- A tetrahedron and a cuboid. -/
def exTet (d v : Nat) : Rat := (([[0, 2, 1, 1], [0, 0, 3, 1], [1, 1, 1, 5]] : List (List Rat)).getD d []).getD v 0

def exHex (d v : Nat) : Rat := if d = 0 then 1 + 2 * refVe .hex 0 v else if d = 1 then 3 * refVe .hex 1 v else
  4 * refVe .hex 2 v - 1

example : Regular (1 / 1000000) .tet exTet := by
  norm_num [Regular, exTet, pt3, Mesh.det3]

example : Regular (1 / 1000000) .tria exTet := by
  norm_num [Regular, exTet, pt3, Mesh.det2]

example : Regular (1 / 1000000) .hex exHex := by
  refine ⟨?_, ?_⟩
  · intro d hd v hv w hw h
    simp only [Ent.nDim] at hd
    interval_cases d <;> simp only [exHex, h, if_true, one_ne_zero, OfNat.ofNat_ne_zero, OfNat.ofNat_ne_one, if_false]
  · norm_num [exHex, refVe, tab]

example : phyToRef (1 / 1000000 : Rat) .tet exTet (fun d => exTet d 2) ≠ none := by
  obtain ⟨xi, h, -⟩ := C88_inverse (tol := (1 / 1000000 : Rat)) (by norm_num) (ty := .tet) (ves := exTet)
    (by norm_num [Regular, exTet, pt3, Mesh.det3]) (fun d => exTet d 2)
  rw [h]; simp

end Edge.Map
