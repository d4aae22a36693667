import Verif.Proj.Family
import Verif.Quad.Nodes
/-!
Quadrature points of the elements as images of those of the reference elements, discrete orthogonality and completeness of the
basis functions.
-/
namespace Edge.Proj
open Edge Edge.Map Edge.Quad Edge.Basis MvPolynomial

/-! ### Points -/

/-- Coordinates as a function of the dimension. -/
def vec (x y z : ℝ) (d : Nat) : ℝ := if d = 0 then x else if d = 1 then y else z

/-- Point of an element to which a point of the reference element is mapped, with the scaled weight. -/
noncomputable def phys (e : Ent) (ves : Nat → Nat → ℝ) (q : Qp ℝ) : Qp ℝ :=
  ⟨refToPhy e ves (vec q.x q.y q.z) 0, refToPhy e ves (vec q.x q.y q.z) 1, refToPhy e ves (vec q.x q.y q.z) 2, q.w * jDet e ves⟩

/-- Elements: lines on the first axis, rectangles parallel to the first two axes, triangles in the plane of these, cuboids
parallel to the axes and tetrahedra; all are positively oriented and not smaller than the tolerance. -/
def ElOk (tol : ℝ) (e : Ent) (ves : Nat → Nat → ℝ) : Prop :=
  match e with
  | .line => ves 0 0 ≤ ves 0 1 ∧ ∀ v < 2, ves 1 v = 0 ∧ ves 2 v = 0
  | .quad => AxisAligned .quad ves ∧ (∀ v < 4, ves 2 v = 0) ∧ tol < ves 0 1 - ves 0 0 ∧ tol < ves 1 3 - ves 1 0 ∧
      tol < (ves 0 1 - ves 0 0) * (ves 1 3 - ves 1 0)
  | .tria => tol < jDet .tria ves
  | .hex => AxisAligned .hex ves ∧ tol < jDet .hex ves
  | .tet => tol < jDet .tet ves

/-- The quadrature points of the reference element. -/
noncomputable def refPts (pair : Nat → Nat → ℝ × ℝ) : Ent → Nat → List (Qp ℝ)
  | .line, n => (gl pair n).map (fun q => ⟨q.1, 0, 0, q.2⟩)
  | .quad, n => (gl pair n).flatMap (fun q1 => (gl pair n).map (fun q2 => ⟨q2.1, q1.1, 0, q1.2 * q2.2⟩))
  | .tria, n => (gl pair n).flatMap (fun q1 => (gl pair n).map (fun q2 =>
      let r := triaRef (toSym q1) (toSym q2); ⟨r.1, r.2.1, 0, r.2.2⟩))
  | .hex, n => (gl pair n).flatMap (fun q1 => (gl pair n).flatMap (fun q2 => (gl pair n).map (fun q3 =>
      ⟨q3.1, q2.1, q1.1, q1.2 * q2.2 * q3.2⟩)))
  | .tet, n => (gl pair n).flatMap (fun q1 => (gl pair n).flatMap (fun q2 => (gl pair n).map (fun q3 =>
      let r := tetRef (toSym q1) (toSym q2) (toSym q3); ⟨r.1, r.2.1, r.2.2.1, r.2.2.2⟩)))

theorem quad_axis {ves : Nat → Nat → ℝ} (ha : AxisAligned .quad ves) (xi : Nat → ℝ) :
    refToPhy .quad ves xi 0 = ves 0 0 + (ves 0 1 - ves 0 0) * xi 0 ∧
    refToPhy .quad ves xi 1 = ves 1 0 + (ves 1 3 - ves 1 0) * xi 1 := by
  have f : ∀ d v w, d < 2 → v < 4 → w < 4 → (refVe .quad d v : ℝ) = refVe .quad d w → ves d v = ves d w :=
    fun d v w hd hv hw he => ha d hd v hv w hw he
  constructor
  · have e2 := f 0 2 1 (by decide) (by decide) (by decide) (by simp [refVe, tab])
    have e3 := f 0 3 0 (by decide) (by decide) (by decide) (by simp [refVe, tab])
    simp [refToPhy, sumN_succ, sumN_zero, shQuad, e2, e3]; ring
  · have e2 := f 1 2 3 (by decide) (by decide) (by decide) (by simp [refVe, tab])
    have e3 := f 1 1 0 (by decide) (by decide) (by decide) (by simp [refVe, tab])
    simp [refToPhy, sumN_succ, sumN_zero, shQuad, e2, e3]; ring

theorem map_congr' {α β : Type} {l : List α} {f g : α → β} (h : ∀ x ∈ l, f x = g x) : l.map f = l.map g := List.map_congr_left h

/-- The quadrature points of an element are the images of those of the reference element. -/
theorem qpts_phys {pair : Nat → Nat → ℝ × ℝ} {n : Nat} (hn : 0 < n) (hg : Gauss pair n) {tol : ℝ} (ht : 0 ≤ tol) {e : Ent}
    {ves : Nat → Nat → ℝ} (he : ElOk tol e ves) :
    qpts Real.sqrt tol pair e n ves = some ((refPts pair e n).map (phys e ves)) := by
  cases e
  · obtain ⟨h1, h2⟩ := he
    obtain ⟨a1, a2⟩ := h2 0 (by decide)
    obtain ⟨b1, b2⟩ := h2 1 (by decide)
    simp only [qpts, qptsLine_eq Real.sqrt pair hn, refPts, List.map_map, Option.some.injEq]
    refine List.map_congr_left (fun q hq => ?_)
    obtain ⟨c1, c2, c3⟩ := gl_inner hg hq
    have s1 : Real.sqrt ((ves 0 1 - ves 0 0) * (ves 0 1 - ves 0 0)) = ves 0 1 - ves 0 0 := Real.sqrt_mul_self (by linarith)
    have s2 : Real.sqrt (q.1 * q.1) = q.1 := Real.sqrt_mul_self c1.le
    simp [linePt, map2dLine, distPts, refLine, phys, refToPhy, vec, a1, a2, b1, b2, s1, s2, jDet, evalJac, derShape, derLine, sumN_succ,
      sumN_zero, Ent.nVe]
    exact ⟨by ring, Or.inl (by ring)⟩
  · obtain ⟨ha, hz, h1, h2, h3⟩ := he
    have f : ∀ d v w, d < 2 → v < 4 → w < 4 → (refVe .quad d v : ℝ) = refVe .quad d w → ves d v = ves d w :=
      fun d v w hd hv hw he => ha d hd v hv w hw he
    have x2 := f 0 2 1 (by decide) (by decide) (by decide) (by simp [refVe, tab])
    have x3 := f 0 3 0 (by decide) (by decide) (by decide) (by simp [refVe, tab])
    have y2 := f 1 2 3 (by decide) (by decide) (by decide) (by simp [refVe, tab])
    have y1 := f 1 1 0 (by decide) (by decide) (by decide) (by simp [refVe, tab])
    have hb : Bounds ves (fun d => ves d 0) (fun d => if d = 0 then ves 0 1 else if d = 1 then ves 1 3 else 0) := by
      intro d hd
      have l1 : ves 0 0 ≤ ves 0 1 := by linarith
      have l2 : ves 1 0 ≤ ves 1 3 := by linarith
      interval_cases d
      · refine ⟨fun v hv => ?_, ⟨0, by decide, rfl⟩, ⟨1, by decide, rfl⟩⟩
        interval_cases v <;> simp [x2, x3, l1]
      · refine ⟨fun v hv => ?_, ⟨0, by decide, rfl⟩, ⟨3, by decide, rfl⟩⟩
        interval_cases v <;> simp [y1, y2, l2]
      · refine ⟨fun v hv => ?_, ⟨0, by decide, rfl⟩, ⟨0, by decide, by simp [hz 0]⟩⟩
        simp [hz v hv, hz 0]
    have m0 := minMax_eq hb (d := 0) (by decide)
    have m1 := minMax_eq hb (d := 1) (by decide)
    have m2 := minMax_eq hb (d := 2) (by decide)
    have hd : quadDims tol ves = some (0, 1, 2) := by
      simp [quadDims, List.range_succ, m0, m1, m2, h1, h2, hz 0, not_lt.2 ht]
    have hp : ∀ q1 q2, quadPt tol ves 0 1 2 q1 q2 = some (phys .quad ves ⟨q2.1, q1.1, 0, q1.2 * q2.2⟩) := by
      intro q1 q2
      obtain ⟨r1, r2⟩ := quad_axis ha (vec q2.1 q1.1 0)
      have r3 : refToPhy .quad ves (vec q2.1 q1.1 0) 2 = 0 := by simp [refToPhy]
      simp only [quadPt, m0, m1, m2, phys, r1, r2, r3, jDet, C88_detQuad ves ha]
      simp [vec, check, h3, hz 0]
      constructor <;> ring
    simp only [qpts, qptsQuad_eq pair hn hd hp, refPts, List.map_flatMap, List.map_map]; rfl
  · have hp : ∀ q, triaPt tol ves q = some (phys .tria ves ⟨q.1, q.2.1, 0, q.2.2⟩) := by
      intro q
      have : tol < Linalg.det2 (fun i j : Fin 2 => evalJac .tria ves i j) := he
      simp only [triaPt, check, this, jDet, phys]; simp [refToPhy, vec]
    simp only [qpts, qptsTria_eq pair hn hp, refPts, List.map_flatMap, List.map_map]; rfl
  · have hp : ∀ q1 q2 q3, hexPt tol ves q1 q2 q3 = some (phys .hex ves ⟨q3.1, q2.1, q1.1, q1.2 * q2.2 * q3.2⟩) := by
      intro q1 q2 q3
      have : tol < Linalg.det3 (fun i j : Fin 3 => evalJac .hex ves i j) := he.2
      simp only [hexPt, check, this, jDet, phys]; simp [refToPhy, vec]
    simp only [qpts, qptsHex_eq pair hn hp, refPts, List.map_flatMap, List.map_map]; rfl
  · have hp : ∀ q, tetPt tol ves q = some (phys .tet ves ⟨q.1, q.2.1, q.2.2.1, q.2.2.2⟩) := by
      intro q
      have : tol < Linalg.det3 (fun i j : Fin 3 => evalJac .tet ves i j) := he
      simp only [tetPt, check, this, jDet, phys]; simp [refToPhy, vec]
    simp only [qpts, qptsTet_eq pair hn hp, refPts, List.map_flatMap, List.map_map]; rfl

theorem ref_jDet (e : Ent) : jDet e (refVe e : Nat → Nat → ℝ) = 1 := by
  cases e
  · simp [jDet, evalJac, derShape, derLine, sumN_succ, sumN_zero, Ent.nVe, refVe, tab]
  · simp [jDet, Linalg.det2, evalJac, derShape, derQuad, sumN_succ, sumN_zero, Ent.nVe, refVe, tab]
  · exact exDetTria
  · have ha : AxisAligned .hex (refVe .hex : Nat → Nat → ℝ) := fun d _ v _ w _ h => h
    simp only [jDet, C88_detHex _ ha]; simp [refVe, tab]
  · exact exDet

theorem ref_ok {tol : ℝ} (h : tol < 1) (e : Ent) : ElOk tol e (refVe e) := by
  cases e
  · refine ⟨by simp [refVe, tab], fun v hv => ?_⟩
    interval_cases v <;> simp [refVe, tab]
  · refine ⟨fun d _ v _ w _ h => h, fun v hv => ?_, by simpa [refVe, tab] using h, by simpa [refVe, tab] using h, by simpa [refVe, tab] using h⟩
    interval_cases v <;> simp [refVe, tab]
  · simpa [ElOk, ref_jDet] using h
  · exact ⟨fun d _ v _ w _ h => h, by simpa [ref_jDet] using h⟩
  · simpa [ElOk, ref_jDet] using h

/-- Points with vanishing coordinates in the additional dimensions. -/
def Flat : Ent → Qp ℝ → Prop
  | .line, q => q.y = 0 ∧ q.z = 0
  | .quad, q => q.z = 0
  | .tria, q => q.z = 0
  | _, _ => True

theorem ref_phys {e : Ent} {q : Qp ℝ} (h : Flat e q) : phys e (refVe e) q = q := by
  obtain ⟨x, y, z, w⟩ := q
  have ha : AxisAligned .hex (refVe .hex : Nat → Nat → ℝ) := fun d _ v _ w _ h => h
  have hq : AxisAligned .quad (refVe .quad : Nat → Nat → ℝ) := fun d _ v _ w _ h => h
  simp only [phys, ref_jDet, mul_one]
  cases e
  · obtain ⟨rfl, rfl⟩ := h
    simp [refToPhy, vec, refVe, tab]
  · obtain rfl := h
    obtain ⟨h1, h2⟩ := quad_axis hq (vec x y 0)
    rw [h1, h2]
    simp [refToPhy, vec, refVe, tab]
  · obtain rfl := h
    simp [refToPhy, vec, refVe, tab, sumN_succ, sumN_zero, shTria]
  · obtain ⟨h1, h2, h3⟩ := hex_axis ha (vec x y z)
    rw [h1, h2, h3]
    simp [vec, refVe, tab]
  · simp [refToPhy, vec, refVe, tab, sumN_succ, sumN_zero, shTet]

theorem refPts_flat (pair : Nat → Nat → ℝ × ℝ) (e : Ent) (n : Nat) {q : Qp ℝ} (hq : q ∈ refPts pair e n) : Flat e q := by
  cases e <;> simp only [refPts, List.mem_map, List.mem_flatMap] at hq
  · obtain ⟨_, _, rfl⟩ := hq; exact ⟨rfl, rfl⟩
  · obtain ⟨_, _, _, _, rfl⟩ := hq; exact rfl
  · obtain ⟨_, _, _, _, rfl⟩ := hq; exact rfl
  · trivial
  · trivial

/-- The quadrature points of the reference element. -/
theorem qpts_ref {pair : Nat → Nat → ℝ × ℝ} {n : Nat} (hn : 0 < n) (hg : Gauss pair n) {tol : ℝ} (ht : 0 ≤ tol) (ht1 : tol < 1) (e : Ent) :
    qpts Real.sqrt tol pair e n (refVe e) = some (refPts pair e n) := by
  rw [qpts_phys hn hg ht (ref_ok ht1 e), Option.some.injEq]
  conv_rhs => rw [← List.map_id (refPts pair e n)]
  exact List.map_congr_left (fun q hq => ref_phys (refPts_flat pair e n hq))

/-- The points avoid the singularities of the code's formulas. -/
theorem refPts_ok {pair : Nat → Nat → ℝ × ℝ} {n : Nat} (hg : Gauss pair n) {e : Ent} {q : Qp ℝ} (hq : q ∈ refPts pair e n) :
    PtOk e q.x q.y q.z := by
  cases e
  · trivial
  · trivial
  · simp only [refPts, List.mem_map, List.mem_flatMap] at hq
    obtain ⟨q1, h1, q2, h2, rfl⟩ := hq
    have := gl_inner hg h2
    simp only [PtOk, triaRef, toSym]
    intro h; linarith
  · trivial
  · simp only [refPts, List.mem_map, List.mem_flatMap] at hq
    obtain ⟨q1, h1, q2, h2, q3, h3, rfl⟩ := hq
    obtain ⟨-, a, -⟩ := gl_inner hg h2
    obtain ⟨-, b, -⟩ := gl_inner hg h3
    simp only [PtOk, tetRef, toSym]
    refine ⟨by intro h; linarith, fun h => ?_⟩
    have : (1 - q2.1) * (1 - q3.1) = 0 := by linear_combination -h
    rcases mul_eq_zero.1 this with h | h <;> linarith

theorem refPts_length (pair : Nat → Nat → ℝ × ℝ) (e : Ent) (n : Nat) : (refPts pair e n).length = n ^ e.nDim := by
  cases e <;> simp [refPts, gl, List.length_flatMap, Ent.nDim, Function.comp_def] <;> ring

/-- The weights are positive. -/
theorem refPts_pos {pair : Nat → Nat → ℝ × ℝ} {n : Nat} (hg : Gauss pair n) {e : Ent} {q : Qp ℝ} (hq : q ∈ refPts pair e n) : 0 < q.w := by
  cases e <;> simp only [refPts, List.mem_map, List.mem_flatMap] at hq
  · obtain ⟨q1, h1, rfl⟩ := hq
    exact (gl_inner hg h1).2.2
  · obtain ⟨q1, h1, q2, h2, rfl⟩ := hq
    exact mul_pos (gl_inner hg h1).2.2 (gl_inner hg h2).2.2
  · obtain ⟨q1, h1, q2, h2, rfl⟩ := hq
    obtain ⟨-, -, a⟩ := gl_inner hg h1
    obtain ⟨-, b, c⟩ := gl_inner hg h2
    simp only [triaRef, toSym]
    have : q1.2 * 2 * (q2.2 * 2) * (q2.1 * 2 - 1 - 1) / -8 = q1.2 * q2.2 * (1 - q2.1) := by ring
    rw [this]
    exact mul_pos (mul_pos a c) (by linarith)
  · obtain ⟨q1, h1, q2, h2, q3, h3, rfl⟩ := hq
    exact mul_pos (mul_pos (gl_inner hg h1).2.2 (gl_inner hg h2).2.2) (gl_inner hg h3).2.2
  · obtain ⟨q1, h1, q2, h2, q3, h3, rfl⟩ := hq
    obtain ⟨-, -, a⟩ := gl_inner hg h1
    obtain ⟨-, b, c⟩ := gl_inner hg h2
    obtain ⟨-, d, f⟩ := gl_inner hg h3
    simp only [tetRef, toSym]
    have : q1.2 * 2 * (q2.2 * 2) * (q3.2 * 2) * (q2.1 * 2 - 1 - 1) * (q3.1 * 2 - 1 - 1) * (q3.1 * 2 - 1 - 1) / -64 =
        q1.2 * q2.2 * q3.2 * (1 - q2.1) * (1 - q3.1) ^ 2 := by ring
    rw [this]
    have e1 : 0 < 1 - q2.1 := by linarith
    have e2 : 0 < 1 - q3.1 := by linarith
    positivity

end Edge.Proj
