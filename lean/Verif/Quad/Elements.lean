import Verif.Quad.Exact
import Verif.Map.Inside
/-!
Exactness of the quadrature rules of quadrilaterals, triangles, hexahedra and tetrahedra: C90.
-/
namespace Edge.Quad
open Edge Edge.Map MvPolynomial

/-! ### Sums of integrals -/

theorem int_sum {ι : Type} (s : Finset ι) (c : ι → ℝ) (g : ι → ℝ → ℝ) (a b : ℝ) (h : ∀ i ∈ s, Continuous (g i)) :
    ∫ x in a..b, ∑ i ∈ s, c i * g i x = ∑ i ∈ s, c i * ∫ x in a..b, g i x := by
  rw [intervalIntegral.integral_finsetSum]
  · exact Finset.sum_congr rfl (fun i _ => intervalIntegral.integral_const_mul _ _)
  · intro i hi
    exact ((h i hi).const_smul (c i)).intervalIntegrable _ _

/-! ### Rectangles -/

/-- The lower and upper bounds of the vertices of a quadrilateral. -/
def Bounds (ves : Nat → Nat → ℝ) (lo hi : Nat → ℝ) : Prop :=
  ∀ d < 3, (∀ v < 4, lo d ≤ ves d v ∧ ves d v ≤ hi d) ∧ (∃ v < 4, ves d v = lo d) ∧ ∃ v < 4, ves d v = hi d

theorem minMax_eq {ves : Nat → Nat → ℝ} {lo hi : Nat → ℝ} (h : Bounds ves lo hi) {d : Nat} (hd : d < 3) :
    minMax ves d = (lo d, hi d) := by
  obtain ⟨h1, ⟨v, hv, e1⟩, w, hw, e2⟩ := h d hd
  have a0 := h1 0 (by decide); have a1 := h1 1 (by decide); have a2 := h1 2 (by decide); have a3 := h1 3 (by decide)
  simp only [minMax, List.foldl_cons, List.foldl_nil]
  refine Prod.ext ?_ ?_
  · refine le_antisymm ?_ (le_min (le_min (le_min a0.1 a1.1) a2.1) a3.1)
    simp only
    rw [← e1]
    interval_cases v <;> simp
  · refine le_antisymm (max_le (max_le (max_le a0.2 a1.2) a2.2) a3.2) ?_
    simp only
    rw [← e2]
    interval_cases w <;> simp

/-- The point with coordinates `u` and `v` in the dimensions `a` and `b` and `w` in the other one. -/
def planePt (a b : Nat) (u v w : ℝ) (d : Nat) : ℝ := if d = a then u else if d = b then v else w

/-- C90: for rectangles parallel to two axes the rule is exact for polynomials of degree up to `2 n - 1` in each variable: it
returns the integral over the rectangle. -/
theorem C90_quad {pair : Nat → Nat → ℝ × ℝ} {n : Nat} (hn : 0 < n) (h : Gauss pair n) {tol : ℝ} {ves : Nat → Nat → ℝ}
    {lo hi : Nat → ℝ} (hb : Bounds ves lo hi) {a b f : Nat} (hd : (a, b, f) = (0, 1, 2) ∨ (a, b, f) = (0, 2, 1) ∨ (a, b, f) = (1, 2, 0))
    (ha : tol < hi a - lo a) (hbb : tol < hi b - lo b) (hf : hi f - lo f ≤ tol) (hdet : tol < (hi a - lo a) * (hi b - lo b)) :
    ∃ qs, qptsQuad tol pair n ves = some qs ∧ qs.length = n * n ∧ ∀ g : MvPolynomial (Fin 3) ℝ, (∀ i, g.degreeOf i < 2 * n) →
      rule qs (val g) = ∫ u in lo a..hi a, ∫ v in lo b..hi b,
        val g (planePt a b u v (lo f) 0) (planePt a b u v (lo f) 1) (planePt a b u v (lo f) 2) := by
  have hr := C90_line1 h
  generalize hR : gl pair n = r at hr
  have m0 := minMax_eq hb (d := 0) (by decide)
  have m1 := minMax_eq hb (d := 1) (by decide)
  have m2 := minMax_eq hb (d := 2) (by decide)
  have main : ∀ (qs : List (Qp ℝ)), (∀ i j k : Nat, i < 2 * n → j < 2 * n → k < 2 * n →
      rule qs (fun x y z => x ^ i * y ^ j * z ^ k) = ∫ u in lo a..hi a, ∫ v in lo b..hi b,
        (planePt a b u v (lo f) 0) ^ i * (planePt a b u v (lo f) 1) ^ j * (planePt a b u v (lo f) 2) ^ k) →
      ∀ g : MvPolynomial (Fin 3) ℝ, (∀ i, g.degreeOf i < 2 * n) → rule qs (val g) = ∫ u in lo a..hi a, ∫ v in lo b..hi b,
        val g (planePt a b u v (lo f) 0) (planePt a b u v (lo f) 1) (planePt a b u v (lo f) 2) := by
    intro qs hm g hg
    rw [rule_val]
    have hc : ∀ (e : Nat) (u : ℝ), Continuous (fun v => planePt a b u v (lo f) e) := by
      intro e u; unfold planePt; split
      · exact continuous_const
      · split
        · exact continuous_id
        · exact continuous_const
    simp only [val_eq]
    have inner : ∀ u, ∫ v in lo b..hi b, ∑ d ∈ g.support, coeff d g * ((planePt a b u v (lo f) 0) ^ d 0 *
        (planePt a b u v (lo f) 1) ^ d 1 * (planePt a b u v (lo f) 2) ^ d 2) = ∑ d ∈ g.support, coeff d g *
          ∫ v in lo b..hi b, (planePt a b u v (lo f) 0) ^ d 0 * (planePt a b u v (lo f) 1) ^ d 1 * (planePt a b u v (lo f) 2) ^ d 2 := by
      intro u
      exact int_sum _ _ _ _ _ (fun d _ => (((hc 0 u).pow _).mul ((hc 1 u).pow _)).mul ((hc 2 u).pow _))
    simp only [inner]
    rw [int_sum]
    · refine Finset.sum_congr rfl (fun d hd => ?_)
      have hdeg : ∀ i, d i < 2 * n := fun i => lt_of_le_of_lt (by
        rw [degreeOf_eq_sup]; exact Finset.le_sup (f := fun m => m i) hd) (hg i)
      rw [hm (d 0) (d 1) (d 2) (hdeg 0) (hdeg 1) (hdeg 2)]
    · intro d _
      apply intervalIntegral.continuous_parametric_intervalIntegral_of_continuous'
      have hc2 : ∀ e, Continuous (fun p : ℝ × ℝ => planePt a b p.1 p.2 (lo f) e) := by
        intro e; unfold planePt; split
        · exact continuous_fst
        · split
          · exact continuous_snd
          · exact continuous_const
      exact (((hc2 0).pow _).mul ((hc2 1).pow _)).mul ((hc2 2).pow _)
  have len : ∀ g : ℝ × ℝ → ℝ × ℝ → Qp ℝ, ((gl pair n).flatMap (fun q1 => (gl pair n).map (g q1))).length = n * n := by
    intro g
    simp [gl, List.length_flatMap, Function.comp_def]
  rcases hd with hd | hd | hd <;> (simp only [Prod.mk.injEq] at hd; obtain ⟨rfl, rfl, rfl⟩ := hd)
  · have hq : quadDims tol ves = some (0, 1, 2) := by
      simp [quadDims, List.range_succ, m0, m1, m2, ha, hbb, not_lt.2 hf]
    have hp : ∀ q1 q2, quadPt tol ves 0 1 2 q1 q2 = some ⟨(hi 0 - lo 0) * q2.1 + lo 0, (hi 1 - lo 1) * q1.1 + lo 1, lo 2,
        q1.2 * q2.2 * ((hi 0 - lo 0) * (hi 1 - lo 1))⟩ := by
      intro q1 q2
      simp [quadPt, m0, m1, m2, check, hdet]
    refine ⟨_, qptsQuad_eq pair hn hq hp, len _, main _ ?_⟩
    intro i j k hi1 hj1 hk1
    rw [hR, sum_prod2 r _ _ (fun s => (lo 1 + (hi 1 - lo 1) * s) ^ j) (fun s => (lo 0 + (hi 0 - lo 0) * s) ^ i)
      ((hi 0 - lo 0) * (hi 1 - lo 1) * lo 2 ^ k) (by intro q1 q2; simp only; ring), hr.pow _ _ hj1, hr.pow _ _ hi1]
    simp only [planePt, if_true, one_ne_zero, if_false, OfNat.ofNat_ne_zero, OfNat.ofNat_ne_one]
    simp only [mul_assoc, intervalIntegral.integral_const_mul, intervalIntegral.integral_mul_const]
    rw [← integral_scale (lo 0) (hi 0), ← integral_scale (lo 1) (hi 1)]; ring
  · have hq : quadDims tol ves = some (0, 2, 1) := by
      simp [quadDims, List.range_succ, m0, m1, m2, ha, hbb, not_lt.2 hf]
    have hp : ∀ q1 q2, quadPt tol ves 0 2 1 q1 q2 = some ⟨(hi 0 - lo 0) * q2.1 + lo 0, lo 1, (hi 2 - lo 2) * q1.1 + lo 2,
        q1.2 * q2.2 * ((hi 0 - lo 0) * (hi 2 - lo 2))⟩ := by
      intro q1 q2
      simp [quadPt, m0, m1, m2, check, hdet]
    refine ⟨_, qptsQuad_eq pair hn hq hp, len _, main _ ?_⟩
    intro i j k hi1 hj1 hk1
    rw [hR, sum_prod2 r _ _ (fun s => (lo 2 + (hi 2 - lo 2) * s) ^ k) (fun s => (lo 0 + (hi 0 - lo 0) * s) ^ i)
      ((hi 0 - lo 0) * (hi 2 - lo 2) * lo 1 ^ j) (by intro q1 q2; simp only; ring), hr.pow _ _ hk1, hr.pow _ _ hi1]
    simp only [planePt, if_true, one_ne_zero, if_false, OfNat.ofNat_ne_zero, OfNat.one_ne_ofNat]
    simp only [mul_assoc, intervalIntegral.integral_const_mul, intervalIntegral.integral_mul_const]
    rw [← integral_scale (lo 0) (hi 0), ← integral_scale (lo 2) (hi 2)]; ring
  · have hq : quadDims tol ves = some (1, 2, 0) := by
      simp [quadDims, List.range_succ, m0, m1, m2, ha, hbb, not_lt.2 hf]
    have hp : ∀ q1 q2, quadPt tol ves 1 2 0 q1 q2 = some ⟨lo 0, (hi 1 - lo 1) * q2.1 + lo 1, (hi 2 - lo 2) * q1.1 + lo 2,
        q1.2 * q2.2 * ((hi 1 - lo 1) * (hi 2 - lo 2))⟩ := by
      intro q1 q2
      simp [quadPt, m0, m1, m2, check, hdet]
    refine ⟨_, qptsQuad_eq pair hn hq hp, len _, main _ ?_⟩
    intro i j k hi1 hj1 hk1
    rw [hR, sum_prod2 r _ _ (fun s => (lo 2 + (hi 2 - lo 2) * s) ^ k) (fun s => (lo 1 + (hi 1 - lo 1) * s) ^ j)
      ((hi 1 - lo 1) * (hi 2 - lo 2) * lo 0 ^ i) (by intro q1 q2; simp only; ring), hr.pow _ _ hk1, hr.pow _ _ hj1]
    simp only [planePt, if_true, zero_ne_one, OfNat.zero_ne_ofNat, if_false, OfNat.ofNat_ne_one]
    simp only [mul_assoc, intervalIntegral.integral_const_mul, intervalIntegral.integral_mul_const]
    rw [← integral_scale (lo 1) (hi 1), ← integral_scale (lo 2) (hi 2)]; ring

/-! ### Cuboids -/

theorem hex_axis {ves : Nat → Nat → ℝ} (ha : AxisAligned .hex ves) (xi : Nat → ℝ) :
    refToPhy .hex ves xi 0 = ves 0 0 + (ves 0 1 - ves 0 0) * xi 0 ∧
    refToPhy .hex ves xi 1 = ves 1 0 + (ves 1 3 - ves 1 0) * xi 1 ∧
    refToPhy .hex ves xi 2 = ves 2 0 + (ves 2 4 - ves 2 0) * xi 2 := by
  have f : ∀ d v w, d < 3 → v < 8 → w < 8 → (refVe .hex d v : ℝ) = refVe .hex d w → ves d v = ves d w :=
    fun d v w hd hv hw he => ha d hd v hv w hw he
  refine ⟨?_, ?_, ?_⟩
  · have e2 := f 0 2 1 (by decide) (by decide) (by decide) (by simp [refVe, tab])
    have e3 := f 0 3 0 (by decide) (by decide) (by decide) (by simp [refVe, tab])
    have e4 := f 0 4 0 (by decide) (by decide) (by decide) (by simp [refVe, tab])
    have e5 := f 0 5 1 (by decide) (by decide) (by decide) (by simp [refVe, tab])
    have e6 := f 0 6 1 (by decide) (by decide) (by decide) (by simp [refVe, tab])
    have e7 := f 0 7 0 (by decide) (by decide) (by decide) (by simp [refVe, tab])
    simp [refToPhy, sumN_succ, sumN_zero, shHex, e2, e3, e4, e5, e6, e7]; ring
  · have e2 := f 1 2 3 (by decide) (by decide) (by decide) (by simp [refVe, tab])
    have e3 := f 1 1 0 (by decide) (by decide) (by decide) (by simp [refVe, tab])
    have e4 := f 1 4 0 (by decide) (by decide) (by decide) (by simp [refVe, tab])
    have e5 := f 1 5 0 (by decide) (by decide) (by decide) (by simp [refVe, tab])
    have e6 := f 1 6 3 (by decide) (by decide) (by decide) (by simp [refVe, tab])
    have e7 := f 1 7 3 (by decide) (by decide) (by decide) (by simp [refVe, tab])
    simp [refToPhy, sumN_succ, sumN_zero, shHex, e2, e3, e4, e5, e6, e7]; ring
  · have e2 := f 2 2 0 (by decide) (by decide) (by decide) (by simp [refVe, tab])
    have e3 := f 2 1 0 (by decide) (by decide) (by decide) (by simp [refVe, tab])
    have e4 := f 2 3 0 (by decide) (by decide) (by decide) (by simp [refVe, tab])
    have e5 := f 2 5 4 (by decide) (by decide) (by decide) (by simp [refVe, tab])
    have e6 := f 2 6 4 (by decide) (by decide) (by decide) (by simp [refVe, tab])
    have e7 := f 2 7 4 (by decide) (by decide) (by decide) (by simp [refVe, tab])
    simp [refToPhy, sumN_succ, sumN_zero, shHex, e2, e3, e4, e5, e6, e7]; ring

/-- C90: for cuboids parallel to the axes the rule is exact for polynomials of degree up to `2 n - 1` in each variable: it
returns the integral over the cuboid. -/
theorem C90_hex {pair : Nat → Nat → ℝ × ℝ} {n : Nat} (hn : 0 < n) (h : Gauss pair n) {tol : ℝ} {ves : Nat → Nat → ℝ}
    (ha : AxisAligned .hex ves) (hdet : tol < (ves 0 1 - ves 0 0) * (ves 1 3 - ves 1 0) * (ves 2 4 - ves 2 0)) :
    ∃ qs, qptsHex tol pair n ves = some qs ∧ qs.length = n * n * n ∧
      ∀ g : MvPolynomial (Fin 3) ℝ, (∀ i, g.degreeOf i < 2 * n) →
      rule qs (val g) = ∫ x in ves 0 0..ves 0 1, ∫ y in ves 1 0..ves 1 3, ∫ z in ves 2 0..ves 2 4, val g x y z := by
  have hr := C90_line1 h
  generalize hR : gl pair n = r at hr
  have hp : ∀ q1 q2 q3, hexPt tol ves q1 q2 q3 = some ⟨ves 0 0 + (ves 0 1 - ves 0 0) * q3.1, ves 1 0 + (ves 1 3 - ves 1 0) * q2.1,
      ves 2 0 + (ves 2 4 - ves 2 0) * q1.1,
      q1.2 * q2.2 * q3.2 * ((ves 0 1 - ves 0 0) * (ves 1 3 - ves 1 0) * (ves 2 4 - ves 2 0))⟩ := by
    intro q1 q2 q3
    obtain ⟨e0, e1, e2⟩ := hex_axis ha (fun d => if d = 0 then q3.1 else if d = 1 then q2.1 else q1.1)
    simp only [hexPt, e0, e1, e2, C88_detHex ves ha, hdet, check]
    simp [hdet]
  refine ⟨_, qptsHex_eq pair hn hp, ?_, fun g hg => ?_⟩
  · simp [gl, List.length_flatMap, Function.comp_def, Nat.mul_assoc]
  rw [rule_val]
  simp only [val_eq]
  have i1 : ∀ x y : ℝ, ∫ z in ves 2 0..ves 2 4, ∑ d ∈ g.support, coeff d g * (x ^ d 0 * y ^ d 1 * z ^ d 2) =
      ∑ d ∈ g.support, coeff d g * (x ^ d 0 * y ^ d 1 * ∫ z in ves 2 0..ves 2 4, z ^ d 2) := by
    intro x y
    rw [int_sum g.support (fun d => coeff d g) (fun d z => x ^ d 0 * y ^ d 1 * z ^ d 2) _ _ (fun d _ => by fun_prop)]
    simp only [intervalIntegral.integral_const_mul]
  have i2 : ∀ x : ℝ, ∫ y in ves 1 0..ves 1 3, ∑ d ∈ g.support, coeff d g * (x ^ d 0 * y ^ d 1 * ∫ z in ves 2 0..ves 2 4, z ^ d 2) =
      ∑ d ∈ g.support, coeff d g * (x ^ d 0 * ((∫ y in ves 1 0..ves 1 3, y ^ d 1) * ∫ z in ves 2 0..ves 2 4, z ^ d 2)) := by
    intro x
    rw [int_sum g.support (fun d => coeff d g) (fun d y => x ^ d 0 * y ^ d 1 * ∫ z in ves 2 0..ves 2 4, z ^ d 2) _ _
      (fun d _ => by fun_prop)]
    simp only [mul_assoc, intervalIntegral.integral_const_mul, intervalIntegral.integral_mul_const]
  simp only [i1, i2]
  rw [int_sum g.support (fun d => coeff d g) (fun d x => x ^ d 0 * ((∫ y in ves 1 0..ves 1 3, y ^ d 1) *
    ∫ z in ves 2 0..ves 2 4, z ^ d 2)) _ _ (fun d _ => by fun_prop)]
  refine Finset.sum_congr rfl (fun d hd => ?_)
  have hdeg : ∀ i, d i < 2 * n := fun i => lt_of_le_of_lt (by
    rw [degreeOf_eq_sup]; exact Finset.le_sup (f := fun m => m i) hd) (hg i)
  rw [hR, sum_prod3 r _ _ (fun s => (ves 2 0 + (ves 2 4 - ves 2 0) * s) ^ d 2) (fun s => (ves 1 0 + (ves 1 3 - ves 1 0) * s) ^ d 1)
    (fun s => (ves 0 0 + (ves 0 1 - ves 0 0) * s) ^ d 0) ((ves 0 1 - ves 0 0) * (ves 1 3 - ves 1 0) * (ves 2 4 - ves 2 0))
    (by intro q1 q2 q3; simp only; ring), hr.pow _ _ (hdeg 2), hr.pow _ _ (hdeg 1), hr.pow _ _ (hdeg 0)]
  simp only [intervalIntegral.integral_mul_const]
  rw [← integral_scale (ves 0 0) (ves 0 1), ← integral_scale (ves 1 0) (ves 1 3), ← integral_scale (ves 2 0) (ves 2 4)]; ring

/-! ### Triangles -/

theorem integral_pow0 (a : Nat) (u : ℝ) : ∫ x in (0 : ℝ)..u, x ^ a = u ^ (a + 1) / (a + 1) := by
  rw [integral_pow]; simp

/-- C90: for triangles the rule is exact for polynomials of total degree up to `2 n - 2`: it returns the integral over the
triangle, written as the determinant times the integral over the reference triangle. -/
theorem C90_tria {pair : Nat → Nat → ℝ × ℝ} {n : Nat} (hn : 0 < n) (h : Gauss pair n) {tol : ℝ} {ves : Nat → Nat → ℝ}
    (hdet : tol < jDet .tria ves) :
    ∃ qs, qptsTria tol pair n ves = some qs ∧ qs.length = n * n ∧ ∀ f : MvPolynomial (Fin 3) ℝ, f.totalDegree + 1 < 2 * n →
      rule qs (val f) = jDet .tria ves * ∫ y in (0 : ℝ)..1, ∫ x in (0 : ℝ)..(1 - y),
        val f (refToPhy .tria ves (fun d => if d = 0 then x else y) 0) (refToPhy .tria ves (fun d => if d = 0 then x else y) 1) 0 := by
  have hr := C90_line1 h
  generalize hR : gl pair n = r at hr
  have hp : ∀ q, triaPt tol ves q = some ⟨refToPhy .tria ves (fun d => if d = 0 then q.1 else q.2.1) 0,
      refToPhy .tria ves (fun d => if d = 0 then q.1 else q.2.1) 1, 0, q.2.2 * jDet .tria ves⟩ := by
    intro q
    have : tol < Linalg.det2 (fun i j : Fin 2 => evalJac .tria ves i j) := hdet
    simp only [triaPt, check, this, jDet]; simp
  refine ⟨_, qptsTria_eq pair hn hp, ?_, fun f hf => ?_⟩
  · simp [gl, List.length_flatMap, Function.comp_def]
  -- the polynomial on the reference triangle
  obtain ⟨f', hdeg, hf'⟩ := val_affine f (fun i j => if i = 2 then 0 else if j = 0 then ves i 0 else if j = 1 then ves i 1 - ves i 0
    else if j = 2 then ves i 2 - ves i 0 else 0)
  have key : ∀ x y : ℝ, val f (refToPhy .tria ves (fun d => if d = 0 then x else y) 0)
      (refToPhy .tria ves (fun d => if d = 0 then x else y) 1) 0 = val f' x y 0 := by
    intro x y; rw [hf']; congr 1 <;> simp [refToPhy, sumN_succ, sumN_zero, shTria] <;> ring
  simp only [key]
  rw [rule2_congr (g' := fun q1 q2 => ⟨q1.1 * (1 - q2.1), q2.1, 0, q1.2 * (q2.2 * (1 - q2.1))⟩) (f' := val f') (c := jDet .tria ves), hR]
  · congr 1
    rw [rule_val]
    simp only [val_eq]
    have i1 : ∀ y : ℝ, ∫ x in (0 : ℝ)..(1 - y), ∑ d ∈ f'.support, coeff d f' * (x ^ d 0 * y ^ d 1 * 0 ^ d 2) =
        ∑ d ∈ f'.support, coeff d f' * ((1 - y) ^ (d 0 + 1) / ((d 0 : ℕ) + 1) * (y ^ d 1 * 0 ^ d 2)) := by
      intro y
      rw [int_sum f'.support (fun d => coeff d f') (fun d x => x ^ d 0 * y ^ d 1 * 0 ^ d 2) _ _ (fun d _ => by fun_prop)]
      simp only [mul_assoc, intervalIntegral.integral_mul_const, integral_pow0]
    simp only [i1]
    rw [int_sum f'.support (fun d => coeff d f') (fun d y => (1 - y) ^ (d 0 + 1) / ((d 0 : ℕ) + 1) * (y ^ d 1 * 0 ^ d 2)) _ _
      (fun d _ => by fun_prop)]
    refine Finset.sum_congr rfl (fun d hd => ?_)
    have ht : d 0 + d 1 + d 2 < 2 * n - 1 := by
      have := le_totalDegree hd
      rw [Finsupp.sum_fintype _ _ (fun _ => rfl), Fin.sum_univ_three] at this
      omega
    rw [sum_prod2 r _ _ (fun s => s ^ d 0) (fun s => s ^ d 1 * (1 - s) ^ (d 0 + 1)) (0 ^ d 2)
      (by intro q1 q2; simp only; generalize 1 - q2.1 = u; ring), hr.beta (by omega)]
    have e0 := hr.pow 0 1 (a := d 0) (by omega)
    simp only [zero_add, one_mul] at e0
    rw [e0, integral_pow0]
    congr 1
    rw [← intervalIntegral.integral_const_mul]
    congr 1
    funext y
    simp only [one_pow]
    generalize 1 - y = u
    ring
  · intro q1 q2
    simp only [key, triaRef, toSym]
    have e1 : (q1.1 * 2 - 1 + 1) * (q2.1 * 2 - 1 - 1) / (-4) = q1.1 * (1 - q2.1) := by ring
    have e2 : (q2.1 * 2 - 1 + 1) / 2 = q2.1 := by ring
    rw [e1, e2]; ring

/-! ### Tetrahedra -/

theorem integral_beta_scale (a b : Nat) (u : ℝ) :
    ∫ y in (0 : ℝ)..u, y ^ b * (u - y) ^ a = u ^ (a + b + 1) * ∫ t in (0 : ℝ)..1, t ^ b * (1 - t) ^ a := by
  have := intervalIntegral.mul_integral_comp_mul_left (a := 0) (b := 1) (f := fun y => y ^ b * (u - y) ^ a) u
  rw [mul_zero, mul_one] at this
  rw [← this, ← intervalIntegral.integral_const_mul, ← intervalIntegral.integral_const_mul]
  congr 1
  funext t
  rw [show u - u * t = u * (1 - t) by ring]
  generalize 1 - t = v
  ring

/-- C90: for tetrahedra the rule is exact for polynomials of total degree up to `2 n - 3`: it returns the integral over the
tetrahedron, written as the determinant times the integral over the reference tetrahedron. -/
theorem C90_tet {pair : Nat → Nat → ℝ × ℝ} {n : Nat} (hn : 0 < n) (h : Gauss pair n) {tol : ℝ} {ves : Nat → Nat → ℝ}
    (hdet : tol < jDet .tet ves) :
    ∃ qs, qptsTet tol pair n ves = some qs ∧ qs.length = n * n * n ∧ ∀ f : MvPolynomial (Fin 3) ℝ, f.totalDegree + 2 < 2 * n →
      rule qs (val f) = jDet .tet ves * ∫ z in (0 : ℝ)..1, ∫ y in (0 : ℝ)..(1 - z), ∫ x in (0 : ℝ)..(1 - z - y),
        val f (refToPhy .tet ves (fun d => if d = 0 then x else if d = 1 then y else z) 0)
          (refToPhy .tet ves (fun d => if d = 0 then x else if d = 1 then y else z) 1)
          (refToPhy .tet ves (fun d => if d = 0 then x else if d = 1 then y else z) 2) := by
  have hr := C90_line1 h
  generalize hR : gl pair n = r at hr
  have hp : ∀ q, tetPt tol ves q = some ⟨refToPhy .tet ves (fun d => if d = 0 then q.1 else if d = 1 then q.2.1 else q.2.2.1) 0,
      refToPhy .tet ves (fun d => if d = 0 then q.1 else if d = 1 then q.2.1 else q.2.2.1) 1,
      refToPhy .tet ves (fun d => if d = 0 then q.1 else if d = 1 then q.2.1 else q.2.2.1) 2, q.2.2.2 * jDet .tet ves⟩ := by
    intro q
    have : tol < Linalg.det3 (fun i j : Fin 3 => evalJac .tet ves i j) := hdet
    simp only [tetPt, check, this, jDet]; simp
  refine ⟨_, qptsTet_eq pair hn hp, ?_, fun f hf => ?_⟩
  · simp [gl, List.length_flatMap, Function.comp_def, Nat.mul_assoc]
  obtain ⟨f', hdeg, hf'⟩ := val_affine f (fun i j => if j = 0 then ves i 0 else if j = 1 then ves i 1 - ves i 0
    else if j = 2 then ves i 2 - ves i 0 else ves i 3 - ves i 0)
  have key : ∀ x y z : ℝ, val f (refToPhy .tet ves (fun d => if d = 0 then x else if d = 1 then y else z) 0)
      (refToPhy .tet ves (fun d => if d = 0 then x else if d = 1 then y else z) 1)
      (refToPhy .tet ves (fun d => if d = 0 then x else if d = 1 then y else z) 2) = val f' x y z := by
    intro x y z; rw [hf']; congr 1 <;> simp [refToPhy, sumN_succ, sumN_zero, shTet] <;> ring
  simp only [key]
  rw [rule3_congr (g' := fun q1 q2 q3 => ⟨q1.1 * (1 - q2.1) * (1 - q3.1), q2.1 * (1 - q3.1), q3.1,
    q1.2 * (q2.2 * (1 - q2.1)) * (q3.2 * (1 - q3.1) ^ 2)⟩) (f' := val f') (c := jDet .tet ves), hR]
  · congr 1
    rw [rule_val]
    simp only [val_eq]
    have i1 : ∀ y z : ℝ, ∫ x in (0 : ℝ)..(1 - z - y), ∑ d ∈ f'.support, coeff d f' * (x ^ d 0 * y ^ d 1 * z ^ d 2) =
        ∑ d ∈ f'.support, coeff d f' * ((1 - z - y) ^ (d 0 + 1) / ((d 0 : ℕ) + 1) * (y ^ d 1 * z ^ d 2)) := by
      intro y z
      rw [int_sum f'.support (fun d => coeff d f') (fun d x => x ^ d 0 * y ^ d 1 * z ^ d 2) _ _ (fun d _ => by fun_prop)]
      simp only [mul_assoc, intervalIntegral.integral_mul_const, integral_pow0]
    have i2 : ∀ z : ℝ, ∫ y in (0 : ℝ)..(1 - z), ∑ d ∈ f'.support, coeff d f' *
          ((1 - z - y) ^ (d 0 + 1) / ((d 0 : ℕ) + 1) * (y ^ d 1 * z ^ d 2)) =
        ∑ d ∈ f'.support, coeff d f' * ((z ^ d 2 * (1 - z) ^ (d 0 + 1 + d 1 + 1)) *
          ((1 / ((d 0 : ℕ) + 1)) * ∫ t in (0 : ℝ)..1, t ^ d 1 * (1 - t) ^ (d 0 + 1))) := by
      intro z
      rw [int_sum f'.support (fun d => coeff d f') (fun d y => (1 - z - y) ^ (d 0 + 1) / ((d 0 : ℕ) + 1) * (y ^ d 1 * z ^ d 2)) _ _
        (fun d _ => by fun_prop)]
      refine Finset.sum_congr rfl (fun d _ => ?_)
      congr 1
      have := integral_beta_scale (d 0 + 1) (d 1) (1 - z)
      rw [show (fun y : ℝ => (1 - z - y) ^ (d 0 + 1) / ((d 0 : ℕ) + 1) * (y ^ d 1 * z ^ d 2)) =
        fun y => (z ^ d 2 * (1 / ((d 0 : ℕ) + 1))) * (y ^ d 1 * (1 - z - y) ^ (d 0 + 1)) by
          funext y; generalize 1 - z - y = u; ring]
      rw [intervalIntegral.integral_const_mul, this]
      generalize (1 - z) = u
      ring
    simp only [i1, i2]
    rw [int_sum f'.support (fun d => coeff d f') (fun d z => (z ^ d 2 * (1 - z) ^ (d 0 + 1 + d 1 + 1)) *
          ((1 / ((d 0 : ℕ) + 1)) * ∫ t in (0 : ℝ)..1, t ^ d 1 * (1 - t) ^ (d 0 + 1))) _ _
      (fun d _ => by fun_prop)]
    refine Finset.sum_congr rfl (fun d hd => ?_)
    have ht : d 0 + d 1 + d 2 + 2 < 2 * n := by
      have := le_totalDegree hd
      rw [Finsupp.sum_fintype _ _ (fun _ => rfl), Fin.sum_univ_three] at this
      omega
    rw [sum_prod3 r _ _ (fun s => s ^ d 0) (fun s => s ^ d 1 * (1 - s) ^ (d 0 + 1))
      (fun s => s ^ d 2 * (1 - s) ^ (d 0 + 1 + d 1 + 1)) 1
      (by intro q1 q2 q3; simp only; generalize 1 - q2.1 = u; generalize 1 - q3.1 = v; ring), hr.beta (by omega), hr.beta (by omega)]
    have e0 := hr.pow 0 1 (a := d 0) (by omega)
    simp only [zero_add, one_mul] at e0
    rw [e0, integral_pow0, intervalIntegral.integral_mul_const]
    simp only [one_pow]
    ring
  · intro q1 q2 q3
    simp only [key, tetRef, toSym]
    have e1 : (q1.1 * 2 - 1 + 1) * (q2.1 * 2 - 1 - 1) * (q3.1 * 2 - 1 - 1) / 8 = q1.1 * (1 - q2.1) * (1 - q3.1) := by ring
    have e2 : (q2.1 * 2 - 1 + 1) * (q3.1 * 2 - 1 - 1) / (-4) = q2.1 * (1 - q3.1) := by ring
    have e3 : (q3.1 * 2 - 1 + 1) / 2 = q3.1 := by ring
    rw [e1, e2, e3]; ring

end Edge.Quad
