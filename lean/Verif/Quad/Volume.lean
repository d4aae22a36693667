import Verif.Quad.Elements
/-!
Quadrature points and weights: sums of the weights, positions of the points, and rules which meet the assumption: C90.
-/
namespace Edge.Quad
open Edge Edge.Map MvPolynomial

/-! ### Volume -/

/-- Sum of the weights. -/
def wSum (qs : List (Qp ℝ)) : ℝ := (qs.map (fun q => q.w)).sum

theorem rule_one (qs : List (Qp ℝ)) : rule qs (val 1) = wSum qs := by
  simp [rule, val, wSum]

/-- C90: the weights of triangles add up to the area. -/
theorem C90_areaTria {pair : Nat → Nat → ℝ × ℝ} {n : Nat} (hn : 0 < n) (h : Gauss pair n) {tol : ℝ} {ves : Nat → Nat → ℝ}
    (hdet : tol < jDet .tria ves) {qs : List (Qp ℝ)} (hq : qptsTria tol pair n ves = some qs) : wSum qs = jDet .tria ves / 2 := by
  obtain ⟨qs', e, -, hf⟩ := C90_tria hn h hdet
  obtain rfl : qs = qs' := Option.some.inj (hq.symm.trans e)
  have := hf 1 (by rw [totalDegree_one]; omega)
  rw [rule_one] at this
  rw [this]
  simp only [val, map_one, intervalIntegral.integral_const, smul_eq_mul, mul_one, sub_zero]
  rw [intervalIntegral.integral_sub (by simp) (by simp)]
  simp [integral_id]; ring

/-- C90: the weights of tetrahedra add up to the volume if there are at least two points in each dimension. -/
theorem C90_volumeTet {pair : Nat → Nat → ℝ × ℝ} {n : Nat} (hn : 2 ≤ n) (h : Gauss pair n) {tol : ℝ} {ves : Nat → Nat → ℝ}
    (hdet : tol < jDet .tet ves) {qs : List (Qp ℝ)} (hq : qptsTet tol pair n ves = some qs) : wSum qs = jDet .tet ves / 6 := by
  obtain ⟨qs', e, -, hf⟩ := C90_tet (by omega) h hdet
  obtain rfl : qs = qs' := Option.some.inj (hq.symm.trans e)
  have := hf 1 (by rw [totalDegree_one]; omega)
  rw [rule_one] at this
  rw [this]
  simp only [val, map_one, intervalIntegral.integral_const, smul_eq_mul, mul_one, sub_zero]
  have e1 : ∀ z : ℝ, ∫ y in (0 : ℝ)..(1 - z), (1 - z - y) = (1 - z) ^ 2 / 2 := by
    intro z
    rw [intervalIntegral.integral_sub (by simp) (by simp)]
    simp [integral_id]; ring
  simp only [e1]
  have e2 : ∫ z in (0 : ℝ)..1, (1 - z) ^ 2 / 2 = 1 / 6 := by
    rw [intervalIntegral.integral_div, intervalIntegral.integral_comp_sub_left (fun z => z ^ 2) 1]
    simp; norm_num
  rw [e2]; ring

/-- C90: the weights of cuboids add up to the volume. -/
theorem C90_volumeHex {pair : Nat → Nat → ℝ × ℝ} {n : Nat} (hn : 0 < n) (h : Gauss pair n) {tol : ℝ} {ves : Nat → Nat → ℝ}
    (ha : AxisAligned .hex ves) (hdet : tol < (ves 0 1 - ves 0 0) * (ves 1 3 - ves 1 0) * (ves 2 4 - ves 2 0))
    {qs : List (Qp ℝ)} (hq : qptsHex tol pair n ves = some qs) :
    wSum qs = (ves 0 1 - ves 0 0) * (ves 1 3 - ves 1 0) * (ves 2 4 - ves 2 0) := by
  obtain ⟨qs', e, -, hf⟩ := C90_hex hn h ha hdet
  obtain rfl : qs = qs' := Option.some.inj (hq.symm.trans e)
  have := hf 1 (by intro i; rw [← C_1, degreeOf_C]; omega)
  rw [rule_one] at this
  rw [this]
  simp only [val, map_one, intervalIntegral.integral_const, smul_eq_mul, mul_one]; ring

/-- C90: the weights of rectangles add up to the area. -/
theorem C90_areaQuad {pair : Nat → Nat → ℝ × ℝ} {n : Nat} (hn : 0 < n) (h : Gauss pair n) {tol : ℝ} {ves : Nat → Nat → ℝ}
    {lo hi : Nat → ℝ} (hb : Bounds ves lo hi) {a b f : Nat} (hd : (a, b, f) = (0, 1, 2) ∨ (a, b, f) = (0, 2, 1) ∨ (a, b, f) = (1, 2, 0))
    (ha : tol < hi a - lo a) (hbb : tol < hi b - lo b) (hf : hi f - lo f ≤ tol) (hdet : tol < (hi a - lo a) * (hi b - lo b))
    {qs : List (Qp ℝ)} (hq : qptsQuad tol pair n ves = some qs) : wSum qs = (hi a - lo a) * (hi b - lo b) := by
  obtain ⟨qs', e, -, hg⟩ := C90_quad hn h hb hd ha hbb hf hdet
  obtain rfl : qs = qs' := Option.some.inj (hq.symm.trans e)
  have := hg 1 (by intro i; rw [← C_1, degreeOf_C]; omega)
  rw [rule_one] at this
  rw [this]
  simp only [val, map_one, intervalIntegral.integral_const, smul_eq_mul, mul_one]

/-! ### Points -/

/-- What is assumed about the library's points: they lie in [-1,1] and the weights are not negative. -/
def Inner (pair : Nat → Nat → ℝ × ℝ) (n : Nat) : Prop :=
  ∀ k, 1 ≤ k → k ≤ n → -1 ≤ (pair n k).1 ∧ (pair n k).1 ≤ 1 ∧ 0 ≤ (pair n k).2

theorem Inner.gl {pair : Nat → Nat → ℝ × ℝ} {n : Nat} (h : Inner pair n) {q : ℝ × ℝ} (hq : q ∈ gl pair n) :
    0 ≤ q.1 ∧ q.1 ≤ 1 ∧ 0 ≤ q.2 := by
  simp only [Quad.gl, List.mem_map, List.mem_range] at hq
  obtain ⟨k, hk, rfl⟩ := hq
  obtain ⟨h1, h2, h3⟩ := h (n - k) (by omega) (by omega)
  simp only [glStep]
  refine ⟨?_, ?_, ?_⟩ <;> linarith

/-- C90: the quadrature points of triangles lie in the triangle and the weights are not negative. -/
theorem C90_pointsTria {pair : Nat → Nat → ℝ × ℝ} {n : Nat} (hn : 0 < n) (h : Inner pair n) {tol : ℝ} (ht : 0 ≤ tol)
    {ves : Nat → Nat → ℝ} (hdet : tol < jDet .tria ves) {qs : List (Qp ℝ)} (hq : qptsTria tol pair n ves = some qs)
    {q : Qp ℝ} (hm : q ∈ qs) : InElem .tria ves (fun d => if d = 0 then q.x else q.y) ∧ 0 ≤ q.w := by
  have hp : ∀ q, triaPt tol ves q = some ⟨refToPhy .tria ves (fun d => if d = 0 then q.1 else q.2.1) 0,
      refToPhy .tria ves (fun d => if d = 0 then q.1 else q.2.1) 1, 0, q.2.2 * jDet .tria ves⟩ := by
    intro q
    have : tol < Linalg.det2 (fun i j : Fin 2 => evalJac .tria ves i j) := hdet
    simp only [triaPt, check, this, jDet]; simp
  rw [qptsTria_eq pair hn hp, Option.some.injEq] at hq
  subst hq
  simp only [List.mem_flatMap, List.mem_map] at hm
  obtain ⟨q1, hq1, q2, hq2, rfl⟩ := hm
  obtain ⟨a1, a2, a3⟩ := h.gl hq1
  obtain ⟨b1, b2, b3⟩ := h.gl hq2
  have e1 : (q1.1 * 2 - 1 + 1) * (q2.1 * 2 - 1 - 1) / (-4) = q1.1 * (1 - q2.1) := by ring
  have e2 : (q2.1 * 2 - 1 + 1) / 2 = q2.1 := by ring
  have e3 : q1.2 * 2 * (q2.2 * 2) * (q2.1 * 2 - 1 - 1) / (-8) = q1.2 * q2.2 * (1 - q2.1) := by ring
  have c : 0 ≤ 1 - q2.1 := by linarith
  simp only [triaRef, toSym, e1, e2, e3]
  refine ⟨⟨fun d => if d = 0 then q1.1 * (1 - q2.1) else q2.1, ?_, ?_⟩, mul_nonneg (by positivity) (le_of_lt (lt_of_le_of_lt ht hdet))⟩
  · intro d hd
    have : d = 0 ∨ d = 1 := by simp only [Ent.nDim] at hd; omega
    rcases this with rfl | rfl <;> simp
  · intro fa hfa
    have h2 : q1.1 * (1 - q2.1) ≤ 1 * (1 - q2.1) := mul_le_mul_of_nonneg_right a2 c
    have : fa = 0 ∨ fa = 1 ∨ fa = 2 := by simp only [Ent.nFa] at hfa; omega
    rcases this with rfl | rfl | rfl
    · simpa [lam] using b1
    · simp [lam]; linarith
    · simp only [lam, if_true]; positivity

/-- C90: the quadrature points of tetrahedra lie in the tetrahedron and the weights are not negative. -/
theorem C90_pointsTet {pair : Nat → Nat → ℝ × ℝ} {n : Nat} (hn : 0 < n) (h : Inner pair n) {tol : ℝ} (ht : 0 ≤ tol)
    {ves : Nat → Nat → ℝ} (hdet : tol < jDet .tet ves) {qs : List (Qp ℝ)} (hq : qptsTet tol pair n ves = some qs)
    {q : Qp ℝ} (hm : q ∈ qs) : InElem .tet ves (fun d => if d = 0 then q.x else if d = 1 then q.y else q.z) ∧ 0 ≤ q.w := by
  have hp : ∀ q, tetPt tol ves q = some ⟨refToPhy .tet ves (fun d => if d = 0 then q.1 else if d = 1 then q.2.1 else q.2.2.1) 0,
      refToPhy .tet ves (fun d => if d = 0 then q.1 else if d = 1 then q.2.1 else q.2.2.1) 1,
      refToPhy .tet ves (fun d => if d = 0 then q.1 else if d = 1 then q.2.1 else q.2.2.1) 2, q.2.2.2 * jDet .tet ves⟩ := by
    intro q
    have : tol < Linalg.det3 (fun i j : Fin 3 => evalJac .tet ves i j) := hdet
    simp only [tetPt, check, this, jDet]; simp
  rw [qptsTet_eq pair hn hp, Option.some.injEq] at hq
  subst hq
  simp only [List.mem_flatMap, List.mem_map] at hm
  obtain ⟨q1, hq1, q2, hq2, q3, hq3, rfl⟩ := hm
  obtain ⟨a1, a2, a3⟩ := h.gl hq1
  obtain ⟨b1, b2, b3⟩ := h.gl hq2
  obtain ⟨c1, c2, c3⟩ := h.gl hq3
  have e1 : (q1.1 * 2 - 1 + 1) * (q2.1 * 2 - 1 - 1) * (q3.1 * 2 - 1 - 1) / 8 = q1.1 * (1 - q2.1) * (1 - q3.1) := by ring
  have e2 : (q2.1 * 2 - 1 + 1) * (q3.1 * 2 - 1 - 1) / (-4) = q2.1 * (1 - q3.1) := by ring
  have e3 : (q3.1 * 2 - 1 + 1) / 2 = q3.1 := by ring
  have e4 : q1.2 * 2 * (q2.2 * 2) * (q3.2 * 2) * (q2.1 * 2 - 1 - 1) * (q3.1 * 2 - 1 - 1) * (q3.1 * 2 - 1 - 1) / (-64) =
    q1.2 * q2.2 * q3.2 * (1 - q2.1) * (1 - q3.1) ^ 2 := by ring
  have c : 0 ≤ 1 - q2.1 := by linarith
  have d : 0 ≤ 1 - q3.1 := by linarith
  simp only [tetRef, toSym, e1, e2, e3, e4]
  refine ⟨⟨fun d => if d = 0 then q1.1 * (1 - q2.1) * (1 - q3.1) else if d = 1 then q2.1 * (1 - q3.1) else q3.1, ?_, ?_⟩,
    mul_nonneg (by positivity) (le_of_lt (lt_of_le_of_lt ht hdet))⟩
  · intro d hd
    have : d = 0 ∨ d = 1 ∨ d = 2 := by simp only [Ent.nDim] at hd; omega
    rcases this with rfl | rfl | rfl <;> simp
  · intro fa hfa
    have h2 : q1.1 * ((1 - q2.1) * (1 - q3.1)) ≤ 1 * ((1 - q2.1) * (1 - q3.1)) := mul_le_mul_of_nonneg_right a2 (mul_nonneg c d)
    have : fa = 0 ∨ fa = 1 ∨ fa = 2 ∨ fa = 3 := by simp only [Ent.nFa] at hfa; omega
    rcases this with rfl | rfl | rfl | rfl
    · simpa [lam] using c1
    · simp only [lam, one_ne_zero, if_true, if_false]; positivity
    · simp only [lam, if_true]; positivity
    · simp [lam]; nlinarith

/-- C90: the quadrature points of cuboids lie in the cuboid and the weights are not negative. -/
theorem C90_pointsHex {pair : Nat → Nat → ℝ × ℝ} {n : Nat} (hn : 0 < n) (h : Inner pair n) {tol : ℝ} (ht : 0 ≤ tol)
    {ves : Nat → Nat → ℝ} (hdet : tol < jDet .hex ves) {qs : List (Qp ℝ)} (hq : qptsHex tol pair n ves = some qs)
    {q : Qp ℝ} (hm : q ∈ qs) : InElem .hex ves (fun d => if d = 0 then q.x else if d = 1 then q.y else q.z) ∧ 0 ≤ q.w := by
  have hp : ∀ q1 q2 q3, hexPt tol ves q1 q2 q3 = some
      ⟨refToPhy .hex ves (fun d => if d = 0 then q3.1 else if d = 1 then q2.1 else q1.1) 0,
      refToPhy .hex ves (fun d => if d = 0 then q3.1 else if d = 1 then q2.1 else q1.1) 1,
      refToPhy .hex ves (fun d => if d = 0 then q3.1 else if d = 1 then q2.1 else q1.1) 2, q1.2 * q2.2 * q3.2 * jDet .hex ves⟩ := by
    intro q1 q2 q3
    have : tol < Linalg.det3 (fun i j : Fin 3 => evalJac .hex ves i j) := hdet
    simp only [hexPt, check, this, jDet]; simp
  rw [qptsHex_eq pair hn hp, Option.some.injEq] at hq
  subst hq
  simp only [List.mem_flatMap, List.mem_map] at hm
  obtain ⟨q1, hq1, q2, hq2, q3, hq3, rfl⟩ := hm
  obtain ⟨a1, a2, a3⟩ := h.gl hq1
  obtain ⟨b1, b2, b3⟩ := h.gl hq2
  obtain ⟨c1, c2, c3⟩ := h.gl hq3
  refine ⟨⟨fun d => if d = 0 then q3.1 else if d = 1 then q2.1 else q1.1, ?_, ?_⟩,
    mul_nonneg (by positivity) (le_of_lt (lt_of_le_of_lt ht hdet))⟩
  · intro d hd
    have : d = 0 ∨ d = 1 ∨ d = 2 := by simp only [Ent.nDim] at hd; omega
    rcases this with rfl | rfl | rfl <;> simp
  · intro fa hfa
    have : fa = 0 ∨ fa = 1 ∨ fa = 2 ∨ fa = 3 ∨ fa = 4 ∨ fa = 5 := by simp only [Ent.nFa] at hfa; omega
    rcases this with rfl | rfl | rfl | rfl | rfl | rfl <;> simp [lam, *]

/-! ### The rules of Gauss with one and two points -/

/-- The rule with one point and the one with two points. -/
noncomputable def exPair (n k : Nat) : ℝ × ℝ :=
  if n = 1 then (0, 2) else (if k = 1 then (1 / Real.sqrt 3) else -(1 / Real.sqrt 3), 1)

theorem exGauss1 : Gauss exPair 1 := by
  intro p hp
  obtain ⟨a, b, rfl⟩ := Polynomial.exists_eq_X_add_C_of_natDegree_le_one (by omega : p.natDegree ≤ 1)
  simp only [List.range_one, List.map_cons, List.map_nil, List.sum_cons, List.sum_nil, exPair, if_true]
  simp only [Polynomial.eval_add, Polynomial.eval_mul, Polynomial.eval_C, Polynomial.eval_X]
  rw [intervalIntegral.integral_add (by apply Continuous.intervalIntegrable; fun_prop) (by simp),
    intervalIntegral.integral_const_mul, integral_id, intervalIntegral.integral_const, smul_eq_mul]
  ring

theorem exGauss2 : Gauss exPair 2 := by
  intro p hp
  have he : ∀ x, p.eval x = ∑ i ∈ Finset.range 4, p.coeff i * x ^ i := fun x => Polynomial.eval_eq_sum_range' (by omega) x
  simp only [he, Finset.sum_range_succ, Finset.sum_range_zero, zero_add]
  rw [intervalIntegral.integral_add (by apply Continuous.intervalIntegrable; fun_prop) (by apply Continuous.intervalIntegrable; fun_prop),
    intervalIntegral.integral_add (by apply Continuous.intervalIntegrable; fun_prop) (by apply Continuous.intervalIntegrable; fun_prop),
    intervalIntegral.integral_add (by apply Continuous.intervalIntegrable; fun_prop) (by apply Continuous.intervalIntegrable; fun_prop)]
  simp only [intervalIntegral.integral_const_mul, integral_pow]
  simp only [List.range_succ, List.range_zero, List.nil_append, List.map_append, List.map_cons, List.map_nil, List.sum_append,
    List.sum_cons, List.sum_nil, exPair]
  have h3' : (Real.sqrt 3)⁻¹ ^ 2 = 3⁻¹ := by rw [inv_pow, Real.sq_sqrt (by norm_num)]
  generalize Real.sqrt 3 = s at *
  norm_num
  linear_combination (p.coeff 2 * 2) * h3'

theorem exInner (n : Nat) : Inner exPair n := by
  intro k _ _
  have h1 : 0 < Real.sqrt 3 := by positivity
  have h2 : 1 ≤ Real.sqrt 3 := by rw [Real.one_le_sqrt]; norm_num
  have h3 : 1 / Real.sqrt 3 ≤ 1 := by rw [div_le_one h1]; exact h2
  have h4 : 0 ≤ 1 / Real.sqrt 3 := by positivity
  simp only [exPair]
  split
  · norm_num
  · split <;> refine ⟨?_, ?_, ?_⟩ <;> simp only <;> linarith

theorem exDet : jDet .tet (refVe .tet : Nat → Nat → ℝ) = 1 := by
  simp only [jDet, C88_detTet]; simp [refVe, tab, Mesh.det3, pt3]

theorem exDetTria : jDet .tria (refVe .tria : Nat → Nat → ℝ) = 1 := by
  simp only [jDet, C88_detTria]; simp [refVe, tab, Mesh.det2, pt3]

/-- C90 fails for tetrahedra and one point: the code's remark says that the weights add up to the volume of the element; for
the reference tetrahedron they add up to 1/8 instead of 1/6. -/
theorem C90_onePoint_refuted : ∃ qs, qptsTet (1 / 1000000) exPair 1 (refVe .tet) = some qs ∧ wSum qs = 1 / 8 ∧
    jDet .tet (refVe .tet : Nat → Nat → ℝ) / 6 = 1 / 6 := by
  have hp : ∀ q, tetPt (1 / 1000000) (refVe .tet) q = some
      ⟨refToPhy .tet (refVe .tet) (fun d => if d = 0 then q.1 else if d = 1 then q.2.1 else q.2.2.1) 0,
      refToPhy .tet (refVe .tet) (fun d => if d = 0 then q.1 else if d = 1 then q.2.1 else q.2.2.1) 1,
      refToPhy .tet (refVe .tet) (fun d => if d = 0 then q.1 else if d = 1 then q.2.1 else q.2.2.1) 2, q.2.2.2 * (1 : ℝ)⟩ := by
    intro q
    have h : Linalg.det3 (fun i j : Fin 3 => evalJac .tet (refVe .tet : Nat → Nat → ℝ) i j) = 1 := exDet
    simp only [tetPt, check, h]; norm_num
  refine ⟨_, qptsTet_eq exPair (by decide) hp, ?_, by rw [exDet]⟩
  simp [wSum, gl, glStep, exPair, tetRef, toSym]; norm_num

/-! ### The hypotheses are met -/

example : ∃ qs, qptsTet (1 / 1000000) exPair 2 (refVe .tet) = some qs ∧ qs.length = 8 ∧ wSum qs = 1 / 6 ∧
    ∀ q ∈ qs, InElem .tet (refVe .tet) (fun d => if d = 0 then q.x else if d = 1 then q.y else q.z) := by
  have hd : (1 / 1000000 : ℝ) < jDet .tet (refVe .tet : Nat → Nat → ℝ) := by rw [exDet]; norm_num
  obtain ⟨qs, e, hl, -⟩ := C90_tet (n := 2) (by decide) exGauss2 hd
  exact ⟨qs, e, hl, by rw [C90_volumeTet (by decide) exGauss2 hd e, exDet],
    fun q hq => (C90_pointsTet (by decide) (exInner 2) (by norm_num) hd e hq).1⟩

example : ∃ qs, qptsTria (1 / 1000000) exPair 2 (refVe .tria) = some qs ∧ qs.length = 4 ∧ wSum qs = 1 / 2 ∧
    ∀ q ∈ qs, InElem .tria (refVe .tria) (fun d => if d = 0 then q.x else q.y) := by
  have hd : (1 / 1000000 : ℝ) < jDet .tria (refVe .tria : Nat → Nat → ℝ) := by rw [exDetTria]; norm_num
  obtain ⟨qs, e, hl, -⟩ := C90_tria (n := 2) (by decide) exGauss2 hd
  exact ⟨qs, e, hl, by rw [C90_areaTria (by decide) exGauss2 hd e, exDetTria],
    fun q hq => (C90_pointsTria (by decide) (exInner 2) (by norm_num) hd e hq).1⟩

/-- A cuboid of extents 2, 3 and 4. -/
noncomputable def exBox (d v : Nat) : ℝ := if d = 0 then 2 * refVe .hex 0 v else if d = 1 then 3 * refVe .hex 1 v else 4 * refVe .hex 2 v

example : ∃ qs, qptsHex (1 / 1000000) exPair 2 exBox = some qs ∧ qs.length = 8 ∧ wSum qs = 24 := by
  have ha : AxisAligned .hex exBox := by
    intro d hd v hv w hw he
    have : d = 0 ∨ d = 1 ∨ d = 2 := by simp only [Ent.nDim] at hd; omega
    rcases this with rfl | rfl | rfl <;> simp [exBox, he]
  have e : (exBox 0 1 - exBox 0 0) * (exBox 1 3 - exBox 1 0) * (exBox 2 4 - exBox 2 0) = 24 := by
    simp [exBox, refVe, tab]; norm_num
  obtain ⟨qs, h1, h2, -⟩ := C90_hex (n := 2) (by decide) exGauss2 (tol := 1 / 1000000) ha (by rw [e]; norm_num)
  exact ⟨qs, h1, h2, by rw [C90_volumeHex (by decide) exGauss2 ha (by rw [e]; norm_num) h1, e]⟩

/-- A rectangle of extents 2 and 3 in the plane x = 5. -/
noncomputable def exRect (d v : Nat) : ℝ := if d = 0 then 5 else if d = 1 then (if v = 1 ∨ v = 2 then 2 else 0) else (if v = 2 ∨ v = 3 then 3 else 0)

example : ∃ qs, qptsQuad (1 / 1000000) exPair 2 exRect = some qs ∧ qs.length = 4 ∧ wSum qs = 6 := by
  have hb : Bounds exRect (fun d => if d = 0 then 5 else 0) (fun d => if d = 0 then 5 else if d = 1 then 2 else 3) := by
    intro d hd
    refine ⟨fun v hv => ?_, ⟨0, by decide, ?_⟩, ⟨2, by decide, ?_⟩⟩
    · interval_cases d <;> interval_cases v <;> simp [exRect]
    · interval_cases d <;> simp [exRect]
    · interval_cases d <;> simp [exRect]
  obtain ⟨qs, h1, h2, -⟩ := C90_quad (n := 2) (by decide) exGauss2 (tol := 1 / 1000000) hb (a := 1) (b := 2) (f := 0) (by decide)
    (by norm_num) (by norm_num) (by norm_num) (by norm_num)
  refine ⟨qs, h1, h2, ?_⟩
  rw [C90_areaQuad (by decide) exGauss2 hb (a := 1) (b := 2) (f := 0) (by decide)
    (by norm_num) (by norm_num) (by norm_num) (by norm_num) h1]
  norm_num

example : ∃ qs, qptsLine Real.sqrt exPair 1 (fun d v => if d = 0 ∧ v = 1 then 3 else if d = 1 ∧ v = 1 then 4 else 0) = some qs :=
  let ⟨qs, h, _⟩ := C90_line (n := 1) (by decide) exGauss1 _ (fun _ hq => ((exInner 1).gl hq).1)
  ⟨qs, h⟩

end Edge.Quad
