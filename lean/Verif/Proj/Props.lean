import Verif.Proj.Init
/-!
C92: projections of initial values and error norms.
-/
namespace Edge.Proj
open Edge Edge.Map Edge.Quad Edge.Basis MvPolynomial

section
variable {pair : Nat → Nat → ℝ × ℝ} {e : Ent} {o nQts nCrs : Nat} {tol tolM : ℝ} {raw : List ℝ} {E : Exprs ℝ} {b : Bas ℝ}
  {elVe : Nat → Nat → Nat} {coords : Nat → Nat → ℝ} {g : Nat → Nat → (Nat → ℝ) → ℝ}

/-- C92: the basis object is built without failing a check. -/
theorem C92_basis (hs : Setup pair e o tol tolM raw) : ∃ b, mkBasis Real.sqrt tol tolM pair raw e o = some b := by
  obtain ⟨b, h, -⟩ := good_of_setup hs
  exact ⟨b, h⟩

theorem good_of_mk (hs : Setup pair e o tol tolM raw) (hb : mkBasis Real.sqrt tol tolM pair raw e o = some b) : Good pair e o b := by
  obtain ⟨b', h, hg⟩ := good_of_setup hs
  rw [hb, Option.some.injEq] at h
  rw [h]; exact hg

/-! ### Projection -/

theorem rule_combo (hs : Setup pair e o tol tolM raw) (c : Idx → ℝ) {j : Idx} (hj : j ∈ degs e o) :
    rule (refPts pair e (o + 1)) (fun x y z => (∑ i ∈ degs e o, c i * phi e i x y z) * phi e j x y z) = c j * mass e j := by
  have hG := hs.gauss (o + 1) (by omega) le_rfl
  have h : (fun x y z => (∑ i ∈ degs e o, c i * phi e i x y z) * phi e j x y z) =
      fun x y z => ∑ i ∈ degs e o, c i * (phi e i x y z * phi e j x y z) := by
    funext x y z
    rw [Finset.sum_mul]
    exact Finset.sum_congr rfl (fun i _ => by ring)
  rw [h, rule_sum (degs e o) (refPts pair e (o + 1)) c (fun i x y z => phi e i x y z * phi e j x y z)]
  have h2 : ∀ i ∈ degs e o, c i * rule (refPts pair e (o + 1)) (fun x y z => phi e i x y z * phi e j x y z) =
      if i = j then c j * mass e j else 0 := by
    intro i hi
    rw [discrete_orth hG (mem_degs.1 hi) (mem_degs.1 hj)]
    by_cases hij : i = j
    · rw [if_pos hij, if_pos hij, hij]
    · rw [if_neg hij, if_neg hij, mul_zero]
  rw [Finset.sum_congr rfl h2, Finset.sum_ite_eq' , if_pos hj]

theorem coef_combo (hs : Setup pair e o tol tolM raw) {F : ℝ → ℝ → ℝ → ℝ} {c : Idx → ℝ}
    (hF : ∀ q ∈ refPts pair e (o + 1), F q.x q.y q.z = ∑ i ∈ degs e o, c i * phi e i q.x q.y q.z) {j : Idx} (hj : j ∈ degs e o) :
    coef pair e o F j = c j := by
  have h : rule (refPts pair e (o + 1)) (fun x y z => F x y z * phi e j x y z) =
      rule (refPts pair e (o + 1)) (fun x y z => (∑ i ∈ degs e o, c i * phi e i x y z) * phi e j x y z) :=
    flat_map_rule (fun q hq => by rw [hF q hq])
  rw [coef, h, rule_combo hs c hj, mul_div_assoc, div_self (mass_pos e j).ne', mul_one]

theorem flat_iff {e : Ent} {q : Qp ℝ} (h : Flat e q) : FlatPt e q.y q.z := by
  cases e <;> first | exact h | trivial

/-- C92: initial values which are polynomials of degree below the order are reproduced exactly, for all elements, quantities and fused
runs, at all points of the reference element at which the code's formulas are defined, and for every schedule of the threads. -/
theorem C92_exact (hs : Setup pair e o tol tolM raw) (hb : mkBasis Real.sqrt tol tolM pair raw e o = some b)
    {f : Nat → Nat → MvPolynomial (Fin 3) ℝ} (hf : ∀ cr < nCrs, ∀ qt < nQts, Fits e o (f cr qt))
    (hE : FromZero e nQts nCrs E (fun cr qt c => val (f cr qt) (c 0) (c 1) (c 2))) {big : ℝ} {sched : List (Nat × Nat)}
    (hel : ∀ te ∈ sched, ElOk tol e (veCrds e elVe coords te.2)) (q0 : Nat → Nat → Nat → ℝ) (dofs : Dofs ℝ) :
    ∃ r, dg Real.sqrt tol big pair e o nQts nCrs E b elVe coords q0 sched dofs = some r ∧
      (∀ te ∈ sched, ∀ qt < nQts, ∀ cr < nCrs, ∀ x y z, FlatPt e y z → PtOk e x y z →
        b.modal2ptval x y z (fun md => r te.2 qt md cr) =
          let p := refToPhy e (veCrds e elVe coords te.2) (vec x y z)
          some (val (f cr qt) (p 0) (p 1) (p 2))) ∧
      ∀ el, (∀ te ∈ sched, te.2 ≠ el) → r el = dofs el := by
  have hg := good_of_mk hs hb
  have hG := hs.gauss (o + 1) (by omega) le_rfl
  obtain ⟨r, r1, r2, r3⟩ := dg_good hs hg hE (big := big) hel q0 dofs
  refine ⟨r, r1, fun te hte qt hqt cr hcr x y z hfl hp => ?_, r3⟩
  obtain ⟨c, hc⟩ := expand hG (hel te hte) (hf cr hcr qt hqt)
  simp only
  rw [hc x y z hfl]
  refine modal2ptval_good hg (by have := hs.le; omega) (fun md i hi => ?_) hp
  rw [r2 te hte qt hqt cr hcr md i hi]
  refine coef_combo hs (fun q hq => ?_) (mem_degs.2 (mem_idx.1 (List.mem_of_getElem? hi)))
  rw [onRef]
  exact hc q.x q.y q.z (flat_iff (refPts_flat pair e (o + 1) hq))

theorem recon_good (hs : Setup pair e o tol tolM raw) (hg : Good pair e o b) (dofs : Dofs ℝ) (el qt cr : Nat) {x y z : ℝ} (hp : PtOk e x y z) :
    recon b dofs el qt cr x y z = ∑ i ∈ degs e o, dofs el qt ((idx e o).idxOf i) cr * phi e i x y z := by
  rw [recon, modal2ptval_good hg (by have := hs.le; omega) (modes_fun e o _) hp]; rfl

theorem rule_sub (qs : List (Qp ℝ)) (F G : ℝ → ℝ → ℝ → ℝ) : rule qs (fun x y z => F x y z - G x y z) = rule qs F - rule qs G := by
  induction qs with
  | nil => simp [rule]
  | cons q qs ih =>
    simp only [rule, List.map_cons, List.sum_cons] at *
    rw [ih]; ring

theorem residual (hs : Setup pair e o tol tolM raw) (hg : Good pair e o b) {F : ℝ → ℝ → ℝ → ℝ} {r : Dofs ℝ} {el qt cr : Nat}
    (hr : ∀ (md : Nat) i, (idx e o)[md]? = some i → r el qt md cr = coef pair e o F i) {j : Idx} (hj : j ∈ degs e o) :
    rule (refPts pair e (o + 1)) (fun x y z => (F x y z - recon b r el qt cr x y z) * phi e j x y z) = 0 := by
  have hG := hs.gauss (o + 1) (by omega) le_rfl
  have h1 : rule (refPts pair e (o + 1)) (fun x y z => (F x y z - recon b r el qt cr x y z) * phi e j x y z) =
      rule (refPts pair e (o + 1)) (fun x y z => F x y z * phi e j x y z - (∑ i ∈ degs e o, coef pair e o F i * phi e i x y z) * phi e j x y z) := by
    refine flat_map_rule (fun q hq => ?_)
    rw [recon_good hs hg r el qt cr (refPts_ok hG hq), sub_mul]
    congr 2
    refine Finset.sum_congr rfl (fun i hi => ?_)
    have hmem : i ∈ idx e o := mem_idx.2 (mem_degs.1 hi)
    rw [hr ((idx e o).idxOf i) i (by rw [List.getElem?_eq_getElem (List.idxOf_lt_length_iff.2 hmem), List.getElem_idxOf])]
  rw [h1, rule_sub, rule_combo hs _ hj, coef, div_mul_cancel₀ _ (mass_pos e j).ne', sub_self]

/-- C92: for arbitrary initial values, the remainder of the projection is orthogonal to all basis functions with respect to the
quadrature rule. -/
theorem C92_residual (hs : Setup pair e o tol tolM raw) (hb : mkBasis Real.sqrt tol tolM pair raw e o = some b)
    (hE : FromZero e nQts nCrs E g) {big : ℝ} {sched : List (Nat × Nat)}
    (hel : ∀ te ∈ sched, ElOk tol e (veCrds e elVe coords te.2)) (q0 : Nat → Nat → Nat → ℝ) (dofs : Dofs ℝ) :
    ∃ r, dg Real.sqrt tol big pair e o nQts nCrs E b elVe coords q0 sched dofs = some r ∧
      ∀ te ∈ sched, ∀ qt < nQts, ∀ cr < nCrs, ∀ j < nModes e o,
        rule (refPts pair e (o + 1)) (fun x y z => (g cr qt (refToPhy e (veCrds e elVe coords te.2) (vec x y z)) -
          recon b r te.2 qt cr x y z) * value j e o x y z) = 0 := by
  have hg := good_of_mk hs hb
  have hG := hs.gauss (o + 1) (by omega) le_rfl
  obtain ⟨r, r1, r2, r3⟩ := dg_good hs hg hE (big := big) hel q0 dofs
  refine ⟨r, r1, fun te hte qt hqt cr hcr j hj => ?_⟩
  have hlen : j < (idx e o).length := by rw [idx_length]; exact hj
  have hi : (idx e o)[j]? = some ((idx e o)[j]'hlen) := List.getElem?_eq_getElem hlen
  have := residual hs hg (r2 te hte qt hqt cr hcr) (mem_degs.2 (mem_idx.1 (List.mem_of_getElem? hi)))
  rw [← this]
  refine flat_map_rule (fun q hq => ?_)
  rw [value, basis_val (by have := hs.le; omega) hi _ _ _ (refPts_ok hG hq)]
  rfl

theorem rule_nonneg {qs : List (Qp ℝ)} {F : ℝ → ℝ → ℝ → ℝ} (h : ∀ q ∈ qs, 0 ≤ q.w ∧ 0 ≤ F q.x q.y q.z) : 0 ≤ rule qs F := by
  rw [rule]
  refine List.sum_nonneg (fun v hv => ?_)
  obtain ⟨q, hq, rfl⟩ := List.mem_map.1 hv
  exact mul_nonneg (h q hq).1 (h q hq).2

theorem rule_add (qs : List (Qp ℝ)) (F G : ℝ → ℝ → ℝ → ℝ) : rule qs (fun x y z => F x y z + G x y z) = rule qs F + rule qs G := by
  induction qs with
  | nil => simp [rule]
  | cons q qs ih =>
    simp only [rule, List.map_cons, List.sum_cons] at *
    rw [ih]; ring

/-- C92: among all coefficients, those of the initial values have the least squared error at the quadrature points. -/
theorem C92_best (hs : Setup pair e o tol tolM raw) (hb : mkBasis Real.sqrt tol tolM pair raw e o = some b)
    (hE : FromZero e nQts nCrs E g) {big : ℝ} {sched : List (Nat × Nat)}
    (hel : ∀ te ∈ sched, ElOk tol e (veCrds e elVe coords te.2)) (q0 : Nat → Nat → Nat → ℝ) (dofs : Dofs ℝ) :
    ∃ r, dg Real.sqrt tol big pair e o nQts nCrs E b elVe coords q0 sched dofs = some r ∧
      ∀ te ∈ sched, ∀ qt < nQts, ∀ cr < nCrs, ∀ d : Dofs ℝ,
        rule (refPts pair e (o + 1)) (fun x y z => (g cr qt (refToPhy e (veCrds e elVe coords te.2) (vec x y z)) - recon b r te.2 qt cr x y z) ^ 2) ≤
        rule (refPts pair e (o + 1)) (fun x y z => (g cr qt (refToPhy e (veCrds e elVe coords te.2) (vec x y z)) - recon b d te.2 qt cr x y z) ^ 2) := by
  have hg := good_of_mk hs hb
  have hG := hs.gauss (o + 1) (by omega) le_rfl
  obtain ⟨r, r1, r2, r3⟩ := dg_good hs hg hE (big := big) hel q0 dofs
  refine ⟨r, r1, fun te hte qt hqt cr hcr d => ?_⟩
  set F : ℝ → ℝ → ℝ → ℝ := onRef e (veCrds e elVe coords te.2) (g cr qt) with hFdef
  have hr := r2 te hte qt hqt cr hcr
  set c : Idx → ℝ := fun i => r te.2 qt ((idx e o).idxOf i) cr - d te.2 qt ((idx e o).idxOf i) cr with hcdef
  have hdiff : ∀ q ∈ refPts pair e (o + 1), recon b r te.2 qt cr q.x q.y q.z - recon b d te.2 qt cr q.x q.y q.z =
      ∑ i ∈ degs e o, c i * phi e i q.x q.y q.z := by
    intro q hq
    rw [recon_good hs hg r te.2 qt cr (refPts_ok hG hq), recon_good hs hg d te.2 qt cr (refPts_ok hG hq), ← Finset.sum_sub_distrib]
    exact Finset.sum_congr rfl (fun i _ => by rw [hcdef]; ring)
  have hcross : rule (refPts pair e (o + 1)) (fun x y z => (F x y z - recon b r te.2 qt cr x y z) *
      (recon b r te.2 qt cr x y z - recon b d te.2 qt cr x y z)) = 0 := by
    have h1 : rule (refPts pair e (o + 1)) (fun x y z => (F x y z - recon b r te.2 qt cr x y z) *
        (recon b r te.2 qt cr x y z - recon b d te.2 qt cr x y z)) = rule (refPts pair e (o + 1)) (fun x y z => ∑ i ∈ degs e o, c i *
          ((F x y z - recon b r te.2 qt cr x y z) * phi e i x y z)) := by
      refine flat_map_rule (fun q hq => ?_)
      rw [hdiff q hq, Finset.mul_sum]
      exact Finset.sum_congr rfl (fun i _ => by ring)
    rw [h1, rule_sum (degs e o) (refPts pair e (o + 1)) c (fun i x y z => (F x y z - recon b r te.2 qt cr x y z) * phi e i x y z)]
    exact Finset.sum_eq_zero (fun i hi => by rw [residual hs hg hr hi, mul_zero])
  have hsplit : rule (refPts pair e (o + 1)) (fun x y z => (F x y z - recon b d te.2 qt cr x y z) ^ 2) =
      rule (refPts pair e (o + 1)) (fun x y z => (F x y z - recon b r te.2 qt cr x y z) ^ 2) +
      (rule (refPts pair e (o + 1)) (fun x y z => (recon b r te.2 qt cr x y z - recon b d te.2 qt cr x y z) ^ 2) +
      (rule (refPts pair e (o + 1)) (fun x y z => (F x y z - recon b r te.2 qt cr x y z) *
        (recon b r te.2 qt cr x y z - recon b d te.2 qt cr x y z)) +
       rule (refPts pair e (o + 1)) (fun x y z => (F x y z - recon b r te.2 qt cr x y z) *
        (recon b r te.2 qt cr x y z - recon b d te.2 qt cr x y z)))) := by
    rw [← rule_add, ← rule_add, ← rule_add]
    exact flat_map_rule (fun q _ => by ring)
  have h0 : 0 ≤ rule (refPts pair e (o + 1)) (fun x y z => (recon b r te.2 qt cr x y z - recon b d te.2 qt cr x y z) ^ 2) :=
    rule_nonneg (fun q hq => ⟨(refPts_pos hG hq).le, sq_nonneg _⟩)
  rw [hcross] at hsplit
  change rule _ (fun x y z => (F x y z - _) ^ 2) ≤ rule _ (fun x y z => (F x y z - _) ^ 2)
  rw [hsplit]; linarith

/-! ### Error norms -/

/-- C92: the error norms are sums and maxima over the quadrature points of all elements: weighted absolute differences, weighted
squared differences, and largest absolute difference of the modal representation and the reference values. The weights are those of the
elements (`jDet` is the element's volume relative to the reference element). -/
theorem C92_err (hs : Setup pair e o tol tolM raw) (hb : mkBasis Real.sqrt tol tolM pair raw e o = some b) (hE : FromAny e nQts nCrs E g)
    {first size : Nat} (hel : ∀ i < size, ElOk tol e (veCrds e elVe coords (first + i))) (big : ℝ) (q0 : Nat → Nat → Nat → ℝ) (dofs : Dofs ℝ) :
    ∃ n, err Real.sqrt tol big pair e o nQts nCrs E b elVe coords q0 dofs first size = some n ∧
      ∀ qt < nQts, ∀ cr < nCrs,
        let D := (List.range size).flatMap (fun i => diffs pair e o b dofs (veCrds e elVe coords) g qt cr (first + i))
        n.l1 qt cr = (D.map (fun p => p.1 * p.2)).sum ∧ n.l2p2 qt cr = (D.map (fun p => p.1 * p.1 * p.2)).sum ∧
        n.lInf qt cr = (D.map Prod.fst).foldl max 0 := by
  obtain ⟨n, h1, h2⟩ := err_good hs (good_of_mk hs hb) (Q := fun _ _ => True) (fun cr hcr c q _ => ⟨(hE cr hcr c q).1, (hE cr hcr c q).2, trivial⟩)
    hel (big := big) (fun _ _ => trivial) q0 dofs
  refine ⟨n, h1, fun qt hqt cr hcr => ?_⟩
  have := h2 qt cr
  simp only [hqt, hcr, and_self, if_true] at this
  exact this

theorem foldl_max {l : List ℝ} {a : ℝ} : a ≤ l.foldl max a ∧ ∀ v ∈ l, v ≤ l.foldl max a := by
  induction l generalizing a with
  | nil => simp
  | cons x l ih =>
    rw [List.foldl_cons]
    refine ⟨(le_max_left _ _).trans ih.1, fun v hv => ?_⟩
    rcases List.mem_cons.1 hv with rfl | h
    · exact (le_max_right _ _).trans ih.1
    · exact ih.2 v h

theorem foldl_max_zero {l : List ℝ} (h : ∀ v ∈ l, v = 0) : l.foldl max 0 = 0 := by
  induction l with
  | nil => rfl
  | cons x l ih =>
    rw [List.foldl_cons, h x List.mem_cons_self, max_self]
    exact ih (fun v hv => h v (List.mem_cons_of_mem _ hv))

theorem elOk_det {ves : Nat → Nat → ℝ} (h0 : 0 ≤ tol) (h : ElOk tol e ves) : 0 ≤ jDet e ves := by
  cases e
  · have := h.1
    simp [jDet, evalJac, derShape, derLine, sumN_succ, sumN_zero, Ent.nVe]
    linarith
  · obtain ⟨ha, -, -, -, ht⟩ := h
    rw [jDet, C88_detQuad ves ha]
    linarith
  · exact h0.trans (le_of_lt h)
  · exact h0.trans h.2.le
  · exact h0.trans (le_of_lt h)

/-- C92: error norms are not negative, the maximum norm bounds the differences at all quadrature points, and if it is zero then so are all norms
and the reference values are met at all quadrature points. -/
theorem C92_err_bound (hs : Setup pair e o tol tolM raw) (hb : mkBasis Real.sqrt tol tolM pair raw e o = some b) (hE : FromAny e nQts nCrs E g)
    {first size : Nat} (hel : ∀ i < size, ElOk tol e (veCrds e elVe coords (first + i))) {big : ℝ} {q0 : Nat → Nat → Nat → ℝ} {dofs : Dofs ℝ}
    {n : Norms ℝ} (hn : err Real.sqrt tol big pair e o nQts nCrs E b elVe coords q0 dofs first size = some n) {qt cr : Nat} (hqt : qt < nQts)
    (hcr : cr < nCrs) :
    0 ≤ n.l1 qt cr ∧ 0 ≤ n.l2p2 qt cr ∧ 0 ≤ n.lInf qt cr ∧ ∀ i < size, ∀ q ∈ refPts pair e (o + 1),
      |recon b dofs (first + i) qt cr q.x q.y q.z - g cr qt (refToPhy e (veCrds e elVe coords (first + i)) (vec q.x q.y q.z))| ≤ n.lInf qt cr := by
  obtain ⟨n', h1, h2⟩ := C92_err hs hb hE hel big q0 dofs
  rw [hn, Option.some.injEq] at h1
  subst h1
  obtain ⟨e1, e2, e3⟩ := h2 qt hqt cr hcr
  have hG := hs.gauss (o + 1) (by omega) le_rfl
  have hpos : ∀ p ∈ (List.range size).flatMap (fun i => diffs pair e o b dofs (veCrds e elVe coords) g qt cr (first + i)), 0 ≤ p.1 ∧ 0 ≤ p.2 := by
    intro p hp
    obtain ⟨i, hi, hp⟩ := List.mem_flatMap.1 hp
    obtain ⟨q, hq, rfl⟩ := List.mem_map.1 hp
    exact ⟨abs_nonneg _, mul_nonneg (refPts_pos hG hq).le (elOk_det hs.tol0 (hel i (List.mem_range.1 hi)))⟩
  refine ⟨?_, ?_, ?_, ?_⟩
  · rw [e1]
    refine List.sum_nonneg (fun v hv => ?_)
    obtain ⟨p, hp, rfl⟩ := List.mem_map.1 hv
    exact mul_nonneg (hpos p hp).1 (hpos p hp).2
  · rw [e2]
    refine List.sum_nonneg (fun v hv => ?_)
    obtain ⟨p, hp, rfl⟩ := List.mem_map.1 hv
    exact mul_nonneg (mul_nonneg (hpos p hp).1 (hpos p hp).1) (hpos p hp).2
  · rw [e3]; exact foldl_max.1
  · intro i hi q hq
    rw [e3]
    refine foldl_max.2 _ (List.mem_map.2 ⟨_, List.mem_flatMap.2 ⟨i, List.mem_range.2 hi, List.mem_map.2 ⟨q, hq, rfl⟩⟩, rfl⟩)

/-- C92: right after the initialization, the error norms with respect to the initial values themselves are zero if these are polynomials of degree
below the order, and the expressions set all quantities. -/
theorem C92_err_zero (hs : Setup pair e o tol tolM raw) (hb : mkBasis Real.sqrt tol tolM pair raw e o = some b)
    {f : Nat → Nat → MvPolynomial (Fin 3) ℝ} (hf : ∀ cr < nCrs, ∀ qt < nQts, Fits e o (f cr qt))
    (hE : FromAny e nQts nCrs E (fun cr qt c => val (f cr qt) (c 0) (c 1) (c 2))) {first size : Nat} {sched : List (Nat × Nat)}
    (hsched : ∀ el, (∃ te ∈ sched, te.2 = el) ↔ first ≤ el ∧ el < first + size)
    (hel : ∀ i < size, ElOk tol e (veCrds e elVe coords (first + i))) (big : ℝ) (q0 : Nat → Nat → Nat → ℝ) (dofs : Dofs ℝ) :
    ∃ r n, dg Real.sqrt tol big pair e o nQts nCrs E b elVe coords q0 sched dofs = some r ∧
      err Real.sqrt tol big pair e o nQts nCrs E b elVe coords q0 r first size = some n ∧
      ∀ qt < nQts, ∀ cr < nCrs, n.l1 qt cr = 0 ∧ n.l2p2 qt cr = 0 ∧ n.lInf qt cr = 0 := by
  have hG := hs.gauss (o + 1) (by omega) le_rfl
  obtain ⟨r, r1, r2, -⟩ := C92_exact hs hb hf hE.zero (big := big) (sched := sched) (fun te hte => by
    obtain ⟨h1, h2⟩ := (hsched te.2).1 ⟨te, hte, rfl⟩
    have := hel (te.2 - first) (by omega)
    rwa [show first + (te.2 - first) = te.2 by omega] at this) q0 dofs
  obtain ⟨n, n1, n2⟩ := C92_err hs hb hE hel big q0 r
  refine ⟨r, n, r1, n1, fun qt hqt cr hcr => ?_⟩
  obtain ⟨e1, e2, e3⟩ := n2 qt hqt cr hcr
  have hz : ∀ p ∈ (List.range size).flatMap (fun i => diffs pair e o b r (veCrds e elVe coords)
      (fun cr qt c => val (f cr qt) (c 0) (c 1) (c 2)) qt cr (first + i)), p.1 = 0 := by
    intro p hp
    obtain ⟨i, hi, hp⟩ := List.mem_flatMap.1 hp
    obtain ⟨q, hq, rfl⟩ := List.mem_map.1 hp
    obtain ⟨te, hte, hee⟩ := (hsched (first + i)).2 ⟨by omega, by have := List.mem_range.1 hi; omega⟩
    have := r2 te hte qt hqt cr hcr q.x q.y q.z (flat_iff (refPts_flat pair e (o + 1) hq)) (refPts_ok hG hq)
    rw [hee] at this
    simp only [recon, this, onRef, Option.getD_some, sub_self, abs_zero]
  refine ⟨?_, ?_, ?_⟩
  · rw [e1]
    refine List.sum_eq_zero (fun v hv => ?_)
    obtain ⟨p, hp, rfl⟩ := List.mem_map.1 hv
    simp [hz p hp]
  · rw [e2]
    refine List.sum_eq_zero (fun v hv => ?_)
    obtain ⟨p, hp, rfl⟩ := List.mem_map.1 hv
    simp [hz p hp]
  · rw [e3]
    refine foldl_max_zero (fun v hv => ?_)
    obtain ⟨p, hp, rfl⟩ := List.mem_map.1 hv
    exact hz p hp

/-- C92 (refuted for quantities which the expressions do not set): the initialization starts every evaluation from zero quantities, the error norms do
not (src/setups/InitialDofs.hpp:224-227 and 326). With the expression which sets nothing, as used for empty strings
(src/data/Expression.hpp:100-103), the initial values are zero, but their error norms with respect to the same expression are infinite: the maximum norm
is the largest number. -/
theorem C92_err_unset_refuted (hs : Setup pair e o tol tolM raw) (hb : mkBasis Real.sqrt tol tolM pair raw e o = some b) (hq : 0 < nQts)
    (hc : 0 < nCrs) {first size : Nat} (hsz : 0 < size) (hel : ∀ i < size, ElOk tol e (veCrds e elVe coords (first + i))) {big : ℝ} (hbig : 0 < big)
    (q0 : Nat → Nat → Nat → ℝ) (dofs : Dofs ℝ) :
    ∃ r n, dg Real.sqrt tol big pair e o nQts nCrs (fun _ c q => (c, q)) b elVe coords q0 ((List.range size).map (fun i => (0, first + i))) dofs = some r ∧
      err Real.sqrt tol big pair e o nQts nCrs (fun _ c q => (c, q)) b elVe coords q0 r first size = some n ∧
      (∀ i < size, ∀ md < nModes e o, r (first + i) 0 md 0 = 0) ∧ big ≤ n.lInf 0 0 := by
  have hg := good_of_mk hs hb
  have hG := hs.gauss (o + 1) (by omega) le_rfl
  obtain ⟨r, r1, r2, -⟩ := dg_good (E := fun _ c q => (c, q)) (g := fun _ _ _ => 0) hs hg (fun cr _ c q h => ⟨fun _ _ => rfl, fun qt hqt => h qt hqt⟩)
    (big := big) (nQts := nQts) (nCrs := nCrs) (elVe := elVe) (coords := coords) (sched := (List.range size).map (fun i => (0, first + i))) (fun te hte => by
      obtain ⟨i, hi, rfl⟩ := List.mem_map.1 hte
      exact hel i (List.mem_range.1 hi)) q0 dofs
  obtain ⟨n, n1, n2⟩ := err_good (E := fun _ c q => (c, q)) (g := fun _ _ _ => big) (nQts := nQts) (nCrs := nCrs) hs hg
    (Q := fun _ q => ∀ qt, q qt = big) (fun cr _ c q h => ⟨fun _ _ => rfl, fun qt _ => h qt, h⟩) hel (big := big) (fun _ _ _ => rfl) q0 r
  have hzero : ∀ i < size, ∀ (md : Nat) j, (idx e o)[md]? = some j → r (first + i) 0 md 0 = 0 := by
    intro i hi md j hj
    rw [r2 (0, first + i) (List.mem_map.2 ⟨i, List.mem_range.2 hi, rfl⟩) 0 hq 0 hc md j hj, coef]
    simp [onRef, rule]
  refine ⟨r, n, r1, n1, fun i hi md hmd => hzero i hi md _ (List.getElem?_eq_getElem (by rw [idx_length]; exact hmd)), ?_⟩
  have h3 := (n2 0 0).2.2
  simp only [hq, hc, and_self, if_true] at h3
  rw [h3]
  obtain ⟨q, hq'⟩ : ∃ q, q ∈ refPts pair e (o + 1) := by
    refine List.exists_mem_of_length_pos ?_
    rw [refPts_length]; positivity
  have hmem : |recon b r (first + 0) 0 0 q.x q.y q.z - onRef e (veCrds e elVe coords (first + 0)) (fun _ => big) q.x q.y q.z| ∈
      ((List.range size).flatMap (fun i => diffs pair e o b r (veCrds e elVe coords) (fun _ _ _ => big) 0 0 (first + i))).map Prod.fst :=
    List.mem_map.2 ⟨_, List.mem_flatMap.2 ⟨0, List.mem_range.2 hsz, List.mem_map.2 ⟨q, hq', rfl⟩⟩, rfl⟩
  refine le_trans ?_ (foldl_max.2 _ hmem)
  rw [recon_good hs hg r (first + 0) 0 0 (refPts_ok hG hq')]
  have : ∑ i ∈ degs e o, r (first + 0) 0 ((idx e o).idxOf i) 0 * phi e i q.x q.y q.z = 0 := by
    refine Finset.sum_eq_zero (fun i hi => ?_)
    have hm : i ∈ idx e o := mem_idx.2 (mem_degs.1 hi)
    rw [hzero 0 hsz ((idx e o).idxOf i) i (by rw [List.getElem?_eq_getElem (List.idxOf_lt_length_iff.2 hm), List.getElem_idxOf]), zero_mul]
  rw [this, onRef, zero_sub, abs_neg, abs_of_pos hbig]

/-! ### Inverse mass matrix -/

/-- C92: `getMassInvDense` gives the inverse of the leading part of the matrix of the integrals of products of basis functions, by rows or by columns. -/
theorem C92_massInv (hs : Setup pair e o tol tolM raw) (hb : mkBasis Real.sqrt tol tolM pair raw e o = some b) {n : Nat} (hn : n ≤ nModes e o)
    (rowMajor : Bool) :
    ∃ (a : List ℝ) (A : Nat → Nat → ℝ), b.getMassInvDense n rowMajor = some a ∧ a.length = n * n ∧
      (∀ r < n, ∀ c < n, a[r * n + c]? = some (if rowMajor then A r c else A c r)) ∧
      ∀ r < n, ∀ c < n, ∑ k ∈ Finset.range n, A r k * refInt e (fun x y z => value k e o x y z * value c e o x y z) = if r = c then 1 else 0 := by
  have hg := good_of_mk hs hb
  set d : Nat → ℝ := fun k => mass e ((idx e o)[k]?.getD default) with hd
  have hget : ∀ k < nModes e o, (idx e o)[k]? = some ((idx e o)[k]?.getD default) := by
    intro k hk
    rw [List.getElem?_eq_getElem (by rw [idx_length]; exact hk)]; rfl
  have hint : ∀ k < nModes e o, ∀ c < nModes e o, refInt e (fun x y z => value k e o x y z * value c e o x y z) = if k = c then d k else 0 := by
    intro k hk c hc
    have h1 : refInt e (fun x y z => value k e o x y z * value c e o x y z) =
        refInt e (fun x y z => phi e ((idx e o)[k]?.getD default) x y z * phi e ((idx e o)[c]?.getD default) x y z) := by
      refine refInt_congr (fun x y z hp => ?_)
      rw [value, value, basis_val (by have := hs.le; omega) (hget k hk) _ _ _ hp, basis_val (by have := hs.le; omega) (hget c hc) _ _ _ hp]; rfl
    rw [h1, refInt_orth (mem_idx.1 (List.mem_of_getElem? (hget k hk))) (mem_idx.1 (List.mem_of_getElem? (hget c hc)))]
    by_cases hkc : k = c
    · subst hkc; simp [hd]
    · rw [if_neg hkc, if_neg]
      intro he
      have h2 := hget k hk
      rw [he, ← hget c hc] at h2
      exact hkc ((List.getElem?_inj (by rw [idx_length]; exact hk) (idx_nodup e o)).1 h2)
  have hnz : ∀ k < n, b.mass.nz[k]? = some (d k) := by
    intro k hk
    rw [hg.nz, List.getElem?_map, hget k (by omega)]; rfl
  have hlen : b.mass.nz.length = nModes e o := by rw [hg.nz, List.length_map, idx_length]
  have hro : ∀ k < nModes e o, b.mass.ro[k]? = some k := fun k hk => by rw [hg.ro, idx_length, List.getElem?_range hk]
  have hco : ∀ k < nModes e o, b.mass.co[k]? = some k := fun k hk => by rw [hg.co, idx_length, List.getElem?_range hk]
  have hin : ∀ ro < n, ∀ l : List ℝ, forN n (fun co (s : List ℝ × Nat) =>
      if s.2 < b.mass.nz.length ∧ b.mass.ro[s.2]? = some ro ∧ b.mass.co[s.2]? = some co then (do
        check (decide (ro = co))
        let m ← rd b.mass.nz s.2
        some (s.1 ++ [1 / m], s.2 + 1) : Option (List ℝ × Nat))
      else some (s.1 ++ [0], s.2)) (l, ro) = some (l ++ (List.range n).map (fun c => if ro = c then 1 / d ro else 0), ro + 1) := by
    intro ro hr l
    obtain ⟨t, t1, t2⟩ := forN_inv (n := n) (s := (l, ro)) (body := fun co (s : List ℝ × Nat) =>
      if s.2 < b.mass.nz.length ∧ b.mass.ro[s.2]? = some ro ∧ b.mass.co[s.2]? = some co then (do
        check (decide (ro = co))
        let m ← rd b.mass.nz s.2
        some (s.1 ++ [1 / m], s.2 + 1) : Option (List ℝ × Nat))
      else some (s.1 ++ [0], s.2))
      (fun k t => t = (l ++ (List.range k).map (fun c => if ro = c then 1 / d ro else 0), if ro < k then ro + 1 else ro)) (by simp) (by
        intro k t hk ht
        subst ht
        by_cases h : ro = k
        · subst h
          simp only [lt_irrefl, if_false]
          rw [if_pos ⟨by omega, hro ro (by omega), hco ro (by omega)⟩]
          simp only [decide_true, check_true, rd, hnz ro hr, Option.bind_eq_bind, Option.bind_some]
          refine ⟨_, rfl, ?_⟩
          simp [List.range_succ]
        · have hno : ¬ ((if ro < k then ro + 1 else ro) < b.mass.nz.length ∧ b.mass.ro[if ro < k then ro + 1 else ro]? = some ro ∧
              b.mass.co[if ro < k then ro + 1 else ro]? = some k) := by
            rintro ⟨h1, h2, h3⟩
            by_cases hlt : ro < k
            · rw [if_pos hlt] at h1 h2
              rw [hro (ro + 1) (by omega), Option.some.injEq] at h2
              omega
            · rw [if_neg hlt] at h3
              rw [hco ro (by omega), Option.some.injEq] at h3
              omega
          simp only
          rw [if_neg hno]
          refine ⟨_, rfl, ?_⟩
          rw [List.range_succ, List.map_append, List.map_singleton, if_neg h, List.append_assoc]
          by_cases hlt : ro < k
          · rw [if_pos hlt, if_pos (by omega)]
          · rw [if_neg hlt, if_neg (by omega)])
    rw [t1, t2, if_pos hr]
  obtain ⟨t, t1, t2⟩ := forN_inv (n := n) (s := (([], 0) : List ℝ × Nat)) (body := fun ro s => forN n (fun co (s : List ℝ × Nat) =>
      if s.2 < b.mass.nz.length ∧ b.mass.ro[s.2]? = some ro ∧ b.mass.co[s.2]? = some co then (do
        check (decide (ro = co))
        let m ← rd b.mass.nz s.2
        some (s.1 ++ [1 / m], s.2 + 1) : Option (List ℝ × Nat))
      else some (s.1 ++ [0], s.2)) s)
      (fun k t => t.2 = k ∧ t.1.length = k * n ∧ ∀ r < k, ∀ c < n, t.1[r * n + c]? = some (if r = c then 1 / d r else 0)) (by simp) (by
        rintro k ⟨l, i⟩ hk ⟨h1, h2, h3⟩
        simp only at h1 h2 h3
        subst h1
        refine ⟨_, hin i hk l, rfl, ?_, ?_⟩
        · simp [h2]; ring
        · intro r hr c hc
          by_cases h : r = i
          · subst h
            simp only
            rw [List.getElem?_append_right (by omega), h2, Nat.add_sub_cancel_left, List.getElem?_map, List.getElem?_range hc]; rfl
          · have hlt : r * n + c < i * n := by
              have : (r + 1) * n ≤ i * n := Nat.mul_le_mul_right n (by omega)
              rw [Nat.add_mul, one_mul] at this
              omega
            simp only
            rw [List.getElem?_append_left (by omega)]
            exact h3 r (by omega) c hc)
  obtain ⟨-, t3, t4⟩ := t2
  have hA : ∀ r < n, ∀ c < n, ∑ k ∈ Finset.range n, (if r = k then 1 / d r else 0) * refInt e (fun x y z => value k e o x y z * value c e o x y z) =
      if r = c then 1 else 0 := by
    intro r hr c hc
    have h1 : ∀ k ∈ Finset.range n, (if r = k then 1 / d r else 0) * refInt e (fun x y z => value k e o x y z * value c e o x y z) =
        if r = k then (if r = c then 1 else 0) else 0 := by
      intro k hk
      rw [hint k (by have := Finset.mem_range.1 hk; omega) c (by omega)]
      by_cases h : r = k
      · subst h
        rw [if_pos rfl, if_pos rfl]
        by_cases h' : r = c
        · rw [if_pos h', if_pos h', one_div, inv_mul_cancel₀ (mass_pos e _).ne']
        · rw [if_neg h', if_neg h', mul_zero]
      · rw [if_neg h, if_neg h, zero_mul]
    rw [Finset.sum_congr rfl h1, Finset.sum_ite_eq, if_pos (Finset.mem_range.2 hr)]
  have hnb : n ≤ b.nBase := by rw [hg.nBase, idx_length]; exact hn
  have hstart : b.getMassInvDense n rowMajor = if rowMajor then some t.1 else Linalg.transposeDense n t.1 := by
    rw [Bas.getMassInvDense, decide_eq_true hnb, check_true, Option.bind_eq_bind, Option.bind_some, t1]; rfl
  rw [hstart]
  cases rowMajor with
  | true => exact ⟨t.1, fun r c => if r = c then 1 / d r else 0, rfl, t3, t4, hA⟩
  | false =>
    obtain ⟨a, a1, a2, a3⟩ := Linalg.C54_transpose (n := n) (a := t.1) (fun r c => if r = c then 1 / d r else 0) t3 (fun i j hi hj => t4 i hi j hj)
    exact ⟨a, fun r c => if r = c then 1 / d r else 0, by simpa using a1, a2, fun r hr c hc => by simpa using a3 r c hr hc, hA⟩

end
end Edge.Proj
