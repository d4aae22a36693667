import Verif.Quad.Volume
import Mathlib.MeasureTheory.Integral.IntervalIntegral.Basic
import Mathlib.Topology.Algebra.Polynomial
/-!
Points and weights of the rules of Gauss: they lie inside the interval and the weights are positive: C90.
-/
namespace Edge.Quad
open Edge Polynomial

/-- The square of the polynomial which vanishes at all points of the rule except the one with number `k`. -/
noncomputable def nodeSq (pair : Nat → Nat → ℝ × ℝ) (n k : Nat) : Polynomial ℝ :=
  (∏ j ∈ (Finset.range n).erase k, (X - C (pair n (j + 1)).1)) ^ 2

theorem nodeSq_natDegree (pair : Nat → Nat → ℝ × ℝ) {n k : Nat} (hk : k < n) : (nodeSq pair n k).natDegree = 2 * (n - 1) := by
  rw [nodeSq, natDegree_pow, natDegree_prod_of_monic _ _ (fun i _ => monic_X_sub_C _)]
  simp [hk]

theorem nodeSq_monic (pair : Nat → Nat → ℝ × ℝ) (n k : Nat) : (nodeSq pair n k).Monic :=
  (monic_prod_of_monic _ _ (fun i _ => monic_X_sub_C _)).pow 2

theorem nodeSq_nonneg (pair : Nat → Nat → ℝ × ℝ) (n k : Nat) (x : ℝ) : 0 ≤ (nodeSq pair n k).eval x := by
  rw [nodeSq, eval_pow]; exact sq_nonneg _

theorem nodeSq_other (pair : Nat → Nat → ℝ × ℝ) {n k j : Nat} (hj : j < n) (h : j ≠ k) : (nodeSq pair n k).eval (pair n (j + 1)).1 = 0 := by
  rw [nodeSq, eval_pow, eval_prod]
  have : ∏ i ∈ (Finset.range n).erase k, eval (pair n (j + 1)).1 (X - C (pair n (i + 1)).1) = 0 :=
    Finset.prod_eq_zero (i := j) (by simp [hj, h]) (by simp)
  rw [this]; norm_num

/-- The integral of a polynomial which is not negative on the interval and not zero is positive. -/
theorem integral_pos_poly {p : Polynomial ℝ} (hp : p ≠ 0) (h : ∀ x, -1 ≤ x → x ≤ 1 → 0 ≤ p.eval x) : 0 < ∫ x in (-1 : ℝ)..1, p.eval x := by
  have hc : Continuous (fun x => p.eval x) := p.continuous
  obtain ⟨c, hc1, hc2⟩ : ∃ c ∈ Set.Ioo (-1 : ℝ) 1, p.eval c ≠ 0 := by
    by_contra hne
    push Not at hne
    refine hp (Polynomial.eq_zero_of_infinite_isRoot p ?_)
    exact (Set.Ioo_infinite (by norm_num : (-1 : ℝ) < 1)).mono (fun x hx => hne x hx)
  refine intervalIntegral.integral_pos (by norm_num) hc.continuousOn (fun x hx => h x hx.1.le hx.2) ⟨c, ⟨hc1.1.le, hc1.2.le⟩, ?_⟩
  exact lt_of_le_of_ne (h c hc1.1.le hc1.2.le) hc2.symm

theorem sum_node {n k : Nat} (hk : k < n) (f : Nat → ℝ) (h : ∀ j < n, j ≠ k → f j = 0) : ((List.range n).map f).sum = f k := by
  rw [← List.sum_toFinset _ List.nodup_range, Finset.sum_eq_single k]
  · intro j hj hne
    exact h j (by simpa using hj) hne
  · intro hk'; simp [hk] at hk'

/-- C90: the points of a rule of Gauss lie inside the interval and its weights are positive. -/
theorem C90_nodes {pair : Nat → Nat → ℝ × ℝ} {n : Nat} (h : Gauss pair n) {k : Nat} (h1 : 1 ≤ k) (hk : k ≤ n) :
    -1 < (pair n k).1 ∧ (pair n k).1 < 1 ∧ 0 < (pair n k).2 := by
  obtain ⟨k, rfl⟩ : ∃ m, k = m + 1 := ⟨k - 1, by omega⟩
  have hk : k < n := by omega
  set q := nodeSq pair n k with hq
  have hq0 : q ≠ 0 := (nodeSq_monic pair n k).ne_zero
  have hd : q.natDegree = 2 * (n - 1) := nodeSq_natDegree pair hk
  have key : ∀ r : Polynomial ℝ, r.natDegree ≤ 1 → r ≠ 0 → (∀ x, -1 ≤ x → x ≤ 1 → 0 ≤ r.eval x) →
      0 < (pair n (k + 1)).2 * (q.eval (pair n (k + 1)).1 * r.eval (pair n (k + 1)).1) := by
    intro r hr hr0 hr1
    have hdeg : (q * r).natDegree < 2 * n := lt_of_le_of_lt natDegree_mul_le (by omega)
    have e := h (q * r) hdeg
    rw [sum_node hk _ (fun j hj hne => by rw [eval_mul, hq, nodeSq_other pair hj hne]; ring)] at e
    rw [← eval_mul, e]
    exact integral_pos_poly (mul_ne_zero hq0 hr0) (fun x h1 h2 => by
      rw [eval_mul]; exact mul_nonneg (nodeSq_nonneg _ _ _ _) (hr1 x h1 h2))
  have a1 := key 1 (by simp) one_ne_zero (by simp)
  have a2 := key (1 - X) (by compute_degree) (by
    intro hh; have := congrArg (eval 0) hh; simp at this) (by intro x _ h2; simp; exact h2)
  have a3 := key (1 + X) (by compute_degree) (by
    intro hh; have := congrArg (eval 0) hh; simp at this) (by intro x h1 _; simp; linarith)
  simp only [eval_one, mul_one] at a1
  have hq1 := nodeSq_nonneg pair n k (pair n (k + 1)).1
  rw [← hq] at hq1
  have hw : 0 < (pair n (k + 1)).2 := by
    by_contra hn
    push Not at hn
    nlinarith
  simp only [← mul_assoc] at a2 a3
  have b2 := pos_of_mul_pos_right (a := _) a2 a1.le
  have b3 := pos_of_mul_pos_right (a := _) a3 a1.le
  simp only [eval_sub, eval_add, eval_one, eval_X] at b2 b3
  exact ⟨by linarith, by linarith, hw⟩

/-- C90: what is assumed about the points follows from the exactness. -/
theorem Gauss.inner {pair : Nat → Nat → ℝ × ℝ} {n : Nat} (h : Gauss pair n) : Inner pair n := fun _ h1 hk =>
  let ⟨a, b, c⟩ := C90_nodes h h1 hk
  ⟨a.le, b.le, c.le⟩

/-- C90: the points of a rule of Gauss are different. -/
theorem C90_distinct {pair : Nat → Nat → ℝ × ℝ} {n : Nat} (h : Gauss pair n) {j k : Nat} (hj1 : 1 ≤ j) (hj : j ≤ n) (hk1 : 1 ≤ k) (hk : k ≤ n)
    (hjk : (pair n j).1 = (pair n k).1) : j = k := by
  obtain ⟨j, rfl⟩ : ∃ m, j = m + 1 := ⟨j - 1, by omega⟩
  obtain ⟨k, rfl⟩ : ∃ m, k = m + 1 := ⟨k - 1, by omega⟩
  by_contra hne
  have e := h (nodeSq pair n k) (by rw [nodeSq_natDegree pair (by omega)]; omega)
  rw [sum_node (show k < n by omega) _ (fun i hi hne => by rw [nodeSq_other pair hi hne]; ring), ← hjk, nodeSq_other pair (by omega) (by omega),
    mul_zero] at e
  exact absurd e.symm (integral_pos_poly (nodeSq_monic pair n k).ne_zero (fun x _ _ => nodeSq_nonneg _ _ _ _)).ne'

theorem gl_inner {pair : Nat → Nat → ℝ × ℝ} {n : Nat} (h : Gauss pair n) {q : ℝ × ℝ} (hq : q ∈ gl pair n) : 0 < q.1 ∧ q.1 < 1 ∧ 0 < q.2 := by
  simp only [gl, List.mem_map, List.mem_range] at hq
  obtain ⟨k, hk, rfl⟩ := hq
  obtain ⟨h1, h2, h3⟩ := C90_nodes h (k := n - k) (by omega) (by omega)
  simp only [glStep]
  refine ⟨?_, ?_, ?_⟩ <;> linarith

example : 0 < (exPair 2 1).2 ∧ (exPair 2 1).1 ≠ (exPair 2 2).1 :=
  ⟨(C90_nodes exGauss2 (by decide) (by decide)).2.2, fun h => absurd (C90_distinct exGauss2 (by decide) (by decide) (by decide) (by decide) h) (by decide)⟩

end Edge.Quad
