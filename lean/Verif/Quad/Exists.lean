import Verif.Quad.Nodes
import Mathlib.LinearAlgebra.Lagrange
import Mathlib.LinearAlgebra.FiniteDimensional.Lemmas
import Mathlib.LinearAlgebra.Matrix.ToLin
/-!
There are rules of Gauss for all numbers of points: the hypothesis of C90 and C92 can be met.
-/
namespace Edge.Quad
open Edge Polynomial

/-- The integral over the interval as a linear map. -/
noncomputable def integ : ℝ[X] →ₗ[ℝ] ℝ where
  toFun p := ∫ x in (-1 : ℝ)..1, p.eval x
  map_add' p q := by
    simp only [eval_add]
    exact intervalIntegral.integral_add (p.continuous.intervalIntegrable _ _) (q.continuous.intervalIntegrable _ _)
  map_smul' c p := by
    simp only [eval_smul, smul_eq_mul, RingHom.id_apply]
    exact intervalIntegral.integral_const_mul _ _

theorem integ_apply (p : ℝ[X]) : integ p = ∫ x in (-1 : ℝ)..1, p.eval x := rfl

/-- A polynomial of degree at most `n` which is orthogonal to all polynomials of lower degree. -/
theorem exists_orth (n : Nat) : ∃ p : ℝ[X], p ≠ 0 ∧ p.natDegree ≤ n ∧ ∀ q : ℝ[X], q.natDegree < n → integ (p * q) = 0 := by
  let P : (Fin (n + 1) → ℝ) →ₗ[ℝ] ℝ[X] := ∑ j : Fin (n + 1), (LinearMap.proj j).smulRight (X ^ (j : Nat))
  let T : (Fin (n + 1) → ℝ) →ₗ[ℝ] (Fin n → ℝ) := LinearMap.pi (fun i => integ ∘ₗ (LinearMap.mulRight ℝ (X ^ (i : Nat))) ∘ₗ P)
  have hP : ∀ c, P c = ∑ j : Fin (n + 1), C (c j) * X ^ (j : Nat) := by
    intro c
    simp [P, smul_eq_C_mul]
  obtain ⟨c, hc, hc0⟩ := (Submodule.ne_bot_iff _).1 (LinearMap.ker_ne_bot_of_finrank_lt (f := T) (by simp))
  have hco : ∀ j : Fin (n + 1), (P c).coeff j = c j := by
    intro j
    rw [hP, finsetSum_coeff, Finset.sum_eq_single j]
    · simp
    · intro i _ hne
      rw [coeff_C_mul_X_pow, if_neg (fun h => hne (Fin.ext h.symm))]
    · simp
  refine ⟨P c, ?_, ?_, ?_⟩
  · intro h
    refine hc0 (funext fun j => ?_)
    rw [← hco j, h]; simp
  · rw [hP]
    refine natDegree_sum_le_of_forall_le _ _ (fun j _ => (natDegree_C_mul_X_pow_le _ _).trans (by omega))
  · intro q hq
    rw [q.as_sum_range' n hq, Finset.mul_sum, map_sum]
    refine Finset.sum_eq_zero (fun i hi => ?_)
    have h1 : T c ⟨i, Finset.mem_range.1 hi⟩ = 0 := by
      rw [LinearMap.mem_ker.1 hc]; rfl
    have h2 : integ (P c * X ^ i) = 0 := h1
    rw [← C_mul_X_pow_eq_monomial, ← mul_assoc, mul_comm (P c), mul_assoc, ← smul_eq_C_mul, map_smul, h2, smul_zero]

/-- A polynomial whose zeros inside the interval have even multiplicities does not change its sign there. -/
theorem const_sign (m : Nat) : ∀ f : ℝ[X], f.natDegree ≤ m → f ≠ 0 → (∀ r, -1 < r → r < 1 → Even (f.rootMultiplicity r)) →
    (∀ x, -1 ≤ x → x ≤ 1 → 0 ≤ f.eval x) ∨ (∀ x, -1 ≤ x → x ≤ 1 → f.eval x ≤ 0) := by
  induction m using Nat.strong_induction_on with
  | _ m ih =>
    intro f hm hf he
    by_cases hr : ∃ r, -1 < r ∧ r < 1 ∧ f.eval r = 0
    · obtain ⟨r, r1, r2, r3⟩ := hr
      have hpos : 0 < f.rootMultiplicity r := (rootMultiplicity_pos hf).2 r3
      have h2 : 2 ≤ f.rootMultiplicity r := by
        obtain ⟨k, hk⟩ := he r r1 r2; omega
      obtain ⟨g, hg⟩ := (le_rootMultiplicity_iff hf).1 h2
      have hg0 : g ≠ 0 := fun h => hf (by rw [hg, h, mul_zero])
      have hX : (X - C r) ^ 2 ≠ (0 : ℝ[X]) := pow_ne_zero _ (X_sub_C_ne_zero r)
      have hdeg : f.natDegree = 2 + g.natDegree := by
        rw [hg, natDegree_mul hX hg0, natDegree_pow, natDegree_X_sub_C]
      rcases ih g.natDegree (by omega) g le_rfl hg0 (fun s s1 s2 => by
        have := he s s1 s2
        rw [hg, rootMultiplicity_mul (by rw [← hg]; exact hf)] at this
        by_cases hs : s = r
        · subst hs
          rw [rootMultiplicity_X_sub_C_pow] at this
          obtain ⟨k, hk⟩ := this
          exact ⟨k - 1, by omega⟩
        · have h0 : rootMultiplicity s ((X - C r) ^ 2) = 0 := by
            rw [rootMultiplicity_eq_zero]
            simp [IsRoot, sub_eq_zero, hs]
          rwa [h0, zero_add] at this) with h | h
      · left; intro x x1 x2
        rw [hg, eval_mul, eval_pow]; exact mul_nonneg (sq_nonneg _) (h x x1 x2)
      · right; intro x x1 x2
        rw [hg, eval_mul, eval_pow]; exact mul_nonpos_of_nonneg_of_nonpos (sq_nonneg _) (h x x1 x2)
    · push Not at hr
      have hsign : ∀ x y, -1 < x → x < 1 → -1 < y → y < 1 → 0 < f.eval x → 0 < f.eval y := by
        intro x y x1 x2 y1 y2 hx
        by_contra hn
        push Not at hn
        have hpre : IsPreconnected (Set.Ioo (-1 : ℝ) 1) := isPreconnected_Ioo
        obtain ⟨z, hz, hz0⟩ := hpre.intermediate_value (a := y) (b := x) ⟨y1, y2⟩ ⟨x1, x2⟩ f.continuous.continuousOn ⟨hn, hx.le⟩
        exact hr z hz.1 hz.2 hz0
      have hcl : closure (Set.Ioo (-1 : ℝ) 1) = Set.Icc (-1) 1 := closure_Ioo (by norm_num)
      rcases lt_or_gt_of_ne (hr 0 (by norm_num) (by norm_num)) with h0 | h0
      · right
        have hcls : IsClosed {x : ℝ | f.eval x ≤ 0} := isClosed_le f.continuous continuous_const
        have hsub : Set.Ioo (-1 : ℝ) 1 ⊆ {x : ℝ | f.eval x ≤ 0} := by
          intro y hy
          by_contra hn
          have := hsign y 0 hy.1 hy.2 (by norm_num) (by norm_num) (not_le.1 hn)
          linarith
        intro x x1 x2
        exact hcls.closure_subset_iff.2 hsub (hcl ▸ ⟨x1, x2⟩)
      · left
        have hcls : IsClosed {x : ℝ | 0 ≤ f.eval x} := isClosed_le continuous_const f.continuous
        have hsub : Set.Ioo (-1 : ℝ) 1 ⊆ {x : ℝ | 0 ≤ f.eval x} := fun y hy => (hsign 0 y (by norm_num) (by norm_num) hy.1 hy.2 h0).le
        intro x x1 x2
        exact hcls.closure_subset_iff.2 hsub (hcl ▸ ⟨x1, x2⟩)

theorem integ_ne {f : ℝ[X]} (hf : f ≠ 0) (he : ∀ r, -1 < r → r < 1 → Even (f.rootMultiplicity r)) : integ f ≠ 0 := by
  rcases const_sign _ f le_rfl hf he with h | h
  · exact (integral_pos_poly hf h).ne'
  · have := integral_pos_poly (p := -f) (neg_ne_zero.2 hf) (fun x x1 x2 => by rw [eval_neg]; linarith [h x x1 x2])
    rw [← integ_apply, map_neg] at this
    intro h0; rw [h0] at this; simp at this

/-- The zeros: `n` different ones. -/
theorem exists_zeros (n : Nat) : ∃ (p : ℝ[X]) (S : Finset ℝ), p.natDegree = n ∧ p ≠ 0 ∧ S.card = n ∧ (∀ r ∈ S, p.eval r = 0) ∧
    ∀ q : ℝ[X], q.natDegree < n → integ (p * q) = 0 := by
  obtain ⟨p, p0, p1, p2⟩ := exists_orth n
  classical
  set S : Finset ℝ := p.roots.toFinset.filter (fun r => -1 < r ∧ r < 1 ∧ ¬ Even (p.rootMultiplicity r)) with hS
  have hcard : S.card ≤ p.natDegree := (Finset.card_filter_le _ _).trans ((Multiset.toFinset_card_le _).trans (card_roots' p))
  have hge : n ≤ S.card := by
    by_contra hlt
    push Not at hlt
    set q : ℝ[X] := ∏ r ∈ S, (X - C r) with hq
    have hq0 : q ≠ 0 := (monic_prod_of_monic _ _ (fun i _ => monic_X_sub_C _)).ne_zero
    have hqd : q.natDegree = S.card := by
      rw [hq, natDegree_prod_of_monic _ _ (fun i _ => monic_X_sub_C _)]; simp
    refine integ_ne (mul_ne_zero p0 hq0) (fun r r1 r2 => ?_) (p2 q (by omega))
    rw [rootMultiplicity_mul (mul_ne_zero p0 hq0)]
    have hmq : q.rootMultiplicity r = if r ∈ S then 1 else 0 := by
      rw [← count_roots, hq, roots_prod_X_sub_C, Multiset.count_eq_of_nodup S.nodup]; rfl
    rw [hmq]
    by_cases hr : r ∈ S
    · rw [if_pos hr]
      have := (Finset.mem_filter.1 hr).2.2.2
      rw [Nat.not_even_iff_odd] at this
      exact this.add_one
    · rw [if_neg hr, add_zero]
      by_contra hne
      refine hr (Finset.mem_filter.2 ⟨?_, r1, r2, hne⟩)
      rw [Multiset.mem_toFinset, mem_roots p0, ← rootMultiplicity_pos p0]
      by_contra h0
      exact hne (by rw [show p.rootMultiplicity r = 0 by omega]; exact Even.zero)
  refine ⟨p, S, by omega, p0, by omega, fun r hr => ?_, p2⟩
  have := (Finset.mem_filter.1 hr).1
  rw [Multiset.mem_toFinset, mem_roots p0] at this
  exact this

/-- C90: there is a rule of Gauss for every number of points. -/
theorem C90_gauss_exists : ∃ pair : Nat → Nat → ℝ × ℝ, ∀ n, 0 < n → Gauss pair n := by
  classical
  have : ∀ n : Nat, ∃ l : List (ℝ × ℝ), l.length = n ∧ (0 < n → ∀ f : ℝ[X], f.natDegree < 2 * n →
      (l.map (fun q => q.2 * f.eval q.1)).sum = ∫ x in (-1 : ℝ)..1, f.eval x) := by
    intro n
    obtain ⟨p, S, p1, p0, s1, s2, p2⟩ := exists_zeros n
    refine ⟨S.toList.map (fun r => (r, integ (Lagrange.basis S id r))), by simp [s1], fun hn f hf => ?_⟩
    have hdiv : f = p * (f / p) + f % p := (EuclideanDomain.div_add_mod f p).symm
    have hq : (f / p).natDegree < n := by
      by_cases h0 : f / p = 0
      · rw [h0, natDegree_zero]; exact hn
      · have h1 : (p * (f / p)).natDegree = n + (f / p).natDegree := by rw [natDegree_mul p0 h0, p1]
        have h2 : p * (f / p) = f - f % p := by rw [eq_sub_iff_add_eq]; exact hdiv.symm
        have h3 : (f % p).natDegree < n := by
          rw [← p1]; exact natDegree_mod_lt f (by omega)
        have h4 := natDegree_sub_le f (f % p)
        rw [← h2, h1] at h4
        have h5 : max f.natDegree (f % p).natDegree < 2 * n := max_lt hf (by omega)
        omega
    have hr : (f % p).degree < S.card := by
      rw [s1, ← p1, ← degree_eq_natDegree p0]; exact degree_mod_lt f p0
    have hev : ∀ r ∈ S, (f % p).eval r = f.eval r := by
      intro r h
      conv_rhs => rw [hdiv]
      rw [eval_add, eval_mul, s2 r h]; ring
    have hlag : f % p = ∑ r ∈ S, C (f.eval r) * Lagrange.basis S id r := by
      conv_lhs => rw [Lagrange.eq_interpolate (s := S) (v := id) (fun a _ b _ h => h) hr, Lagrange.interpolate_apply]
      exact Finset.sum_congr rfl (fun r h => by rw [id, hev r h])
    rw [← integ_apply]
    conv_rhs => rw [hdiv, map_add, p2 _ hq, zero_add, hlag, map_sum]
    rw [List.map_map, ← Finset.sum_map_toList]
    congr 1
    refine List.map_congr_left (fun r _ => ?_)
    rw [← smul_eq_C_mul, map_smul, smul_eq_mul]
    exact mul_comm _ _
  choose l hl hg using this
  refine ⟨fun n k => (l n)[k - 1]?.getD (0, 0), fun n hn f hf => ?_⟩
  rw [← hg n hn f hf]
  congr 1
  refine List.ext_getElem (by simp [hl]) (fun k h1 h2 => ?_)
  simp at h2
  simp [h2]

end Edge.Quad
