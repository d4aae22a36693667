import Verif.Basis.Spec
import Verif.Quad.Elements
import Mathlib.Algebra.Group.ForwardDiff
import Mathlib.Data.Nat.Choose.Vandermonde
/-!
Orthogonality of the formulas of the basis functions.
-/
namespace Edge.Basis
open scoped Nat
open MeasureTheory

/-! ### Moments of the Jacobi polynomials -/

theorem beta_int (a b : Nat) : ∫ t in (0 : ℝ)..1, t ^ b * (1 - t) ^ a = (a ! : ℝ) * b ! / (a + b + 1)! := by
  induction a generalizing b with
  | zero =>
    simp only [pow_zero, mul_one, integral_pow, one_pow, Nat.factorial_zero, Nat.cast_one, one_mul, Nat.zero_add, Nat.factorial_succ]
    have : (b ! : ℝ) ≠ 0 := by exact_mod_cast Nat.factorial_ne_zero b
    push_cast
    field_simp
    simp
  | succ a ih =>
    have hi : ∀ i j : Nat, IntervalIntegrable (fun t : ℝ => t ^ i * (1 - t) ^ j) volume 0 1 := fun i j => by
      exact Continuous.intervalIntegrable (by fun_prop) _ _
    -- the total derivative
    have h1 : ∫ t in (0 : ℝ)..1, (((b : ℝ) + 1) * (t ^ b * (1 - t) ^ (a + 1)) - ((a : ℝ) + 1) * (t ^ (b + 1) * (1 - t) ^ a)) = 0 := by
      rw [intervalIntegral.integral_eq_sub_of_hasDerivAt (f := fun t : ℝ => t ^ (b + 1) * (1 - t) ^ (a + 1))]
      · simp
      · intro t _
        have d1 : HasDerivAt (fun t : ℝ => t ^ (b + 1)) (((b : ℝ) + 1) * t ^ b) t := by
          simpa using hasDerivAt_pow (b + 1) t
        have d2 : HasDerivAt (fun t : ℝ => (1 - t) ^ (a + 1)) (-(((a : ℝ) + 1) * (1 - t) ^ a)) t := by
          exact HasDerivAt.congr_deriv (f := fun t : ℝ => (1 - t) ^ (a + 1)) (((hasDerivAt_id t).const_sub 1).pow (a + 1)) (by simp)
        exact HasDerivAt.congr_deriv (f := fun t : ℝ => t ^ (b + 1) * (1 - t) ^ (a + 1)) (d1.mul d2) (by ring)
      · exact Continuous.intervalIntegrable (by fun_prop) _ _
    rw [intervalIntegral.integral_sub ((hi _ _).const_mul _) ((hi _ _).const_mul _), intervalIntegral.integral_const_mul,
      intervalIntegral.integral_const_mul, ih (b + 1)] at h1
    have hb : ((b : ℝ) + 1) ≠ 0 := by positivity
    have hf : (((a + (b + 1) + 1)! : Nat) : ℝ) ≠ 0 := by exact_mod_cast Nat.factorial_ne_zero _
    rw [show a + 1 + b + 1 = a + (b + 1) + 1 by omega, Nat.factorial_succ a]
    rw [Nat.factorial_succ b] at h1
    push_cast at h1 ⊢
    field_simp at h1 ⊢
    rw [mul_zero] at h1
    linear_combination (mul_eq_zero.1 h1).resolve_left hb

/-- Differences of binomial coefficients. -/
theorem diff_choose (k n : Nat) : (fwdDiff (1 : Nat))^[n] (fun x : Nat => ((x + k).choose k : ℤ)) =
    fun x => if n ≤ k then ((x + k).choose (k - n) : ℤ) else 0 := by
  induction n with
  | zero => simp
  | succ n ih =>
    rw [Function.iterate_succ_apply', ih]
    funext x
    simp only [fwdDiff]
    by_cases h1 : n + 1 ≤ k
    · rw [if_pos (by omega), if_pos (by omega), if_pos h1, show x + 1 + k = (x + k) + 1 by omega,
        show k - n = (k - (n + 1)) + 1 by omega, Nat.choose_succ_succ]
      push_cast; ring
    · rw [if_neg h1]
      by_cases h2 : n ≤ k
      · rw [if_pos h2, if_pos h2, show k - n = 0 by omega]; simp
      · rw [if_neg h2, if_neg h2]; simp

theorem alt_sum (n k : Nat) : ∑ s ∈ Finset.range (n + 1), (-1 : ℝ) ^ s * (n.choose s * (n - s + k).choose k : Nat) =
    if n ≤ k then (k.choose (k - n) : ℝ) else 0 := by
  have h := fwdDiff_iter_eq_sum_shift (M := Nat) (G := ℤ) 1 (fun x : Nat => ((x + k).choose k : ℤ)) n 0
  rw [diff_choose] at h
  have h2 := congrArg (fun i : ℤ => (i : ℝ)) h
  simp only [zero_add, nsmul_eq_mul, mul_one, smul_eq_mul, Nat.cast_id] at h2
  rw [← Finset.sum_range_reflect]
  rw [show (if n ≤ k then (k.choose (k - n) : ℝ) else 0) = (((if n ≤ k then (k.choose (k - n) : ℤ) else 0) : ℤ) : ℝ) by
    split <;> simp, h2]
  push_cast
  refine Finset.sum_congr rfl (fun u hu => ?_)
  have hu : u ≤ n := by have := Finset.mem_range.1 hu; omega
  rw [show n - (n - u) = u by omega, Nat.choose_symm hu]
  ring

theorem moment (n a k : Nat) : ∫ t in (0 : ℝ)..1, (1 - t) ^ a * hom n a t 1 * t ^ k =
    (n + a)! * (k ! : ℝ) / (n + a + k + 1)! * if n ≤ k then (k.choose (k - n) : ℝ) else 0 := by
  have h1 : ∀ t : ℝ, (1 - t) ^ a * hom n a t 1 * t ^ k = ∑ s ∈ Finset.range (n + 1),
      ((-1 : ℝ) ^ s * ((n + a).choose (n - s) * n.choose s : Nat)) * (t ^ (n - s + k) * (1 - t) ^ (a + s)) := by
    intro t
    rw [hom, Finset.mul_sum, Finset.sum_mul]
    refine Finset.sum_congr rfl (fun s _ => ?_)
    rw [show t - 1 = -1 * (1 - t) by ring, mul_pow]
    generalize 1 - t = u
    rw [pow_add, pow_add]; ring
  simp only [h1]
  rw [Quad.int_sum (Finset.range (n + 1)) (fun s => (-1 : ℝ) ^ s * ((n + a).choose (n - s) * n.choose s : Nat))
    (fun s t => t ^ (n - s + k) * (1 - t) ^ (a + s)) 0 1 (fun s _ => by fun_prop), ← alt_sum, Finset.mul_sum]
  refine Finset.sum_congr rfl (fun s hs => ?_)
  have hs : s ≤ n := by have := Finset.mem_range.1 hs; omega
  rw [beta_int, show a + s + (n - s + k) + 1 = n + a + k + 1 by omega]
  have e1 : ((n + a).choose (n - s) : ℝ) * (n - s)! * (a + s)! = (n + a)! := by
    have := Nat.choose_mul_factorial_mul_factorial (n := n + a) (k := n - s) (by omega)
    rw [show n + a - (n - s) = a + s by omega] at this
    exact_mod_cast this
  have e2 : ((n - s + k).choose k : ℝ) * k ! * (n - s)! = (n - s + k)! := by
    have := Nat.choose_mul_factorial_mul_factorial (n := n - s + k) (k := k) (by omega)
    rw [Nat.add_sub_cancel] at this
    exact_mod_cast this
  rw [← e1, ← e2]
  push_cast
  ring

/-- The Jacobi polynomials as polynomials. -/
noncomputable def homP (n a : Nat) : Polynomial ℝ :=
  ∑ s ∈ Finset.range (n + 1), Polynomial.C (((n + a).choose (n - s) * n.choose s : Nat) : ℝ) * ((Polynomial.X - Polynomial.C 1) ^ s * Polynomial.X ^ (n - s))

theorem homP_eval (n a : Nat) (t : ℝ) : (homP n a).eval t = hom n a t 1 := by
  rw [homP, hom, Polynomial.eval_finsetSum]
  exact Finset.sum_congr rfl (fun s _ => by simp [mul_assoc])

theorem homP_term {n s : Nat} (hs : s ≤ n) : ((Polynomial.X - Polynomial.C (1 : ℝ)) ^ s * Polynomial.X ^ (n - s)).Monic ∧
    ((Polynomial.X - Polynomial.C (1 : ℝ)) ^ s * Polynomial.X ^ (n - s)).natDegree = n := by
  have m1 : ((Polynomial.X - Polynomial.C (1 : ℝ)) ^ s).Monic := (Polynomial.monic_X_sub_C 1).pow s
  have m2 : ((Polynomial.X : Polynomial ℝ) ^ (n - s)).Monic := Polynomial.monic_X.pow _
  refine ⟨m1.mul m2, ?_⟩
  rw [m1.natDegree_mul m2, (Polynomial.monic_X_sub_C (1 : ℝ)).natDegree_pow, Polynomial.natDegree_X_sub_C, Polynomial.natDegree_X_pow]
  omega

theorem homP_deg (n a : Nat) : (homP n a).natDegree ≤ n := by
  refine Polynomial.natDegree_sum_le_of_forall_le _ _ (fun s hs => ?_)
  have hs : s ≤ n := by have := Finset.mem_range.1 hs; omega
  exact (Polynomial.natDegree_C_mul_le _ _).trans (homP_term hs).2.le

theorem homP_coeff (n a : Nat) : (homP n a).coeff n = ((2 * n + a).choose n : ℝ) := by
  rw [homP, Polynomial.finsetSum_coeff]
  have : ∀ s ∈ Finset.range (n + 1), (Polynomial.C (((n + a).choose (n - s) * n.choose s : Nat) : ℝ) *
      ((Polynomial.X - Polynomial.C 1) ^ s * Polynomial.X ^ (n - s))).coeff n = (((n + a).choose (n - s) * n.choose s : Nat) : ℝ) := by
    intro s hs
    have hs : s ≤ n := by have := Finset.mem_range.1 hs; omega
    obtain ⟨h1, h2⟩ := homP_term hs
    have h3 := h1.coeff_natDegree
    rw [h2] at h3
    rw [Polynomial.coeff_C_mul, h3, mul_one]
  rw [Finset.sum_congr rfl this, ← Nat.cast_sum]
  congr 1
  rw [show 2 * n + a = n + (n + a) by omega, Nat.add_choose_eq, Finset.Nat.sum_antidiagonal_eq_sum_range_succ_mk]
  exact Finset.sum_congr rfl (fun s _ => Nat.mul_comm _ _)

theorem orth_le {n m : Nat} (a : Nat) (hmn : m ≤ n) : ∫ t in (0 : ℝ)..1, (1 - t) ^ a * hom n a t 1 * hom m a t 1 =
    if n = m then 1 / (2 * n + a + 1 : ℝ) else 0 := by
  have hc : ∀ k, Continuous (fun t : ℝ => (1 - t) ^ a * hom n a t 1 * t ^ k) := fun k => by
    unfold hom; fun_prop
  have h1 : ∀ t : ℝ, (1 - t) ^ a * hom n a t 1 * hom m a t 1 =
      ∑ k ∈ Finset.range (m + 1), (homP m a).coeff k * ((1 - t) ^ a * hom n a t 1 * t ^ k) := by
    intro t
    rw [← homP_eval m, (homP m a).eval_eq_sum_range' (n := m + 1) (by have := homP_deg m a; omega), Finset.mul_sum]
    exact Finset.sum_congr rfl (fun k _ => by ring)
  simp only [h1]
  rw [Quad.int_sum (Finset.range (m + 1)) (fun k => (homP m a).coeff k) (fun k t => (1 - t) ^ a * hom n a t 1 * t ^ k) 0 1 (fun k _ => hc k)]
  simp only [moment]
  by_cases hnm : n = m
  · subst hnm
    rw [if_pos rfl, Finset.sum_range_succ, Finset.sum_eq_zero, zero_add, homP_coeff, if_pos le_rfl, Nat.sub_self, Nat.choose_zero_right]
    · have e := Nat.choose_mul_factorial_mul_factorial (n := 2 * n + a) (k := n) (by omega)
      rw [show 2 * n + a - n = n + a by omega] at e
      have e' : ((2 * n + a).choose n : ℝ) * n ! * (n + a)! = (2 * n + a)! := by exact_mod_cast e
      rw [show n + a + n + 1 = (2 * n + a) + 1 by omega, Nat.factorial_succ]
      have hf : (((2 * n + a)! : Nat) : ℝ) ≠ 0 := by exact_mod_cast Nat.factorial_ne_zero _
      have hz : (2 * (n : ℝ) + a + 1) ≠ 0 := by positivity
      push_cast
      field_simp
      linear_combination e'
    · intro k hk
      have := Finset.mem_range.1 hk
      rw [if_neg (by omega)]; ring
  · rw [if_neg hnm]
    refine Finset.sum_eq_zero (fun k hk => ?_)
    have := Finset.mem_range.1 hk
    rw [if_neg (by omega)]; ring

/-- The Jacobi polynomials are orthogonal with respect to the weight. -/
theorem orth (n m a : Nat) : ∫ t in (0 : ℝ)..1, (1 - t) ^ a * hom n a t 1 * hom m a t 1 =
    if n = m then 1 / (2 * n + a + 1 : ℝ) else 0 := by
  rcases le_total m n with h | h
  · exact orth_le a h
  · have := orth_le a h
    rw [show (fun t : ℝ => (1 - t) ^ a * hom n a t 1 * hom m a t 1) = fun t => (1 - t) ^ a * hom m a t 1 * hom n a t 1 by funext t; ring, this]
    by_cases hnm : n = m
    · subst hnm; rfl
    · rw [if_neg hnm, if_neg (Ne.symm hnm)]

theorem hom_scale (n a : Nat) (u t : ℝ) : hom n a (u * t) u = u ^ n * hom n a t 1 := by
  rw [hom, hom, Finset.mul_sum]
  refine Finset.sum_congr rfl (fun s hs => ?_)
  have hs : s ≤ n := by have := Finset.mem_range.1 hs; omega
  rw [show u * t - u = u * (t - 1) by ring, mul_pow, mul_pow]
  rw [show u ^ n = u ^ s * u ^ (n - s) by rw [← pow_add]; congr 1; omega]
  ring

/-- Orthogonality on an interval of length `u`. -/
theorem orth_scale (n m a : Nat) (u : ℝ) : ∫ t in (0 : ℝ)..u, (u - t) ^ a * hom n a t u * hom m a t u =
    if n = m then u ^ (2 * n + a + 1) / (2 * n + a + 1 : ℝ) else 0 := by
  have := intervalIntegral.mul_integral_comp_mul_left (a := 0) (b := 1) (f := fun t => (u - t) ^ a * hom n a t u * hom m a t u) u
  rw [mul_zero, mul_one] at this
  rw [← this]
  have e : ∀ t : ℝ, (u - u * t) ^ a * hom n a (u * t) u * hom m a (u * t) u = u ^ (n + m + a) * ((1 - t) ^ a * hom n a t 1 * hom m a t 1) := by
    intro t
    rw [hom_scale, hom_scale, show u - u * t = u * (1 - t) by ring, mul_pow, pow_add, pow_add]; ring
  simp only [e]
  rw [intervalIntegral.integral_const_mul, orth]
  by_cases h : n = m
  · subst h
    rw [if_pos rfl, if_pos rfl, pow_add u (2 * n + a), show n + n + a = 2 * n + a by omega]; ring
  · rw [if_neg h, if_neg h]; ring

/-! ### Orthogonality on the reference elements -/

theorem orthLine (n m : Nat) : ∫ x in (0 : ℝ)..1, phiLine n x * phiLine m x = if n = m then 1 / (2 * n + 1 : ℝ) else 0 := by
  simpa [phiLine] using orth n m 0

theorem orthTria (i j : Nat × Nat) : ∫ y in (0 : ℝ)..1, ∫ x in (0 : ℝ)..(1 - y), phiTria i x y * phiTria j x y =
    if i = j then 1 / ((2 * i.1 + 1 : ℝ) * (2 * i.1 + 2 * i.2 + 2)) else 0 := by
  have e : ∀ y : ℝ, ∫ x in (0 : ℝ)..(1 - y), phiTria i x y * phiTria j x y =
      hom i.2 (2 * i.1 + 1) y 1 * hom j.2 (2 * j.1 + 1) y 1 * if i.1 = j.1 then (1 - y) ^ (2 * i.1 + 1) / (2 * i.1 + 1 : ℝ) else 0 := by
    intro y
    have := orth_scale i.1 j.1 0 (1 - y)
    simp only [pow_zero, one_mul, Nat.cast_zero, add_zero] at this
    rw [← this, ← intervalIntegral.integral_const_mul]
    congr 1
    funext x
    rw [phiTria, phiTria]; ring
  simp only [e]
  by_cases h1 : i.1 = j.1
  · simp only [← h1, if_true]
    have := orth i.2 j.2 (2 * i.1 + 1)
    rw [show (fun y : ℝ => hom i.2 (2 * i.1 + 1) y 1 * hom j.2 (2 * i.1 + 1) y 1 * ((1 - y) ^ (2 * i.1 + 1) / (2 * i.1 + 1 : ℝ))) =
      fun y => (1 / (2 * i.1 + 1 : ℝ)) * ((1 - y) ^ (2 * i.1 + 1) * hom i.2 (2 * i.1 + 1) y 1 * hom j.2 (2 * i.1 + 1) y 1) by funext y; ring,
      intervalIntegral.integral_const_mul, this]
    by_cases h2 : i.2 = j.2
    · rw [if_pos h2, if_pos (Prod.ext h1 h2)]
      push_cast
      rw [one_div_mul_one_div]; congr 2; ring
    · rw [if_neg h2, if_neg (fun h => h2 (congrArg Prod.snd h)), mul_zero]
  · simp only [if_neg h1, mul_zero, intervalIntegral.integral_zero]
    rw [if_neg (fun h => h1 (congrArg Prod.fst h))]

theorem orthTet (i j : Nat × Nat × Nat) :
    ∫ z in (0 : ℝ)..1, ∫ y in (0 : ℝ)..(1 - z), ∫ x in (0 : ℝ)..(1 - y - z), phiTet i x y z * phiTet j x y z =
    if i = j then 1 / ((2 * i.1 + 1 : ℝ) * (2 * i.1 + 2 * i.2.1 + 2) * (2 * i.1 + 2 * i.2.1 + 2 * i.2.2 + 3)) else 0 := by
  have e1 : ∀ y z : ℝ, ∫ x in (0 : ℝ)..(1 - y - z), phiTet i x y z * phiTet j x y z =
      hom i.2.2 (2 * i.1 + 2 * i.2.1 + 2) z 1 * hom j.2.2 (2 * j.1 + 2 * j.2.1 + 2) z 1 *
      (hom i.2.1 (2 * i.1 + 1) y (1 - z) * hom j.2.1 (2 * j.1 + 1) y (1 - z)) *
      if i.1 = j.1 then (1 - y - z) ^ (2 * i.1 + 1) / (2 * i.1 + 1 : ℝ) else 0 := by
    intro y z
    have := orth_scale i.1 j.1 0 (1 - y - z)
    simp only [pow_zero, one_mul, Nat.cast_zero, add_zero] at this
    rw [← this, ← intervalIntegral.integral_const_mul]
    congr 1
    funext x
    rw [phiTet, phiTet]; ring
  simp only [e1]
  by_cases h1 : i.1 = j.1
  · simp only [← h1, if_true]
    have e2 : ∀ z : ℝ, ∫ y in (0 : ℝ)..(1 - z), hom i.2.2 (2 * i.1 + 2 * i.2.1 + 2) z 1 * hom j.2.2 (2 * i.1 + 2 * j.2.1 + 2) z 1 *
        (hom i.2.1 (2 * i.1 + 1) y (1 - z) * hom j.2.1 (2 * i.1 + 1) y (1 - z)) * ((1 - y - z) ^ (2 * i.1 + 1) / (2 * i.1 + 1 : ℝ)) =
        (1 / (2 * i.1 + 1 : ℝ)) * (hom i.2.2 (2 * i.1 + 2 * i.2.1 + 2) z 1 * hom j.2.2 (2 * i.1 + 2 * j.2.1 + 2) z 1 *
          if i.2.1 = j.2.1 then (1 - z) ^ (2 * i.1 + 2 * i.2.1 + 2) / (2 * i.1 + 2 * i.2.1 + 2 : ℝ) else 0) := by
      intro z
      have := orth_scale i.2.1 j.2.1 (2 * i.1 + 1) (1 - z)
      rw [show (if i.2.1 = j.2.1 then (1 - z) ^ (2 * i.1 + 2 * i.2.1 + 2) / (2 * i.1 + 2 * i.2.1 + 2 : ℝ) else 0) =
        if i.2.1 = j.2.1 then (1 - z) ^ (2 * i.2.1 + (2 * i.1 + 1) + 1) / (2 * i.2.1 + ((2 * i.1 + 1 : Nat) : ℝ) + 1) else 0 by
          split
          · congr 1
            · congr 1; omega
            · push_cast; ring
          · rfl, ← this, ← intervalIntegral.integral_const_mul, ← intervalIntegral.integral_const_mul]
      congr 1
      funext y
      rw [show 1 - z - y = 1 - y - z by ring]; ring
    simp only [e2]
    rw [intervalIntegral.integral_const_mul]
    by_cases h2 : i.2.1 = j.2.1
    · simp only [← h2, if_true]
      have := orth i.2.2 j.2.2 (2 * i.1 + 2 * i.2.1 + 2)
      rw [show (fun z : ℝ => hom i.2.2 (2 * i.1 + 2 * i.2.1 + 2) z 1 * hom j.2.2 (2 * i.1 + 2 * i.2.1 + 2) z 1 *
          ((1 - z) ^ (2 * i.1 + 2 * i.2.1 + 2) / (2 * i.1 + 2 * i.2.1 + 2 : ℝ))) =
        fun z => (1 / (2 * i.1 + 2 * i.2.1 + 2 : ℝ)) * ((1 - z) ^ (2 * i.1 + 2 * i.2.1 + 2) *
          hom i.2.2 (2 * i.1 + 2 * i.2.1 + 2) z 1 * hom j.2.2 (2 * i.1 + 2 * i.2.1 + 2) z 1) by funext z; ring,
        intervalIntegral.integral_const_mul, this]
      by_cases h3 : i.2.2 = j.2.2
      · rw [if_pos h3, if_pos (Prod.ext h1 (Prod.ext h2 h3))]
        push_cast
        rw [one_div_mul_one_div, one_div_mul_one_div]; congr 1; ring
      · rw [if_neg h3, if_neg (fun h => h3 (congrArg (fun p => p.2.2) h))]; ring
    · simp only [if_neg h2, mul_zero, intervalIntegral.integral_zero]
      rw [if_neg (fun h => h2 (congrArg (fun p => p.2.1) h))]
  · simp only [if_neg h1, mul_zero, intervalIntegral.integral_zero]
    rw [if_neg (fun h => h1 (congrArg Prod.fst h))]

end Edge.Basis
