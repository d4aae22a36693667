import Verif.Visco.Model
import Mathlib.Analysis.SpecialFunctions.ExpDeriv
import Mathlib.Analysis.Complex.Polynomial.Basic
import Mathlib.Tactic.LinearCombination
import Mathlib.Tactic.FieldSimp
import Mathlib.Tactic.Positivity
import Mathlib.Tactic.Linarith

/-!
C111: the viscoelastic material has the requested wave speeds at the central frequency, and the requested quality factors at the sampled frequencies.
-/

namespace Edge.Visco

open Complex

/-! ### Specification -/

/-- A plane wave with amplitude `A`, angular frequency `w` and (complex) wave number `k`. -/
noncomputable def wave (w : ℝ) (k A : ℂ) (x t : ℝ) : ℂ := A * exp (I * (w * t - k * x))

/-- The viscoelastic equations of motion for a wave along `x`: `v` is the particle velocity, `s` the stress and `m l` the memory variable of mechanism `l` with relaxation frequency
`rf l`; `M` is the elastic modulus, `src l` the entry of the source matrix and `h` the factor of the velocity's derivative in the strain rate (1 for P-waves, 1/2 for S-waves). -/
structure Motion (n : Nat) (rho M h : ℝ) (rf src : Nat → ℝ) (v s : ℝ → ℝ → ℂ) (m : Nat → ℝ → ℝ → ℂ) : Prop where
  /-- conservation of momentum -/
  momentum : ∀ x t, rho * deriv (fun t => v x t) t = deriv (fun x => s x t) x
  /-- rate of the stress -/
  stress : ∀ x t, deriv (fun t => s x t) t = M * deriv (fun x => v x t) x + ∑ l ∈ Finset.range n, src l * m l x t
  /-- memory variables -/
  memory : ∀ l < n, ∀ x t, deriv (fun t => m l x t) t = rf l * (h * deriv (fun x => v x t) x - m l x t)

/-- The phase velocity of plane waves with angular frequency `w` is `c`: every travelling wave which solves the equations of motion moves its phase by `c` per time, and there is one. -/
def PhaseVelocity (n : Nat) (rho M h : ℝ) (rf src : Nat → ℝ) (w c : ℝ) : Prop :=
  (∀ (k V S : ℂ) (m : Nat → ℂ), V ≠ 0 → 0 < k.re → Motion n rho M h rf src (wave w k V) (wave w k S) (fun l => wave w k (m l)) → w / k.re = c) ∧
  ∃ (k V S : ℂ) (m : Nat → ℂ), V ≠ 0 ∧ 0 < k.re ∧ Motion n rho M h rf src (wave w k V) (wave w k S) (fun l => wave w k (m l))

/-! ### Proofs -/

theorem wave_dt (w : ℝ) (k A : ℂ) (x t : ℝ) : deriv (fun t => wave w k A x t) t = I * w * wave w k A x t := by
  have h : HasDerivAt (fun t : ℝ => I * (w * (t : ℂ) - k * x)) (I * (w * 1 - 0)) t :=
    (((Complex.ofRealCLM.hasDerivAt (x := t)).const_mul (w : ℂ)).sub (hasDerivAt_const t (k * (x : ℂ)))).const_mul I
  rw [show (fun t => wave w k A x t) = fun t : ℝ => A * exp (I * (w * (t : ℂ) - k * x)) from rfl, (h.cexp.const_mul A).deriv]
  unfold wave
  ring

theorem wave_dx (w : ℝ) (k A : ℂ) (x t : ℝ) : deriv (fun x => wave w k A x t) x = -I * k * wave w k A x t := by
  have h : HasDerivAt (fun x : ℝ => I * (w * (t : ℂ) - k * (x : ℂ))) (I * (0 - k * 1)) x :=
    ((hasDerivAt_const x ((w : ℂ) * t)).sub ((Complex.ofRealCLM.hasDerivAt (x := x)).const_mul k)).const_mul I
  rw [show (fun x => wave w k A x t) = fun x : ℝ => A * exp (I * (w * (t : ℂ) - k * (x : ℂ))) from rfl, (h.cexp.const_mul A).deriv]
  unfold wave
  ring

/-- The relative modulus of the mechanisms at angular frequency `w`. -/
noncomputable def rel (n : Nat) (w : ℝ) (rf Y : Nat → ℝ) : ℂ := 1 - ∑ l ∈ Finset.range n, (Y l : ℂ) * (rf l / (rf l + I * w))

theorem den_ne {w f : ℝ} (hf : 0 < f) : (f : ℂ) + I * w ≠ 0 := by
  intro h
  have := congrArg Complex.re h
  simp at this
  exact hf.ne' this

/-- The code computes real and imaginary part of the relative modulus. -/
theorem thetas_rel (n : Nat) {w : ℝ} {freqs Y : Nat → ℝ} (hf : ∀ l < n, 0 < freqs (l * 2)) :
    (⟨(thetas n w freqs Y).1, (thetas n w freqs Y).2⟩ : ℂ) = rel n w (fun l => freqs (l * 2)) Y := by
  unfold thetas rel
  induction n with
  | zero => simp [Complex.ext_iff]
  | succ n ih =>
    have hn := hf n (by omega)
    have hd : (1 + w / freqs (n * 2) * (w / freqs (n * 2))) ≠ 0 := by have := mul_self_nonneg (w / freqs (n * 2)); exact (by linarith : (0 : ℝ) < _).ne'
    have := ih fun l hl => hf l (by omega)
    rw [List.range_succ, List.foldl_append, List.foldl_cons, List.foldl_nil, Finset.sum_range_succ, ← sub_sub, ← this]
    generalize (List.range n).foldl _ _ = p
    obtain ⟨a, b⟩ := p
    have e : (Y n : ℂ) * ((freqs (n * 2) : ℝ) / ((freqs (n * 2) : ℝ) + I * w)) =
        ⟨Y n * (1 / (1 + w / freqs (n * 2) * (w / freqs (n * 2)))), -(Y n * (w / freqs (n * 2)) * (1 / (1 + w / freqs (n * 2) * (w / freqs (n * 2)))))⟩ := by
      rw [mul_div_assoc', div_eq_iff (den_ne hn), Complex.ext_iff]
      have h0 := hn.ne'
      have hd' : freqs (n * 2) ^ 2 + w ^ 2 ≠ 0 := by positivity
      constructor
      · simp
        field_simp
      · simp
        field_simp
        ring
    rw [e, Complex.ext_iff]
    simp

/-- The amplitudes of a plane wave which solves the equations of motion. -/
theorem disp {n : Nat} {rho M h w : ℝ} {rf src Y : Nat → ℝ} (hf : ∀ l < n, 0 < rf l) (hs : ∀ l < n, src l * h = -M * Y l) {k V S : ℂ} {m : Nat → ℂ} (hV : V ≠ 0)
    (hm : Motion n rho M h rf src (wave w k V) (wave w k S) (fun l => wave w k (m l))) : (rho * w ^ 2 : ℂ) = k ^ 2 * (M * rel n w rf Y) := by
  have w0 : ∀ A, wave w k A 0 0 = A := by intro A; simp [wave]
  have e1 := hm.momentum 0 0
  have e2 := hm.stress 0 0
  simp only [wave_dt, wave_dx, w0] at e1 e2
  have e3 : ∀ l < n, m l = -I * k * V * h * (rf l / (rf l + I * w)) := by
    intro l hl
    have e := hm.memory l hl 0 0
    simp only [wave_dt, wave_dx, w0] at e
    rw [mul_div_assoc', eq_div_iff (den_ne (hf l hl))]
    linear_combination e
  have e4 : ∑ l ∈ Finset.range n, (src l : ℂ) * m l = I * k * V * M * ∑ l ∈ Finset.range n, (Y l : ℂ) * (rf l / (rf l + I * w)) := by
    rw [Finset.mul_sum]
    refine Finset.sum_congr rfl fun l hl => ?_
    rw [e3 l (Finset.mem_range.mp hl)]
    have : (src l : ℂ) * h = -M * Y l := by exact_mod_cast hs l (Finset.mem_range.mp hl)
    linear_combination (-I * k * V * (rf l / (rf l + I * w))) * this
  rw [e4] at e2
  have e5 : I * w * S = -I * k * V * (M * rel n w rf Y) := by
    rw [e2, rel]; ring
  have : V * (rho * w ^ 2 : ℂ) = V * (k ^ 2 * (M * rel n w rf Y)) := by
    have i2 : (I : ℂ) ^ 2 = -1 := I_sq
    linear_combination (-I * w) * e1 + I * k * e5 + (rho * V * w ^ 2 - V * k ^ 2 * M * rel n w rf Y) * i2
  exact mul_left_cancel₀ hV this

/-- The real part of the wave number. -/
theorem re_of_sq {k : ℂ} {rho w M P : ℝ} {t : ℝ × ℝ} (hr : 0 < rho) (hw : 0 < w) (hP : 0 < P) (hM : M = P * factor t) (hM0 : M ≠ 0) (hk : 0 < k.re)
    (h : (rho * w ^ 2 : ℂ) = k ^ 2 * (M * ⟨t.1, t.2⟩)) : w / k.re = Real.sqrt (P / rho) := by
  obtain ⟨a, b⟩ := k
  obtain ⟨x, y⟩ := t
  simp only at hk hM
  set R := Real.sqrt (x * x + y * y) with hR
  have hR0 : 0 ≤ R := Real.sqrt_nonneg _
  have hRR : R * R = x * x + y * y := Real.mul_self_sqrt (add_nonneg (mul_self_nonneg x) (mul_self_nonneg y))
  have hfac : factor (x, y) = (R + x) / (2 * R * R) := rfl
  have hRp : 0 < R := by
    rcases hR0.lt_or_eq with h | h
    · exact h
    · exfalso; apply hM0; rw [hM, hfac, ← h]; simp
  have hxR : 0 ≤ R + x := by
    have : |x| ≤ R := by rw [hR, ← Real.sqrt_mul_self_eq_abs]; exact Real.sqrt_le_sqrt (by nlinarith [mul_self_nonneg y])
    linarith [neg_abs_le x]
  have hMp : 0 < M := by
    refine lt_of_le_of_ne ?_ (Ne.symm hM0)
    rw [hM, hfac]; positivity
  have h1 := congrArg Complex.re h
  have h2 := congrArg Complex.im h
  simp [pow_two] at h1 h2
  -- the square of the modulus of the wave number
  have hn : ((a * a + b * b) * M * R) * ((a * a + b * b) * M * R) = (rho * w ^ 2) * (rho * w ^ 2) := by
    have : ((a * a + b * b) * M * R) * ((a * a + b * b) * M * R) = ((a * a + b * b) * M) ^ 2 * (R * R) := by ring
    rw [this, hRR]
    linear_combination (-(rho * w ^ 2 + ((a * a - b * b) * (M * x) - (a * b + b * a) * (M * y)))) * h1
      - ((a * a - b * b) * (M * y) + (a * b + b * a) * (M * x)) * h2
  have hn' : (a * a + b * b) * M * R = rho * w ^ 2 := by
    have p1 : 0 ≤ (a * a + b * b) * M * R := mul_nonneg (mul_nonneg (add_nonneg (mul_self_nonneg a) (mul_self_nonneg b)) hMp.le) hR0
    have p2 : 0 ≤ rho * w ^ 2 := by positivity
    nlinarith [mul_self_eq_mul_self_iff.mp hn, (mul_self_eq_mul_self_iff.mp hn).elim (fun h => h) (fun h => by linarith)]
  have e1 : (a * a - b * b) * M * (R * R) = rho * w ^ 2 * x := by
    rw [hRR]; linear_combination (-x) * h1 - y * h2
  have e2 : 2 * (a * a) * M * (R * R) = rho * w ^ 2 * (R + x) := by linear_combination e1 + R * hn'
  have e3 : P * (a * a) = rho * w ^ 2 := by
    have : M * (2 * R * R) = P * (R + x) := by rw [hM, hfac]; field_simp
    have hx : R + x ≠ 0 := by intro h0; apply hM0; rw [hM, hfac, h0]; simp
    have : (R + x) * (P * (a * a)) = (R + x) * (rho * w ^ 2) := by linear_combination e2 - (a * a) * this
    exact mul_left_cancel₀ hx this
  rw [eq_comm, Real.sqrt_eq_iff_mul_self_eq (by positivity) (by positivity)]
  field_simp
  nlinarith [e3]

/-- Travelling waves exist. -/
theorem exists_wave {n : Nat} {rho M h w : ℝ} {rf src Y : Nat → ℝ} (hf : ∀ l < n, 0 < rf l) (hs : ∀ l < n, src l * h = -M * Y l) (hr : 0 < rho) (hw : 0 < w) {P : ℝ} (hP : 0 < P)
    {t : ℝ × ℝ} (ht : (⟨t.1, t.2⟩ : ℂ) = rel n w rf Y) (hM : M = P * factor t) (hM0 : M ≠ 0) :
    ∃ (k V S : ℂ) (m : Nat → ℂ), V ≠ 0 ∧ 0 < k.re ∧ Motion n rho M h rf src (wave w k V) (wave w k S) (fun l => wave w k (m l)) := by
  obtain ⟨x, y⟩ := t
  simp only at ht
  have hT : rel n w rf Y ≠ 0 := by
    rw [← ht]; intro h0
    have hx : x = 0 := congrArg Complex.re h0
    have hy : y = 0 := congrArg Complex.im h0
    apply hM0; rw [hM, hx, hy]; simp [factor]
  have hMC : (M : ℂ) ≠ 0 := by exact_mod_cast hM0
  obtain ⟨k, hk⟩ := IsAlgClosed.exists_pow_nat_eq ((rho * w ^ 2 : ℂ) / (M * rel n w rf Y)) (n := 2) (by norm_num)
  have hkk : (rho * w ^ 2 : ℂ) = k ^ 2 * (M * rel n w rf Y) := by rw [hk]; field_simp
  have key : ∀ k : ℂ, (rho * w ^ 2 : ℂ) = k ^ 2 * (M * rel n w rf Y) → 0 < k.re →
      ∃ (k V S : ℂ) (m : Nat → ℂ), V ≠ 0 ∧ 0 < k.re ∧ Motion n rho M h rf src (wave w k V) (wave w k S) (fun l => wave w k (m l)) := by
    intro k hkk hk
    have hk0 : k ≠ 0 := by intro h0; rw [h0] at hk; simp at hk
    refine ⟨k, 1, -(rho * w) / k, fun l => -I * k * h * (rf l / (rf l + I * w)), one_ne_zero, hk, ?_, ?_, ?_⟩
    · intro x t
      rw [wave_dt, wave_dx]; unfold wave
      field_simp
    · intro x t
      have e4 : ∑ l ∈ Finset.range n, (src l : ℂ) * wave w k (-I * k * h * (rf l / (rf l + I * w))) x t
          = I * k * M * (∑ l ∈ Finset.range n, (Y l : ℂ) * (rf l / (rf l + I * w))) * exp (I * (w * t - k * x)) := by
        rw [Finset.mul_sum, Finset.sum_mul]
        refine Finset.sum_congr rfl fun l hl => ?_
        have : (src l : ℂ) * h = -M * Y l := by exact_mod_cast hs l (Finset.mem_range.mp hl)
        unfold wave
        linear_combination (-I * k * (rf l / (rf l + I * w)) * exp (I * (w * t - k * x))) * this
      rw [wave_dt, wave_dx, e4]
      have e5 : (∑ l ∈ Finset.range n, (Y l : ℂ) * (rf l / (rf l + I * w))) = 1 - rel n w rf Y := by rw [rel]; ring
      rw [e5]; unfold wave
      field_simp
      linear_combination (-1 : ℂ) * hkk
    · intro l hl x t
      rw [wave_dt, wave_dx]; unfold wave
      have := den_ne (w := w) (hf l hl)
      field_simp
      ring
  rcases lt_trichotomy k.re 0 with h0 | h0 | h0
  · exact key (-k) (by rw [neg_sq]; exact hkk) (by simpa using h0)
  · exfalso
    -- a purely imaginary wave number belongs to a modulus which is negative
    rw [← ht] at hkk
    have h1 := congrArg Complex.re hkk
    have h2 := congrArg Complex.im hkk
    simp [pow_two, h0] at h1 h2
    have hb : k.im ≠ 0 := by intro hb; rw [hb] at h1; simp at h1; rcases h1 with h1 | h1 <;> linarith
    have hy : y = 0 := by
      rcases h2 with h2 | h2 | h2
      · exact absurd h2 hb
      · exact absurd h2 hM0
      · exact h2
    apply hM0
    rw [hM, hy]
    have hx0 : x ≤ 0 := by
      by_contra hx
      push Not at hx
      have : 0 < factor (x, y) := by
        rw [hy]; unfold factor; simp only [mul_zero, add_zero, Real.sqrt_mul_self hx.le]; positivity
      have hMp : 0 < M := by rw [hM]; positivity
      nlinarith [mul_pos hMp hx, mul_self_nonneg k.im, mul_pos hr (mul_pos hw hw), mul_nonneg (mul_self_nonneg k.im) (mul_pos hMp hx).le]
    have : Real.sqrt (x * x) = -x := by rw [Real.sqrt_mul_self_eq_abs, abs_of_nonpos hx0]
    simp [factor, this]
  · exact key k hkk h0

variable (fit : (Nat → Nat → ℝ) → (Nat → ℝ) → Nat → ℝ) (n : Nat) (freqCen freqRat qp qs lamPhase muPhase : ℝ)

/-- C111: the relaxation frequencies are a geometric series around the central (angular) frequency, whose first and last entry have the given ratio. -/
theorem C111_frequencies {n : Nat} {freqCen freqRat : ℝ} (hc : 0 < freqCen) (hr : 0 < freqRat) (hn : 1 < n) :
    frequencies n freqCen freqRat (n - 1) = 2 * Real.pi * freqCen ∧
    frequencies n freqCen freqRat (2 * n - 2) / frequencies n freqCen freqRat 0 = freqRat ∧
    ∀ i, frequencies n freqCen freqRat (i + 1) ^ (2 * n - 2) = freqRat * frequencies n freqCen freqRat i ^ (2 * n - 2) := by
  have hpi := Real.pi_pos
  have f0 : 0 < 2 * Real.pi * freqCen / Real.sqrt freqRat := by have := Real.sqrt_pos.mpr hr; positivity
  have hn1 : (0 : ℝ) < (n : ℝ) - 1 := by have : (1 : ℝ) < n := by exact_mod_cast hn
                                         linarith
  have gen : ∀ i, frequencies n freqCen freqRat i = 2 * Real.pi * freqCen / Real.sqrt freqRat * Real.exp ((i * Real.log freqRat) / (2 * ((n : ℝ) - 1))) := by
    intro i
    unfold frequencies
    by_cases h : i = 0
    · simp [h]
    · simp only [h, if_false]
      rw [Real.exp_add, Real.exp_log f0]
  refine ⟨?_, ?_, ?_⟩
  · rw [gen, Nat.cast_sub hn.le, Nat.cast_one]
    have : (((n : ℝ) - 1) * Real.log freqRat) / (2 * ((n : ℝ) - 1)) = Real.log (Real.sqrt freqRat) := by
      rw [Real.log_sqrt hr.le]; field_simp
    rw [this, Real.exp_log (Real.sqrt_pos.mpr hr)]
    have := (Real.sqrt_pos.mpr hr).ne'
    field_simp
  · rw [gen, gen, mul_div_mul_left _ _ f0.ne']
    have : (((2 * n - 2 : Nat) : ℝ) * Real.log freqRat) / (2 * ((n : ℝ) - 1)) = Real.log freqRat := by
      rw [Nat.cast_sub (by omega)]; push_cast; field_simp
    rw [this, Real.exp_log hr]; simp
  · intro i
    rw [gen, gen, mul_pow, mul_pow, ← Real.exp_nat_mul, ← Real.exp_nat_mul]
    have : ((2 * n - 2 : Nat) : ℝ) * ((((i + 1 : Nat) : ℝ) * Real.log freqRat) / (2 * ((n : ℝ) - 1)))
        = Real.log freqRat + ((2 * n - 2 : Nat) : ℝ) * (((i : ℝ) * Real.log freqRat) / (2 * ((n : ℝ) - 1))) := by
      rw [Nat.cast_sub (by omega)]; push_cast; field_simp; ring
    rw [this, Real.exp_add, Real.exp_log hr]
    ring

theorem freq_pos {n : Nat} {freqCen freqRat : ℝ} (hc : 0 < freqCen) (hr : 0 < freqRat) (i : Nat) : 0 < frequencies n freqCen freqRat i := by
  have hpi := Real.pi_pos
  have := Real.sqrt_pos.mpr hr
  unfold frequencies
  by_cases h : i = 0
  · simp only [h, if_true]; positivity
  · simp only [h, if_false]; exact Real.exp_pos _

variable {fit n freqCen freqRat qp qs lamPhase muPhase}

/-- C111: with the elastic parameters and source matrices of the set-up, S-waves with the central frequency have the requested phase velocity, for every number of mechanisms, and
whatever the least squares fit returns, unless the elastic modulus degenerates. -/
theorem C111_s_wave {rho : ℝ} (hr : 0 < rho) (hc : 0 < freqCen) (hrat : 0 < freqRat) (hmu : 0 < muPhase)
    (h0 : (anelasticCoeffLame fit n freqCen freqRat qp qs lamPhase muPhase).mu ≠ 0) :
    PhaseVelocity n rho (anelasticCoeffLame fit n freqCen freqRat qp qs lamPhase muPhase).mu (1 / 2) (fun l => frequencies n freqCen freqRat (2 * l))
      (fun l => (srcNzs (anelasticCoeffLame fit n freqCen freqRat qp qs lamPhase muPhase) l).2.1) (2 * Real.pi * freqCen) (Real.sqrt (muPhase / rho)) := by
  have hw : 0 < 2 * Real.pi * freqCen := by have := Real.pi_pos; positivity
  have hf : ∀ l < n, 0 < frequencies n freqCen freqRat (2 * l) := fun l _ => freq_pos hc hrat _
  have ht := thetas_rel n (w := 2 * Real.pi * freqCen) (freqs := frequencies n freqCen freqRat) (Y := anelasticCoeffPs fit qs (frequencies n freqCen freqRat))
    (fun l _ => freq_pos hc hrat _)
  have ec : (fun l => frequencies n freqCen freqRat (l * 2)) = fun l => frequencies n freqCen freqRat (2 * l) := by funext l; rw [mul_comm]
  rw [ec] at ht
  have hs : ∀ l < n, (srcNzs (anelasticCoeffLame fit n freqCen freqRat qp qs lamPhase muPhase) l).2.1 * (1 / 2)
      = -(anelasticCoeffLame fit n freqCen freqRat qp qs lamPhase muPhase).mu * anelasticCoeffPs fit qs (frequencies n freqCen freqRat) l := by
    intro l _
    show -2 * _ * anelasticCoeffPs fit qs (frequencies n freqCen freqRat) l * (1 / 2) = _
    ring
  refine ⟨fun k V S m hV hk hm => ?_, exists_wave hf hs hr hw hmu ht rfl h0⟩
  have := disp hf hs hV hm
  rw [← ht] at this
  exact re_of_sq hr hw hmu rfl h0 hk this

/-- C111: P-waves with the central frequency have the requested phase velocity. -/
theorem C111_p_wave {rho : ℝ} (hr : 0 < rho) (hc : 0 < freqCen) (hrat : 0 < freqRat) (hmu : 0 < lamPhase + 2 * muPhase)
    (hl : (anelasticCoeffLame fit n freqCen freqRat qp qs lamPhase muPhase).lam ≠ 0)
    (h0 : (anelasticCoeffLame fit n freqCen freqRat qp qs lamPhase muPhase).lam + 2 * (anelasticCoeffLame fit n freqCen freqRat qp qs lamPhase muPhase).mu ≠ 0) :
    PhaseVelocity n rho ((anelasticCoeffLame fit n freqCen freqRat qp qs lamPhase muPhase).lam + 2 * (anelasticCoeffLame fit n freqCen freqRat qp qs lamPhase muPhase).mu) 1
      (fun l => frequencies n freqCen freqRat (2 * l))
      (fun l => (srcNzs (anelasticCoeffLame fit n freqCen freqRat qp qs lamPhase muPhase) l).1) (2 * Real.pi * freqCen) (Real.sqrt ((lamPhase + 2 * muPhase) / rho)) := by
  have hw : 0 < 2 * Real.pi * freqCen := by have := Real.pi_pos; positivity
  have hf : ∀ l < n, 0 < frequencies n freqCen freqRat (2 * l) := fun l _ => freq_pos hc hrat _
  have ht := thetas_rel n (w := 2 * Real.pi * freqCen) (freqs := frequencies n freqCen freqRat) (Y := anelasticCoeffPs fit qp (frequencies n freqCen freqRat))
    (fun l _ => freq_pos hc hrat _)
  have ec : (fun l => frequencies n freqCen freqRat (l * 2)) = fun l => frequencies n freqCen freqRat (2 * l) := by funext l; rw [mul_comm]
  rw [ec] at ht
  have hM : (anelasticCoeffLame fit n freqCen freqRat qp qs lamPhase muPhase).lam + 2 * (anelasticCoeffLame fit n freqCen freqRat qp qs lamPhase muPhase).mu
      = (lamPhase + 2 * muPhase) * factor (thetas n (2 * Real.pi * freqCen) (frequencies n freqCen freqRat) (anelasticCoeffPs fit qp (frequencies n freqCen freqRat))) := by
    simp only [anelasticCoeffLame, elasticLame]; ring
  have hs : ∀ l < n, (srcNzs (anelasticCoeffLame fit n freqCen freqRat qp qs lamPhase muPhase) l).1 * 1
      = -((anelasticCoeffLame fit n freqCen freqRat qp qs lamPhase muPhase).lam + 2 * (anelasticCoeffLame fit n freqCen freqRat qp qs lamPhase muPhase).mu)
        * anelasticCoeffPs fit qp (frequencies n freqCen freqRat) l := by
    intro l _
    have e : ∀ l, (anelasticCoeffLame fit n freqCen freqRat qp qs lamPhase muPhase).coeffsLam l
        = (1 + 2 * (anelasticCoeffLame fit n freqCen freqRat qp qs lamPhase muPhase).mu / (anelasticCoeffLame fit n freqCen freqRat qp qs lamPhase muPhase).lam)
            * anelasticCoeffPs fit qp (frequencies n freqCen freqRat) l
          - 2 * (anelasticCoeffLame fit n freqCen freqRat qp qs lamPhase muPhase).mu / (anelasticCoeffLame fit n freqCen freqRat qp qs lamPhase muPhase).lam
            * (anelasticCoeffLame fit n freqCen freqRat qp qs lamPhase muPhase).coeffsMu l := fun l => rfl
    unfold srcNzs
    simp only [e]
    generalize (anelasticCoeffLame fit n freqCen freqRat qp qs lamPhase muPhase).lam = A at hl ⊢
    field_simp
    ring
  refine ⟨fun k V S m hV hk hm => ?_, exists_wave hf hs hr hw hmu ht hM h0⟩
  have := disp hf hs hV hm
  rw [← ht] at this
  exact re_of_sq hr hw hmu hM h0 hk this

/-- C111: wherever the least squares fit is exact, the quality factor (the quotient of real and imaginary part of the modulus) at the sampled frequency is the requested one. -/
theorem C111_quality {q : ℝ} (hq : 0 < q) {freqs Y : Nat → ℝ} {fr : Nat} (hf : ∀ l < n, 0 < freqs (l * 2))
    (h : ∑ me ∈ Finset.range n, lsqMat q freqs fr me * Y me = 1 / q) :
    (rel n (freqs fr) (fun l => freqs (l * 2)) Y).re = q * (rel n (freqs fr) (fun l => freqs (l * 2)) Y).im := by
  have e : ∀ l ∈ Finset.range n, (Y l : ℂ) * ((freqs (l * 2) : ℝ) / ((freqs (l * 2) : ℝ) + I * (freqs fr : ℝ))) =
      ⟨Y l * (freqs (l * 2) ^ 2 / (freqs fr ^ 2 + freqs (l * 2) ^ 2)), -(Y l * (freqs (l * 2) * freqs fr / (freqs fr ^ 2 + freqs (l * 2) ^ 2)))⟩ := by
    intro l hl
    have hn := hf l (Finset.mem_range.mp hl)
    rw [mul_div_assoc', div_eq_iff (den_ne hn), Complex.ext_iff]
    have hd' : freqs fr ^ 2 + freqs (l * 2) ^ 2 ≠ 0 := by positivity
    constructor
    · simp
      field_simp
      ring
    · simp
      field_simp
      ring
  unfold rel
  rw [Finset.sum_congr rfl e]
  simp only [Complex.sub_re, Complex.sub_im, Complex.re_sum, Complex.im_sum, Complex.one_re, Complex.one_im, Finset.sum_neg_distrib]
  have h' : ∑ me ∈ Finset.range n, lsqMat q freqs fr me * Y me
      = ∑ l ∈ Finset.range n, Y l * (freqs (l * 2) * freqs fr / (freqs fr ^ 2 + freqs (l * 2) ^ 2))
        + 1 / q * ∑ l ∈ Finset.range n, Y l * (freqs (l * 2) ^ 2 / (freqs fr ^ 2 + freqs (l * 2) ^ 2)) := by
    rw [Finset.mul_sum, ← Finset.sum_add_distrib]
    refine Finset.sum_congr rfl fun l hl => ?_
    have hn := hf l (Finset.mem_range.mp hl)
    have hd' : freqs fr ^ 2 + freqs (l * 2) ^ 2 ≠ 0 := by positivity
    have hd'' : freqs fr * freqs fr + freqs (l * 2) * freqs (l * 2) ≠ 0 := by rw [← pow_two, ← pow_two]; exact hd'
    unfold lsqMat
    field_simp
  rw [h'] at h
  generalize ∑ l ∈ Finset.range n, Y l * (freqs (l * 2) * freqs fr / (freqs fr ^ 2 + freqs (l * 2) ^ 2)) = A at h ⊢
  generalize ∑ l ∈ Finset.range n, Y l * (freqs (l * 2) ^ 2 / (freqs fr ^ 2 + freqs (l * 2) ^ 2)) = B at h ⊢
  field_simp at h
  linarith

/-- C111: the elastic moduli are positive for non-negative coefficients. -/
theorem C111_positive {freqRef P : ℝ} (hP : 0 < P) (hw : 0 < freqRef) {freqs Y : Nat → ℝ} (hf : ∀ l < n, 0 < freqs (l * 2)) (hY : ∀ l < n, 0 ≤ Y l) :
    0 < P * factor (thetas n freqRef freqs Y) := by
  have inv : (thetas n freqRef freqs Y).2 > 0 ∨ thetas n freqRef freqs Y = (1, 0) := by
    unfold thetas
    induction n with
    | zero => right; rfl
    | succ n ih =>
      have i := ih (fun l hl => hf l (by omega)) (fun l hl => hY l (by omega))
      rw [List.range_succ, List.foldl_append, List.foldl_cons, List.foldl_nil]
      generalize (List.range n).foldl _ _ = p at i ⊢
      have hn := hf n (by omega)
      have hd : 0 < freqRef / freqs (n * 2) * (1 / (1 + freqRef / freqs (n * 2) * (freqRef / freqs (n * 2)))) := by positivity
      rcases (hY n (by omega)).lt_or_eq with h | h
      · left
        have : 0 ≤ p.2 := by rcases i with i | i
                             · exact i.le
                             · rw [i]
        have := mul_pos h hd
        show 0 < p.2 + Y n * (freqRef / freqs (n * 2)) * _
        rw [mul_assoc]; linarith
      · simpa [← h] using i
  apply mul_pos hP
  rcases inv with h | h
  · generalize thetas n freqRef freqs Y = p at h ⊢
    obtain ⟨x, y⟩ := p
    simp only [gt_iff_lt] at h
    unfold factor
    simp only
    have h1 : |x| < Real.sqrt (x * x + y * y) := by
      rw [← Real.sqrt_mul_self_eq_abs]; exact Real.sqrt_lt_sqrt (mul_self_nonneg x) (by nlinarith [mul_pos h h])
    have h2 := abs_nonneg x
    have h3 : 0 < Real.sqrt (x * x + y * y) + x := by linarith [neg_abs_le x]
    have h4 : 0 < Real.sqrt (x * x + y * y) := by linarith
    positivity
  · rw [h]; norm_num [factor]

end Edge.Visco
