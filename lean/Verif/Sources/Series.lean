import Mathlib.Analysis.SpecialFunctions.Integrals.Basic
import Mathlib.Algebra.Order.Floor.Semiring
import Verif.Util.Loop
/-!
Integration of sampled time series (`src/linalg/Series.hpp`), property C44. Over the real numbers and for one series: the code
treats the series independently.
-/
namespace Edge.Sources
open Classical

/-- `Series::integrate` (src/linalg/Series.hpp:59-134). The conversions of non-negative reals to `size_t` cut off the
fractional part; their overflow for indices of 2^64 and more is not modelled. An empty series (`i_nPts - 1` wraps around) and
a vanishing sampling distance have no outcome. -/
noncomputable def integrate (tol dx xStart : ℝ) (vals : List ℝ) (x1 x2 na : ℝ) : Option ℝ := do
  check (decide (dx ≠ 0 ∧ vals.length ≠ 0))
  let dxH := dx * 0.5
  let first := ⌊max ((x1 - xStart + dx) / dx) 0⌋₊
  let last := ⌊max ((x2 - xStart) / dx) 0⌋₊
  let last := min last (vals.length - 1)
  let first := min first last
  let int ← forN (last - first) (fun i int => do
    let pt := first + 1 + i
    let a ← rd vals pt
    let b ← rd vals (pt - 1)
    some (int + dxH * (a - b) + b * dx)) 0
  let tEnd := xStart + ((vals.length - 1 : Nat) : ℝ) * dx
  let bL := x1 + tol > xStart ∧ x1 - tol < tEnd
  let bR := x2 + tol > xStart ∧ x2 - tol < tEnd
  let diff := xStart + (first : ℝ) * dx - x1
  let int ← if first > 0 ∧ bL then do
      let a ← rd vals (first - 1)
      let b ← rd vals first
      some (int + 0.5 * diff * (diff / dx) * (a - b) + b * diff)
    else some (int + na * diff)
  let diff := x2 - (xStart + (last : ℝ) * dx)
  if last < vals.length - 1 ∧ bR then do
    let a ← rd vals (last + 1)
    let b ← rd vals last
    some (int + 0.5 * diff * (diff / dx) * (a - b) + b * diff)
  else some (int + na * diff)

/-! ### Specification -/

/-- Position of a sample. -/
def pos (dx xStart : ℝ) (k : Nat) : ℝ := xStart + k * dx

/-- `g` interpolates the samples linearly and has the given value outside of the series. -/
structure Interpolates (g : ℝ → ℝ) (dx xStart : ℝ) (vals : List ℝ) (na : ℝ) : Prop where
  before : ∀ x, x < xStart → g x = na
  after : ∀ x, pos dx xStart (vals.length - 1) < x → g x = na
  inside : ∀ k, (h : k + 1 < vals.length) → ∀ x, pos dx xStart k ≤ x → x ≤ pos dx xStart (k + 1) →
    g x = vals[k] + (x - pos dx xStart k) / dx * (vals[k + 1] - vals[k])

/-! ### Integrals -/

/-- The integral of `g` over `[a, b]` exists and is `I`. -/
structure HasInt (g : ℝ → ℝ) (a b I : ℝ) : Prop where
  int : IntervalIntegrable g MeasureTheory.volume a b
  eq : ∫ x in a..b, g x = I

theorem HasInt.trans {g : ℝ → ℝ} {a b c I J : ℝ} (h : HasInt g a b I) (h' : HasInt g b c J) : HasInt g a c (I + J) :=
  ⟨h.int.trans h'.int, by rw [← intervalIntegral.integral_add_adjacent_intervals h.int h'.int, h.eq, h'.eq]⟩

theorem HasInt.refl (g : ℝ → ℝ) (a : ℝ) : HasInt g a a 0 := ⟨IntervalIntegrable.refl, intervalIntegral.integral_same⟩

theorem HasInt.const {g : ℝ → ℝ} {a b c : ℝ} (hab : a ≤ b) (h : ∀ x, a < x → x < b → g x = c) : HasInt g a b (c * (b - a)) := by
  have he : Set.EqOn (fun _ => c) g (Set.uIoo a b) := by
    intro x hx
    rw [Set.uIoo_of_le hab] at hx
    exact (h x hx.1 hx.2).symm
  constructor
  · exact (intervalIntegrable_const (c := c)).congr_uIoo he
  · rw [← intervalIntegral.integral_congr_uIoo he]
    simp [mul_comm]

theorem HasInt.linear {g : ℝ → ℝ} {a b c s p : ℝ} (hab : a ≤ b) (h : ∀ x, a ≤ x → x ≤ b → g x = c + (x - p) * s) :
    HasInt g a b (c * (b - a) + s / 2 * ((b - p) ^ 2 - (a - p) ^ 2)) := by
  have he : Set.EqOn (fun x => c + (x - p) * s) g (Set.uIoo a b) := by
    intro x hx
    rw [Set.uIoo_of_le hab] at hx
    exact (h x hx.1.le hx.2.le).symm
  have hc : Continuous (fun x : ℝ => c + (x - p) * s) := by fun_prop
  constructor
  · exact (hc.intervalIntegrable a b).congr_uIoo he
  · rw [← intervalIntegral.integral_congr_uIoo he]
    rw [intervalIntegral.integral_add (by simp) (by exact (Continuous.intervalIntegrable (by fun_prop) _ _)),
      intervalIntegral.integral_mul_const, intervalIntegral.integral_sub (by simp) (by simp), integral_id]
    simp
    ring

variable {dx xs na : ℝ} {vals : List ℝ} {g : ℝ → ℝ}

/-- A part of an interval of the series. -/
theorem Interpolates.part (hg : Interpolates g dx xs vals na) {k : Nat} (hk : k + 1 < vals.length) {a b : ℝ}
    (ha : pos dx xs k ≤ a) (hab : a ≤ b) (hb : b ≤ pos dx xs (k + 1)) :
    HasInt g a b (vals[k] * (b - a) + (vals[k + 1] - vals[k]) / dx / 2 *
      ((b - pos dx xs k) ^ 2 - (a - pos dx xs k) ^ 2)) := by
  refine HasInt.linear hab fun x h1 h2 => ?_
  rw [hg.inside k hk x (ha.trans h1) (h2.trans hb)]
  ring

theorem pos_succ (k : Nat) : pos dx xs (k + 1) = pos dx xs k + dx := by simp [pos]; ring

theorem pos_mono (hdx : 0 < dx) {a b : Nat} (h : a ≤ b) : pos dx xs a ≤ pos dx xs b := by
  have : (a : ℝ) ≤ b := by exact_mod_cast h
  unfold pos; nlinarith

/-- The loop over the covered intervals. -/
theorem covered (hdx : 0 < dx) (hg : Interpolates g dx xs vals na) (first n : Nat) (hn : first + n < vals.length) :
    ∃ I, forN n (fun i int => do
        let pt := first + 1 + i
        let a ← rd vals pt
        let b ← rd vals (pt - 1)
        some (int + dx * 0.5 * (a - b) + b * dx)) 0 = some I ∧
      HasInt g (pos dx xs first) (pos dx xs (first + n)) I := by
  refine forN_inv (fun i I => HasInt g (pos dx xs first) (pos dx xs (first + i)) I) (HasInt.refl _ _) ?_
  intro i I hi hI
  have h1 : first + 1 + i < vals.length := by omega
  have h2 : first + i + 1 < vals.length := by omega
  have h3 : first + 1 + i - 1 = first + i := by omega
  refine ⟨I + dx * 0.5 * (vals[first + 1 + i] - vals[first + i]) + vals[first + i] * dx, by
    simp only [h3, rd_some h1, rd_some (show first + i < vals.length by omega), Option.bind_eq_bind, Option.bind_some], ?_⟩
  have := hI.trans (hg.part h2 le_rfl (by rw [pos_succ]; linarith) le_rfl)
  rw [show first + (i + 1) = first + i + 1 by omega]
  convert this using 1
  rw [pos_succ]
  have e : vals[first + 1 + i] = vals[first + i + 1] := by congr 1; omega
  rw [e]; field_simp; ring

/-- The index of the last sample up to a position. -/
theorem last_bounds (hdx : 0 < dx) {x : ℝ} (hx : xs ≤ x) :
    pos dx xs ⌊max ((x - xs) / dx) 0⌋₊ ≤ x ∧ x < pos dx xs (⌊max ((x - xs) / dx) 0⌋₊ + 1) := by
  have h0 : 0 ≤ (x - xs) / dx := div_nonneg (by linarith) hdx.le
  rw [max_eq_left h0]
  have h1 := Nat.floor_le h0
  have h2 := Nat.lt_floor_add_one ((x - xs) / dx)
  rw [le_div_iff₀ hdx] at h1
  rw [div_lt_iff₀ hdx] at h2
  constructor
  · unfold pos; linarith
  · unfold pos; push_cast; linarith

theorem first_eq (hdx : 0 < dx) {x : ℝ} (hx : xs ≤ x) :
    ⌊max ((x - xs + dx) / dx) 0⌋₊ = ⌊max ((x - xs) / dx) 0⌋₊ + 1 := by
  have h0 : 0 ≤ (x - xs) / dx := div_nonneg (by linarith) hdx.le
  have e : (x - xs + dx) / dx = (x - xs) / dx + 1 := by field_simp
  rw [e, max_eq_left h0, max_eq_left (by linarith), Nat.floor_add_one h0]

theorem first_zero (hdx : 0 < dx) {x : ℝ} (hx : x < xs) : ⌊max ((x - xs + dx) / dx) 0⌋₊ = 0 := by
  rw [Nat.floor_eq_zero, max_lt_iff]
  refine ⟨?_, one_pos⟩
  rw [div_lt_one hdx]; linarith

/-- What the function adds before the first covered sample. -/
noncomputable def addBefore (tol dx xs : ℝ) (vals : List ℝ) (x1 na : ℝ) (first : Nat) : Option ℝ :=
  let diff := pos dx xs first - x1
  if first > 0 ∧ (x1 + tol > xs ∧ x1 - tol < pos dx xs (vals.length - 1)) then do
    let a ← rd vals (first - 1)
    let b ← rd vals first
    some (0.5 * diff * (diff / dx) * (a - b) + b * diff)
  else some (na * diff)

/-- What the function adds after the last covered sample. -/
noncomputable def addAfter (tol dx xs : ℝ) (vals : List ℝ) (x2 na : ℝ) (last : Nat) : Option ℝ :=
  let diff := x2 - pos dx xs last
  if last < vals.length - 1 ∧ (x2 + tol > xs ∧ x2 - tol < pos dx xs (vals.length - 1)) then do
    let a ← rd vals (last + 1)
    let b ← rd vals last
    some (0.5 * diff * (diff / dx) * (a - b) + b * diff)
  else some (na * diff)

/-- The function adds up the covered intervals and the two remainders. -/
theorem integrate_split (hdx : 0 < dx) (hn : vals ≠ []) (hg : Interpolates g dx xs vals na) (tol : ℝ) {x1 x2 : ℝ} {first last : Nat}
    (hl : last = min ⌊max ((x2 - xs) / dx) 0⌋₊ (vals.length - 1))
    (hf : first = min ⌊max ((x1 - xs + dx) / dx) 0⌋₊ last) {A B : ℝ}
    (hA : addBefore tol dx xs vals x1 na first = some A) (hB : addAfter tol dx xs vals x2 na last = some B) :
    ∃ I, integrate tol dx xs vals x1 x2 na = some (I + A + B) ∧ HasInt g (pos dx xs first) (pos dx xs last) I := by
  have hlen : vals.length ≠ 0 := fun h => hn (List.length_eq_zero_iff.1 h)
  obtain ⟨I, hI, hI'⟩ := covered hdx hg first (last - first) (by omega)
  rw [show first + (last - first) = last by omega] at hI'
  refine ⟨I, ?_, hI'⟩
  simp only [integrate, check, hdx.ne', hlen, ne_eq, not_false_eq_true, and_self, decide_true, if_true, Option.bind_eq_bind,
    Option.bind_some]
  rw [← hl, ← hf]
  simp only [Option.bind_eq_bind] at hI
  rw [hI, Option.bind_some]
  simp only [addBefore, addAfter, Option.bind_eq_bind] at hA hB
  by_cases c1 : first > 0 ∧ (x1 + tol > xs ∧ x1 - tol < pos dx xs (vals.length - 1))
  · rw [if_pos c1] at hA
    rw [if_pos (show first > 0 ∧ (x1 + tol > xs ∧ x1 - tol < xs + ((vals.length - 1 : Nat) : ℝ) * dx) from c1)]
    simp only [Option.bind_eq_some_iff, Option.some.injEq] at hA
    obtain ⟨a, ha, b, hb, rfl⟩ := hA
    simp only [ha, hb, Option.bind_some]
    by_cases c2 : last < vals.length - 1 ∧
        (x2 + tol > xs ∧ x2 - tol < pos dx xs (vals.length - 1))
    · rw [if_pos c2] at hB
      rw [if_pos (show last < vals.length - 1 ∧
        (x2 + tol > xs ∧ x2 - tol < xs + ((vals.length - 1 : Nat) : ℝ) * dx) from c2)]
      simp only [Option.bind_eq_some_iff, Option.some.injEq] at hB
      obtain ⟨a', ha', b', hb', rfl⟩ := hB
      simp only [ha', hb', Option.bind_some, Option.some.injEq, pos]; ring
    · rw [if_neg c2] at hB
      rw [if_neg (show ¬(last < vals.length - 1 ∧
        (x2 + tol > xs ∧ x2 - tol < xs + ((vals.length - 1 : Nat) : ℝ) * dx)) from c2)]
      simp only [Option.some.injEq] at hB ⊢
      subst hB
      simp only [pos]; ring
  · rw [if_neg c1] at hA
    rw [if_neg (show ¬(first > 0 ∧ (x1 + tol > xs ∧ x1 - tol < xs + ((vals.length - 1 : Nat) : ℝ) * dx)) from c1)]
    simp only [Option.some.injEq] at hA
    subst hA
    by_cases c2 : last < vals.length - 1 ∧
        (x2 + tol > xs ∧ x2 - tol < pos dx xs (vals.length - 1))
    · rw [if_pos c2] at hB
      rw [if_pos (show last < vals.length - 1 ∧
        (x2 + tol > xs ∧ x2 - tol < xs + ((vals.length - 1 : Nat) : ℝ) * dx) from c2)]
      simp only [Option.bind_eq_some_iff, Option.some.injEq] at hB
      obtain ⟨a', ha', b', hb', rfl⟩ := hB
      simp only [ha', hb', Option.bind_some, Option.some.injEq, pos]; ring
    · rw [if_neg c2] at hB
      rw [if_neg (show ¬(last < vals.length - 1 ∧
        (x2 + tol > xs ∧ x2 - tol < xs + ((vals.length - 1 : Nat) : ℝ) * dx)) from c2)]
      simp only [Option.some.injEq] at hB ⊢
      subst hB
      simp only [pos]

/-- The remainder after the last covered sample is the integral up to the upper bound. -/
theorem after_int (hdx : 0 < dx) (hn : vals ≠ []) (hg : Interpolates g dx xs vals na) {tol : ℝ} (htol : 0 < tol) {x2 : ℝ}
    (hx : xs ≤ x2) {last : Nat} (hl : last = min ⌊max ((x2 - xs) / dx) 0⌋₊ (vals.length - 1)) :
    ∃ B, addAfter tol dx xs vals x2 na last = some B ∧ HasInt g (pos dx xs last) x2 B := by
  have hlen : vals.length ≠ 0 := fun h => hn (List.length_eq_zero_iff.1 h)
  obtain ⟨b1, b2⟩ := last_bounds hdx hx
  by_cases h : last < vals.length - 1
  · have e : last = ⌊max ((x2 - xs) / dx) 0⌋₊ := by omega
    rw [← e] at b1 b2
    have hm : pos dx xs (last + 1) ≤ pos dx xs (vals.length - 1) := pos_mono hdx (by omega)
    have hc : (x2 + tol > xs ∧ x2 - tol < pos dx xs (vals.length - 1)) :=
      ⟨by linarith, by linarith⟩
    have h1 : last + 1 < vals.length := by omega
    refine ⟨0.5 * (x2 - pos dx xs last) * ((x2 - pos dx xs last) / dx) * (vals[last + 1] - vals[last]) +
      vals[last] * (x2 - pos dx xs last), ?_, ?_⟩
    · simp only [addAfter, h, hc, and_self, if_true, rd_some h1, rd_some (show last < vals.length by omega),
        Option.bind_eq_bind, Option.bind_some]
    · have := hg.part h1 le_rfl b1 b2.le
      convert this using 1
      ring
  · have e : last = vals.length - 1 := by omega
    refine ⟨na * (x2 - pos dx xs last), by simp [addAfter, h], ?_⟩
    refine HasInt.const ?_ fun x h1 _ => hg.after x (by rw [← e]; exact h1)
    exact (pos_mono hdx (by omega)).trans b1

/-- C44: the integral of a time series is exactly the one of the linear interpolant if the interval contains a sample. -/
theorem C44_exact_partial (hdx : 0 < dx) (hg : Interpolates g dx xs vals na) {tol : ℝ} (htol : 0 < tol)
    {x1 x2 : ℝ} {k : Nat} (hk : k < vals.length) (h1 : x1 ≤ pos dx xs k) (h2 : pos dx xs k ≤ x2) :
    ∃ I, integrate tol dx xs vals x1 x2 na = some I ∧ HasInt g x1 x2 I := by
  have hn : vals ≠ [] := by rintro rfl; simp at hk
  have hx2 : xs ≤ x2 := by
    have : pos dx xs 0 ≤ pos dx xs k := pos_mono hdx (Nat.zero_le _)
    simp only [pos, Nat.cast_zero, zero_mul, add_zero] at this h2
    linarith
  obtain ⟨last, hl⟩ : ∃ l, l = min ⌊max ((x2 - xs) / dx) 0⌋₊ (vals.length - 1) := ⟨_, rfl⟩
  obtain ⟨first, hf⟩ : ∃ f, f = min ⌊max ((x1 - xs + dx) / dx) 0⌋₊ last := ⟨_, rfl⟩
  obtain ⟨B, hB, hB'⟩ := after_int hdx hn hg htol hx2 hl
  have hkl : k ≤ last := by
    obtain ⟨b1, b2⟩ := last_bounds hdx hx2
    have : k < ⌊max ((x2 - xs) / dx) 0⌋₊ + 1 := by
      by_contra hc
      have := pos_mono (xs := xs) hdx (not_lt.1 hc)
      linarith
    omega
  have hbef : ∃ A, addBefore tol dx xs vals x1 na first = some A ∧ HasInt g x1 (pos dx xs first) A := by
    by_cases hx : x1 < xs
    · rw [first_zero hdx hx] at hf
      have e : first = 0 := by omega
      subst e
      refine ⟨na * (pos dx xs 0 - x1), by simp [addBefore], HasInt.const ?_ fun x _ h => hg.before x (by simpa [pos] using h)⟩
      simp [pos]; linarith
    · have hx := not_lt.1 hx
      rw [first_eq hdx hx] at hf
      obtain ⟨b1, b2⟩ := last_bounds hdx hx
      generalize ⌊max ((x1 - xs) / dx) 0⌋₊ = j at *
      have hjk : j ≤ k := by
        by_contra hc
        have := pos_mono (dx := dx) (xs := xs) hdx (show k + 1 ≤ j by omega)
        rw [pos_succ] at this
        linarith
      by_cases hj : j + 1 ≤ last
      · have e : first = j + 1 := by omega
        subst e
        have hm : pos dx xs k ≤ pos dx xs (vals.length - 1) := pos_mono hdx (by omega)
        have hc : (x1 + tol > xs ∧ x1 - tol < pos dx xs (vals.length - 1)) :=
          ⟨by linarith, by linarith⟩
        have hj1 : j + 1 < vals.length := by omega
        refine ⟨0.5 * (pos dx xs (j + 1) - x1) * ((pos dx xs (j + 1) - x1) / dx) * (vals[j] - vals[j + 1]) +
          vals[j + 1] * (pos dx xs (j + 1) - x1), ?_, ?_⟩
        · simp only [addBefore, Nat.succ_pos, gt_iff_lt, hc, and_self, if_true, Nat.add_sub_cancel,
            rd_some (show j < vals.length by omega), rd_some hj1, Option.bind_eq_bind, Option.bind_some]
        · have := hg.part hj1 b1 b2.le le_rfl
          convert this using 1
          rw [pos_succ]; field_simp; ring
      · have e1 : j = k := by omega
        have e2 : first = k := by omega
        have e3 : pos dx xs k = x1 := le_antisymm (by rw [← e1]; exact b1) h1
        have e4 : pos dx xs k - x1 = 0 := by rw [e3, sub_self]
        subst e2
        refine ⟨0, ?_, by rw [e3]; exact HasInt.refl _ _⟩
        unfold addBefore
        simp only [e4, mul_zero, zero_mul, add_zero, Option.bind_eq_bind]
        split_ifs with c
        · simp [rd_some (show first - 1 < vals.length by omega), rd_some hk]
        · rfl
  obtain ⟨A, hA, hA'⟩ := hbef
  obtain ⟨I, hI, hI'⟩ := integrate_split hdx hn hg tol hl hf hA hB
  refine ⟨_, hI, ?_⟩
  have := (hA'.trans hI').trans hB'
  convert this using 1
  ring

/-- C44: before and after the series the given value is integrated. -/
theorem C44_outside_partial (hdx : 0 < dx) (hn : vals ≠ []) (hg : Interpolates g dx xs vals na) {tol : ℝ} (htol : 0 < tol)
    {x1 x2 : ℝ} (h12 : x1 ≤ x2) (h : x2 ≤ xs - tol ∨ pos dx xs (vals.length - 1) + tol ≤ x1) :
    ∃ I, integrate tol dx xs vals x1 x2 na = some I ∧ HasInt g x1 x2 I ∧ I = na * (x2 - x1) := by
  have hlen : vals.length ≠ 0 := fun h => hn (List.length_eq_zero_iff.1 h)
  have p0 : pos dx xs 0 = xs := by simp [pos]
  rcases h with h | h
  · have hl : 0 = min ⌊max ((x2 - xs) / dx) 0⌋₊ (vals.length - 1) := by
      rw [max_eq_right (div_nonpos_of_nonpos_of_nonneg (by linarith) hdx.le)]; simp
    have hf : 0 = min ⌊max ((x1 - xs + dx) / dx) 0⌋₊ 0 := by omega
    have hB : addAfter tol dx xs vals x2 na 0 = some (na * (x2 - pos dx xs 0)) := by
      unfold addAfter
      rw [if_neg]
      rintro ⟨-, c, -⟩
      linarith
    obtain ⟨I, hI, hI'⟩ := integrate_split hdx hn hg tol hl hf (A := na * (pos dx xs 0 - x1)) (by simp [addBefore]) hB
    have hI0 : I = 0 := by rw [← hI'.eq]; simp
    refine ⟨_, hI, ?_, by rw [hI0]; ring⟩
    have := HasInt.const (g := g) (c := na) h12 fun x _ hx => hg.before x (by linarith)
    convert this using 1
    rw [hI0]; ring
  · have hm : xs ≤ pos dx xs (vals.length - 1) := by
      have := pos_mono (xs := xs) hdx (Nat.zero_le (vals.length - 1)); rwa [p0] at this
    have key : ∀ x, pos dx xs (vals.length - 1) ≤ x → vals.length - 1 ≤ ⌊max ((x - xs) / dx) 0⌋₊ := by
      intro x hx
      obtain ⟨-, b2⟩ := last_bounds hdx (hm.trans hx)
      by_contra hc
      have := pos_mono (xs := xs) hdx (show ⌊max ((x - xs) / dx) 0⌋₊ + 1 ≤ vals.length - 1 by omega)
      linarith
    have hl : vals.length - 1 = min ⌊max ((x2 - xs) / dx) 0⌋₊ (vals.length - 1) := by
      have := key x2 (by linarith); omega
    have hf : vals.length - 1 = min ⌊max ((x1 - xs + dx) / dx) 0⌋₊ (vals.length - 1) := by
      have := key x1 (by linarith)
      rw [first_eq hdx (by linarith)]; omega
    have hA : addBefore tol dx xs vals x1 na (vals.length - 1) = some (na * (pos dx xs (vals.length - 1) - x1)) := by
      unfold addBefore
      rw [if_neg]
      rintro ⟨-, -, c⟩
      linarith
    obtain ⟨I, hI, hI'⟩ := integrate_split hdx hn hg tol hl hf hA (B := na * (x2 - pos dx xs (vals.length - 1)))
      (by simp [addAfter])
    have hI0 : I = 0 := by rw [← hI'.eq]; simp
    refine ⟨_, hI, ?_, by rw [hI0]; ring⟩
    have := HasInt.const (g := g) (c := na) h12 fun x hx _ => hg.after x (by linarith)
    convert this using 1
    rw [hI0]; ring

/-- C44: inside of an interval between two samples the result differs from the integral by exactly this error: the part
before the lower bound is removed with the slope of the interval before, or with the value outside of the series. -/
theorem C44_error (hdx : 0 < dx) (hg : Interpolates g dx xs vals na) {tol : ℝ} (htol : 0 < tol) {x1 x2 : ℝ} (h12 : x1 ≤ x2)
    {k : Nat} (hk : k + 1 < vals.length) (h1 : pos dx xs k ≤ x1) (h2 : x2 < pos dx xs (k + 1)) :
    ∃ I, HasInt g x1 x2 I ∧ integrate tol dx xs vals x1 x2 na = some (I +
      if k = 0 then (x1 - xs) * (vals[k] - na) + (x1 - xs) ^ 2 / (2 * dx) * (vals[k + 1] - vals[k])
      else (x1 - pos dx xs k) ^ 2 / (2 * dx) * (vals[k + 1] - 2 * vals[k] + vals[k - 1])) := by
  have hn : vals ≠ [] := by rintro rfl; simp at hk
  have p0 : pos dx xs 0 = xs := by simp [pos]
  have hx1 : xs ≤ x1 := by rw [← p0]; exact (pos_mono hdx (Nat.zero_le _)).trans h1
  have key : ∀ x, pos dx xs k ≤ x → x < pos dx xs (k + 1) → ⌊max ((x - xs) / dx) 0⌋₊ = k := by
    intro x a b
    obtain ⟨b1, b2⟩ := last_bounds (dx := dx) (xs := xs) hdx (x := x)
      (by rw [← p0]; exact (pos_mono hdx (Nat.zero_le _)).trans a)
    by_contra hc
    rcases lt_or_gt_of_ne hc with hc | hc
    · have := pos_mono (xs := xs) hdx (show ⌊max ((x - xs) / dx) 0⌋₊ + 1 ≤ k by omega); linarith
    · have := pos_mono (xs := xs) hdx (show k + 1 ≤ ⌊max ((x - xs) / dx) 0⌋₊ by omega); linarith
  have hl : k = min ⌊max ((x2 - xs) / dx) 0⌋₊ (vals.length - 1) := by rw [key x2 (by linarith) h2]; omega
  have hf : k = min ⌊max ((x1 - xs + dx) / dx) 0⌋₊ k := by rw [first_eq hdx hx1, key x1 h1 (by linarith)]; omega
  obtain ⟨B, hB, hB'⟩ := after_int hdx hn hg htol (hx1.trans h12) hl
  have hP := hg.part hk h1 h12 h2.le
  have hQ := hg.part hk le_rfl (h1.trans h12) h2.le
  have hm : pos dx xs (k + 1) ≤ pos dx xs (vals.length - 1) := pos_mono hdx (by omega)
  have hBv : B = _ := hB'.eq.symm.trans hQ.eq
  refine ⟨_, hP, ?_⟩
  by_cases h0 : k = 0
  · subst h0
    obtain ⟨I, hI, hI'⟩ := integrate_split hdx hn hg tol hl hf (A := na * (pos dx xs 0 - x1)) (by simp [addBefore]) hB
    have hI0 : I = 0 := by rw [← hI'.eq]; simp
    rw [hI, hI0, hBv, if_pos rfl, p0]
    congr 1
    field_simp; ring
  · have hc : x1 + tol > xs ∧ x1 - tol < pos dx xs (vals.length - 1) := ⟨by linarith, by linarith⟩
    have hA : addBefore tol dx xs vals x1 na k = some (0.5 * (pos dx xs k - x1) * ((pos dx xs k - x1) / dx) *
        (vals[k - 1] - vals[k]) + vals[k] * (pos dx xs k - x1)) := by
      simp only [addBefore, Nat.pos_of_ne_zero h0, gt_iff_lt, hc.1, hc.2, and_self, if_true,
        rd_some (show k - 1 < vals.length by omega), rd_some (show k < vals.length by omega), Option.bind_eq_bind,
        Option.bind_some]
    obtain ⟨I, hI, hI'⟩ := integrate_split hdx hn hg tol hl hf hA hB
    have hI0 : I = 0 := by rw [← hI'.eq]; simp
    rw [hI, hI0, hBv, if_neg h0]
    congr 1
    field_simp; ring

/-- An interpolant exists: the hypotheses of the theorems above are met by every series. -/
theorem exists_interp (hdx : 0 < dx) (xs : ℝ) (vals : List ℝ) (na : ℝ) : ∃ g, Interpolates g dx xs vals na := by
  have p0 : pos dx xs 0 = xs := by simp [pos]
  have hstrict : ∀ {a b : Nat}, pos dx xs a ≤ pos dx xs b → a ≤ b := by
    intro a b h
    by_contra hc
    have := pos_mono (xs := xs) hdx (show b + 1 ≤ a by omega)
    rw [pos_succ] at this; linarith
  let g : ℝ → ℝ := fun x => if h : ∃ k, ∃ h : k + 1 < vals.length, pos dx xs k ≤ x ∧ x ≤ pos dx xs (k + 1) then
    let k := h.choose
    have hk : k + 1 < vals.length := h.choose_spec.choose
    vals[k] + (x - pos dx xs k) / dx * (vals[k + 1] - vals[k]) else na
  have hout : ∀ x, (x < xs ∨ pos dx xs (vals.length - 1) < x) → g x = na := by
    intro x hx
    have : ¬ ∃ k, ∃ h : k + 1 < vals.length, pos dx xs k ≤ x ∧ x ≤ pos dx xs (k + 1) := by
      rintro ⟨k, hk, a, b⟩
      have h1 := pos_mono (xs := xs) hdx (Nat.zero_le k)
      have h2 := pos_mono (xs := xs) hdx (show k + 1 ≤ vals.length - 1 by omega)
      rcases hx with hx | hx <;> linarith
    simp only [g, dif_neg this]
  refine ⟨g, fun x h => hout x (Or.inl h), fun x h => hout x (Or.inr h), fun k hk x a b => ?_⟩
  have hex : ∃ k, ∃ h : k + 1 < vals.length, pos dx xs k ≤ x ∧ x ≤ pos dx xs (k + 1) := ⟨k, hk, a, b⟩
  obtain ⟨j, hj1, c, d, hgx⟩ : ∃ j, ∃ hj : j + 1 < vals.length, pos dx xs j ≤ x ∧ x ≤ pos dx xs (j + 1) ∧
      g x = vals[j] + (x - pos dx xs j) / dx * (vals[j + 1] - vals[j]) :=
    ⟨hex.choose, hex.choose_spec.choose, hex.choose_spec.choose_spec.1, hex.choose_spec.choose_spec.2, by
      simp only [g, dif_pos hex]⟩
  rw [hgx]
  have e1 : j ≤ k + 1 := hstrict (c.trans b)
  have e2 : k ≤ j + 1 := hstrict (a.trans d)
  rcases (by omega : j = k ∨ j = k + 1 ∨ k = j + 1) with rfl | rfl | rfl
  · rfl
  · have : x = pos dx xs (k + 1) := le_antisymm b c
    rw [this]; simp [pos_succ]; field_simp; ring
  · have : x = pos dx xs (j + 1) := le_antisymm d a
    rw [this]; simp [pos_succ]; field_simp; ring

/-- C44 does not hold: three samples on a line, an interval between the first two of them. -/
theorem C44_exact_refuted : ∃ (vals : List ℝ) (x1 x2 I J : ℝ), x1 ≤ x2 ∧
    (∀ g, Interpolates g 1 0 vals 0 → HasInt g x1 x2 I) ∧
    (∀ tol > 0, integrate tol 1 0 vals x1 x2 0 = some J) ∧ I ≠ J := by
  refine ⟨[0, 1, 2], 1 / 4, 3 / 4, 1 / 4, 9 / 32, by norm_num, fun g hg => ?_, fun tol htol => ?_, by norm_num⟩
  · have := hg.part (k := 0) (by simp) (a := 1 / 4) (b := 3 / 4) (by norm_num [pos]) (by norm_num) (by norm_num [pos])
    convert this using 1
    norm_num [pos]
  · obtain ⟨g, hg⟩ := exists_interp (dx := 1) one_pos 0 [0, 1, 2] 0
    obtain ⟨I, hI, h⟩ := C44_error one_pos hg htol (x1 := 1 / 4) (x2 := 3 / 4) (by norm_num) (k := 0) (by simp)
      (by norm_num [pos]) (by norm_num [pos])
    rw [h, ← hI.eq, (hg.part (k := 0) (by simp) (a := 1 / 4) (b := 3 / 4) (by norm_num [pos]) (by norm_num)
      (by norm_num [pos])).eq]
    norm_num [pos]

/-- C44: integrals over adjacent intervals do not add up. -/
theorem C44_additive_refuted : ∃ (vals : List ℝ) (x1 x2 x3 : ℝ), x1 ≤ x2 ∧ x2 ≤ x3 ∧ ∀ tol > 0, ∃ A B C,
    integrate tol 1 0 vals x1 x2 0 = some A ∧ integrate tol 1 0 vals x2 x3 0 = some B ∧
    integrate tol 1 0 vals x1 x3 0 = some C ∧ A + B ≠ C := by
  refine ⟨[0, 1, 2], 0, 1 / 4, 3 / 4, by norm_num, by norm_num, fun tol htol => ?_⟩
  obtain ⟨g, hg⟩ := exists_interp (dx := 1) one_pos 0 [0, 1, 2] 0
  obtain ⟨A, hA, hA'⟩ := C44_exact_partial one_pos hg htol (x1 := 0) (x2 := 1 / 4) (k := 0) (by simp) (by norm_num [pos])
    (by norm_num [pos])
  obtain ⟨B, hB, hB'⟩ := C44_error one_pos hg htol (x1 := 1 / 4) (x2 := 3 / 4) (by norm_num) (k := 0) (by simp)
    (by norm_num [pos]) (by norm_num [pos])
  obtain ⟨C, hC, hC'⟩ := C44_exact_partial one_pos hg htol (x1 := 0) (x2 := 3 / 4) (k := 0) (by simp) (by norm_num [pos])
    (by norm_num [pos])
  refine ⟨_, _, _, hA, hB', hC, ?_⟩
  have hs := (hA'.trans hB).eq.symm.trans hC'.eq
  rw [← hs]
  norm_num

/-- C44, adjacent intervals add up if every interval contains a sample. -/
theorem C44_additive_partial (hdx : 0 < dx) {tol : ℝ} (htol : 0 < tol) (xs na : ℝ) (vals : List ℝ) {x1 x2 x3 : ℝ} {j k : Nat}
    (hj : j < vals.length) (hk : k < vals.length) (h1 : x1 ≤ pos dx xs j) (h2 : pos dx xs j ≤ x2) (h3 : x2 ≤ pos dx xs k)
    (h4 : pos dx xs k ≤ x3) :
    ∃ A B, integrate tol dx xs vals x1 x2 na = some A ∧ integrate tol dx xs vals x2 x3 na = some B ∧
      integrate tol dx xs vals x1 x3 na = some (A + B) := by
  obtain ⟨g, hg⟩ := exists_interp hdx xs vals na
  obtain ⟨A, hA, hA'⟩ := C44_exact_partial hdx hg htol hj h1 h2
  obtain ⟨B, hB, hB'⟩ := C44_exact_partial hdx hg htol hk h3 h4
  obtain ⟨C, hC, hC'⟩ := C44_exact_partial hdx hg htol hj h1 (h2.trans (h3.trans h4))
  refine ⟨A, B, hA, hB, ?_⟩
  rw [hC, ← hC'.eq, (hA'.trans hB').eq]

/-- C44: every non-empty series with a sampling distance has an integral over every interval: no sample outside of the series
is accessed. -/
theorem C44_defined (tol : ℝ) {dx : ℝ} (hdx : dx ≠ 0) (xs : ℝ) {vals : List ℝ} (hn : vals ≠ []) (x1 x2 na : ℝ) :
    ∃ I, integrate tol dx xs vals x1 x2 na = some I := by
  have hlen : vals.length ≠ 0 := fun h => hn (List.length_eq_zero_iff.1 h)
  have hr : ∀ i < vals.length, ∃ v, rd vals i = some v := fun i hi => ⟨_, rd_some hi⟩
  unfold integrate
  simp only [check, hdx, hlen, ne_eq, not_false_eq_true, and_self, decide_true, if_true, Option.bind_eq_bind, Option.bind_some]
  generalize ⌊max ((x2 - xs) / dx) 0⌋₊ = l
  generalize ⌊max ((x1 - xs + dx) / dx) 0⌋₊ = f
  generalize hL : min l (vals.length - 1) = last
  generalize hF : min f last = first
  obtain ⟨I, hI, -⟩ := forN_inv (n := last - first) (s := (0 : ℝ)) (body := fun i int => do
    let a ← rd vals (first + 1 + i)
    let b ← rd vals (first + 1 + i - 1)
    some (int + dx * 0.5 * (a - b) + b * dx)) (fun _ _ => True) trivial (by
      intro i s hi _
      obtain ⟨a, ha⟩ := hr (first + 1 + i) (by omega)
      obtain ⟨b, hb⟩ := hr (first + 1 + i - 1) (by omega)
      exact ⟨s + dx * 0.5 * (a - b) + b * dx, by simp only [ha, hb, Option.bind_eq_bind, Option.bind_some], trivial⟩)
  simp only [Option.bind_eq_bind] at hI
  rw [hI, Option.bind_some]
  obtain ⟨b, hb⟩ := hr first (by omega)
  obtain ⟨d, hd⟩ := hr last (by omega)
  obtain ⟨a, ha⟩ := hr (first - 1) (by omega)
  simp only [ha, hb, hd, Option.bind_some]
  obtain ⟨e, he⟩ : ∃ e, last < vals.length - 1 → rd vals (last + 1) = some e := by
    by_cases c : last < vals.length - 1
    · obtain ⟨e, he⟩ := hr (last + 1) (by omega)
      exact ⟨e, fun _ => he⟩
    · exact ⟨0, fun h => absurd h c⟩
  split_ifs with c1 c2 c2
  · rw [he c2.1]; exact ⟨_, rfl⟩
  · exact ⟨_, rfl⟩
  · rw [he (by tauto)]; exact ⟨_, rfl⟩
  · exact ⟨_, rfl⟩

/-- A concrete case: four samples, an interval which starts before the series and ends between two samples. -/
example : ∃ g, Interpolates g (1 / 2) 1 [0, 3, 1, 2] 0 ∧ (2 : Nat) < [(0 : ℝ), 3, 1, 2].length ∧ (0 : ℝ) ≤ pos (1 / 2) 1 2 ∧
    pos (1 / 2) 1 2 ≤ (9 / 4 : ℝ) := by
  obtain ⟨g, hg⟩ := exists_interp (dx := 1 / 2) (by norm_num) 1 [0, 3, 1, 2] 0
  exact ⟨g, hg, by simp, by norm_num [pos], by norm_num [pos]⟩

end Edge.Sources
