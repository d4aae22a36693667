import Verif.Swe.Model
import Mathlib.Tactic.FieldSimp
import Mathlib.Tactic.Positivity
import Mathlib.Tactic.NormNum
import Mathlib.Tactic.Linarith

/-!
C113: time step of the shallow water solver. Model of `FiniteVolume::{computeCflTimeStep,getTimeStepStatistics}` (src/impl/swe/solvers/FiniteVolume.hpp). Degrees of freedom are functions of
element, quantity (0: height, 1, 2: momentum in x- and y-direction) and fused simulation; real numbers replace floating point numbers and `big` is the largest one of them.
-/

namespace Edge.Swe

open Classical in
/-- `FiniteVolume::computeCflTimeStep` for `nDis` dimensions (src/impl/swe/solvers/FiniteVolume.hpp:69-91) with the default arguments. -/
noncomputable def cflTimeStep (nDis : Nat) (big h hu inDia : ℝ) : ℝ :=
  if h > 0 then
    let u := hu / h
    let s := |u| + Real.sqrt (9.80665 * h)
    inDia / s / nDis * 0.9
  else big

/-- The loop over the fused simulations (src/impl/swe/solvers/FiniteVolume.hpp:193-199). -/
noncomputable def elTimeStep (nDis nCrs : Nat) (big : ℝ) (dofs : Nat → Nat → ℝ) (inDia : ℝ) : ℝ :=
  (List.range nCrs).foldl (fun c ru => min c (cflTimeStep nDis big (dofs 0 ru) (dofs 1 ru) inDia)) big

/-- `o_minDt` of `FiniteVolume::getTimeStepStatistics` (src/impl/swe/solvers/FiniteVolume.hpp:181-210), which is the time step of the simulation. -/
noncomputable def minDt (nDis nCrs nEls : Nat) (big : ℝ) (dofs : Nat → Nat → Nat → ℝ) (inDia : Nat → ℝ) : ℝ :=
  (List.range nEls).foldl (fun m el => min m (elTimeStep nDis nCrs big (dofs el) (inDia el))) big

theorem foldl_min_le {f : Nat → ℝ} {a : ℝ} {n : Nat} : (List.range n).foldl (fun m i => min m (f i)) a ≤ a ∧ ∀ i < n, (List.range n).foldl (fun m i => min m (f i)) a ≤ f i := by
  induction n with
  | zero => simp
  | succ n ih =>
    rw [List.range_succ, List.foldl_append, List.foldl_cons, List.foldl_nil]
    refine ⟨(min_le_left _ _).trans ih.1, fun i hi => ?_⟩
    rcases Nat.lt_succ_iff_lt_or_eq.mp hi with h | rfl
    · exact (min_le_left _ _).trans (ih.2 i h)
    · exact min_le_right _ _

theorem foldl_min_mem {f : Nat → ℝ} {a : ℝ} {n : Nat} : (List.range n).foldl (fun m i => min m (f i)) a = a ∨ ∃ i < n, (List.range n).foldl (fun m i => min m (f i)) a = f i := by
  induction n with
  | zero => simp
  | succ n ih =>
    rw [List.range_succ, List.foldl_append, List.foldl_cons, List.foldl_nil]
    rcases min_choice ((List.range n).foldl (fun m i => min m (f i)) a) (f n) with h | h
    · rw [h]
      rcases ih with h | ⟨i, hi, h⟩
      · exact .inl h
      · exact .inr ⟨i, by omega, h⟩
    · exact .inr ⟨n, by omega, h⟩

/-- The speed of the waves moving in x-direction, times time step, is at most 90% of the diameter, divided by the number of dimensions. -/
theorem minDt_x {nDis nCrs nEls : Nat} {big : ℝ} {dofs : Nat → Nat → Nat → ℝ} {inDia : Nat → ℝ} (hd : 0 < nDis) {el ru : Nat} (he : el < nEls) (hr : ru < nCrs)
    (hw : 0 < dofs el 0 ru) :
    (|dofs el 1 ru / dofs el 0 ru| + Real.sqrt (9.80665 * dofs el 0 ru)) * minDt nDis nCrs nEls big dofs inDia ≤ 0.9 * inDia el / nDis := by
  have h1 : minDt nDis nCrs nEls big dofs inDia ≤ elTimeStep nDis nCrs big (dofs el) (inDia el) := foldl_min_le.2 el he
  have h2 : elTimeStep nDis nCrs big (dofs el) (inDia el) ≤ cflTimeStep nDis big (dofs el 0 ru) (dofs el 1 ru) (inDia el) := foldl_min_le.2 ru hr
  have hs : 0 < |dofs el 1 ru / dofs el 0 ru| + Real.sqrt (9.80665 * dofs el 0 ru) := by
    have := abs_nonneg (dofs el 1 ru / dofs el 0 ru)
    have : 0 < Real.sqrt (9.80665 * dofs el 0 ru) := Real.sqrt_pos.mpr (by positivity)
    linarith
  have hd' : (0 : ℝ) < nDis := by exact_mod_cast hd
  refine (mul_le_mul_of_nonneg_left (h1.trans h2) hs.le).trans (le_of_eq ?_)
  simp only [cflTimeStep, gt_iff_lt, hw, if_true]
  field_simp

/-- C113: in one dimension, no wave of a wet element moves by more than 90% of the element in a time step: neither to the left nor to the right. -/
theorem C113_line {nCrs nEls : Nat} {big : ℝ} {dofs : Nat → Nat → Nat → ℝ} {inDia : Nat → ℝ} {el ru : Nat} (he : el < nEls) (hr : ru < nCrs) (hw : 0 < dofs el 0 ru)
    (hp : 0 ≤ minDt 1 nCrs nEls big dofs inDia) :
    |dofs el 1 ru / dofs el 0 ru + Real.sqrt (9.80665 * dofs el 0 ru)| * minDt 1 nCrs nEls big dofs inDia ≤ 0.9 * inDia el ∧
    |dofs el 1 ru / dofs el 0 ru - Real.sqrt (9.80665 * dofs el 0 ru)| * minDt 1 nCrs nEls big dofs inDia ≤ 0.9 * inDia el := by
  have h := minDt_x (big := big) (inDia := inDia) Nat.one_pos he hr hw
  simp only [Nat.cast_one, div_one] at h
  have hq := abs_of_nonneg (Real.sqrt_nonneg (9.80665 * dofs el 0 ru))
  refine ⟨(mul_le_mul_of_nonneg_right ?_ hp).trans h, (mul_le_mul_of_nonneg_right ?_ hp).trans h⟩
  · exact (abs_add_le _ _).trans (by rw [hq])
  · exact (abs_sub _ _).trans (by rw [hq])

/-- C113: in two dimensions the bound holds for the waves in x-direction. Missing: all other directions, see `C113_plane_refuted`. -/
theorem C113_plane_partial {nCrs nEls : Nat} {big : ℝ} {dofs : Nat → Nat → Nat → ℝ} {inDia : Nat → ℝ} {el ru : Nat} (he : el < nEls) (hr : ru < nCrs) (hw : 0 < dofs el 0 ru) :
    (|dofs el 1 ru / dofs el 0 ru| + Real.sqrt (9.80665 * dofs el 0 ru)) * minDt 2 nCrs nEls big dofs inDia ≤ 0.45 * inDia el := by
  have h := minDt_x (big := big) (inDia := inDia) Nat.two_pos he hr hw
  refine h.trans (le_of_eq ?_)
  push_cast
  ring

/-- C113: in two dimensions the momentum in y-direction is ignored: for every number of elements the waves of a wet element may cross in a single time step. -/
theorem C113_plane_refuted (C : ℝ) : ∃ (dofs : Nat → Nat → Nat → ℝ) (inDia : Nat → ℝ), 0 < inDia 0 ∧ 0 < dofs 0 0 0 ∧
    ∀ big, 1 ≤ big → 0 < minDt 2 1 1 big dofs inDia ∧ C * inDia 0 < (|dofs 0 2 0 / dofs 0 0 0| + Real.sqrt (9.80665 * dofs 0 0 0)) * minDt 2 1 1 big dofs inDia := by
  refine ⟨fun _ q _ => if q = 0 then 1 else if q = 1 then 0 else 10 * |C| + 10, fun _ => 1, one_pos, by simp, fun big hb => ?_⟩
  have hs : Real.sqrt (9.80665 * 1) ≤ 4 := by rw [Real.sqrt_le_left (by norm_num)]; norm_num
  have hs0 : 0 < Real.sqrt (9.80665 * 1) := Real.sqrt_pos.mpr (by norm_num)
  have e : minDt 2 1 1 big (fun _ q _ => if q = 0 then 1 else if q = 1 then 0 else 10 * |C| + 10) (fun _ => 1) = min big (1 / Real.sqrt (9.80665 * 1) / 2 * 0.9) := by
    simp [minDt, elTimeStep, cflTimeStep]
  have hl : (0.1 : ℝ) ≤ min big (1 / Real.sqrt (9.80665 * 1) / 2 * 0.9) := by
    refine le_min (by linarith) ?_
    have : 1 / 4 ≤ 1 / Real.sqrt (9.80665 * 1) := one_div_le_one_div_of_le hs0 hs
    linarith
  rw [e]
  refine ⟨by linarith, ?_⟩
  simp only [if_true, show (2 : Nat) ≠ 0 by decide, show (2 : Nat) ≠ 1 by decide, if_false, div_one, mul_one C]
  have hC := le_abs_self C
  have hC0 := abs_nonneg C
  rw [abs_of_nonneg (by positivity : (0 : ℝ) ≤ 10 * |C| + 10)]
  have : (10 * |C| + 10 + Real.sqrt (9.80665 * 1)) * 0.1 ≤ (10 * |C| + 10 + Real.sqrt (9.80665 * 1)) * min big (1 / Real.sqrt (9.80665 * 1) / 2 * 0.9) :=
    mul_le_mul_of_nonneg_left hl (by positivity)
  linarith

/-- C113: the time step is not smaller than required: it is the one of an element, or there is no water. -/
theorem C113_sharp {nDis nCrs nEls : Nat} {big : ℝ} {dofs : Nat → Nat → Nat → ℝ} {inDia : Nat → ℝ} :
    minDt nDis nCrs nEls big dofs inDia = big ∨ ∃ el < nEls, ∃ ru < nCrs, 0 < dofs el 0 ru ∧
      minDt nDis nCrs nEls big dofs inDia = inDia el / (|dofs el 1 ru / dofs el 0 ru| + Real.sqrt (9.80665 * dofs el 0 ru)) / nDis * 0.9 := by
  have h1 : minDt nDis nCrs nEls big dofs inDia = big ∨ ∃ el < nEls, minDt nDis nCrs nEls big dofs inDia = elTimeStep nDis nCrs big (dofs el) (inDia el) := foldl_min_mem
  rcases h1 with h | ⟨el, he, h⟩
  · exact .inl h
  · have h2 : elTimeStep nDis nCrs big (dofs el) (inDia el) = big ∨
        ∃ ru < nCrs, elTimeStep nDis nCrs big (dofs el) (inDia el) = cflTimeStep nDis big (dofs el 0 ru) (dofs el 1 ru) (inDia el) := foldl_min_mem
    rcases h2 with h' | ⟨ru, hr, h'⟩
    · exact .inl (h.trans h')
    · by_cases hw : 0 < dofs el 0 ru
      · refine .inr ⟨el, he, ru, hr, hw, ?_⟩
        rw [h, h']; simp [cflTimeStep, hw]
      · left; rw [h, h']; simp [cflTimeStep, hw]

/-- Two elements with two fused simulations; the second element is dry in the second simulation. -/
example : |(3 / 2 : ℝ) + Real.sqrt (9.80665 * 2)| * minDt 1 2 2 1 (fun el q ru => if q = 0 then (if el = 1 ∧ ru = 1 then 0 else 2) else 3) (fun el => el + 1) ≤ 0.9 * 1 := by
  have h := (C113_line (nCrs := 2) (nEls := 2) (big := 1) (dofs := fun el q ru => if q = 0 then (if el = 1 ∧ ru = 1 then 0 else 2) else 3) (inDia := fun el => el + 1) (el := 0) (ru := 1)
    (by norm_num) (by norm_num) (by norm_num) ?_).1
  · simpa using h
  · rcases (C113_sharp (nDis := 1) (nCrs := 2) (nEls := 2) (big := 1) (dofs := fun el q ru => if q = 0 then (if el = 1 ∧ ru = 1 then 0 else 2) else 3) (inDia := fun el => el + 1)) with
      h | ⟨el, _, ru, _, _, h⟩
    · rw [h]; norm_num
    · rw [h]; positivity

end Edge.Swe
