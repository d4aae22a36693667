import Mathlib.Analysis.SpecialFunctions.Pow.Real
import Mathlib.Analysis.InnerProductSpace.PiL2
import Mathlib.Tactic.FieldSimp
import Mathlib.Tactic.Positivity
import Mathlib.Tactic.NormNum
import Mathlib.Tactic.Linarith

/-!
C114: time step of the advection solver. Model of `common::{computeTimeStep,getTimeStepStatistics}` (src/impl/advection/solvers/common.hpp). Real numbers replace floating point numbers and
`big` is the largest one of them; an element without velocity has an infinite time step, which is the outcome `none` (diameters are positive).
-/

namespace Edge.Advection.Cfl

/-- The absolute advection speed (src/impl/advection/solvers/common.hpp:50-64) of the velocity `v` with one, two or three components. -/
noncomputable def speed (d : Nat) (v : Nat → ℝ) : ℝ :=
  if d = 1 then |v 0| else if d = 2 then Real.sqrt (v 0 * v 0 + v 1 * v 1) else Real.sqrt (v 0 * v 0 + v 1 * v 1 + v 2 * v 2)

open Classical in
/-- `common::computeTimeStep` (src/impl/advection/solvers/common.hpp:47-73). -/
noncomputable def timeStep (d order : Nat) (inDia : ℝ) (v : Nat → ℝ) (cfl : ℝ) : Option ℝ :=
  if speed d v = 0 then none else some (inDia / speed d v * cfl / (2 * order - 1))

/-- `std::min` where the second argument may be infinite. -/
noncomputable def minInf (a : ℝ) (b : Option ℝ) : ℝ := match b with
  | none => a
  | some b => min a b

/-- `o_minDt` of `common::getTimeStepStatistics` (src/impl/advection/solvers/common.hpp:87-113), which is the time step of the simulation. -/
noncomputable def minTimeStep (d order nEls : Nat) (big cfl : ℝ) (inDia : Nat → ℝ) (v : Nat → Nat → ℝ) : ℝ :=
  (List.range nEls).foldl (fun m el => minInf m (timeStep d order (inDia el) (v el) cfl)) big

theorem speed_nonneg (d : Nat) (v : Nat → ℝ) : 0 ≤ speed d v := by
  unfold speed
  split_ifs
  · exact abs_nonneg _
  · exact Real.sqrt_nonneg _
  · exact Real.sqrt_nonneg _

theorem speed_eq {d : Nat} (hd : d = 1 ∨ d = 2 ∨ d = 3) (v : Nat → ℝ) : speed d v = Real.sqrt (∑ i ∈ Finset.range d, v i ^ 2) := by
  rcases hd with rfl | rfl | rfl
  · simp [speed, Real.sqrt_sq_eq_abs]
  · simp [speed, Finset.sum_range_succ, pow_two]
  · simp [speed, Finset.sum_range_succ, pow_two]

/-- No direction has a higher speed. -/
theorem speed_dir {d : Nat} (hd : d = 1 ∨ d = 2 ∨ d = 3) (v n : Nat → ℝ) (hn : ∑ i ∈ Finset.range d, n i ^ 2 = 1) : |∑ i ∈ Finset.range d, v i * n i| ≤ speed d v := by
  have cs := Finset.sum_mul_sq_le_sq_mul_sq (Finset.range d) v n
  rw [hn, mul_one] at cs
  rw [speed_eq hd]
  exact Real.abs_le_sqrt cs

theorem minInf_fold {f : Nat → Option ℝ} {a : ℝ} {n : Nat} : (List.range n).foldl (fun m i => minInf m (f i)) a ≤ a ∧
    (∀ i < n, ∀ x, f i = some x → (List.range n).foldl (fun m i => minInf m (f i)) a ≤ x) ∧
    ((List.range n).foldl (fun m i => minInf m (f i)) a = a ∨ ∃ i < n, f i = some ((List.range n).foldl (fun m i => minInf m (f i)) a)) := by
  induction n with
  | zero => simp
  | succ n ih =>
    rw [List.range_succ, List.foldl_append, List.foldl_cons, List.foldl_nil]
    generalize (List.range n).foldl (fun m i => minInf m (f i)) a = p at ih ⊢
    obtain ⟨i1, i2, i3⟩ := ih
    have i3' : ∀ q, q = p → (q = a ∨ ∃ i < n + 1, f i = some q) := by
      rintro q rfl
      rcases i3 with h | ⟨i, hi, h⟩
      · exact .inl h
      · exact .inr ⟨i, by omega, h⟩
    cases h : f n with
    | none =>
      refine ⟨i1, fun i hi x hx => ?_, i3' p rfl⟩
      rcases Nat.lt_succ_iff_lt_or_eq.mp hi with h' | rfl
      · exact i2 i h' x hx
      · rw [h] at hx; cases hx
    | some y =>
      refine ⟨(min_le_left _ _).trans i1, fun i hi x hx => ?_, ?_⟩
      · rcases Nat.lt_succ_iff_lt_or_eq.mp hi with h' | rfl
        · exact (min_le_left _ _).trans (i2 i h' x hx)
        · rw [h] at hx; cases hx; exact min_le_right _ _
      · show min p y = a ∨ ∃ i < n + 1, f i = some (min p y)
        rcases min_choice p y with e | e
        · exact i3' _ e
        · rw [e]; exact .inr ⟨n, by omega, h⟩

/-- C114: in a time step the solution moves, in no direction, by more than the given fraction of the diameter of any element. -/
theorem C114_bound {d order nEls : Nat} {big cfl : ℝ} {inDia : Nat → ℝ} {v : Nat → Nat → ℝ} (hd : d = 1 ∨ d = 2 ∨ d = 3) (ho : 0 < order) (hi : ∀ el < nEls, 0 < inDia el)
    (hb : 0 < big) (hc : 0 < cfl) {el : Nat} (he : el < nEls) (n : Nat → ℝ) (hn : ∑ i ∈ Finset.range d, n i ^ 2 = 1) :
    0 < minTimeStep d order nEls big cfl inDia v ∧
    |∑ i ∈ Finset.range d, v el i * n i| * minTimeStep d order nEls big cfl inDia v ≤ cfl / (2 * order - 1) * inDia el := by
  have hf : _ ∧ (∀ i < nEls, ∀ x, timeStep d order (inDia i) (v i) cfl = some x → minTimeStep d order nEls big cfl inDia v ≤ x) ∧
    (minTimeStep d order nEls big cfl inDia v = big ∨ ∃ i < nEls, timeStep d order (inDia i) (v i) cfl = some (minTimeStep d order nEls big cfl inDia v)) := minInf_fold
  obtain ⟨_, h2, h3⟩ := hf
  have ho' : (0 : ℝ) < 2 * order - 1 := by have : (1 : ℝ) ≤ order := by exact_mod_cast ho
                                           linarith
  have hpos : 0 < minTimeStep d order nEls big cfl inDia v := by
    rcases h3 with h | ⟨i, hi', h⟩
    · rw [h]; exact hb
    · unfold timeStep at h
      split_ifs at h with hs
      have hs' : 0 < speed d (v i) := lt_of_le_of_ne (speed_nonneg _ _) (Ne.symm hs)
      have := hi i hi'
      have hx := Option.some.inj h
      rw [← hx]; positivity
  refine ⟨hpos, ?_⟩
  have hdir := speed_dir hd (v el) n hn
  refine (mul_le_mul_of_nonneg_right hdir hpos.le).trans ?_
  by_cases hs : speed d (v el) = 0
  · rw [hs, zero_mul]; have := hi el he; positivity
  · have hs' : 0 < speed d (v el) := lt_of_le_of_ne (speed_nonneg _ _) (Ne.symm hs)
    have := h2 el he _ (by unfold timeStep; rw [if_neg hs])
    refine (mul_le_mul_of_nonneg_left this hs'.le).trans (le_of_eq ?_)
    field_simp

/-- C114: the time step is not smaller than required: in some element the solution moves by the given fraction of the diameter, unless it is the largest number. -/
theorem C114_sharp {d order nEls : Nat} {big cfl : ℝ} {inDia : Nat → ℝ} {v : Nat → Nat → ℝ} (hd : d = 1 ∨ d = 2 ∨ d = 3) (ho : 0 < order) :
    minTimeStep d order nEls big cfl inDia v = big ∨
    ∃ el < nEls, Real.sqrt (∑ i ∈ Finset.range d, v el i ^ 2) * minTimeStep d order nEls big cfl inDia v = cfl / (2 * order - 1) * inDia el := by
  have hf : _ ∧ (∀ i < nEls, ∀ x, timeStep d order (inDia i) (v i) cfl = some x → minTimeStep d order nEls big cfl inDia v ≤ x) ∧
    (minTimeStep d order nEls big cfl inDia v = big ∨ ∃ i < nEls, timeStep d order (inDia i) (v i) cfl = some (minTimeStep d order nEls big cfl inDia v)) := minInf_fold
  obtain ⟨_, h2, h3⟩ := hf
  have ho' : (0 : ℝ) < 2 * order - 1 := by have : (1 : ℝ) ≤ order := by exact_mod_cast ho
                                           linarith
  refine h3.imp id fun ⟨i, hi, h⟩ => ⟨i, hi, ?_⟩
  unfold timeStep at h
  split_ifs at h with hs
  have hx := Option.some.inj h
  rw [← hx, ← speed_eq hd]
  field_simp

/-- Two elements, of which one has velocity (3, 4) and the other one is at rest: the bound in the direction of the velocity. -/
example : |∑ i ∈ Finset.range 2, (fun i => if i = 0 then (3 : ℝ) else 4) i * (fun i => if i = 0 then 3 / 5 else 4 / 5) i|
    * minTimeStep 2 2 2 100 (1 / 2) (fun _ => 1) (fun el i => if el = 1 then 0 else if i = 0 then 3 else 4) ≤ 1 / 2 / (2 * (2 : Nat) - 1) * 1 :=
  (C114_bound (d := 2) (order := 2) (nEls := 2) (big := 100) (cfl := 1 / 2) (inDia := fun _ => 1) (v := fun el i => if el = 1 then 0 else if i = 0 then 3 else 4) (by norm_num) (by norm_num)
    (by norm_num) (by norm_num) (by norm_num) (el := 0) (by norm_num) (fun i => if i = 0 then 3 / 5 else 4 / 5) (by norm_num [Finset.sum_range_succ])).2

end Edge.Advection.Cfl
