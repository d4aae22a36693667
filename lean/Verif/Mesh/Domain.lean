import Verif.Mesh.SetTypes
import Mathlib.Analysis.SpecialFunctions.Pow.Real
import Mathlib.Algebra.Order.Chebyshev
import Mathlib.Tactic.FieldSimp
import Mathlib.Tactic.Positivity
import Mathlib.Tactic.Linarith

/-!
C116: half-spaces and domains. Model of `src/linalg/HalfSpace.hpp` and `src/linalg/Domain.hpp`. Vectors are functions of the dimension, of which the first `d` entries are used; real numbers
replace floating point numbers.
-/

namespace Edge.Mesh.Domain

/-- `Geom::sprod1`, `sprod2` and `sprod3` (src/linalg/Geom.hpp:64-99). -/
noncomputable def sprod (d : Nat) (a b : Nat → ℝ) : ℝ :=
  if d = 1 then a 0 * b 0 else if d = 2 then a 0 * b 0 + a 1 * b 1 else a 0 * b 0 + a 1 * b 1 + a 2 * b 2

open Classical in
/-- `Geom::normalize1`, `normalize2` and `normalize3` (src/linalg/Geom.hpp:121-159); `tol` is `TOL.MESH`. A failing check and the division by zero are the outcome `none`. -/
noncomputable def normalize (d : Nat) (tol : ℝ) (v : Nat → ℝ) : Option (Nat → ℝ) :=
  if d = 1 then (if v 0 > 0 then some fun _ => 1 else if v 0 < 0 then some fun _ => -1 else none)
  else
    let norm := Real.sqrt (sprod d v v)
    if d = 2 then (if norm > tol then some fun i => v i / norm else none)
    else if norm = 0 then none else some fun i => v i / norm

/-- `HalfSpace`: origin and normal. -/
structure HalfSpace where
  origin : Nat → ℝ
  normal : Nat → ℝ

/-- The constructor of `HalfSpace` (src/linalg/HalfSpace.hpp:47-90). -/
noncomputable def mkHalfSpace (d : Nat) (tol : ℝ) (origin normal : Nat → ℝ) : Option HalfSpace :=
  if d = 1 ∨ d = 2 ∨ d = 3 then (normalize d tol normal).map (HalfSpace.mk origin) else none

open Classical in
/-- `HalfSpace::inside` with the default tolerance (src/linalg/HalfSpace.hpp:147-170). -/
noncomputable def HalfSpace.inside (d : Nat) (hs : HalfSpace) (pt : Nat → ℝ) : Bool :=
  let dot := sprod d hs.normal (fun i => pt i - hs.origin i)
  if dot > -(1 / 1000000) then true else false

/-- `Domain::inside` (src/linalg/Domain.hpp:86-96). -/
noncomputable def domInside (d : Nat) : List HalfSpace → (Nat → ℝ) → Bool
  | [], _ => true
  | hs :: objs, pt => if hs.inside d pt = false then false else domInside d objs pt

/-! ### Specification -/

/-- The point `p` is closer than the tolerance to the half-space of the points `y` whose direction from `origin` has a non-negative component in direction `normal`. -/
def Near (d : Nat) (origin normal p : Nat → ℝ) : Prop :=
  ∃ y : Nat → ℝ, 0 ≤ ∑ i ∈ Finset.range d, normal i * (y i - origin i) ∧ Real.sqrt (∑ i ∈ Finset.range d, (p i - y i) ^ 2) < 1 / 1000000

/-! ### Theorems -/

theorem sprod_eq {d : Nat} (hd : d = 1 ∨ d = 2 ∨ d = 3) (a b : Nat → ℝ) : sprod d a b = ∑ i ∈ Finset.range d, a i * b i := by
  rcases hd with rfl | rfl | rfl <;> simp [sprod, Finset.sum_range_succ]

/-- The normal of a half-space is the given vector, divided by its length. -/
theorem normalize_eq {d : Nat} {tol : ℝ} (ht : 0 ≤ tol) (hd : d = 1 ∨ d = 2 ∨ d = 3) {v u : Nat → ℝ} (h : normalize d tol v = some u) :
    0 < Real.sqrt (∑ i ∈ Finset.range d, v i ^ 2) ∧ ∀ i < d, v i = Real.sqrt (∑ i ∈ Finset.range d, v i ^ 2) * u i := by
  have e : ∀ d', (d' = 1 ∨ d' = 2 ∨ d' = 3) → sprod d' v v = ∑ i ∈ Finset.range d', v i ^ 2 := fun d' h' => by
    rw [sprod_eq h']; exact Finset.sum_congr rfl fun _ _ => by ring
  have fin : ∀ N : ℝ, 0 < N → u = (fun i => v i / N) → 0 < N ∧ ∀ i < d, v i = N * u i := by
    rintro N hN rfl
    exact ⟨hN, fun i _ => by field_simp⟩
  rcases hd with rfl | rfl | rfl
  · simp only [Finset.sum_range_one, Real.sqrt_sq_eq_abs]
    simp only [normalize, if_true] at h
    split_ifs at h with h1 h2
    · cases h
      refine ⟨abs_pos.mpr h1.ne', fun i hi => ?_⟩
      obtain rfl : i = 0 := by omega
      rw [abs_of_pos h1, mul_one]
    · cases h
      refine ⟨abs_pos.mpr h2.ne, fun i hi => ?_⟩
      obtain rfl : i = 0 := by omega
      rw [abs_of_neg h2]; ring
  · rw [← e 2 (by simp)]
    simp only [normalize, show (2 : Nat) ≠ 1 by decide, if_false, if_true] at h
    split_ifs at h with h1
    exact fin _ (lt_of_le_of_lt ht h1) (Option.some.inj h).symm
  · rw [← e 3 (by simp)]
    simp only [normalize, show (3 : Nat) ≠ 1 by decide, show (3 : Nat) ≠ 2 by decide, if_false] at h
    split_ifs at h with h1
    exact fin _ (lt_of_le_of_ne (Real.sqrt_nonneg _) (Ne.symm h1)) (Option.some.inj h).symm

theorem inside_iff {d : Nat} (hd : d = 1 ∨ d = 2 ∨ d = 3) {hs : HalfSpace} {p : Nat → ℝ} :
    hs.inside d p = true ↔ -(1 / 1000000) < ∑ i ∈ Finset.range d, hs.normal i * (p i - hs.origin i) := by
  simp only [HalfSpace.inside, sprod_eq hd]
  split_ifs with h
  · simpa using h
  · simpa using h

/-- C116: a half-space contains exactly the points which are closer than the tolerance to the given half-space; the length of the given normal does not matter. -/
theorem C116_half_space {d : Nat} {tol : ℝ} (ht : 0 ≤ tol) {origin normal : Nat → ℝ} {hs : HalfSpace} (h : mkHalfSpace d tol origin normal = some hs) (p : Nat → ℝ) :
    hs.inside d p = true ↔ Near d origin normal p := by
  unfold mkHalfSpace at h
  split_ifs at h with hd
  obtain ⟨u, hu, rfl⟩ := Option.map_eq_some_iff.mp h
  obtain ⟨hN, hv⟩ := normalize_eq ht hd hu
  rw [inside_iff hd]
  simp only
  set N := Real.sqrt (∑ i ∈ Finset.range d, normal i ^ 2) with hNd
  have hun : ∑ i ∈ Finset.range d, u i ^ 2 = 1 := by
    have : N ^ 2 = N ^ 2 * ∑ i ∈ Finset.range d, u i ^ 2 := by
      conv_lhs => rw [hNd, Real.sq_sqrt (Finset.sum_nonneg fun i _ => sq_nonneg _)]
      rw [Finset.mul_sum]
      exact Finset.sum_congr rfl fun i hi => by rw [hv i (Finset.mem_range.mp hi)]; ring
    have h0 : N ^ 2 ≠ 0 := by positivity
    exact (mul_left_cancel₀ h0 (by rw [mul_one]; exact this)).symm
  have hsum : ∀ y : Nat → ℝ, ∑ i ∈ Finset.range d, normal i * (y i - origin i) = N * ∑ i ∈ Finset.range d, u i * (y i - origin i) := fun y => by
    rw [Finset.mul_sum]
    exact Finset.sum_congr rfl fun i hi => by rw [hv i (Finset.mem_range.mp hi)]; ring
  constructor
  · intro h
    set s := ∑ i ∈ Finset.range d, u i * (p i - origin i) with hs
    rcases le_or_gt 0 s with h0 | h0
    · exact ⟨p, by rw [hsum]; positivity, by simp⟩
    · refine ⟨fun i => p i - s * u i, ?_, ?_⟩
      · rw [hsum]
        have : ∑ i ∈ Finset.range d, u i * (p i - s * u i - origin i) = s - s * ∑ i ∈ Finset.range d, u i ^ 2 := by
          rw [hs, Finset.mul_sum, ← Finset.sum_sub_distrib]
          exact Finset.sum_congr rfl fun i _ => by ring
        rw [this, hun]; simp
      · have : ∑ i ∈ Finset.range d, (p i - (p i - s * u i)) ^ 2 = s ^ 2 := by
          rw [← mul_one (s ^ 2), ← hun, Finset.mul_sum]
          exact Finset.sum_congr rfl fun i _ => by ring
        rw [this, Real.sqrt_sq_eq_abs, abs_of_neg h0]
        linarith
  · rintro ⟨y, h1, h2⟩
    rw [hsum] at h1
    have h1' := nonneg_of_mul_nonneg_right h1 hN
    have cs := Finset.sum_mul_sq_le_sq_mul_sq (Finset.range d) u (fun i => p i - y i)
    rw [hun, one_mul] at cs
    have h3 := Real.abs_le_sqrt cs
    have h4 := neg_abs_le (∑ i ∈ Finset.range d, u i * (p i - y i))
    have : ∑ i ∈ Finset.range d, u i * (p i - origin i) = ∑ i ∈ Finset.range d, u i * (y i - origin i) + ∑ i ∈ Finset.range d, u i * (p i - y i) := by
      rw [← Finset.sum_add_distrib]
      exact Finset.sum_congr rfl fun i _ => by ring
    rw [this]
    linarith

/-- C116: a domain contains exactly the points which are inside all of its half-spaces; without half-spaces it contains all points. -/
theorem C116_domain {d : Nat} {objs : List HalfSpace} {p : Nat → ℝ} : domInside d objs p = true ↔ ∀ hs ∈ objs, hs.inside d p = true := by
  induction objs with
  | nil => simp [domInside]
  | cons hs objs ih =>
    simp only [domInside, List.forall_mem_cons]
    by_cases h : hs.inside d p = true
    · simp [h, ih]
    · simp [h]

/-- C116: domains are convex: if all vertices of an element are inside a domain, so is the whole (straight-sided) element. -/
theorem C116_convex {d : Nat} (hd : d = 1 ∨ d = 2 ∨ d = 3) {objs : List HalfSpace} {n : Nat} {ve : Nat → Nat → ℝ} (h : ∀ j < n, domInside d objs (ve j) = true) {w : Nat → ℝ}
    (hw : ∀ j < n, 0 ≤ w j) (h1 : ∑ j ∈ Finset.range n, w j = 1) : domInside d objs (fun i => ∑ j ∈ Finset.range n, w j * ve j i) = true := by
  rw [C116_domain]
  intro hs hm
  rw [inside_iff hd]
  have hj : ∀ j < n, -(1 / 1000000) < ∑ i ∈ Finset.range d, hs.normal i * (ve j i - hs.origin i) := fun j hj => (inside_iff hd).mp (C116_domain.mp (h j hj) hs hm)
  have e : ∑ i ∈ Finset.range d, hs.normal i * ((∑ j ∈ Finset.range n, w j * ve j i) - hs.origin i)
      = ∑ j ∈ Finset.range n, w j * ∑ i ∈ Finset.range d, hs.normal i * (ve j i - hs.origin i) := by
    simp only [Finset.mul_sum]
    rw [Finset.sum_comm]
    refine Finset.sum_congr rfl fun i _ => ?_
    have : hs.origin i = ∑ j ∈ Finset.range n, w j * hs.origin i := by rw [← Finset.sum_mul, h1, one_mul]
    conv_lhs => rw [this]
    rw [← Finset.sum_sub_distrib, Finset.mul_sum]
    exact Finset.sum_congr rfl fun j _ => by ring
  rw [e]
  have e2 : -(1 / 1000000 : ℝ) = ∑ j ∈ Finset.range n, w j * -(1 / 1000000) := by rw [← Finset.sum_mul, h1, one_mul]
  rw [e2]
  obtain ⟨j, hjn, hjp⟩ : ∃ j ∈ Finset.range n, 0 < w j := by
    by_contra hc
    push Not at hc
    have : ∑ j ∈ Finset.range n, w j ≤ 0 := Finset.sum_nonpos hc
    linarith
  refine Finset.sum_lt_sum (fun j hj' => mul_le_mul_of_nonneg_left (hj j (Finset.mem_range.mp hj')).le (hw j (Finset.mem_range.mp hj'))) ⟨j, hjn, ?_⟩
  exact mul_lt_mul_of_pos_left (hj j (Finset.mem_range.mp hjn)) hjp

/-- A half-plane with normal (3, 4) and a point in it. -/
example : ∃ hs, mkHalfSpace 2 0 (fun _ => 1) (fun i => if i = 0 then 3 else 4) = some hs ∧ hs.inside 2 (fun i => if i = 0 then 5 else -2) = true := by
  have h0 : mkHalfSpace 2 0 (fun _ => 1) (fun i => if i = 0 then (3 : ℝ) else 4) = some ⟨fun _ => 1, fun i => (if i = 0 then 3 else 4) / Real.sqrt 25⟩ := by
    norm_num [mkHalfSpace, normalize, sprod]
  refine ⟨_, h0, (C116_half_space le_rfl h0 _).mpr ⟨fun i => if i = 0 then 5 else -2, ?_, ?_⟩⟩
  · norm_num [Finset.sum_range_succ]
  · simp

/-- The centre of a line whose vertices are inside. -/
example : domInside 1 [⟨fun _ => 0, fun _ => 1⟩] (fun i => ∑ j ∈ Finset.range 2, (fun _ => 1 / 2) j * (fun (j _ : Nat) => (j : ℝ)) j i) = true :=
  C116_convex (.inl rfl) (fun j _ => by rw [C116_domain]; simp only [List.mem_singleton, forall_eq, inside_iff (.inl rfl : 1 = 1 ∨ 1 = 2 ∨ 1 = 3)]
                                        simp only [Finset.sum_range_one, one_mul, sub_zero]
                                        have : (0 : ℝ) ≤ j := Nat.cast_nonneg j
                                        linarith) (fun _ _ => by norm_num) (by norm_num)

end Edge.Mesh.Domain
