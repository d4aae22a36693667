import Verif.Flux.Props
import Mathlib.MeasureTheory.Integral.Prod
/-!
Change of variables on the reference faces: the integral over a face is the same seen from both sides.
-/
namespace Edge.Cons
open Edge Edge.Map Edge.Proj Edge.Gen Edge.Flux MeasureTheory Set

theorem tria_int {f : ℝ → ℝ → ℝ} (_hf : Continuous (Function.uncurry f)) :
    ∫ y in (0:ℝ)..1, ∫ x in (0:ℝ)..(1 - y), f x y = ∫ y in Ioc (0:ℝ) 1, ∫ x in Ioc (0:ℝ) 1, {p : ℝ × ℝ | p.1 + p.2 ≤ 1}.indicator (Function.uncurry f) (x, y) := by
  rw [intervalIntegral.integral_of_le zero_le_one]
  refine setIntegral_congr_fun measurableSet_Ioc (fun y hy => ?_)
  beta_reduce
  rw [intervalIntegral.integral_of_le (by linarith [hy.2])]
  have h1 : ∀ x, {p : ℝ × ℝ | p.1 + p.2 ≤ 1}.indicator (Function.uncurry f) (x, y) = (Iic (1 - y)).indicator (fun x => f x y) x := by
    intro x
    simp only [Set.indicator, Set.mem_setOf_eq, Set.mem_Iic, Function.uncurry, le_sub_iff_add_le]
  simp only [h1]
  rw [setIntegral_indicator measurableSet_Iic]
  congr 2
  ext x
  simp only [Set.mem_Ioc, Set.mem_inter_iff, Set.mem_Iic]
  constructor
  · rintro ⟨h2, h3⟩; exact ⟨⟨h2, by linarith [hy.1]⟩, h3⟩
  · rintro ⟨⟨h2, -⟩, h3⟩; exact ⟨h2, h3⟩

theorem tria_swap {f : ℝ → ℝ → ℝ} (hf : Continuous (Function.uncurry f)) :
    ∫ y in (0:ℝ)..1, ∫ x in (0:ℝ)..(1 - y), f y x = ∫ y in (0:ℝ)..1, ∫ x in (0:ℝ)..(1 - y), f x y := by
  have hf' : Continuous (Function.uncurry (fun x y => f y x)) := hf.comp continuous_swap
  rw [tria_int hf', tria_int hf]
  have hint : Integrable (Function.uncurry (fun x y => {p : ℝ × ℝ | p.1 + p.2 ≤ 1}.indicator (Function.uncurry f) (x, y)))
      ((volume.restrict (Ioc (0:ℝ) 1)).prod (volume.restrict (Ioc (0:ℝ) 1))) := by
    have h1 : Function.uncurry (fun x y => {p : ℝ × ℝ | p.1 + p.2 ≤ 1}.indicator (Function.uncurry f) (x, y)) = {p : ℝ × ℝ | p.1 + p.2 ≤ 1}.indicator (Function.uncurry f) := by
      funext p; rfl
    rw [h1]
    refine Integrable.indicator ?_ (measurableSet_le (measurable_fst.add measurable_snd) measurable_const)
    rw [Measure.prod_restrict]
    have h2 : IntegrableOn (Function.uncurry f) (Icc (0:ℝ) 1 ×ˢ Icc (0:ℝ) 1) (volume.prod volume) := hf.continuousOn.integrableOn_compact (isCompact_Icc.prod isCompact_Icc)
    exact h2.mono_set (Set.prod_mono Ioc_subset_Icc_self Ioc_subset_Icc_self)
  rw [← integral_integral_swap hint]
  congr 1
  funext x
  congr 1
  funext y
  simp only [Set.indicator, Set.mem_setOf_eq, Function.uncurry, add_comm]

theorem tria_flip {f : ℝ → ℝ → ℝ} : ∫ y in (0:ℝ)..1, ∫ x in (0:ℝ)..(1 - y), f (1 - x - y) y = ∫ y in (0:ℝ)..1, ∫ x in (0:ℝ)..(1 - y), f x y := by
  congr 1
  funext y
  have := intervalIntegral.integral_comp_sub_left (fun x => f x y) (1 - y) (a := 0) (b := 1 - y)
  simp only [sub_self, sub_zero] at this
  rw [← this]
  congr 1
  funext x
  congr 1
  ring

/-- The integral over a face does not depend on the side from which it is parametrised. -/
theorem refInt_faPt {e : Ent} (he : e = .tria ∨ e = .tet) {ve : Nat} (hve : ve < e.nVeOpts) {f : ℝ → ℝ → ℝ} (hf : Continuous (Function.uncurry f)) :
    refInt (faTy e) (fun x y _ => f (faPt e ve x y 0) (faPt e ve x y 1)) = refInt (faTy e) (fun x y _ => f x y) := by
  rcases he with rfl | rfl
  · have hve : ve < 1 := hve
    interval_cases ve
    simp only [faTy, refInt, faPt, faToFa]
    have := intervalIntegral.integral_comp_sub_left (fun x => f x 0) 1 (a := 0) (b := 1)
    simpa using this
  · have hve : ve < 3 := hve
    interval_cases ve
    · simpa [faTy, refInt, faPt, faToFa] using tria_swap hf
    · simpa [faTy, refInt, faPt, faToFa] using tria_flip (f := f)
    · have hg : Continuous (Function.uncurry (fun x y => f x (1 - x - y))) := hf.comp (by fun_prop : Continuous fun p : ℝ × ℝ => (p.1, 1 - p.1 - p.2))
      have hf' : Continuous (Function.uncurry (fun x y => f y x)) := hf.comp continuous_swap
      have h1 := tria_swap hg
      have h2 := tria_flip (f := fun x y => f y x)
      have h3 := tria_swap hf
      simp only [faTy, refInt, faPt, faToFa]
      simp
      rw [← h1, ← h3, ← h2]
      congr 1
      funext y
      congr 1
      funext x
      congr 1
      ring

/-- Parametrising twice from the other side is the identity. -/
theorem faPt_faPt {e : Ent} (he : e = .tria ∨ e = .tet) {ve : Nat} (hve : ve < e.nVeOpts) (x y : ℝ) :
    faPt e ve (faPt e ve x y 0) (faPt e ve x y 1) 0 = x ∧ (e = .tet → faPt e ve (faPt e ve x y 0) (faPt e ve x y 1) 1 = y) := by
  rcases he with rfl | rfl
  · have hve : ve < 1 := hve
    interval_cases ve
    simp [faPt, faToFa]
  · have hve : ve < 3 := hve
    interval_cases ve <;> simp [faPt, faToFa] <;> ring

end Edge.Cons
