import Verif.Flux.Surf
import Mathlib.Analysis.SpecialFunctions.Integrals.Basic
/-!
C94: integrals over the faces of the reference elements and the divergence theorem.
-/
namespace Edge.Flux
open Edge Edge.Map Edge.Quad Edge.Basis Edge.Proj Edge.Gen MvPolynomial

/-! ### Integrals of monomials -/

theorem beta (h : ℝ) (b : Nat) : ∀ a : Nat, ∫ x in (0 : ℝ)..h, x ^ a * (h - x) ^ b = (a.factorial : ℝ) * b.factorial / (a + b + 1).factorial * h ^ (a + b + 1) := by
  induction b with
  | zero =>
    intro a
    have h1 : ((a + 1).factorial : ℝ) = (a + 1) * a.factorial := by rw [Nat.factorial_succ]; push_cast; ring
    have h2 : ((a.factorial : ℝ)) ≠ 0 := by exact_mod_cast a.factorial_ne_zero
    have h3 : (a : ℝ) + 1 ≠ 0 := by positivity
    simp only [pow_zero, mul_one, integral_pow, Nat.factorial_zero, Nat.cast_one, add_zero, h1]
    rw [zero_pow (by omega)]
    field_simp; ring
  | succ b ih =>
    intro a
    have hd : ∀ x ∈ Set.uIcc (0 : ℝ) h, HasDerivAt (fun x : ℝ => x ^ (a + 1) * (h - x) ^ (b + 1))
        ((a + 1) * (x ^ a * (h - x) ^ (b + 1)) - (b + 1) * (x ^ (a + 1) * (h - x) ^ b)) x := by
      intro x _
      have h1 : HasDerivAt (fun x : ℝ => x ^ (a + 1)) (((a + 1 : Nat) : ℝ) * x ^ a) x := by simpa using hasDerivAt_pow (a + 1) x
      have h2 : HasDerivAt (fun x : ℝ => (h - x) ^ (b + 1)) (((b + 1 : Nat) : ℝ) * (h - x) ^ b * (-1)) x := by
        refine (HasDerivAt.pow ((hasDerivAt_id x).const_sub h) (b + 1)).congr_deriv ?_
        simp
      refine (h1.mul h2).congr_deriv ?_
      push_cast; ring
    have h1 := intervalIntegral.integral_eq_sub_of_hasDerivAt hd (by
      apply Continuous.intervalIntegrable; fun_prop)
    rw [intervalIntegral.integral_sub (by apply Continuous.intervalIntegrable; fun_prop) (by apply Continuous.intervalIntegrable; fun_prop),
      intervalIntegral.integral_const_mul, intervalIntegral.integral_const_mul, ih (a + 1), sub_self, zero_pow (by omega), zero_pow (by omega)] at h1
    have e1 : a + 1 + b + 1 = a + (b + 1) + 1 := by ring
    rw [e1] at h1
    have h3 : ((a + 1).factorial : ℝ) = (a + 1) * a.factorial := by rw [Nat.factorial_succ]; push_cast; ring
    have h4 : ((b + 1).factorial : ℝ) = (b + 1) * b.factorial := by rw [Nat.factorial_succ]; push_cast; ring
    rw [h3] at h1
    rw [h4]
    have h5 : (a : ℝ) + 1 ≠ 0 := by positivity
    have h6 : (((a + (b + 1) + 1).factorial : ℝ)) ≠ 0 := by exact_mod_cast Nat.factorial_ne_zero _
    have h7 : ((a : ℝ) + 1) * ∫ x in (0 : ℝ)..h, x ^ a * (h - x) ^ (b + 1) = (b + 1) * ((a + 1) * a.factorial * b.factorial / (a + (b + 1) + 1).factorial * h ^ (a + (b + 1) + 1)) := by
      linarith
    apply mul_left_cancel₀ h5
    rw [h7]; ring

/-- Triangle. -/
theorem int_tria (a b c : Nat) : ∫ y in (0 : ℝ)..1, ∫ x in (0 : ℝ)..(1 - y), x ^ a * y ^ b * (1 - x - y) ^ c =
    (a.factorial : ℝ) * b.factorial * c.factorial / (a + b + c + 2).factorial := by
  have h1 : ∀ y : ℝ, ∫ x in (0 : ℝ)..(1 - y), x ^ a * y ^ b * (1 - x - y) ^ c =
      (a.factorial : ℝ) * c.factorial / (a + c + 1).factorial * (y ^ b * (1 - y) ^ (a + c + 1)) := by
    intro y
    have : ∀ x : ℝ, x ^ a * y ^ b * (1 - x - y) ^ c = y ^ b * (x ^ a * ((1 - y) - x) ^ c) := fun x => by
      rw [show (1 - x - y : ℝ) = 1 - y - x by ring]; ring
    simp only [this]
    rw [intervalIntegral.integral_const_mul, beta]; ring
  simp only [h1]
  rw [intervalIntegral.integral_const_mul, beta, one_pow, mul_one]
  have e1 : b + (a + c + 1) + 1 = a + b + c + 2 := by ring
  have h6 : (((a + c + 1).factorial : ℝ)) ≠ 0 := by exact_mod_cast Nat.factorial_ne_zero _
  rw [e1]; field_simp

/-- Tetrahedron. -/
theorem int_tet (a b c : Nat) : ∫ z in (0 : ℝ)..1, ∫ y in (0 : ℝ)..(1 - z), ∫ x in (0 : ℝ)..(1 - y - z), x ^ a * y ^ b * z ^ c =
    (a.factorial : ℝ) * b.factorial * c.factorial / (a + b + c + 3).factorial := by
  have h1 : ∀ y z : ℝ, ∫ x in (0 : ℝ)..(1 - y - z), x ^ a * y ^ b * z ^ c =
      (a.factorial : ℝ) / (a + 1).factorial * z ^ c * (y ^ b * (1 - z - y) ^ (a + 1)) := by
    intro y z
    have h := beta (1 - y - z) 0 a
    simp only [pow_zero, mul_one, Nat.factorial_zero, Nat.cast_one, add_zero] at h
    have : ∀ x : ℝ, x ^ a * y ^ b * z ^ c = (y ^ b * z ^ c) * x ^ a := fun x => by ring
    simp only [this]
    rw [intervalIntegral.integral_const_mul, h, show (1 - y - z : ℝ) = 1 - z - y by ring]; ring
  simp only [h1]
  simp only [intervalIntegral.integral_const_mul, beta]
  have e0 : ∀ z : ℝ, (a.factorial : ℝ) / (a + 1).factorial * z ^ c * ((b.factorial : ℝ) * (a + 1).factorial / (b + (a + 1) + 1).factorial * (1 - z) ^ (b + (a + 1) + 1)) =
      (a.factorial : ℝ) / (a + 1).factorial * ((b.factorial : ℝ) * (a + 1).factorial / (b + (a + 1) + 1).factorial) * (z ^ c * (1 - z) ^ (b + (a + 1) + 1)) := fun z => by ring
  simp only [e0]
  rw [intervalIntegral.integral_const_mul, beta, one_pow, mul_one]
  have e1 : c + (b + (a + 1) + 1) + 1 = a + b + c + 3 := by ring
  have h6 : (((a + 1).factorial : ℝ)) ≠ 0 := by exact_mod_cast Nat.factorial_ne_zero _
  have h7 : (((b + (a + 1) + 1).factorial : ℝ)) ≠ 0 := by exact_mod_cast Nat.factorial_ne_zero _
  rw [e1]; field_simp

/-! ### Divergence theorem -/

/-- Outward normals of the faces of the reference elements, scaled with the ratio of the area of the face to that of the face's reference element. -/
def refNormal (e : Ent) (fa : Nat) : Fin 3 → ℝ :=
  match e with
  | .line => 0
  | .quad => [![0, -1, 0], ![1, 0, 0], ![0, 1, 0], ![-1, 0, 0]].getD fa 0
  | .tria => [![0, -1, 0], ![1, 1, 0], ![-1, 0, 0]].getD fa 0
  | .hex => [![0, 0, -1], ![0, -1, 0], ![1, 0, 0], ![0, 1, 0], ![-1, 0, 0], ![0, 0, 1]].getD fa 0
  | .tet => [![0, 0, -1], ![0, -1, 0], ![-1, 0, 0], ![1, 1, 1]].getD fa 0

theorem eval_mono (p : Fin 3 → ℝ) (m : Fin 3 →₀ ℕ) (c : ℝ) : eval p (monomial m c) = c * (p 0 ^ m 0 * p 1 ^ m 1 * p 2 ^ m 2) := by
  rw [eval_monomial, Finsupp.prod_fintype _ _ (by simp), Fin.prod_univ_three]

/-- Exponents of a derivative. -/
def dExp (d : Fin 3) (m : Fin 3 → ℕ) (j : Fin 3) : ℕ := if j = d then m d - 1 else m j

theorem int_one_sub (n : Nat) : ∫ x in (0 : ℝ)..1, (1 - x) ^ n = ((n : ℝ) + 1)⁻¹ := by
  have h := beta 1 n 0
  have h1 : ((n + 1).factorial : ℝ) = (n + 1) * n.factorial := by rw [Nat.factorial_succ]; push_cast; ring
  have h2 : ((n.factorial : ℝ)) ≠ 0 := by exact_mod_cast n.factorial_ne_zero
  have h3 : (n : ℝ) + 1 ≠ 0 := by positivity
  simp only [pow_zero, one_mul, zero_add, Nat.factorial_zero, Nat.cast_one, one_pow, mul_one, h1] at h
  rw [h]; field_simp

theorem tria_mul (k : ℝ) (a b c : Nat) : ∫ y in (0 : ℝ)..1, ∫ x in (0 : ℝ)..(1 - y), k * (x ^ a * y ^ b * (1 - x - y) ^ c) =
    k * ((a.factorial : ℝ) * b.factorial * c.factorial / (a + b + c + 2).factorial) := by
  simp only [intervalIntegral.integral_const_mul, int_tria]

theorem fac_succ (n : Nat) : ((n + 1).factorial : ℝ) = (n + 1) * n.factorial := by rw [Nat.factorial_succ]; push_cast; ring

theorem fac_ne (n : Nat) : ((n.factorial : ℝ)) ≠ 0 := by exact_mod_cast n.factorial_ne_zero

theorem gauss_tria (m : Fin 3 → ℕ) (d : Fin 3) (hd : d.val < Ent.nDim .tria) :
    refInt .tria (fun x y z => (m d : ℝ) * (x ^ dExp d m 0 * y ^ dExp d m 1 * z ^ dExp d m 2)) =
      ∑ fa ∈ Finset.range 3, refNormal .tria fa d * refInt .line (fun x y _ => elPt .tria fa x y 0 ^ m 0 * elPt .tria fa x y 1 ^ m 1 * elPt .tria fa x y 2 ^ m 2) := by
  have f0 : refInt .line (fun x y _ => elPt .tria 0 x y 0 ^ m 0 * elPt .tria 0 x y 1 ^ m 1 * elPt .tria 0 x y 2 ^ m 2) = 0 ^ m 1 * 0 ^ m 2 * ((m 0 : ℝ) + 1)⁻¹ := by
    simp [refInt, elPt, faToEl]; ring
  have f1 : refInt .line (fun x y _ => elPt .tria 1 x y 0 ^ m 0 * elPt .tria 1 x y 1 ^ m 1 * elPt .tria 1 x y 2 ^ m 2) =
      0 ^ m 2 * (((m 0).factorial : ℝ) * (m 1).factorial / (m 0 + m 1 + 1).factorial) := by
    have h := beta 1 (m 0) (m 1)
    have : ∀ x : ℝ, (1 - x) ^ m 0 * x ^ m 1 * 0 ^ m 2 = 0 ^ m 2 * (x ^ m 1 * (1 - x) ^ m 0) := fun x => by ring
    simp only [refInt, elPt, faToEl, List.getD_cons_succ, List.getD_cons_zero, Matrix.cons_val_zero, Matrix.cons_val_one, Matrix.cons_val, this,
      intervalIntegral.integral_const_mul, h, one_pow, mul_one]
    rw [Nat.add_comm (m 1) (m 0)]; ring
  have f2 : refInt .line (fun x y _ => elPt .tria 2 x y 0 ^ m 0 * elPt .tria 2 x y 1 ^ m 1 * elPt .tria 2 x y 2 ^ m 2) = 0 ^ m 0 * 0 ^ m 2 * ((m 1 : ℝ) + 1)⁻¹ := by
    have : ∀ x : ℝ, 0 ^ m 0 * (1 - x) ^ m 1 * 0 ^ m 2 = 0 ^ m 0 * 0 ^ m 2 * (1 - x) ^ m 1 := fun x => by ring
    simp only [refInt, elPt, faToEl, List.getD_cons_succ, List.getD_cons_zero, Matrix.cons_val_zero, Matrix.cons_val_one, Matrix.cons_val, this,
      intervalIntegral.integral_const_mul, int_one_sub]
  have l : ∀ (c : ℝ) (a b k : Nat), refInt .tria (fun x y z => c * (x ^ a * y ^ b * z ^ k)) = c * 0 ^ k * ((a.factorial : ℝ) * b.factorial / (a + b + 2).factorial) := by
    intro c a b k
    have h := tria_mul (c * 0 ^ k) a b 0
    simp only [pow_zero, mul_one, Nat.factorial_zero, Nat.cast_one, add_zero] at h
    rw [← h, refInt]
    congr 1; funext y; congr 1; funext x; ring
  simp only [Finset.sum_range_succ, Finset.sum_range_zero, f0, f1, f2, l]
  obtain rfl | rfl : d = 0 ∨ d = 1 := by simp only [Ent.nDim] at hd; omega
  · rcases hm : m 0 with _ | a
    · have := fac_ne (m 1)
      simp [refNormal, fac_succ]
      field_simp; ring
    · simp [refNormal, hm, dExp, fac_succ a]
      rw [show a + m 1 + 2 = (a + 1) + m 1 + 1 by ring]
      ring
  · rcases hm : m 1 with _ | a
    · have := fac_ne (m 0)
      simp [refNormal, fac_succ]
      field_simp; ring
    · simp [refNormal, hm, dExp, fac_succ a]
      rw [show m 0 + a + 2 = m 0 + (a + 1) + 1 by ring]
      ring

theorem gauss_tet (m : Fin 3 → ℕ) (d : Fin 3) :
    refInt .tet (fun x y z => (m d : ℝ) * (x ^ dExp d m 0 * y ^ dExp d m 1 * z ^ dExp d m 2)) =
      ∑ fa ∈ Finset.range 4, refNormal .tet fa d * refInt .tria (fun x y _ => elPt .tet fa x y 0 ^ m 0 * elPt .tet fa x y 1 ^ m 1 * elPt .tet fa x y 2 ^ m 2) := by
  have t : ∀ (g : ℝ → ℝ → ℝ → ℝ) (k : ℝ) (a b c : Nat), (∀ x y, g x y 0 = k * (x ^ a * y ^ b * (1 - x - y) ^ c)) →
      refInt .tria g = k * ((a.factorial : ℝ) * b.factorial * c.factorial / (a + b + c + 2).factorial) := by
    intro g k a b c hg
    rw [← tria_mul, refInt]
    simp only [hg]
  have f0 := t (fun x y _ => elPt .tet 0 x y 0 ^ m 0 * elPt .tet 0 x y 1 ^ m 1 * elPt .tet 0 x y 2 ^ m 2) (0 ^ m 2) (m 1) (m 0) 0 (fun x y => by
    simp [elPt, faToEl]; ring)
  have f1 := t (fun x y _ => elPt .tet 1 x y 0 ^ m 0 * elPt .tet 1 x y 1 ^ m 1 * elPt .tet 1 x y 2 ^ m 2) (0 ^ m 1) (m 0) (m 2) 0 (fun x y => by
    simp [elPt, faToEl]; ring)
  have f2 := t (fun x y _ => elPt .tet 2 x y 0 ^ m 0 * elPt .tet 2 x y 1 ^ m 1 * elPt .tet 2 x y 2 ^ m 2) (0 ^ m 0) (m 2) (m 1) 0 (fun x y => by
    simp [elPt, faToEl]; ring)
  have f3 := t (fun x y _ => elPt .tet 3 x y 0 ^ m 0 * elPt .tet 3 x y 1 ^ m 1 * elPt .tet 3 x y 2 ^ m 2) 1 (m 1) (m 2) (m 0) (fun x y => by
    simp [elPt, faToEl]; ring)
  have l : ∀ (c : ℝ) (a b k : Nat), refInt .tet (fun x y z => c * (x ^ a * y ^ b * z ^ k)) =
      c * ((a.factorial : ℝ) * b.factorial * k.factorial / (a + b + k + 3).factorial) := by
    intro c a b k
    rw [refInt_smul, ← int_tet]; rfl
  simp only [Finset.sum_range_succ, Finset.sum_range_zero, f0, f1, f2, f3, l]
  obtain rfl | rfl | rfl : d = 0 ∨ d = 1 ∨ d = 2 := by omega
  · rcases hm : m 0 with _ | a
    · simp [refNormal]
      rw [Nat.add_comm (m 2) (m 1)]; ring
    · simp [refNormal, hm, dExp, fac_succ a]
      rw [show m 1 + m 2 + (a + 1) + 2 = a + m 1 + m 2 + 3 by ring]
      ring
  · rcases hm : m 1 with _ | a
    · simp [refNormal]
      rw [Nat.add_comm (m 2) (m 0)]; ring
    · simp [refNormal, hm, dExp, fac_succ a]
      rw [show a + 1 + m 2 + m 0 + 2 = m 0 + a + m 2 + 3 by ring]
      ring
  · rcases hm : m 2 with _ | a
    · simp [refNormal]
    · simp [refNormal, hm, dExp, fac_succ a]
      rw [show m 1 + (a + 1) + m 0 + 2 = m 0 + m 1 + a + 3 by ring]
      ring

theorem gauss_exp {e : Ent} (he : e ≠ .line) (m : Fin 3 → ℕ) (d : Fin 3) (hd : d.val < e.nDim) :
    refInt e (fun x y z => (m d : ℝ) * (x ^ dExp d m 0 * y ^ dExp d m 1 * z ^ dExp d m 2)) =
      ∑ fa ∈ Finset.range e.nFa, refNormal e fa d * refInt (faTy e) (fun x y _ => elPt e fa x y 0 ^ m 0 * elPt e fa x y 1 ^ m 1 * elPt e fa x y 2 ^ m 2) := by
  cases e <;> first | exact absurd rfl he | skip
  · simp only [Ent.nFa, Finset.sum_range_succ, Finset.sum_range_zero]
    obtain rfl | rfl : d = 0 ∨ d = 1 := by simp only [Ent.nDim] at hd; omega
    · rcases hm : m 0 with _ | a <;> simp [refInt, faTy, elPt, faToEl, refNormal, dExp, hm, -intervalIntegral.integral_comp_sub_left, int_one_sub] <;> field_simp
    · rcases hm : m 1 with _ | a <;> simp [refInt, faTy, elPt, faToEl, refNormal, dExp, hm, -intervalIntegral.integral_comp_sub_left, int_one_sub] <;> field_simp
  · exact gauss_tria m d hd
  · simp only [Ent.nFa, Finset.sum_range_succ, Finset.sum_range_zero]
    obtain rfl | rfl | rfl : d = 0 ∨ d = 1 ∨ d = 2 := by simp only [Ent.nDim] at hd; omega
    · rcases hm : m 0 with _ | a <;> simp [refInt, faTy, elPt, faToEl, refNormal, dExp, hm] <;> field_simp
    · rcases hm : m 1 with _ | a <;> simp [refInt, faTy, elPt, faToEl, refNormal, dExp, hm] <;> field_simp
    · rcases hm : m 2 with _ | a <;> simp [refInt, faTy, elPt, faToEl, refNormal, dExp, hm] <;> field_simp
  · exact gauss_tet m d

/-- Divergence theorem for polynomials on the reference elements. -/
theorem gauss {e : Ent} (he : e ≠ .line) (f : MvPolynomial (Fin 3) ℝ) (d : Fin 3) (hd : d.val < e.nDim) :
    refInt e (val (pderiv d f)) = ∑ fa ∈ Finset.range e.nFa, refNormal e fa d * refInt (faTy e) (fun x y _ => eval (elPt e fa x y) f) := by
  induction f using MvPolynomial.induction_on' with
  | monomial m c =>
    have h1 : val (pderiv d (monomial m c)) = fun x y z => c * ((m d : ℝ) * (x ^ dExp d m 0 * y ^ dExp d m 1 * z ^ dExp d m 2)) := by
      funext x y z
      have hs : ∀ j, ((m - Finsupp.single d 1 : Fin 3 →₀ ℕ)) j = dExp d m j := by
        intro j
        rw [Finsupp.tsub_apply, Finsupp.single_apply, dExp]
        by_cases h : j = d
        · subst h; simp
        · rw [if_neg (Ne.symm h), if_neg h]; simp
      rw [pderiv_monomial, val, eval_mono, hs, hs, hs]
      simp only [Matrix.cons_val_zero, Matrix.cons_val_one, Matrix.cons_val]
      ring
    rw [h1, refInt_smul, gauss_exp he m d hd, Finset.mul_sum]
    refine Finset.sum_congr rfl (fun fa _ => ?_)
    simp only [eval_mono]
    rw [refInt_smul]; ring
  | add p q hp hq =>
    have h1 : val (pderiv d (p + q)) = fun x y z => val (pderiv d p) x y z + val (pderiv d q) x y z := by
      funext x y z; simp only [val, map_add]
    rw [h1, refInt_add (C3_val _) (C3_val _), hp, hq, ← Finset.sum_add_distrib]
    refine Finset.sum_congr rfl (fun fa _ => ?_)
    have hc : ∀ f : MvPolynomial (Fin 3) ℝ, C3 (fun x y _ => eval (elPt e fa x y) f) :=
      fun f => cont_eval f (cont_elPt e fa continuous_fst (continuous_fst.comp continuous_snd))
    rw [← mul_add, ← refInt_add (hc p) (hc q)]
    simp only [map_add]

end Edge.Flux
