import Verif.Quad.Points
import Mathlib.Analysis.SpecialFunctions.Integrals.Basic
import Mathlib.Algebra.MvPolynomial.Degrees
import Mathlib.Algebra.MvPolynomial.Monad
/-!
Exactness of the quadrature rules for polynomials: C90.
-/
namespace Edge.Quad
open Edge Edge.Map MvPolynomial

/-! ### Specification -/

/-- Application of a rule in one dimension. -/
def rule1 (r : List (ℝ × ℝ)) (g : ℝ → ℝ) : ℝ := (r.map (fun q => q.2 * g q.1)).sum

/-- Application of a rule in three dimensions. -/
def rule (qs : List (Qp ℝ)) (f : ℝ → ℝ → ℝ → ℝ) : ℝ := (qs.map (fun q => q.w * f q.x q.y q.z)).sum

/-- What is assumed about the library: the `n` pairs for `n` points are a rule on [-1,1] which is exact for polynomials of
degree less than `2 n`. -/
def Gauss (pair : Nat → Nat → ℝ × ℝ) (n : Nat) : Prop :=
  ∀ p : Polynomial ℝ, p.natDegree < 2 * n →
    ((List.range n).map (fun k => (pair n (k + 1)).2 * p.eval (pair n (k + 1)).1)).sum = ∫ x in (-1 : ℝ)..1, p.eval x

/-- A rule on [0,1] which is exact for polynomials of degree less than `m`. -/
def Exact (m : Nat) (r : List (ℝ × ℝ)) : Prop :=
  ∀ p : Polynomial ℝ, p.natDegree < m → rule1 r (fun x => p.eval x) = ∫ x in (0 : ℝ)..1, p.eval x

/-- Value of a polynomial in three variables. -/
noncomputable def val (f : MvPolynomial (Fin 3) ℝ) (x y z : ℝ) : ℝ := eval ![x, y, z] f

/-! ### One dimension -/

theorem list_sum_rev {n : Nat} (f : Nat → ℝ) : ((List.range n).map (fun k => f (n - k))).sum = ((List.range n).map (fun k => f (k + 1))).sum := by
  rw [← List.sum_reverse, ← List.map_reverse]
  congr 1
  apply List.ext_getElem
  · simp
  · intro i h1 h2
    simp at h1 h2
    simp only [List.getElem_map, List.getElem_reverse, List.getElem_range, List.length_range]
    congr 1; omega

/-- C90: the rule with `n` points on [0,1] is exact for polynomials of degree up to `2 n - 1`. -/
theorem C90_line1 {pair : Nat → Nat → ℝ × ℝ} {n : Nat} (h : Gauss pair n) : Exact (2 * n) (gl pair n) := by
  intro p hp
  set q : Polynomial ℝ := p.comp (Polynomial.C (1 / 2) * Polynomial.X + Polynomial.C (1 / 2)) with hq
  have hdeg : q.natDegree < 2 * n := by
    rw [hq, Polynomial.natDegree_comp, Polynomial.natDegree_linear (by norm_num), mul_one]; exact hp
  have hval : ∀ x, q.eval x = p.eval ((x + 1) * (1 / 2)) := by
    intro x; rw [hq, Polynomial.eval_comp]; congr 1; simp; ring
  have h1 := h q hdeg
  have e : ∫ x in (-1 : ℝ)..1, q.eval x = 2 * ∫ x in (0 : ℝ)..1, p.eval x := by
    simp only [hval]
    have := intervalIntegral.integral_comp_mul_add (a := -1) (b := 1) (fun x => p.eval x) (c := (1 / 2 : ℝ)) (by norm_num) (1 / 2)
    rw [show (fun x : ℝ => Polynomial.eval ((x + 1) * (1 / 2)) p) = fun x => Polynomial.eval (1 / 2 * x + 1 / 2) p by
      funext x; congr 1; ring, this]
    norm_num
  rw [e] at h1
  rw [rule1, gl, List.map_map]
  have h2 := list_sum_rev (n := n) (fun k => (pair n k).2 * q.eval (pair n k).1)
  rw [h1] at h2
  have h3 : ((List.range n).map ((fun q => q.2 * p.eval q.1) ∘ glStep pair n)).sum =
      (1 / 2) * ((List.range n).map (fun k => (pair n (n - k)).2 * q.eval (pair n (n - k)).1)).sum := by
    rw [← List.sum_map_mul_left]
    congr 1
    apply List.map_congr_left
    intro k _
    simp only [Function.comp, glStep, hval]; ring
  rw [h3, h2]; ring

theorem rule1_add (r : List (ℝ × ℝ)) (f g : ℝ → ℝ) : rule1 r (fun x => f x + g x) = rule1 r f + rule1 r g := by
  induction r with
  | nil => simp [rule1]
  | cons q r ih => simp only [rule1, List.map_cons, List.sum_cons] at *; rw [ih]; ring

theorem rule1_mul (r : List (ℝ × ℝ)) (c : ℝ) (f : ℝ → ℝ) : rule1 r (fun x => c * f x) = c * rule1 r f := by
  induction r with
  | nil => simp [rule1]
  | cons q r ih => simp only [rule1, List.map_cons, List.sum_cons] at *; rw [ih]; ring

theorem deg_lin (u v : ℝ) (a : Nat) : ((Polynomial.C u + Polynomial.C v * Polynomial.X) ^ a).natDegree ≤ a := by
  refine Polynomial.natDegree_pow_le.trans ?_
  refine (Nat.mul_le_mul_left a (?_ : _ ≤ 1)).trans (by omega)
  rw [add_comm]
  exact Polynomial.natDegree_linear_le

theorem Exact.affine {m : Nat} {r : List (ℝ × ℝ)} (h : Exact m r) (u v : ℝ) {a b : Nat} (k : ℝ) (hab : a + b < m) :
    rule1 r (fun s => (u + v * s) ^ a * (k + (-k) * s) ^ b) = ∫ s in (0 : ℝ)..1, (u + v * s) ^ a * (k + (-k) * s) ^ b := by
  have := h ((Polynomial.C u + Polynomial.C v * Polynomial.X) ^ a * (Polynomial.C k + Polynomial.C (-k) * Polynomial.X) ^ b)
    (lt_of_le_of_lt (Polynomial.natDegree_mul_le.trans (add_le_add (deg_lin u v a) (deg_lin k (-k) b))) hab)
  simpa using this

theorem Exact.pow {m : Nat} {r : List (ℝ × ℝ)} (h : Exact m r) (u v : ℝ) {a : Nat} (ha : a < m) :
    rule1 r (fun s => (u + v * s) ^ a) = ∫ s in (0 : ℝ)..1, (u + v * s) ^ a := by
  simpa using h.affine u v (a := a) (b := 0) 0 (by omega)

theorem Exact.beta {m : Nat} {r : List (ℝ × ℝ)} (h : Exact m r) {a b : Nat} (hab : a + b < m) :
    rule1 r (fun s => s ^ a * (1 - s) ^ b) = ∫ s in (0 : ℝ)..1, s ^ a * (1 - s) ^ b := by
  have := h.affine 0 1 (a := a) (b := b) 1 hab
  simpa [sub_eq_add_neg] using this

/-- Length times the integral over [0,1] is the integral over the interval. -/
theorem integral_scale (u v : ℝ) (f : ℝ → ℝ) : (v - u) * ∫ s in (0 : ℝ)..1, f (u + (v - u) * s) = ∫ x in u..v, f x := by
  simp

/-! ### Sums over products of rules -/

theorem rule_flat (r : List (ℝ × ℝ)) (l : ℝ × ℝ → List (Qp ℝ)) (f : ℝ → ℝ → ℝ → ℝ) :
    rule (r.flatMap l) f = (r.map (fun q => rule (l q) f)).sum := by
  induction r with
  | nil => simp [rule]
  | cons q r ih =>
    simp only [rule, List.flatMap_cons, List.map_append, List.sum_append, List.map_cons, List.sum_cons] at *
    rw [ih]

theorem rule_sum {ι : Type} (s : Finset ι) (qs : List (Qp ℝ)) (c : ι → ℝ) (f : ι → ℝ → ℝ → ℝ → ℝ) :
    rule qs (fun x y z => ∑ i ∈ s, c i * f i x y z) = ∑ i ∈ s, c i * rule qs (f i) := by
  induction qs with
  | nil => simp [rule]
  | cons q qs ih =>
    simp only [rule, List.map_cons, List.sum_cons] at *
    rw [ih, Finset.mul_sum, ← Finset.sum_add_distrib]
    exact Finset.sum_congr rfl (fun i _ => by ring)

theorem val_eq (f : MvPolynomial (Fin 3) ℝ) (x y z : ℝ) :
    val f x y z = ∑ d ∈ f.support, f.coeff d * (x ^ d 0 * y ^ d 1 * z ^ d 2) := by
  rw [val, eval_eq']
  exact Finset.sum_congr rfl (fun d _ => by rw [Fin.prod_univ_three]; rfl)

theorem rule_val (qs : List (Qp ℝ)) (f : MvPolynomial (Fin 3) ℝ) :
    rule qs (val f) = ∑ d ∈ f.support, f.coeff d * rule qs (fun x y z => x ^ d 0 * y ^ d 1 * z ^ d 2) := by
  rw [← rule_sum]
  congr 1
  funext x y z
  exact val_eq f x y z

/-- Sum over a product of two rules. -/
theorem sum_prod2 (r : List (ℝ × ℝ)) (g : ℝ × ℝ → ℝ × ℝ → Qp ℝ) (f : ℝ → ℝ → ℝ → ℝ) (F G : ℝ → ℝ) (c : ℝ)
    (h : ∀ q1 q2, (g q1 q2).w * f (g q1 q2).x (g q1 q2).y (g q1 q2).z = c * (q1.2 * F q1.1) * (q2.2 * G q2.1)) :
    rule (r.flatMap (fun q1 => r.map (g q1))) f = c * rule1 r F * rule1 r G := by
  rw [rule_flat]
  have : ∀ q1, rule (r.map (g q1)) f = c * (q1.2 * F q1.1) * rule1 r G := by
    intro q1
    simp only [rule, rule1]; rw [List.map_map, ← List.sum_map_mul_left]
    congr 1
    exact List.map_congr_left (fun q2 _ => h q1 q2)
  simp only [this]
  rw [List.sum_map_mul_right, List.sum_map_mul_left]; rfl

/-- Sum over a product of three rules. -/
theorem sum_prod3 (r : List (ℝ × ℝ)) (g : ℝ × ℝ → ℝ × ℝ → ℝ × ℝ → Qp ℝ) (f : ℝ → ℝ → ℝ → ℝ) (F G H : ℝ → ℝ) (c : ℝ)
    (h : ∀ q1 q2 q3, (g q1 q2 q3).w * f (g q1 q2 q3).x (g q1 q2 q3).y (g q1 q2 q3).z =
      c * (q1.2 * F q1.1) * (q2.2 * G q2.1) * (q3.2 * H q3.1)) :
    rule (r.flatMap (fun q1 => r.flatMap (fun q2 => r.map (g q1 q2)))) f = c * rule1 r F * rule1 r G * rule1 r H := by
  rw [rule_flat]
  have : ∀ q1, rule (r.flatMap (fun q2 => r.map (g q1 q2))) f = (c * (q1.2 * F q1.1)) * (rule1 r G * rule1 r H) := by
    intro q1
    rw [rule_flat]
    have : ∀ q2, rule (r.map (g q1 q2)) f = (c * (q1.2 * F q1.1)) * (q2.2 * G q2.1) * rule1 r H := by
      intro q2
      simp only [rule, rule1]; rw [List.map_map, ← List.sum_map_mul_left]
      congr 1
      exact List.map_congr_left (fun q3 _ => h q1 q2 q3)
    simp only [this]
    rw [List.sum_map_mul_right]; simp only [rule1]; rw [List.sum_map_mul_left]; ring
  simp only [this]
  rw [List.sum_map_mul_right]; simp only [rule1]; rw [List.sum_map_mul_left]; ring

theorem rule2_congr {r : List (ℝ × ℝ)} {g g' : ℝ × ℝ → ℝ × ℝ → Qp ℝ} {f f' : ℝ → ℝ → ℝ → ℝ} {c : ℝ}
    (h : ∀ q1 q2, (g q1 q2).w * f (g q1 q2).x (g q1 q2).y (g q1 q2).z =
      c * ((g' q1 q2).w * f' (g' q1 q2).x (g' q1 q2).y (g' q1 q2).z)) :
    rule (r.flatMap (fun q1 => r.map (g q1))) f = c * rule (r.flatMap (fun q1 => r.map (g' q1))) f' := by
  rw [rule_flat, rule_flat, ← List.sum_map_mul_left]
  congr 1
  refine List.map_congr_left (fun q1 _ => ?_)
  simp only [rule, List.map_map]
  rw [← List.sum_map_mul_left]
  congr 1
  exact List.map_congr_left (fun q2 _ => h q1 q2)

theorem rule3_congr {r : List (ℝ × ℝ)} {g g' : ℝ × ℝ → ℝ × ℝ → ℝ × ℝ → Qp ℝ} {f f' : ℝ → ℝ → ℝ → ℝ} {c : ℝ}
    (h : ∀ q1 q2 q3, (g q1 q2 q3).w * f (g q1 q2 q3).x (g q1 q2 q3).y (g q1 q2 q3).z =
      c * ((g' q1 q2 q3).w * f' (g' q1 q2 q3).x (g' q1 q2 q3).y (g' q1 q2 q3).z)) :
    rule (r.flatMap (fun q1 => r.flatMap (fun q2 => r.map (g q1 q2)))) f =
      c * rule (r.flatMap (fun q1 => r.flatMap (fun q2 => r.map (g' q1 q2)))) f' := by
  rw [rule_flat, rule_flat, ← List.sum_map_mul_left]
  congr 1
  refine List.map_congr_left (fun q1 _ => ?_)
  exact rule2_congr (fun q2 q3 => h q1 q2 q3)

/-! ### Affine maps -/

theorem totalDegree_bind {f : MvPolynomial (Fin 3) ℝ} {L : Fin 3 → MvPolynomial (Fin 3) ℝ} (hL : ∀ i, (L i).totalDegree ≤ 1) :
    (bind₁ L f).totalDegree ≤ f.totalDegree := by
  have : bind₁ L f = ∑ d ∈ f.support, C (f.coeff d) * ∏ i, L i ^ d i := by
    rw [bind₁, aeval_def, eval₂_eq']; rfl
  rw [this]
  refine totalDegree_finsetSum_le (fun d hd => ?_)
  refine (totalDegree_mul _ _).trans ?_
  rw [totalDegree_C, zero_add]
  refine (totalDegree_finsetProd _ _).trans ?_
  refine le_trans ?_ (le_totalDegree hd)
  rw [Finsupp.sum_fintype _ _ (fun _ => rfl)]
  refine Finset.sum_le_sum (fun i _ => ?_)
  refine (totalDegree_pow _ _).trans ?_
  exact (Nat.mul_le_mul_left (d i) (hL i)).trans (by omega)

/-- Composition of a polynomial with an affine map. -/
theorem val_affine (f : MvPolynomial (Fin 3) ℝ) (c : Fin 3 → Fin 4 → ℝ) :
    ∃ f' : MvPolynomial (Fin 3) ℝ, f'.totalDegree ≤ f.totalDegree ∧ ∀ x y z, val f' x y z =
      val f (c 0 0 + c 0 1 * x + c 0 2 * y + c 0 3 * z) (c 1 0 + c 1 1 * x + c 1 2 * y + c 1 3 * z)
        (c 2 0 + c 2 1 * x + c 2 2 * y + c 2 3 * z) := by
  refine ⟨bind₁ (fun i => C (c i 0) + C (c i 1) * X 0 + C (c i 2) * X 1 + C (c i 3) * X 2) f, totalDegree_bind (fun i => ?_), ?_⟩
  · have h1 : ∀ (a : ℝ) (j : Fin 3), (C a * X j : MvPolynomial (Fin 3) ℝ).totalDegree ≤ 1 := fun a j =>
      (totalDegree_mul _ _).trans (by rw [totalDegree_C, totalDegree_X])
    refine (totalDegree_add _ _).trans (max_le ((totalDegree_add _ _).trans (max_le ((totalDegree_add _ _).trans
      (max_le ?_ (h1 _ _))) (h1 _ _))) (h1 _ _))
    rw [totalDegree_C]; omega
  · intro x y z
    simp only [val]
    rw [← coe_aeval_eq_eval, ← coe_aeval_eq_eval]
    simp only [RingHom.coe_coe, aeval_bind₁]
    congr 2
    funext i
    fin_cases i <;> simp

/-! ### Lines -/

/-- C90: the rule for lines is exact for polynomials of degree up to `2 n - 1`: it returns the length of the line times the
integral over the parameter. -/
theorem C90_line {pair : Nat → Nat → ℝ × ℝ} {n : Nat} (hn : 0 < n) (h : Gauss pair n) (ves : Nat → Nat → ℝ)
    (h01 : ∀ q ∈ gl pair n, 0 ≤ q.1) :
    ∃ qs, qptsLine Real.sqrt pair n ves = some qs ∧ qs.length = n ∧ ∀ f : MvPolynomial (Fin 3) ℝ, f.totalDegree < 2 * n →
      rule qs (val f) = Real.sqrt ((ves 0 1 - ves 0 0) ^ 2 + (ves 1 1 - ves 1 0) ^ 2 + (ves 2 1 - ves 2 0) ^ 2) *
        ∫ t in (0 : ℝ)..1, val f (ves 0 0 + t * (ves 0 1 - ves 0 0)) (ves 1 0 + t * (ves 1 1 - ves 1 0))
          (ves 2 0 + t * (ves 2 1 - ves 2 0)) := by
  refine ⟨_, qptsLine_eq Real.sqrt pair hn ves, by simp [gl], fun f hf => ?_⟩
  obtain ⟨f', hdeg, hf'⟩ := val_affine f (fun i j => if j = 0 then ves i 0 else if j = 1 then ves i 1 - ves i 0 else 0)
  have key : ∀ t, val f (ves 0 0 + t * (ves 0 1 - ves 0 0)) (ves 1 0 + t * (ves 1 1 - ves 1 0))
      (ves 2 0 + t * (ves 2 1 - ves 2 0)) = val f' t 0 0 := by
    intro t; rw [hf']; simp [mul_comm t]
  simp only [key]
  -- a polynomial in one variable
  set p : Polynomial ℝ := aeval (fun i : Fin 3 => if i = 0 then (Polynomial.X : Polynomial ℝ) else 0) f' with hp
  have hval : ∀ t, p.eval t = val f' t 0 0 := by
    intro t
    rw [hp, val, ← Polynomial.coe_aeval_eq_eval, ← coe_aeval_eq_eval]
    simp only [RingHom.coe_coe]
    rw [← AlgHom.comp_apply, MvPolynomial.comp_aeval]
    congr 2
    funext i
    fin_cases i <;> simp
  have hdp : p.natDegree < 2 * n := by
    refine lt_of_le_of_lt ?_ (lt_of_le_of_lt hdeg hf)
    rw [hp, aeval_def, eval₂_eq']
    refine Polynomial.natDegree_sum_le_of_forall_le _ _ (fun d hd => ?_)
    refine Polynomial.natDegree_mul_le.trans ?_
    rw [show algebraMap ℝ (Polynomial ℝ) (coeff d f') = Polynomial.C (coeff d f') from rfl, Polynomial.natDegree_C, zero_add]
    refine (Polynomial.natDegree_prod_le _ _).trans ?_
    refine le_trans ?_ (le_totalDegree hd)
    rw [Finsupp.sum_fintype _ _ (fun _ => rfl)]
    refine Finset.sum_le_sum (fun i _ => ?_)
    refine Polynomial.natDegree_pow_le.trans ?_
    refine (Nat.mul_le_mul_left (d i) (?_ : _ ≤ 1)).trans (by omega)
    split
    · exact Polynomial.natDegree_X_le
    · simp
  have := C90_line1 h p hdp
  simp only [hval] at this
  rw [← this]
  simp only [rule, rule1, List.map_map]
  rw [← List.sum_map_mul_left]
  congr 1
  refine List.map_congr_left (fun q hq => ?_)
  have hs : Real.sqrt (q.1 * q.1) = q.1 := Real.sqrt_mul_self (h01 q hq)
  have hm : ∀ d, map2dLine Real.sqrt refLine ves (fun d => if d = 0 then q.1 else 0) d = ves d 0 + q.1 * (ves d 1 - ves d 0) := by
    intro d
    simp [map2dLine, distPts, refLine, hs]
  simp only [Function.comp, linePt, hm, key, distPts]
  rw [show ∀ a b c : ℝ, a ^ 2 + b ^ 2 + c ^ 2 = a * a + b * b + c * c by intros; ring]
  ring

end Edge.Quad
