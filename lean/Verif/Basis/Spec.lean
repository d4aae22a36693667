import Verif.Basis.Kron
import Mathlib.Algebra.BigOperators.Group.Finset.Basic
import Mathlib.Data.Nat.Choose.Basic
import Mathlib.Analysis.Calculus.Deriv.Mul
import Mathlib.Analysis.Calculus.Deriv.Add
/-!
The basis functions as formulas, and their expressions.
-/
namespace Edge.Basis

/-! ### Formulas -/

section
variable {K : Type} [CommRing K]

/-- Homogeneous Jacobi polynomials: `h^n P_n^(a,0)(2 t / h - 1)`, where
`P_n^(a,0)(2 u - 1) = ∑ s, C(n+a, n-s) C(n, s) (u - 1)^s u^(n-s)`. -/
def hom (n a : Nat) (t h : K) : K :=
  ∑ s ∈ Finset.range (n + 1), (((n + a).choose (n - s) * n.choose s : Nat) : K) * (t - h) ^ s * t ^ (n - s)

/-- Legendre polynomials on [0,1]. -/
def phiLine (n : Nat) (x : K) : K := hom n 0 x 1

/-- Orthogonal polynomials on the triangle. -/
def phiTria (i : Nat × Nat) (x y : K) : K := hom i.1 0 x (1 - y) * hom i.2 (2 * i.1 + 1) y 1

/-- Orthogonal polynomials on the tetrahedron. -/
def phiTet (i : Nat × Nat × Nat) (x y z : K) : K :=
  hom i.1 0 x (1 - y - z) * hom i.2.1 (2 * i.1 + 1) y (1 - z) * hom i.2.2 (2 * i.1 + 2 * i.2.1 + 2) z 1

end

/-- Pairs of degrees below `o` in the order of the code: by total degree, then by the first degree. -/
def triaIdx (o : Nat) : List (Nat × Nat) := (List.range o).flatMap (fun d => (List.range (d + 1)).map (fun p => (p, d - p)))

/-- Triples of degrees below `o` in the order of the code: by total degree, then by the first and second degree. -/
def tetIdx (o : Nat) : List (Nat × Nat × Nat) :=
  (List.range o).flatMap (fun d => (List.range (d + 1)).flatMap (fun p => (List.range (d - p + 1)).map (fun q => (p, q, d - p - q))))

/-! ### Expressions -/

/-- Binomial coefficients by products. -/
def ch (n : Nat) : Nat → Nat
  | 0 => 1
  | k + 1 => ch n k * (n - k) / (k + 1)

theorem ch_eq (n k : Nat) : ch n k = n.choose k := by
  induction k with
  | zero => rw [ch, Nat.choose_zero_right]
  | succ k ih => rw [ch, ih, ← Nat.choose_succ_right_eq, Nat.mul_div_cancel _ (Nat.succ_pos k)]

/-- Expression of `hom`. -/
def homEx (n a : Nat) (t h : Ex) : Ex :=
  (List.range (n + 1)).foldl (fun e s => .add e (.mul (.mul (.num (ch (n + a) (n - s) * ch n s)) (.pow (.sub t h) s))
    (.pow t (n - s)))) (.num 0)

def lineEx (n : Nat) : Ex := homEx n 0 .x (.num 1)
def triaEx (i : Nat × Nat) : Ex := .mul (homEx i.1 0 .x (.sub (.num 1) .y)) (homEx i.2 (2 * i.1 + 1) .y (.num 1))
def tetEx (i : Nat × Nat × Nat) : Ex :=
  .mul (.mul (homEx i.1 0 .x (.sub (.sub (.num 1) .y) .z)) (homEx i.2.1 (2 * i.1 + 1) .y (.sub (.num 1) .z)))
    (homEx i.2.2 (2 * i.1 + 2 * i.2.1 + 2) .z (.num 1))

/-- Value of an expression with the field's division. -/
def Ex.ev {K : Type} [Field K] (x y z : K) : Ex → K
  | .num n => n
  | .x => x
  | .y => y
  | .z => z
  | .neg a => -a.ev x y z
  | .add a b => a.ev x y z + b.ev x y z
  | .sub a b => a.ev x y z - b.ev x y z
  | .mul a b => a.ev x y z * b.ev x y z
  | .div a b => a.ev x y z / b.ev x y z
  | .pow a n => a.ev x y z ^ n

theorem eval_poly {K : Type} [Field K] [DecidableEq K] (x y z : K) {e : Ex} (h : e.poly = true) : e.eval x y z = some (e.ev x y z) := by
  induction e with
  | num n => rfl
  | x => rfl
  | y => rfl
  | z => rfl
  | neg a ih => simp [Ex.eval, Ex.ev, ih h]
  | add a b iha ihb => simp only [Ex.poly, Bool.and_eq_true] at h; simp [Ex.eval, Ex.ev, iha h.1, ihb h.2]
  | sub a b iha ihb => simp only [Ex.poly, Bool.and_eq_true] at h; simp [Ex.eval, Ex.ev, iha h.1, ihb h.2]
  | mul a b iha ihb => simp only [Ex.poly, Bool.and_eq_true] at h; simp [Ex.eval, Ex.ev, iha h.1, ihb h.2]
  | div a b => cases h
  | pow a n ih => simp [Ex.eval, Ex.ev, ih h]

theorem homEx_poly (n a : Nat) {t h : Ex} (ht : t.poly = true) (hh : h.poly = true) : (homEx n a t h).poly = true := by
  have : ∀ (l : List Nat) (e : Ex), e.poly = true → (l.foldl (fun e s => .add e (.mul (.mul (.num (ch (n + a) (n - s) * ch n s))
      (.pow (.sub t h) s)) (.pow t (n - s)))) e : Ex).poly = true := by
    intro l
    induction l with
    | nil => intro e he; exact he
    | cons s l ih => intro e he; exact ih _ (by simp [Ex.poly, he, ht, hh])
  exact this _ _ rfl

theorem homEx_ev {K : Type} [Field K] (x y z : K) (n a : Nat) (t h : Ex) :
    (homEx n a t h).ev x y z = hom n a (t.ev x y z) (h.ev x y z) := by
  have : ∀ (m : Nat), ((List.range m).foldl (fun e s => .add e (.mul (.mul (.num (ch (n + a) (n - s) * ch n s))
      (.pow (.sub t h) s)) (.pow t (n - s)))) (.num 0) : Ex).ev x y z =
      ∑ s ∈ Finset.range m, (((n + a).choose (n - s) * n.choose s : Nat) : K) * (t.ev x y z - h.ev x y z) ^ s * t.ev x y z ^ (n - s) := by
    intro m
    induction m with
    | zero => simp [Ex.ev]
    | succ m ih => rw [List.range_succ, List.foldl_append, List.foldl_cons, List.foldl_nil, Finset.sum_range_succ, Ex.ev, ih, ← ch_eq, ← ch_eq]; rfl
  exact this _

theorem lineEx_ev {K : Type} [Field K] (x y z : K) (n : Nat) : (lineEx n).ev x y z = phiLine n x := by
  rw [lineEx, homEx_ev, phiLine]; simp [Ex.ev]

theorem triaEx_ev {K : Type} [Field K] (x y z : K) (i : Nat × Nat) : (triaEx i).ev x y z = phiTria i x y := by
  rw [triaEx, Ex.ev, homEx_ev, homEx_ev, phiTria]; simp [Ex.ev]

theorem tetEx_ev {K : Type} [Field K] (x y z : K) (i : Nat × Nat × Nat) : (tetEx i).ev x y z = phiTet i x y z := by
  rw [tetEx, Ex.ev, Ex.ev, homEx_ev, homEx_ev, homEx_ev, phiTet]; simp [Ex.ev]

theorem lineEx_poly (n : Nat) : (lineEx n).poly = true := homEx_poly _ _ rfl rfl
theorem triaEx_poly (i : Nat × Nat) : (triaEx i).poly = true := by
  simp only [triaEx, Ex.poly, Bool.and_eq_true]; exact ⟨homEx_poly _ _ rfl rfl, homEx_poly _ _ rfl rfl⟩
theorem tetEx_poly (i : Nat × Nat × Nat) : (tetEx i).poly = true := by
  simp only [tetEx, Ex.poly, Bool.and_eq_true]
  exact ⟨⟨homEx_poly _ _ rfl rfl, homEx_poly _ _ rfl rfl⟩, homEx_poly _ _ rfl rfl⟩

theorem ev_np {K : Type} [Field K] (x y z : K) {e : Ex} (h : e.poly = true) : e.ev x y z = pv x y z e.np.1 := by
  classical
  obtain ⟨p, q⟩ := eval_np (eval_poly x y z h)
  rw [poly_den h, pv_one, mul_one] at q
  exact q

/-! ### Derivatives -/

/-- The formal derivative is the derivative. -/
theorem pv_deriv (j : Fin 3) (p : MvPolynomial (Fin 3) ℤ) (v : Fin 3 → ℝ) :
    HasDerivAt (fun s => MvPolynomial.aeval (Function.update v j s) p) (MvPolynomial.aeval v (MvPolynomial.pderiv j p)) (v j) := by
  induction p using MvPolynomial.induction_on with
  | C a => simpa using hasDerivAt_const (v j) ((a : ℤ) : ℝ)
  | add p q hp hq =>
    simp only [map_add]
    exact hp.add hq
  | mul_X p i hp =>
    have hX : HasDerivAt (fun s => Function.update v j s i) (if i = j then 1 else 0) (v j) := by
      by_cases hi : i = j
      · subst hi; simp only [Function.update_self, if_true]; exact hasDerivAt_id (v i)
      · simpa [hi, Function.update_of_ne hi] using hasDerivAt_const (v j) (v i)
    have h := hp.mul hX
    simp only [Function.update_eq_self] at h
    simp only [map_mul, MvPolynomial.aeval_X, MvPolynomial.pderiv_mul, map_add]
    have e : MvPolynomial.aeval v (MvPolynomial.pderiv j (MvPolynomial.X i : MvPolynomial (Fin 3) ℤ)) = if i = j then (1 : ℝ) else 0 := by
      by_cases hi : i = j
      · subst hi; simp
      · simp [hi, MvPolynomial.pderiv_X_of_ne (R := ℤ) hi]
    rw [e]
    exact h

theorem pv_deriv0 (p : MvPolynomial (Fin 3) ℤ) (x y z : ℝ) : HasDerivAt (fun s => pv s y z p) (pv x y z (MvPolynomial.pderiv 0 p)) x := by
  have h := pv_deriv 0 p ![x, y, z]
  have e : (fun s => MvPolynomial.aeval (Function.update (![x, y, z] : Fin 3 → ℝ) 0 s) p) = fun s => pv s y z p := by
    funext s; rw [pv]; congr 2; ext i; fin_cases i <;> rfl
  rw [e] at h; exact h

theorem pv_deriv1 (p : MvPolynomial (Fin 3) ℤ) (x y z : ℝ) : HasDerivAt (fun s => pv x s z p) (pv x y z (MvPolynomial.pderiv 1 p)) y := by
  have h := pv_deriv 1 p ![x, y, z]
  have e : (fun s => MvPolynomial.aeval (Function.update (![x, y, z] : Fin 3 → ℝ) 1 s) p) = fun s => pv x s z p := by
    funext s; rw [pv]; congr 2; ext i; fin_cases i <;> rfl
  rw [e] at h; exact h

theorem pv_deriv2 (p : MvPolynomial (Fin 3) ℤ) (x y z : ℝ) : HasDerivAt (fun s => pv x y s p) (pv x y z (MvPolynomial.pderiv 2 p)) z := by
  have h := pv_deriv 2 p ![x, y, z]
  have e : (fun s => MvPolynomial.aeval (Function.update (![x, y, z] : Fin 3 → ℝ) 2 s) p) = fun s => pv x y s p := by
    funext s; rw [pv]; congr 2; ext i; fin_cases i <;> rfl
  rw [e] at h; exact h

/-! ### Definedness -/

/-- Coefficients of a linear form `c + a y + b z`. -/
def Ex.lin : Ex → Option (Int × Int × Int)
  | .num n => some (Int.ofNat n, 0, 0)
  | .y => some (0, 1, 0)
  | .z => some (0, 0, 1)
  | .neg a => match a.lin with
    | some (c, a, b) => some (-c, -a, -b)
    | none => none
  | .add a b => match a.lin, b.lin with
    | some (c, a, b), some (c', a', b') => some (c + c', a + a', b + b')
    | _, _ => none
  | .sub a b => match a.lin, b.lin with
    | some (c, a, b), some (c', a', b') => some (c - c', a - a', b - b')
    | _, _ => none
  | .mul a b => match a.lin, b.lin with
    | some (n, 0, 0), some (c, a, b) => some (n * c, n * a, n * b)
    | _, _ => none
  | _ => none

/-- Multiples of the forms which vanish on the boundary only: `y - 1` for triangles, `z - 1` and `y + z - 1` for tetrahedra. -/
def okLin (tet : Bool) (l : Int × Int × Int) : Bool :=
  l.1 != 0 && (if tet then (l.2.1 == 0 && l.2.2 == -l.1) || (l.2.1 == -l.1 && l.2.2 == -l.1) else l.2.1 == -l.1 && l.2.2 == 0)

/-- Products and powers of constants and the forms. -/
def Ex.den (tet : Bool) : Ex → Bool
  | .num n => n != 0
  | .mul a b => a.den tet && b.den tet
  | .pow a _ => a.den tet
  | e => match e.lin with
    | some l => okLin tet l
    | none => false

/-- All divisors are products and powers of constants and the forms. -/
def Ex.good (tet : Bool) : Ex → Bool
  | .num _ | .x | .y | .z => true
  | .neg a => a.good tet
  | .add a b => a.good tet && b.good tet
  | .sub a b => a.good tet && b.good tet
  | .mul a b => a.good tet && b.good tet
  | .div a b => a.good tet && b.den tet
  | .pow a _ => a.good tet

theorem lin_sound {K : Type} [Field K] [DecidableEq K] (x y z : K) {e : Ex} {c a b : Int} (h : e.lin = some (c, a, b)) :
    e.eval x y z = some ((c : K) + a * y + b * z) := by
  induction e generalizing c a b with
  | num n => simp only [Ex.lin, Option.some.injEq, Prod.mk.injEq] at h; obtain ⟨rfl, rfl, rfl⟩ := h; simp [Ex.eval]
  | x => cases h
  | y => simp only [Ex.lin, Option.some.injEq, Prod.mk.injEq] at h; obtain ⟨rfl, rfl, rfl⟩ := h; simp [Ex.eval]
  | z => simp only [Ex.lin, Option.some.injEq, Prod.mk.injEq] at h; obtain ⟨rfl, rfl, rfl⟩ := h; simp [Ex.eval]
  | neg f ih =>
    simp only [Ex.lin] at h
    split at h
    · rename_i c' a' b' hf
      simp only [Option.some.injEq, Prod.mk.injEq] at h; obtain ⟨rfl, rfl, rfl⟩ := h
      simp only [Ex.eval, ih hf, Option.bind_eq_bind, Option.bind_some, Option.pure_def, Option.some.injEq]; push_cast; ring
    · cases h
  | add f g ihf ihg =>
    simp only [Ex.lin] at h
    split at h
    · rename_i hf hg
      simp only [Option.some.injEq, Prod.mk.injEq] at h; obtain ⟨rfl, rfl, rfl⟩ := h
      simp only [Ex.eval, ihf hf, ihg hg, Option.bind_eq_bind, Option.bind_some, Option.pure_def, Option.some.injEq]; push_cast; ring
    · cases h
  | sub f g ihf ihg =>
    simp only [Ex.lin] at h
    split at h
    · rename_i hf hg
      simp only [Option.some.injEq, Prod.mk.injEq] at h; obtain ⟨rfl, rfl, rfl⟩ := h
      simp only [Ex.eval, ihf hf, ihg hg, Option.bind_eq_bind, Option.bind_some, Option.pure_def, Option.some.injEq]; push_cast; ring
    · cases h
  | mul f g ihf ihg =>
    simp only [Ex.lin] at h
    split at h
    · rename_i hf hg
      simp only [Option.some.injEq, Prod.mk.injEq] at h; obtain ⟨rfl, rfl, rfl⟩ := h
      simp only [Ex.eval, ihf hf, ihg hg, Option.bind_eq_bind, Option.bind_some, Option.pure_def, Option.some.injEq]; push_cast; ring
    · cases h
  | div f g => cases h
  | pow f n => cases h

/-- The point is not on the planes on which the functions are undefined. -/
def Off {K : Type} [Field K] (tet : Bool) (y z : K) : Prop := if tet then z ≠ 1 ∧ y + z ≠ 1 else y ≠ 1

theorem okLin_sound {K : Type} [Field K] [CharZero K] {tet : Bool} {y z : K} (ho : Off tet y z) {c a b : Int} (h : okLin tet (c, a, b) = true) :
    (c : K) + a * y + b * z ≠ 0 := by
  simp only [okLin, Bool.and_eq_true, bne_iff_ne, ne_eq] at h
  obtain ⟨hc, h⟩ := h
  have hc' : (c : K) ≠ 0 := by exact_mod_cast hc
  cases tet with
  | true =>
    simp only [if_true, Bool.or_eq_true, Bool.and_eq_true, beq_iff_eq] at h
    simp only [Off, if_true] at ho
    rcases h with ⟨rfl, rfl⟩ | ⟨rfl, rfl⟩
    · rw [show (c : K) + ((0 : Int) : K) * y + ((-c : Int) : K) * z = c * (1 - z) by push_cast; ring]
      exact mul_ne_zero hc' (sub_ne_zero.2 (Ne.symm ho.1))
    · rw [show (c : K) + ((-c : Int) : K) * y + ((-c : Int) : K) * z = c * (1 - (y + z)) by push_cast; ring]
      exact mul_ne_zero hc' (sub_ne_zero.2 (Ne.symm ho.2))
  | false =>
    simp only [Bool.false_eq_true, if_false, Bool.and_eq_true, beq_iff_eq] at h
    simp only [Off, Bool.false_eq_true, if_false] at ho
    obtain ⟨rfl, rfl⟩ := h
    rw [show (c : K) + ((-c : Int) : K) * y + ((0 : Int) : K) * z = c * (1 - y) by push_cast; ring]
    exact mul_ne_zero hc' (sub_ne_zero.2 (Ne.symm ho))

theorem den_sound {K : Type} [Field K] [CharZero K] [DecidableEq K] {tet : Bool} (x : K) {y z : K} (ho : Off tet y z) {e : Ex} (h : e.den tet = true) :
    ∃ u, e.eval x y z = some u ∧ u ≠ 0 := by
  have lin : ∀ f : Ex, (match f.lin with | some l => okLin tet l | none => false) = true → ∃ u, f.eval x y z = some u ∧ u ≠ 0 := by
    intro f hf
    split at hf
    · rename_i l hl
      exact ⟨_, lin_sound x y z hl, okLin_sound ho hf⟩
    · cases hf
  induction e with
  | num n => exact ⟨n, rfl, by simpa [Ex.den] using h⟩
  | mul a b iha ihb =>
    simp only [Ex.den, Bool.and_eq_true] at h
    obtain ⟨u, hu, hu0⟩ := iha h.1
    obtain ⟨v, hv, hv0⟩ := ihb h.2
    exact ⟨u * v, by simp [Ex.eval, hu, hv], mul_ne_zero hu0 hv0⟩
  | pow a n ih =>
    obtain ⟨u, hu, hu0⟩ := ih h
    exact ⟨u ^ n, by simp [Ex.eval, hu], pow_ne_zero _ hu0⟩
  | x => exact lin _ h
  | y => exact lin _ h
  | z => exact lin _ h
  | neg a => exact lin _ h
  | add a b => exact lin _ h
  | sub a b => exact lin _ h
  | div a b => exact lin _ h

theorem good_sound {K : Type} [Field K] [CharZero K] [DecidableEq K] {tet : Bool} (x : K) {y z : K} (ho : Off tet y z) {e : Ex}
    (h : e.good tet = true) : ∃ u, e.eval x y z = some u := by
  induction e with
  | num n => exact ⟨_, rfl⟩
  | x => exact ⟨_, rfl⟩
  | y => exact ⟨_, rfl⟩
  | z => exact ⟨_, rfl⟩
  | neg a ih => obtain ⟨u, hu⟩ := ih h; exact ⟨-u, by simp [Ex.eval, hu]⟩
  | add a b iha ihb =>
    simp only [Ex.good, Bool.and_eq_true] at h
    obtain ⟨u, hu⟩ := iha h.1
    obtain ⟨v, hv⟩ := ihb h.2
    exact ⟨u + v, by simp [Ex.eval, hu, hv]⟩
  | sub a b iha ihb =>
    simp only [Ex.good, Bool.and_eq_true] at h
    obtain ⟨u, hu⟩ := iha h.1
    obtain ⟨v, hv⟩ := ihb h.2
    exact ⟨u - v, by simp [Ex.eval, hu, hv]⟩
  | mul a b iha ihb =>
    simp only [Ex.good, Bool.and_eq_true] at h
    obtain ⟨u, hu⟩ := iha h.1
    obtain ⟨v, hv⟩ := ihb h.2
    exact ⟨u * v, by simp [Ex.eval, hu, hv]⟩
  | div a b iha =>
    simp only [Ex.good, Bool.and_eq_true] at h
    obtain ⟨u, hu⟩ := iha h.1
    obtain ⟨v, hv, hv0⟩ := den_sound x ho h.2
    exact ⟨u / v, by simp [Ex.eval, hu, hv, hv0]⟩
  | pow a n ih => obtain ⟨u, hu⟩ := ih h; exact ⟨u ^ n, by simp [Ex.eval, hu]⟩

/-! ### Comparison of lists of expressions -/

/-- The lists have the same length, and the check holds for all pairs. -/
def allZip (f : Ex → Ex → Bool) : List Ex → List Ex → Bool
  | [], [] => true
  | a :: l, b :: m => f a b && allZip f l m
  | _, _ => false

theorem allZip_get {f : Ex → Ex → Bool} {l m : List Ex} (h : allZip f l m = true) :
    l.length = m.length ∧ ∀ (b : Nat) (e g : Ex), l[b]? = some e → m[b]? = some g → f e g = true := by
  induction l generalizing m with
  | nil => cases m with
    | nil => simp
    | cons => cases h
  | cons a l ih =>
    cases m with
    | nil => cases h
    | cons c m =>
      simp only [allZip, Bool.and_eq_true] at h
      obtain ⟨h1, h2⟩ := ih h.2
      refine ⟨by simp [h1], fun b e f he hf => ?_⟩
      cases b with
      | zero => simp at he hf; subst he; subst hf; exact h.1
      | succ b => exact h2 b e f (by simpa using he) (by simpa using hf)

end Edge.Basis
