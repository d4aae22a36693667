import Verif.Basis.Expr
import Mathlib.Algebra.MvPolynomial.Degrees
import Mathlib.Algebra.MvPolynomial.Equiv
import Mathlib.Algebra.Polynomial.Div
import Mathlib.Algebra.Polynomial.Inductions
import Mathlib.Algebra.MvPolynomial.CommRing
import Mathlib.Algebra.MvPolynomial.PDeriv
import Mathlib.Tactic.LinearCombination
import Mathlib.Tactic.FieldSimp
/-!
Equality of the rational functions given by two expressions: a check by one evaluation at large integers, with its proof.
-/
namespace Edge.Basis
open MvPolynomial

/-! ### The check -/

/-- Numerator and denominator at integers. -/
def Ex.kr (x y z : Int) : Ex → Int × Int
  | .num n => (Int.ofNat n, 1)
  | .x => (x, 1)
  | .y => (y, 1)
  | .z => (z, 1)
  | .neg a => match a.kr x y z with | (n, d) => (-n, d)
  | .add a b => match a.kr x y z, b.kr x y z with | (n, d), (n', d') => (n * d' + n' * d, d * d')
  | .sub a b => match a.kr x y z, b.kr x y z with | (n, d), (n', d') => (n * d' - n' * d, d * d')
  | .mul a b => match a.kr x y z, b.kr x y z with | (n, d), (n', d') => (n * n', d * d')
  | .div a b => match a.kr x y z, b.kr x y z with | (n, d), (n', d') => (n * d', d * n')
  | .pow a m => match a.kr x y z with | (n, d) => (n ^ m, d ^ m)

/-- Bounds of a polynomial: degrees in the variables and sum of the absolute values of the coefficients. -/
structure Bd where
  x : Nat
  y : Nat
  z : Nat
  l : Nat

def Bd.add (a b : Bd) : Bd := ⟨max a.x b.x, max a.y b.y, max a.z b.z, a.l + b.l⟩
def Bd.mul (a b : Bd) : Bd := ⟨a.x + b.x, a.y + b.y, a.z + b.z, a.l * b.l⟩
def Bd.pow (a : Bd) (m : Nat) : Bd := ⟨m * a.x, m * a.y, m * a.z, a.l ^ m⟩

/-- Bounds of numerator and denominator. -/
def Ex.bd : Ex → Bd × Bd
  | .num n => (⟨0, 0, 0, n⟩, ⟨0, 0, 0, 1⟩)
  | .x => (⟨1, 0, 0, 1⟩, ⟨0, 0, 0, 1⟩)
  | .y => (⟨0, 1, 0, 1⟩, ⟨0, 0, 0, 1⟩)
  | .z => (⟨0, 0, 1, 1⟩, ⟨0, 0, 0, 1⟩)
  | .neg a => a.bd
  | .add a b => match a.bd, b.bd with | (n, d), (n', d') => ((n.mul d').add (n'.mul d), d.mul d')
  | .sub a b => match a.bd, b.bd with | (n, d), (n', d') => ((n.mul d').add (n'.mul d), d.mul d')
  | .mul a b => match a.bd, b.bd with | (n, d), (n', d') => (n.mul n', d.mul d')
  | .div a b => match a.bd, b.bd with | (n, d), (n', d') => (n.mul d', d.mul n')
  | .pow a m => match a.bd with | (n, d) => (n.pow m, d.pow m)

/-- Value of an expression without divisions at integers. -/
def Ex.kp (x y z : Int) : Ex → Int
  | .num n => Int.ofNat n
  | .x => x
  | .y => y
  | .z => z
  | .neg a => -a.kp x y z
  | .add a b => a.kp x y z + b.kp x y z
  | .sub a b => a.kp x y z - b.kp x y z
  | .mul a b => a.kp x y z * b.kp x y z
  | .div a _ => a.kp x y z
  | .pow a m => a.kp x y z ^ m

/-- Value and derivative with respect to the coordinate `j` of an expression without divisions at integers. -/
def Ex.kd (j : Nat) (x y z : Int) : Ex → Int × Int
  | .num n => (Int.ofNat n, 0)
  | .x => (x, if j = 0 then 1 else 0)
  | .y => (y, if j = 1 then 1 else 0)
  | .z => (z, if j = 2 then 1 else 0)
  | .neg a => match a.kd j x y z with | (v, w) => (-v, -w)
  | .add a b => match a.kd j x y z, b.kd j x y z with | (v, w), (v', w') => (v + v', w + w')
  | .sub a b => match a.kd j x y z, b.kd j x y z with | (v, w), (v', w') => (v - v', w - w')
  | .mul a b => match a.kd j x y z, b.kd j x y z with | (v, w), (v', w') => (v * v', w * v' + v * w')
  | .div a _ => a.kd j x y z
  | .pow a m => match m with
    | 0 => (1, 0)
    | m + 1 => match a.kd j x y z with | (v, w) => (v ^ m * v, Int.ofNat (m + 1) * v ^ m * w)

/-- Bounds of an expression without divisions. -/
def Ex.bp : Ex → Bd
  | .num n => ⟨0, 0, 0, n⟩
  | .x => ⟨1, 0, 0, 1⟩
  | .y => ⟨0, 1, 0, 1⟩
  | .z => ⟨0, 0, 1, 1⟩
  | .neg a => a.bp
  | .add a b => a.bp.add b.bp
  | .sub a b => a.bp.add b.bp
  | .mul a b => a.bp.mul b.bp
  | .div a _ => a.bp
  | .pow a m => a.bp.pow m

/-- Bounds of the derivative. -/
def Bd.d (j : Nat) (b : Bd) : Bd := ⟨b.x, b.y, b.z, (if j = 0 then b.x else if j = 1 then b.y else b.z) * b.l⟩

/-- The check of values: equality at integers which separate the monomials. -/
def sameP (t p : Ex) : Bool :=
  match t.bd with
  | (n, d) =>
    let r := n.add (d.mul p.bp)
    let x : Nat := 2 ^ (Nat.log2 r.l + 1)
    let y := x ^ (r.x + 1)
    let z := y ^ (r.y + 1)
    match t.kr x y z with
    | (n, d) => n == d * p.kp x y z

/-- The check of derivatives: equality at integers which separate the monomials. -/
def sameD (j : Nat) (t p : Ex) : Bool :=
  match t.bd with
  | (n, d) =>
    let r := n.add (d.mul (p.bp.d j))
    let x : Nat := 2 ^ (Nat.log2 r.l + 1)
    let y := x ^ (r.x + 1)
    let z := y ^ (r.y + 1)
    match t.kr x y z with
    | (n, d) => n == d * (p.kd j x y z).2

/-! ### Numerators and denominators as polynomials -/

/-- Numerator and denominator. -/
noncomputable def Ex.np : Ex → MvPolynomial (Fin 3) ℤ × MvPolynomial (Fin 3) ℤ
  | .num n => (C (Int.ofNat n), 1)
  | .x => (X 0, 1)
  | .y => (X 1, 1)
  | .z => (X 2, 1)
  | .neg a => (-a.np.1, a.np.2)
  | .add a b => (a.np.1 * b.np.2 + b.np.1 * a.np.2, a.np.2 * b.np.2)
  | .sub a b => (a.np.1 * b.np.2 - b.np.1 * a.np.2, a.np.2 * b.np.2)
  | .mul a b => (a.np.1 * b.np.1, a.np.2 * b.np.2)
  | .div a b => (a.np.1 * b.np.2, a.np.2 * b.np.1)
  | .pow a m => (a.np.1 ^ m, a.np.2 ^ m)

/-- Value of a polynomial with integer coefficients. -/
noncomputable def pv {K : Type} [CommRing K] (x y z : K) (p : MvPolynomial (Fin 3) ℤ) : K := aeval (![x, y, z] : Fin 3 → K) p

section
variable {K : Type} [CommRing K] (x y z : K)
theorem pv_add (p q) : pv x y z (p + q) = pv x y z p + pv x y z q := map_add _ _ _
theorem pv_sub (p q) : pv x y z (p - q) = pv x y z p - pv x y z q := map_sub _ _ _
theorem pv_mul (p q) : pv x y z (p * q) = pv x y z p * pv x y z q := map_mul _ _ _
theorem pv_neg (p) : pv x y z (-p) = -pv x y z p := map_neg _ _
theorem pv_pow (p) (n : Nat) : pv x y z (p ^ n) = pv x y z p ^ n := map_pow _ _ _
theorem pv_one : pv x y z 1 = 1 := map_one _
theorem pv_zero : pv x y z 0 = 0 := map_zero _
theorem pv_x : pv x y z (X 0) = x := by simp [pv]
theorem pv_y : pv x y z (X 1) = y := by simp [pv]
theorem pv_z : pv x y z (X 2) = z := by simp [pv]
theorem pv_num (n : Nat) : pv x y z (C (Int.ofNat n)) = n := by simp [pv]
end

theorem kr_eq (x y z : Int) (e : Ex) : e.kr x y z = (pv x y z e.np.1, pv x y z e.np.2) := by
  induction e with
  | num n => simp only [Ex.kr, Ex.np, pv_num, pv_one]; rfl
  | x => simp [Ex.kr, Ex.np, pv_x, pv_one]
  | y => simp [Ex.kr, Ex.np, pv_y, pv_one]
  | z => simp [Ex.kr, Ex.np, pv_z, pv_one]
  | neg a ih => simp [Ex.kr, Ex.np, ih, pv_neg]
  | add a b iha ihb => simp [Ex.kr, Ex.np, iha, ihb, pv_add, pv_mul]
  | sub a b iha ihb => simp [Ex.kr, Ex.np, iha, ihb, pv_sub, pv_mul]
  | mul a b iha ihb => simp [Ex.kr, Ex.np, iha, ihb, pv_mul]
  | div a b iha ihb => simp [Ex.kr, Ex.np, iha, ihb, pv_mul]
  | pow a m ih => simp [Ex.kr, Ex.np, ih, pv_pow]

theorem eval_np {K : Type} [Field K] [DecidableEq K] {x y z : K} {e : Ex} {a : K} (h : e.eval x y z = some a) :
    pv x y z e.np.2 ≠ 0 ∧ a * pv x y z e.np.2 = pv x y z e.np.1 := by
  induction e generalizing a with
  | num n => simp only [Ex.eval, Option.some.injEq] at h; subst h; simp only [Ex.np, pv_num, pv_one]; simp
  | x => simp only [Ex.eval, Option.some.injEq] at h; subst h; simp [Ex.np, pv_x, pv_one]
  | y => simp only [Ex.eval, Option.some.injEq] at h; subst h; simp [Ex.np, pv_y, pv_one]
  | z => simp only [Ex.eval, Option.some.injEq] at h; subst h; simp [Ex.np, pv_z, pv_one]
  | neg e ih =>
    simp only [Ex.eval, Option.bind_eq_bind, Option.pure_def] at h
    obtain ⟨a1, h1, h⟩ := Option.bind_eq_some_iff.1 h
    rw [Option.some.injEq] at h; subst h
    obtain ⟨p, q⟩ := ih h1
    exact ⟨p, by simp only [Ex.np, pv_neg, ← q]; ring⟩
  | add e f ihe ihf =>
    simp only [Ex.eval, Option.bind_eq_bind, Option.pure_def] at h
    obtain ⟨a1, h1, h⟩ := Option.bind_eq_some_iff.1 h
    obtain ⟨a2, h2, h⟩ := Option.bind_eq_some_iff.1 h
    rw [Option.some.injEq] at h; subst h
    obtain ⟨p1, q1⟩ := ihe h1
    obtain ⟨p2, q2⟩ := ihf h2
    simp only [Ex.np, pv_add, pv_mul, ← q1, ← q2]
    exact ⟨mul_ne_zero p1 p2, by ring⟩
  | sub e f ihe ihf =>
    simp only [Ex.eval, Option.bind_eq_bind, Option.pure_def] at h
    obtain ⟨a1, h1, h⟩ := Option.bind_eq_some_iff.1 h
    obtain ⟨a2, h2, h⟩ := Option.bind_eq_some_iff.1 h
    rw [Option.some.injEq] at h; subst h
    obtain ⟨p1, q1⟩ := ihe h1
    obtain ⟨p2, q2⟩ := ihf h2
    simp only [Ex.np, pv_sub, pv_mul, ← q1, ← q2]
    exact ⟨mul_ne_zero p1 p2, by ring⟩
  | mul e f ihe ihf =>
    simp only [Ex.eval, Option.bind_eq_bind, Option.pure_def] at h
    obtain ⟨a1, h1, h⟩ := Option.bind_eq_some_iff.1 h
    obtain ⟨a2, h2, h⟩ := Option.bind_eq_some_iff.1 h
    rw [Option.some.injEq] at h; subst h
    obtain ⟨p1, q1⟩ := ihe h1
    obtain ⟨p2, q2⟩ := ihf h2
    simp only [Ex.np, pv_mul, ← q1, ← q2]
    exact ⟨mul_ne_zero p1 p2, by ring⟩
  | div e f ihe ihf =>
    simp only [Ex.eval, Option.bind_eq_bind, Option.pure_def] at h
    obtain ⟨a1, h1, h⟩ := Option.bind_eq_some_iff.1 h
    obtain ⟨a2, h2, h⟩ := Option.bind_eq_some_iff.1 h
    split at h
    · cases h
    · rename_i hz
      rw [Option.some.injEq] at h; subst h
      obtain ⟨p1, q1⟩ := ihe h1
      obtain ⟨p2, q2⟩ := ihf h2
      simp only [Ex.np, pv_mul, ← q1, ← q2]
      refine ⟨mul_ne_zero p1 (mul_ne_zero hz p2), ?_⟩
      field_simp
  | pow e m ih =>
    simp only [Ex.eval, Option.bind_eq_bind, Option.pure_def] at h
    obtain ⟨a1, h1, h⟩ := Option.bind_eq_some_iff.1 h
    rw [Option.some.injEq] at h; subst h
    obtain ⟨p, q⟩ := ih h1
    simp only [Ex.np, pv_pow, ← q]
    exact ⟨pow_ne_zero _ p, by ring⟩

/-! ### Bounds -/

/-- Sum of the absolute values of the coefficients. -/
noncomputable def l1 (p : MvPolynomial (Fin 3) ℤ) : Nat := ∑ d ∈ p.support, (p.coeff d).natAbs

theorem l1_eq {p : MvPolynomial (Fin 3) ℤ} {s : Finset (Fin 3 →₀ ℕ)} (h : p.support ⊆ s) : l1 p = ∑ d ∈ s, (p.coeff d).natAbs := by
  rw [l1]
  refine Finset.sum_subset h (fun d _ hd => ?_)
  rw [notMem_support_iff.1 hd]; rfl

theorem l1_add (p q : MvPolynomial (Fin 3) ℤ) : l1 (p + q) ≤ l1 p + l1 q := by
  classical
  rw [l1_eq (s := p.support ∪ q.support) support_add, l1_eq (p := p) (s := p.support ∪ q.support) Finset.subset_union_left,
    l1_eq (p := q) (s := p.support ∪ q.support) Finset.subset_union_right, ← Finset.sum_add_distrib]
  exact Finset.sum_le_sum (fun d _ => by rw [coeff_add]; exact Int.natAbs_add_le _ _)

theorem support_neg' (p : MvPolynomial (Fin 3) ℤ) : (-p).support = p.support := by
  ext d; simp [mem_support_iff]

theorem l1_neg (p : MvPolynomial (Fin 3) ℤ) : l1 (-p) = l1 p := by
  simp [l1, support_neg']

theorem l1_sum {ι : Type} (s : Finset ι) (f : ι → MvPolynomial (Fin 3) ℤ) : l1 (∑ i ∈ s, f i) ≤ ∑ i ∈ s, l1 (f i) := by
  classical
  induction s using Finset.induction_on with
  | empty => simp [l1]
  | insert a s ha ih =>
    rw [Finset.sum_insert ha, Finset.sum_insert ha]
    exact (l1_add _ _).trans (Nat.add_le_add_left ih _)

theorem l1_monomial_mul (d : Fin 3 →₀ ℕ) (c : ℤ) (q : MvPolynomial (Fin 3) ℤ) : l1 (monomial d c * q) ≤ c.natAbs * l1 q := by
  classical
  have : monomial d c * q = ∑ m ∈ q.support, monomial (d + m) (c * q.coeff m) := by
    conv_lhs => rw [q.as_sum]
    rw [Finset.mul_sum]
    exact Finset.sum_congr rfl (fun m _ => monomial_mul)
  rw [this]
  refine (l1_sum _ _).trans ?_
  rw [l1, Finset.mul_sum]
  refine Finset.sum_le_sum (fun m _ => ?_)
  rw [l1_eq (s := {d + m}) support_monomial_subset, Finset.sum_singleton, coeff_monomial, if_pos rfl, Int.natAbs_mul]

theorem l1_mul (p q : MvPolynomial (Fin 3) ℤ) : l1 (p * q) ≤ l1 p * l1 q := by
  conv_lhs => rw [p.as_sum]
  rw [Finset.sum_mul]
  refine (l1_sum _ _).trans ?_
  rw [l1, Finset.sum_mul]
  exact Finset.sum_le_sum (fun d _ => l1_monomial_mul _ _ _)

theorem l1_C (c : ℤ) : l1 (C c) ≤ c.natAbs := by
  classical
  rw [l1_eq (p := C c) (s := {0}) (support_monomial_subset), Finset.sum_singleton, coeff_C, if_pos rfl]

theorem l1_X (i : Fin 3) : l1 (X i) ≤ 1 := by
  classical
  rw [l1_eq (p := X i) (s := {Finsupp.single i 1}) (support_monomial_subset), Finset.sum_singleton, coeff_X, if_pos rfl]; rfl

/-- The polynomial meets the bounds. -/
structure Bdd (p : MvPolynomial (Fin 3) ℤ) (b : Bd) : Prop where
  x : degreeOf 0 p ≤ b.x
  y : degreeOf 1 p ≤ b.y
  z : degreeOf 2 p ≤ b.z
  l : l1 p ≤ b.l

theorem Bdd.add {p q : MvPolynomial (Fin 3) ℤ} {a b : Bd} (hp : Bdd p a) (hq : Bdd q b) : Bdd (p + q) (a.add b) :=
  ⟨(degreeOf_add_le _ _ _).trans (max_le_max hp.x hq.x), (degreeOf_add_le _ _ _).trans (max_le_max hp.y hq.y),
    (degreeOf_add_le _ _ _).trans (max_le_max hp.z hq.z), (l1_add _ _).trans (Nat.add_le_add hp.l hq.l)⟩

theorem Bdd.mul {p q : MvPolynomial (Fin 3) ℤ} {a b : Bd} (hp : Bdd p a) (hq : Bdd q b) : Bdd (p * q) (a.mul b) :=
  ⟨(degreeOf_mul_le _ _ _).trans (add_le_add hp.x hq.x), (degreeOf_mul_le _ _ _).trans (add_le_add hp.y hq.y),
    (degreeOf_mul_le _ _ _).trans (add_le_add hp.z hq.z), (l1_mul _ _).trans (Nat.mul_le_mul hp.l hq.l)⟩

theorem degreeOf_neg' (i : Fin 3) (p : MvPolynomial (Fin 3) ℤ) : degreeOf i (-p) = degreeOf i p := by
  rw [degreeOf_eq_sup, degreeOf_eq_sup, support_neg']

theorem Bdd.neg {p : MvPolynomial (Fin 3) ℤ} {a : Bd} (hp : Bdd p a) : Bdd (-p) a :=
  ⟨by rw [degreeOf_neg']; exact hp.x, by rw [degreeOf_neg']; exact hp.y, by rw [degreeOf_neg']; exact hp.z, by rw [l1_neg]; exact hp.l⟩

theorem Bdd.sub {p q : MvPolynomial (Fin 3) ℤ} {a b : Bd} (hp : Bdd p a) (hq : Bdd q b) : Bdd (p - q) (a.add b) := by
  rw [sub_eq_add_neg]; exact hp.add hq.neg

theorem Bdd.C (n : Nat) : Bdd (C (Int.ofNat n)) ⟨0, 0, 0, n⟩ :=
  ⟨by rw [degreeOf_C], by rw [degreeOf_C], by rw [degreeOf_C], l1_C _⟩

theorem Bdd.one : Bdd (1 : MvPolynomial (Fin 3) ℤ) ⟨0, 0, 0, 1⟩ := by
  have := Bdd.C 1
  simpa using this

theorem Bdd.pow {p : MvPolynomial (Fin 3) ℤ} {a : Bd} (hp : Bdd p a) (m : Nat) : Bdd (p ^ m) (a.pow m) := by
  induction m with
  | zero =>
    have := Bdd.one
    refine ⟨?_, ?_, ?_, ?_⟩ <;> simp only [pow_zero, Bd.pow, Nat.zero_mul]
    · exact this.x
    · exact this.y
    · exact this.z
    · exact this.l
  | succ m ih =>
    have := ih.mul hp
    rw [pow_succ]
    refine ⟨this.x.trans (le_of_eq ?_), this.y.trans (le_of_eq ?_), this.z.trans (le_of_eq ?_), this.l.trans (le_of_eq ?_)⟩
      <;> simp only [Bd.mul, Bd.pow, Nat.succ_mul, pow_succ]

theorem bdd_X (i : Fin 3) : Bdd (X i) ⟨if i = 0 then 1 else 0, if i = 1 then 1 else 0, if i = 2 then 1 else 0, 1⟩ := by
  classical
  refine ⟨?_, ?_, ?_, l1_X i⟩ <;> rw [degreeOf_X] <;> fin_cases i <;> decide

theorem np_bdd (e : Ex) : Bdd e.np.1 e.bd.1 ∧ Bdd e.np.2 e.bd.2 := by
  induction e with
  | num n => exact ⟨Bdd.C n, Bdd.one⟩
  | x => exact ⟨bdd_X 0, Bdd.one⟩
  | y => exact ⟨bdd_X 1, Bdd.one⟩
  | z => exact ⟨bdd_X 2, Bdd.one⟩
  | neg a ih => exact ⟨ih.1.neg, ih.2⟩
  | add a b iha ihb => exact ⟨(iha.1.mul ihb.2).add (ihb.1.mul iha.2), iha.2.mul ihb.2⟩
  | sub a b iha ihb => exact ⟨(iha.1.mul ihb.2).sub (ihb.1.mul iha.2), iha.2.mul ihb.2⟩
  | mul a b iha ihb => exact ⟨iha.1.mul ihb.1, iha.2.mul ihb.2⟩
  | div a b iha ihb => exact ⟨iha.1.mul ihb.2, iha.2.mul ihb.1⟩
  | pow a m ih => exact ⟨ih.1.pow m, ih.2.pow m⟩

/-! ### Evaluation at large integers -/

/-- A polynomial whose coefficients are smaller than a root is zero. -/
theorem poly_zero {B : Nat} (hB : 0 < B) : ∀ (n : Nat) (p : Polynomial ℤ), p.natDegree < n → (∀ i, (p.coeff i).natAbs < B) →
    p.eval (B : ℤ) = 0 → p = 0 := by
  intro n
  induction n with
  | zero => intro p hp; omega
  | succ n ih =>
    intro p hp hc h0
    have hd := p.divX_mul_X_add
    have he : p.divX.eval (B : ℤ) * B + p.coeff 0 = 0 := by
      rw [← hd, Polynomial.eval_add, Polynomial.eval_mul, Polynomial.eval_X, Polynomial.eval_C] at h0; exact h0
    have hdvd : (B : ℤ) ∣ p.coeff 0 := ⟨-p.divX.eval (B : ℤ), by linear_combination he⟩
    have hz : p.coeff 0 = 0 := Int.eq_zero_of_dvd_of_natAbs_lt_natAbs hdvd (by simpa using hc 0)
    rw [hz, add_zero] at he
    have hBz : (B : ℤ) ≠ 0 := by exact_mod_cast hB.ne'
    have he' : p.divX.eval (B : ℤ) = 0 := (mul_eq_zero.1 he).resolve_right hBz
    have hq : p.divX = 0 := by
      by_cases hn : p.natDegree = 0
      · rw [Polynomial.divX_eq_zero_iff]; exact Polynomial.eq_C_of_natDegree_eq_zero hn
      · refine ih p.divX ?_ (fun i => by rw [Polynomial.coeff_divX]; exact hc _) he'
        rw [Polynomial.natDegree_divX_eq_natDegree_tsub_one]; omega
    rw [← hd, hq, hz]; simp

/-- Position of a monomial. -/
def pos (a b : Nat) (d : Fin 3 →₀ ℕ) : Nat := d 0 + (a * d 1 + a * b * d 2)

theorem pos_inj {a b : Nat} {d e : Fin 3 →₀ ℕ} (hd0 : d 0 < a) (hd1 : d 1 < b) (he0 : e 0 < a) (he1 : e 1 < b)
    (h : pos a b d = pos a b e) : d = e := by
  simp only [pos, Nat.mul_assoc] at h
  rw [← Nat.mul_add, ← Nat.mul_add] at h
  have ha : 0 < a := by omega
  have hb : 0 < b := by omega
  have m1 : d 0 = e 0 := by
    have := congrArg (· % a) h
    simpa [Nat.add_mul_mod_self_left, Nat.mod_eq_of_lt hd0, Nat.mod_eq_of_lt he0] using this
  rw [m1] at h
  have h2 : d 1 + b * d 2 = e 1 + b * e 2 := Nat.eq_of_mul_eq_mul_left ha (Nat.add_left_cancel h)
  have m2 : d 1 = e 1 := by
    have := congrArg (· % b) h2
    simpa [Nat.add_mul_mod_self_left, Nat.mod_eq_of_lt hd1, Nat.mod_eq_of_lt he1] using this
  rw [m2] at h2
  have m3 : d 2 = e 2 := Nat.eq_of_mul_eq_mul_left hb (Nat.add_left_cancel h2)
  ext i
  fin_cases i
  · exact m1
  · exact m2
  · exact m3

/-- A polynomial within the bounds which vanishes at the large integers is zero. -/
theorem kron {p : MvPolynomial (Fin 3) ℤ} {r : Bd} (hp : Bdd p r) {B : Nat} (hB : r.l < B)
    (h : pv (B : ℤ) ((B : ℤ) ^ (r.x + 1)) (((B : ℤ) ^ (r.x + 1)) ^ (r.y + 1)) p = 0) : p = 0 := by
  classical
  set f : Polynomial ℤ := ∑ d ∈ p.support, Polynomial.monomial (pos (r.x + 1) (r.y + 1) d) (p.coeff d) with hf
  have dig : ∀ d ∈ p.support, d 0 < r.x + 1 ∧ d 1 < r.y + 1 := by
    intro d hd
    have h0 : d 0 ≤ degreeOf 0 p := by rw [degreeOf_eq_sup]; exact Finset.le_sup (f := fun m => m 0) hd
    have h1 : d 1 ≤ degreeOf 1 p := by rw [degreeOf_eq_sup]; exact Finset.le_sup (f := fun m => m 1) hd
    have := hp.x; have := hp.y
    omega
  have coe : ∀ d ∈ p.support, f.coeff (pos (r.x + 1) (r.y + 1) d) = p.coeff d := by
    intro d hd
    rw [hf, Polynomial.finsetSum_coeff, Finset.sum_eq_single d]
    · rw [Polynomial.coeff_monomial, if_pos rfl]
    · intro e he hne
      rw [Polynomial.coeff_monomial, if_neg]
      intro hpos
      exact hne (pos_inj (dig e he).1 (dig e he).2 (dig d hd).1 (dig d hd).2 hpos)
    · intro hn; exact absurd hd hn
  have cz : ∀ n, (∀ d ∈ p.support, pos (r.x + 1) (r.y + 1) d ≠ n) → f.coeff n = 0 := by
    intro n hn
    rw [hf, Polynomial.finsetSum_coeff]
    exact Finset.sum_eq_zero (fun d hd => by rw [Polynomial.coeff_monomial, if_neg (hn d hd)])
  have bound : ∀ n, (f.coeff n).natAbs < B := by
    intro n
    by_cases hn : ∃ d ∈ p.support, pos (r.x + 1) (r.y + 1) d = n
    · obtain ⟨d, hd, rfl⟩ := hn
      rw [coe d hd]
      exact lt_of_le_of_lt ((Finset.single_le_sum (f := fun d => (p.coeff d).natAbs) (fun _ _ => Nat.zero_le _) hd).trans hp.l) hB
    · push Not at hn
      rw [cz n hn]; simp; omega
  have ev : f.eval (B : ℤ) = 0 := by
    rw [← h, hf, Polynomial.eval_finsetSum]
    rw [pv, aeval_def, eval₂_eq']
    refine Finset.sum_congr rfl (fun d _ => ?_)
    rw [Polynomial.eval_monomial, Fin.prod_univ_three]
    simp only [pos, Matrix.cons_val_zero, Matrix.cons_val_one, Matrix.cons_val_two, Matrix.head_cons, Matrix.tail_cons]
    rw [show ∀ n, (B : ℤ) ^ (d 0 + ((r.x + 1) * n + (r.x + 1) * (r.y + 1) * d 2)) =
      (B : ℤ) ^ d 0 * ((B : ℤ) ^ (r.x + 1)) ^ n * (((B : ℤ) ^ (r.x + 1)) ^ (r.y + 1)) ^ d 2 by
        intro n; rw [pow_add, pow_add, pow_mul, pow_mul, pow_mul, mul_assoc]]
    rfl
  have fz := poly_zero (by omega : 0 < B) _ f (Nat.lt_succ_self _) bound ev
  ext d
  rw [coeff_zero]
  by_cases hd : d ∈ p.support
  · rw [← coe d hd, fz, Polynomial.coeff_zero]
  · exact notMem_support_iff.1 hd

/-! ### Expressions without divisions -/

/-- Expressions without divisions. -/
def Ex.poly : Ex → Bool
  | .num _ | .x | .y | .z => true
  | .neg a => a.poly
  | .add a b => a.poly && b.poly
  | .sub a b => a.poly && b.poly
  | .mul a b => a.poly && b.poly
  | .div _ _ => false
  | .pow a _ => a.poly

theorem poly_den {e : Ex} (h : e.poly = true) : e.np.2 = 1 := by
  induction e with
  | num n => rfl
  | x => rfl
  | y => rfl
  | z => rfl
  | neg a ih => exact ih h
  | add a b iha ihb => simp only [Ex.poly, Bool.and_eq_true] at h; simp [Ex.np, iha h.1, ihb h.2]
  | sub a b iha ihb => simp only [Ex.poly, Bool.and_eq_true] at h; simp [Ex.np, iha h.1, ihb h.2]
  | mul a b iha ihb => simp only [Ex.poly, Bool.and_eq_true] at h; simp [Ex.np, iha h.1, ihb h.2]
  | div a b => cases h
  | pow a n ih => simp [Ex.np, ih h]

theorem kp_eq (x y z : Int) {e : Ex} (h : e.poly = true) : e.kp x y z = pv x y z e.np.1 := by
  induction e with
  | num n => simp only [Ex.kp, Ex.np, pv_num]; rfl
  | x => simp [Ex.kp, Ex.np, pv_x]
  | y => simp [Ex.kp, Ex.np, pv_y]
  | z => simp [Ex.kp, Ex.np, pv_z]
  | neg a ih => simp [Ex.kp, Ex.np, ih h, pv_neg]
  | add a b iha ihb =>
    simp only [Ex.poly, Bool.and_eq_true] at h
    simp [Ex.kp, Ex.np, iha h.1, ihb h.2, poly_den h.1, poly_den h.2, pv_add]
  | sub a b iha ihb =>
    simp only [Ex.poly, Bool.and_eq_true] at h
    simp [Ex.kp, Ex.np, iha h.1, ihb h.2, poly_den h.1, poly_den h.2, pv_sub]
  | mul a b iha ihb =>
    simp only [Ex.poly, Bool.and_eq_true] at h
    simp [Ex.kp, Ex.np, iha h.1, ihb h.2, pv_mul]
  | div a b => cases h
  | pow a n ih => simp [Ex.kp, Ex.np, ih h, pv_pow]

theorem kd_eq (j : Fin 3) (x y z : Int) {e : Ex} (h : e.poly = true) :
    e.kd j.val x y z = (pv x y z e.np.1, pv x y z (pderiv j e.np.1)) := by
  induction e with
  | num n => simp only [Ex.kd, Ex.np, pv_num, pderiv_C, pv_zero]; rfl
  | x => fin_cases j <;> simp [Ex.kd, Ex.np, pv_x, pderiv_X, pv_one, pv_zero]
  | y => fin_cases j <;> simp [Ex.kd, Ex.np, pv_y, pderiv_X, pv_one, pv_zero]
  | z => fin_cases j <;> simp [Ex.kd, Ex.np, pv_z, pderiv_X, pv_one, pv_zero]
  | neg a ih => simp [Ex.kd, Ex.np, ih h, pv_neg]
  | add a b iha ihb =>
    simp only [Ex.poly, Bool.and_eq_true] at h
    simp [Ex.kd, Ex.np, iha h.1, ihb h.2, poly_den h.1, poly_den h.2, pv_add]
  | sub a b iha ihb =>
    simp only [Ex.poly, Bool.and_eq_true] at h
    simp [Ex.kd, Ex.np, iha h.1, ihb h.2, poly_den h.1, poly_den h.2, pv_sub]
  | mul a b iha ihb =>
    simp only [Ex.poly, Bool.and_eq_true] at h
    simp only [Ex.kd, Ex.np, iha h.1, ihb h.2, pv_mul, pderiv_mul, pv_add]
  | div a b => cases h
  | pow a n ih =>
    cases n with
    | zero => simp [Ex.kd, Ex.np, pv_one, pv_zero]
    | succ n =>
      simp only [Ex.kd, Ex.np, ih h, pderiv_pow, pv_mul, pv_pow]
      refine Prod.ext (pow_succ _ _).symm ?_
      simp [pv]

theorem bp_bdd {e : Ex} (h : e.poly = true) : Bdd e.np.1 e.bp := by
  induction e with
  | num n => exact Bdd.C n
  | x => exact bdd_X 0
  | y => exact bdd_X 1
  | z => exact bdd_X 2
  | neg a ih => exact (ih h).neg
  | add a b iha ihb =>
    simp only [Ex.poly, Bool.and_eq_true] at h
    simp only [Ex.np, poly_den h.1, poly_den h.2, mul_one]; exact (iha h.1).add (ihb h.2)
  | sub a b iha ihb =>
    simp only [Ex.poly, Bool.and_eq_true] at h
    simp only [Ex.np, poly_den h.1, poly_den h.2, mul_one]; exact (iha h.1).sub (ihb h.2)
  | mul a b iha ihb =>
    simp only [Ex.poly, Bool.and_eq_true] at h
    exact (iha h.1).mul (ihb h.2)
  | div a b => cases h
  | pow a n ih => exact (ih h).pow n

theorem pderiv_sum (j : Fin 3) (p : MvPolynomial (Fin 3) ℤ) :
    pderiv j p = ∑ d ∈ p.support, monomial (d - Finsupp.single j 1) (p.coeff d * d j) := by
  conv_lhs => rw [p.as_sum]
  rw [map_sum]
  exact Finset.sum_congr rfl (fun d _ => pderiv_monomial)

theorem degreeOf_pderiv (i j : Fin 3) (p : MvPolynomial (Fin 3) ℤ) : degreeOf i (pderiv j p) ≤ degreeOf i p := by
  classical
  rw [pderiv_sum, degreeOf_eq_sup]
  refine Finset.sup_le (fun m hm => ?_)
  obtain ⟨d, hd, hm⟩ := Finset.mem_biUnion.1 (support_sum hm)
  have := Finset.mem_singleton.1 (support_monomial_subset hm)
  rw [this]
  have h1 : d i ≤ degreeOf i p := by rw [degreeOf_eq_sup]; exact Finset.le_sup (f := fun m => m i) hd
  refine le_trans ?_ h1
  rw [Finsupp.tsub_apply]; exact Nat.sub_le _ _

theorem l1_pderiv (j : Fin 3) (p : MvPolynomial (Fin 3) ℤ) : l1 (pderiv j p) ≤ degreeOf j p * l1 p := by
  classical
  rw [pderiv_sum]
  refine (l1_sum _ _).trans ?_
  rw [l1, Finset.mul_sum]
  refine Finset.sum_le_sum (fun d hd => ?_)
  rw [l1_eq (p := monomial _ _) (s := {d - Finsupp.single j 1}) support_monomial_subset, Finset.sum_singleton, coeff_monomial, if_pos rfl,
    Int.natAbs_mul, Nat.mul_comm, Int.natAbs_natCast]
  have h1 : d j ≤ degreeOf j p := by rw [degreeOf_eq_sup]; exact Finset.le_sup (f := fun m => m j) hd
  exact Nat.mul_le_mul_right _ h1

theorem Bdd.d (j : Fin 3) {p : MvPolynomial (Fin 3) ℤ} {b : Bd} (h : Bdd p b) : Bdd (pderiv j p) (b.d j.val) := by
  refine ⟨(degreeOf_pderiv _ _ _).trans h.x, (degreeOf_pderiv _ _ _).trans h.y, (degreeOf_pderiv _ _ _).trans h.z, (l1_pderiv j p).trans ?_⟩
  refine Nat.mul_le_mul ?_ h.l
  fin_cases j
  · exact h.x
  · exact h.y
  · exact h.z

/-! ### Correctness of the checks -/

theorem same_poly {t : Ex} {q : MvPolynomial (Fin 3) ℤ} {b : Bd} (hq : Bdd q b) {B X Y : Int}
    (hB : B = ((2 ^ (Nat.log2 (t.bd.1.add (t.bd.2.mul b)).l + 1) : Nat) : Int)) (hX : X = B ^ ((t.bd.1.add (t.bd.2.mul b)).x + 1))
    (hY : Y = X ^ ((t.bd.1.add (t.bd.2.mul b)).y + 1))
    (h : pv B X Y t.np.1 = pv B X Y t.np.2 * pv B X Y q) {K : Type} [Field K] [DecidableEq K] {x y z u : K}
    (ht : t.eval x y z = some u) : u = pv x y z q := by
  obtain ⟨n, d⟩ := np_bdd t
  have hR := n.sub (d.mul hq)
  have hz := kron hR (B := 2 ^ (Nat.log2 (t.bd.1.add (t.bd.2.mul b)).l + 1)) Nat.lt_log2_self
    (by rw [← hB, ← hX, ← hY, pv_sub, pv_mul, sub_eq_zero]; exact h)
  obtain ⟨p1, q1⟩ := eval_np ht
  have := congrArg (pv x y z) hz
  rw [pv_sub, pv_mul, pv_zero, ← q1] at this
  have h2 : (u - pv x y z q) * pv x y z t.np.2 = 0 := by linear_combination this
  exact sub_eq_zero.1 ((mul_eq_zero.1 h2).resolve_right p1)

/-- The check of values is correct: where the expression is defined, its value is that of the polynomial. -/
theorem sameP_sound {t p : Ex} (hp : p.poly = true) (h : sameP t p = true) {K : Type} [Field K] [DecidableEq K] {x y z u : K}
    (ht : t.eval x y z = some u) : u = pv x y z p.np.1 := by
  simp only [sameP, kr_eq, kp_eq _ _ _ hp, beq_iff_eq] at h
  exact same_poly (bp_bdd hp) rfl (by push_cast; rfl) (by push_cast; rfl) h ht

/-- The check of derivatives is correct: where the expression is defined, its value is that of the derivative of the polynomial. -/
theorem sameD_sound (j : Fin 3) {t p : Ex} (hp : p.poly = true) (h : sameD j.val t p = true) {K : Type} [Field K] [DecidableEq K] {x y z u : K}
    (ht : t.eval x y z = some u) : u = pv x y z (pderiv j p.np.1) := by
  simp only [sameD, kr_eq, kd_eq j _ _ _ hp, beq_iff_eq] at h
  exact same_poly ((bp_bdd hp).d j) rfl (by push_cast; rfl) (by push_cast; rfl) h ht

end Edge.Basis
