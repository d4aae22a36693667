import Verif.Linalg.Model
import Verif.Util.Scatter
import Verif.Util.Rat
import Mathlib.LinearAlgebra.Matrix.Determinant.Basic
import Mathlib.Algebra.BigOperators.Group.List.Basic
/-!
Determinants and inverses (C52) and dense kernels (C54) of `src/linalg/Matrix.h`.
-/
namespace Edge.Linalg
open Edge

variable {K : Type} [Field K] [LinearOrder K]

/-! ### Determinants and inverses -/

/-- C52: `det` is the determinant of every 2x2, 3x3 and 4x4 matrix. -/
theorem C52_det2 (m : Fin 2 → Fin 2 → K) : det2 m = Matrix.det (Matrix.of m) := by
  rw [Matrix.det_fin_two]; rfl

theorem C52_det3 (m : Fin 3 → Fin 3 → K) : det3 m = Matrix.det (Matrix.of m) := by
  rw [Matrix.det_fin_three]; simp only [det3, Matrix.of_apply]; ring

theorem C52_det4 (m : Fin 4 → Fin 4 → K) : det4 m = Matrix.det (Matrix.of m) := by
  rw [Matrix.det_succ_column (Matrix.of m) 3]
  have hs : ∀ (i : Fin 4), ((i : ℕ) + ((3 : Fin 4) : ℕ)) = (i : ℕ) + 3 := fun i => rfl
  simp only [Fin.sum_univ_four, Matrix.det_fin_three, hs]
  have e : det4 m = 0 - m 0 3 * det3 (minor3 m 0) + m 1 3 * det3 (minor3 m 1) - m 2 3 * det3 (minor3 m 2)
      + m 3 3 * det3 (minor3 m 3) := rfl
  have a : ∀ (x : Fin 4) (r c : Fin 3), (Matrix.of m).submatrix x.succAbove (Fin.succAbove 3) r c
      = minor3 m x.val r c := by
    intro x r c
    simp only [Matrix.submatrix_apply, Matrix.of_apply, minor3]
    fin_cases x <;> fin_cases r <;> fin_cases c <;> rfl
  simp only [a, e, det3]
  simp only [Matrix.of_apply, Fin.val_zero, Fin.val_one, show ((2 : Fin 4) : ℕ) = 2 from rfl,
    show ((3 : Fin 4) : ℕ) = 3 from rfl]
  ring

/-- C52: `inv` accepts exactly the matrices whose determinant exceeds the tolerance in magnitude, and then returns the
two-sided inverse. -/
theorem C52_inv2 [IsStrictOrderedRing K] {tol : K} (ht : 0 ≤ tol) (m : Fin 2 → Fin 2 → K) :
    ((inv2 tol m).isSome ↔ |Matrix.det (Matrix.of m)| > tol) ∧
    ∀ r, inv2 tol m = some r → Matrix.of m * Matrix.of r = 1 ∧ Matrix.of r * Matrix.of m = 1 := by
  rw [← C52_det2]
  simp only [inv2, Option.bind_eq_bind]
  by_cases h : |det2 m| > tol
  · have hd : det2 m ≠ 0 := by intro e; rw [e, abs_zero] at h; exact absurd h (not_lt.2 ht)
    simp only [h, decide_true, check_true, Option.bind_some, iff_true]
    refine ⟨rfl, fun r hr => ?_⟩
    cases hr
    have e : m 0 0 * m 1 1 - m 0 1 * m 1 0 = det2 m := rfl
    constructor
    · ext i j; fin_cases i <;> fin_cases j <;> simp [Matrix.mul_apply, Fin.sum_univ_two] <;> field_simp <;> rw [← e] <;> ring
    · ext i j; fin_cases i <;> fin_cases j <;> simp [Matrix.mul_apply, Fin.sum_univ_two] <;> field_simp <;> rw [← e] <;> ring
  · simp [h, check]

theorem C52_inv3 [IsStrictOrderedRing K] {tol : K} (ht : 0 ≤ tol) (m : Fin 3 → Fin 3 → K) :
    ((inv3 tol m).isSome ↔ |Matrix.det (Matrix.of m)| > tol) ∧
    ∀ r, inv3 tol m = some r → Matrix.of m * Matrix.of r = 1 ∧ Matrix.of r * Matrix.of m = 1 := by
  rw [← C52_det3]
  simp only [inv3, Option.bind_eq_bind]
  by_cases h : |det3 m| > tol
  · have hd : det3 m ≠ 0 := by intro e; rw [e, abs_zero] at h; exact absurd h (not_lt.2 ht)
    simp only [h, decide_true, check_true, Option.bind_some, iff_true]
    refine ⟨rfl, fun r hr => ?_⟩
    cases hr
    have e : m 0 0 * (m 1 1 * m 2 2 - m 1 2 * m 2 1) - m 0 1 * (m 1 0 * m 2 2 - m 1 2 * m 2 0)
      + m 0 2 * (m 1 0 * m 2 1 - m 1 1 * m 2 0) = det3 m := rfl
    constructor
    · ext i j; fin_cases i <;> fin_cases j <;> simp [Matrix.mul_apply, Fin.sum_univ_three] <;> field_simp <;>
        (try rw [← e]) <;> ring
    · ext i j; fin_cases i <;> fin_cases j <;> simp [Matrix.mul_apply, Fin.sum_univ_three] <;> field_simp <;>
        (try rw [← e]) <;> ring
  · simp [h, check]

/-! ### Dense kernels -/

theorem mad_inj {a b c a' c' : Nat} (h : a * b + c = a' * b + c') (h1 : c < b) (h2 : c' < b) : a = a' ∧ c = c' := by
  have hb : 0 < b := by omega
  have e1 : (a * b + c) / b = a := by rw [Nat.mul_comm, Nat.mul_add_div hb, Nat.div_eq_of_lt h1, Nat.add_zero]
  have e2 : (a' * b + c') / b = a' := by rw [Nat.mul_comm, Nat.mul_add_div hb, Nat.div_eq_of_lt h2, Nat.add_zero]
  have : a = a' := by rw [← e1, ← e2, h]
  subst this
  exact ⟨rfl, by omega⟩

theorem mad_lt {a b c n : Nat} (h1 : a < n) (h2 : c < b) : a * b + c < n * b := by
  have := Nat.mul_le_mul_right b (show a + 1 ≤ n from h1)
  rw [Nat.add_mul, Nat.one_mul] at this
  omega

/-- Loops which accumulate `w l t` in entry `idx t`, for all `l < k`. -/
theorem accum {τ : Type} {ts : List τ} {idx : τ → Nat} {f : Nat → List K → τ → Option (List K)} {c : List K} {k : Nat}
    (w : Nat → τ → K) (hnd : (ts.map idx).Nodup) (hb : ∀ t ∈ ts, idx t < c.length)
    (hf : ∀ l < k, ∀ t ∈ ts, ∀ (c' : List K) (x : K), c'.length = c.length → c'[idx t]? = some x →
      f l c' t = some (c'.set (idx t) (x + w l t))) :
    ∃ c', forN k (fun l c => ts.foldlM (f l) c) c = some c' ∧ c'.length = c.length ∧
      (∀ t ∈ ts, c'[idx t]? = (c[idx t]?).map (· + ((List.range k).map (fun l => w l t)).sum)) ∧
      ∀ p : Nat, p ∉ ts.map idx → c'[p]? = c[p]? := by
  refine forN_inv (n := k) (s := c) (body := fun l c => ts.foldlM (f l) c) (fun l (c' : List K) => c'.length = c.length ∧
      (∀ t ∈ ts, c'[idx t]? = (c[idx t]?).map (· + ((List.range l).map (fun l => w l t)).sum)) ∧
      ∀ p : Nat, p ∉ ts.map idx → c'[p]? = c[p]?) ?_ ?_
  · refine ⟨rfl, fun t _ => ?_, fun _ _ => rfl⟩
    simp
  · rintro l c1 hl ⟨h1, h2, h3⟩
    obtain ⟨c2, g0, g1, g2, g3⟩ := scatter (ts := ts) (idx := idx) (f := f l) (c := c1) (fun t x => x + w l t) hnd
      (fun t ht => by rw [h1]; exact hb t ht) (fun t ht c' x hc hx _ => hf l hl t ht c' x (hc.trans h1) hx)
    refine ⟨c2, g0, g1.trans h1, fun t ht => ?_, fun p hp => (g3 p hp).trans (h3 p hp)⟩
    rw [g2 t ht, h2 t ht, Option.map_map]
    congr 1
    funext x
    simp only [Function.comp, List.range_succ, List.map_append, List.map_cons, List.map_nil, List.sum_append,
      List.sum_cons, List.sum_nil, add_zero]
    rw [add_assoc]

/-- C54: `matMulB0` computes the product of the `m`x`k` matrix `A` and the `k`x`n` matrix `B` (row-major), whatever the
output held before; it writes nothing else. -/
theorem C54_product {m n k : Nat} {a b c : List K} (A B : Nat → Nat → K)
    (hA : ∀ i l, i < m → l < k → a[i * k + l]? = some (A i l))
    (hB : ∀ l j, l < k → j < n → b[l * n + j]? = some (B l j)) (hc : m * n ≤ c.length) :
    ∃ c', matMulB0 m n k a b c = some c' ∧ c'.length = c.length ∧
      (∀ i j, i < m → j < n → c'[i * n + j]? = some ((List.range k).map (fun l => A i l * B l j)).sum) ∧
      ∀ p : Nat, m * n ≤ p → c'[p]? = c[p]? := by
  have hnd : ((pairs m n).map (fun p => p.1 * n + p.2)).Nodup := by
    refine nodup_map_of_inj (nodup_pairs m n) ?_
    intro x hx y hy h
    obtain ⟨h1, h2⟩ := mad_inj h (mem_pairs.1 hx).2 (mem_pairs.1 hy).2
    exact Prod.ext h1 h2
  have hbd : ∀ t ∈ pairs m n, t.1 * n + t.2 < c.length := fun t ht => by
    have := mad_lt (mem_pairs.1 ht).1 (mem_pairs.1 ht).2
    omega
  obtain ⟨c1, h0, h1, h2, h3⟩ := scatter (ts := pairs m n) (idx := fun p => p.1 * n + p.2)
    (f := fun c p => wr c (p.1 * n + p.2) 0) (c := c) (fun _ _ => (0 : K)) hnd hbd
    (fun t ht c' x hc' _ _ => wr_some (by rw [hc']; exact hbd t ht) _)
  obtain ⟨c2, g0, g1, g2, g3⟩ := accum (ts := pairs m n) (idx := fun p => p.1 * n + p.2) (k := k)
    (f := fun l c p => do
      let x ← rd c (p.1 * n + p.2)
      let u ← rd a (p.1 * k + l)
      let v ← rd b (l * n + p.2)
      wr c (p.1 * n + p.2) (x + u * v)) (c := c1) (fun l p => A p.1 l * B l p.2) hnd
    (fun t ht => by rw [h1]; exact hbd t ht) (fun l hl t ht c' x hc' hx => by
      have ht' := mem_pairs.1 ht
      simp only [rd, hx, hA _ _ ht'.1 hl, hB _ _ hl ht'.2, Option.bind_eq_bind, Option.bind_some]
      exact wr_some (by rw [hc', h1]; exact hbd t ht) _)
  refine ⟨c2, ?_, g1.trans h1, ?_, ?_⟩
  · simp only [matMulB0, Option.bind_eq_bind]
    rw [forN_pairs m n (fun i j (c : List K) => wr c (i * n + j) 0), h0, Option.bind_some, ← g0]
    congr 1
    funext l c
    exact forN_pairs m n _ c
  · intro i j hi hj
    have hm : (i, j) ∈ pairs m n := mem_pairs.2 ⟨hi, hj⟩
    have e1 := g2 (i, j) hm
    have e2 := h2 (i, j) hm
    simp only at e1 e2
    rw [e1, e2, List.getElem?_eq_getElem (hbd _ hm)]
    simp
  · intro p hp
    have hnp : p ∉ (pairs m n).map (fun p => p.1 * n + p.2) := by
      intro h
      obtain ⟨t, ht, rfl⟩ := List.mem_map.1 h
      have := mad_lt (mem_pairs.1 ht).1 (mem_pairs.1 ht).2
      omega
    rw [g3 p hnp, h3 p hnp]

/-- Position of entry (i, j) of matrix `q` in an array of `r` fused matrices with leading dimension `ld`. -/
def fusedIdx (r ld i j q : Nat) : Nat := i * ld * r + j * r + q

theorem fusedIdx_inj {r ld i j q i' j' q' : Nat} (h : fusedIdx r ld i j q = fusedIdx r ld i' j' q') (hj : j < ld)
    (hj' : j' < ld) (hq : q < r) (hq' : q' < r) : i = i' ∧ j = j' ∧ q = q' := by
  have e : ∀ a b c, fusedIdx r ld a b c = (a * ld + b) * r + c := fun a b c => by rw [fusedIdx, Nat.add_mul]
  rw [e, e] at h
  obtain ⟨h1, h2⟩ := mad_inj h hq hq'
  obtain ⟨h3, h4⟩ := mad_inj h1 hj hj'
  exact ⟨h3, h4, h2⟩

/-- Both fused kernels: initialisation and accumulation of `alpha * w l`. -/
theorem fused_spec {r m n k ldC : Nat} {alpha beta : K} {c : List K} (C : Nat → Nat → Nat → K) (hld : n ≤ ldC)
    (hC : ∀ q i j, q < r → i < m → j < n → c[fusedIdx r ldC i j q]? = some (C q i j))
    {body : Nat → Nat → Nat → Nat → List K → Option (List K)} (w : Nat → Nat → Nat → Nat → K)
    (hbody : ∀ l i j q (c' : List K) (x : K), l < k → i < m → j < n → q < r → c'[fusedIdx r ldC i j q]? = some x →
      body l i j q c' = some (c'.set (fusedIdx r ldC i j q) (x + alpha * w l i j q))) :
    ∃ c', ((fusedInit r m n ldC beta c).bind fun c =>
        forN k (fun l c => forN m (fun i c => forN n (fun j c => forN r (fun q c => body l i j q c) c) c) c) c) = some c' ∧
      c'.length = c.length ∧
      (∀ q i j, q < r → i < m → j < n → c'[fusedIdx r ldC i j q]? =
        some (beta * C q i j + alpha * ((List.range k).map (fun l => w l i j q)).sum)) ∧
      ∀ p : Nat, (∀ q i j, q < r → i < m → j < n → p ≠ fusedIdx r ldC i j q) → c'[p]? = c[p]? := by
  have hnd : ((triples m n r).map (fun p => fusedIdx r ldC p.1 p.2.1 p.2.2)).Nodup := by
    refine nodup_map_of_inj (nodup_triples m n r) ?_
    intro x hx y hy h
    have hx' := mem_triples.1 hx
    have hy' := mem_triples.1 hy
    obtain ⟨h1, h2, h3⟩ := fusedIdx_inj h (by omega) (by omega) hx'.2.2 hy'.2.2
    exact Prod.ext h1 (Prod.ext h2 h3)
  have hbd : ∀ t ∈ triples m n r, fusedIdx r ldC t.1 t.2.1 t.2.2 < c.length := fun t ht => by
    have ht' := mem_triples.1 ht
    exact (List.getElem?_eq_some_iff.1 (hC _ _ _ ht'.2.2 ht'.1 ht'.2.1)).1
  obtain ⟨c1, h0, h1, h2, h3⟩ := scatter (ts := triples m n r) (idx := fun p => fusedIdx r ldC p.1 p.2.1 p.2.2)
    (f := fun c p => do
      let x ← rd c (p.1 * ldC * r + p.2.1 * r + p.2.2)
      wr c (p.1 * ldC * r + p.2.1 * r + p.2.2) (if beta ≠ 0 then x * beta else 0)) (c := c)
    (fun _ x => if beta ≠ 0 then x * beta else 0) hnd hbd
    (fun t ht c' x hc' hx _ => by
      have hx' : c'[t.1 * ldC * r + t.2.1 * r + t.2.2]? = some x := hx
      simp only [rd, hx', Option.bind_eq_bind, Option.bind_some]
      exact wr_some (by rw [hc']; exact hbd t ht) _)
  obtain ⟨c2, g0, g1, g2, g3⟩ := accum (ts := triples m n r) (idx := fun p => fusedIdx r ldC p.1 p.2.1 p.2.2) (k := k)
    (f := fun l c p => body l p.1 p.2.1 p.2.2 c) (c := c1) (fun l p => alpha * w l p.1 p.2.1 p.2.2) hnd
    (fun t ht => by rw [h1]; exact hbd t ht) (fun l hl t ht c' x hc' hx => by
      have ht' := mem_triples.1 ht
      exact hbody l _ _ _ c' x hl ht'.1 ht'.2.1 ht'.2.2 hx)
  refine ⟨c2, ?_, g1.trans h1, ?_, ?_⟩
  · rw [fusedInit, forN_triples m n r (fun i j q (c : List K) => do
      let x ← rd c (i * ldC * r + j * r + q)
      wr c (i * ldC * r + j * r + q) (if beta ≠ 0 then x * beta else 0)), h0, Option.bind_some, ← g0]
    congr 1
    funext l c
    exact forN_triples m n r _ c
  · intro q i j hq hi hj
    have hm : (i, j, q) ∈ triples m n r := mem_triples.2 ⟨hi, hj, hq⟩
    have e1 := g2 (i, j, q) hm
    have e2 := h2 (i, j, q) hm
    simp only at e1 e2
    rw [e1, e2, hC q i j hq hi hj]
    simp only [Option.map_some, Option.some.injEq]
    rw [List.sum_map_mul_left]
    congr 1
    split
    · exact mul_comm _ _
    · rename_i h; simp only [ne_eq, not_not] at h; rw [h, zero_mul]
  · intro p hp
    have hnp : p ∉ (triples m n r).map (fun p => fusedIdx r ldC p.1 p.2.1 p.2.2) := by
      intro h
      obtain ⟨t, ht, rfl⟩ := List.mem_map.1 h
      have ht' := mem_triples.1 ht
      exact hp _ _ _ ht'.2.2 ht'.1 ht'.2.1 rfl
    rw [g3 p hnp, h3 p hnp]

/-- C54: `matMulFusedAC` computes `C[q] = beta * C[q] + alpha * A[q] * B` for all `r` matrices `A[q]`, `C[q]` and leaves
everything else in the output (padding of the leading dimension) unchanged. -/
theorem C54_fusedAC {r m n k ldA ldB ldC : Nat} {alpha beta : K} {a b c : List K} (A C : Nat → Nat → Nat → K)
    (B : Nat → Nat → K) (hld : n ≤ ldC)
    (hA : ∀ q i l, q < r → i < m → l < k → a[fusedIdx r ldA i l q]? = some (A q i l))
    (hB : ∀ l j, l < k → j < n → b[l * ldB + j]? = some (B l j))
    (hC : ∀ q i j, q < r → i < m → j < n → c[fusedIdx r ldC i j q]? = some (C q i j)) :
    ∃ c', matMulFusedAC r m n k ldA ldB ldC alpha beta a b c = some c' ∧ c'.length = c.length ∧
      (∀ q i j, q < r → i < m → j < n → c'[fusedIdx r ldC i j q]? =
        some (beta * C q i j + alpha * ((List.range k).map (fun l => A q i l * B l j)).sum)) ∧
      ∀ p : Nat, (∀ q i j, q < r → i < m → j < n → p ≠ fusedIdx r ldC i j q) → c'[p]? = c[p]? := by
  refine fused_spec C hld hC (fun l i j q => A q i l * B l j) ?_
  intro l i j q c' x hl hi hj hq hx
  have hx' : c'[i * ldC * r + j * r + q]? = some x := hx
  have ha : a[i * ldA * r + l * r + q]? = some (A q i l) := hA q i l hq hi hl
  simp only [rd, hx', ha, hB l j hl hj, Option.bind_eq_bind, Option.bind_some]
  rw [← mul_assoc]
  exact wr_some (List.getElem?_eq_some_iff.1 hx).1 _

/-- C54: `matMulFusedBC` computes `C[q] = beta * C[q] + alpha * A * B[q]`. -/
theorem C54_fusedBC {r m n k ldA ldB ldC : Nat} {alpha beta : K} {a b c : List K} (B C : Nat → Nat → Nat → K)
    (A : Nat → Nat → K) (hld : n ≤ ldC)
    (hA : ∀ i l, i < m → l < k → a[i * ldA + l]? = some (A i l))
    (hB : ∀ q l j, q < r → l < k → j < n → b[fusedIdx r ldB l j q]? = some (B q l j))
    (hC : ∀ q i j, q < r → i < m → j < n → c[fusedIdx r ldC i j q]? = some (C q i j)) :
    ∃ c', matMulFusedBC r m n k ldA ldB ldC alpha beta a b c = some c' ∧ c'.length = c.length ∧
      (∀ q i j, q < r → i < m → j < n → c'[fusedIdx r ldC i j q]? =
        some (beta * C q i j + alpha * ((List.range k).map (fun l => A i l * B q l j)).sum)) ∧
      ∀ p : Nat, (∀ q i j, q < r → i < m → j < n → p ≠ fusedIdx r ldC i j q) → c'[p]? = c[p]? := by
  refine fused_spec C hld hC (fun l i j q => A i l * B q l j) ?_
  intro l i j q c' x hl hi hj hq hx
  have hx' : c'[i * ldC * r + j * r + q]? = some x := hx
  have hb : b[l * ldB * r + j * r + q]? = some (B q l j) := hB q l j hq hl hj
  simp only [rd, hx', hb, hA i l hi hl, Option.bind_eq_bind, Option.bind_some]
  rw [← mul_assoc]
  exact wr_some (List.getElem?_eq_some_iff.1 hx).1 _

omit [Field K] [LinearOrder K] in
/-- C54: `transposeDense` exchanges rows and columns in place. -/
theorem C54_transpose {n : Nat} {a : List K} (A : Nat → Nat → K) (hl : a.length = n * n)
    (hA : ∀ i j, i < n → j < n → a[i * n + j]? = some (A i j)) :
    ∃ a', transposeDense n a = some a' ∧ a'.length = n * n ∧ ∀ i j, i < n → j < n → a'[i * n + j]? = some (A j i) := by
  obtain ⟨a', h0, h1, h2⟩ := forN_inv (n := n) (s := a) (body := fun ro a => forN (n - (ro + 1)) (fun i (a : List K) => do
      let co := ro + 1 + i
      let t ← rd a (ro * n + co)
      let u ← rd a (co * n + ro)
      let a ← wr a (ro * n + co) u
      wr a (co * n + ro) t) a)
    (fun ro (a' : List K) => a'.length = n * n ∧ ∀ i j, i < n → j < n →
      a'[i * n + j]? = some (if i < ro ∨ j < ro then A j i else A i j)) ⟨hl, by simpa using hA⟩ (by
    rintro ro a1 hro ⟨h1, h2⟩
    obtain ⟨a2, g0, g1, g2⟩ := forN_inv (n := n - (ro + 1)) (s := a1) (body := fun i (a : List K) => do
        let co := ro + 1 + i
        let t ← rd a (ro * n + co)
        let u ← rd a (co * n + ro)
        let a ← wr a (ro * n + co) u
        wr a (co * n + ro) t)
      (fun d (a' : List K) => a'.length = n * n ∧ ∀ i j, i < n → j < n →
        a'[i * n + j]? = some (if i < ro ∨ j < ro ∨ (i = ro ∧ j < ro + 1 + d) ∨ (j = ro ∧ i < ro + 1 + d)
          then A j i else A i j)) ⟨h1, by
        intro i j hi hj
        rw [h2 i j hi hj]
        by_cases hij : i = ro ∧ j = ro
        · rw [hij.1, hij.2]; simp
        · congr 1
          by_cases hc : i < ro ∨ j < ro
          · rw [if_pos hc, if_pos (by omega)]
          · rw [if_neg hc, if_neg (by omega)]⟩ (by
      rintro d a2 hd ⟨k1, k2⟩
      have hco : ro + 1 + d < n := by omega
      have e1 := k2 ro (ro + 1 + d) hro hco
      have e2 := k2 (ro + 1 + d) ro hco hro
      rw [if_neg (by omega)] at e1 e2
      have b1 : ro * n + (ro + 1 + d) < n * n := mad_lt hro hco
      have b2 : (ro + 1 + d) * n + ro < n * n := mad_lt hco hro
      refine ⟨(a2.set (ro * n + (ro + 1 + d)) (A (ro + 1 + d) ro)).set ((ro + 1 + d) * n + ro) (A ro (ro + 1 + d)), ?_, by simp [k1], ?_⟩
      · simp only [rd, e1, e2, Option.bind_eq_bind, Option.bind_some]
        rw [wr_some (by omega), Option.bind_some, wr_some (by simp; omega)]
      · intro i j hi hj
        by_cases c1 : i = ro + 1 + d ∧ j = ro
        · obtain ⟨rfl, rfl⟩ := c1
          rw [List.getElem?_set_self (by simp; omega), if_pos (by omega)]
        · have n1 : (ro + 1 + d) * n + ro ≠ i * n + j := fun e => by
            obtain ⟨x, y⟩ := mad_inj e hro hj; omega
          rw [List.getElem?_set_ne n1]
          by_cases c2 : i = ro ∧ j = ro + 1 + d
          · obtain ⟨rfl, rfl⟩ := c2
            rw [List.getElem?_set_self (by omega), if_pos (by omega)]
          · have n2 : ro * n + (ro + 1 + d) ≠ i * n + j := fun e => by
              obtain ⟨x, y⟩ := mad_inj e hco hj; omega
            rw [List.getElem?_set_ne n2, k2 i j hi hj]
            congr 1
            by_cases hc : i < ro ∨ j < ro ∨ i = ro ∧ j < ro + 1 + d ∨ j = ro ∧ i < ro + 1 + d
            · rw [if_pos hc, if_pos (by omega)]
            · rw [if_neg hc, if_neg (by omega)])
    refine ⟨a2, g0, g1, ?_⟩
    intro i j hi hj
    rw [g2 i j hi hj]
    congr 1
    by_cases hc : i < ro + 1 ∨ j < ro + 1
    · rw [if_pos hc, if_pos (by omega)]
    · rw [if_neg hc, if_neg (by omega)])
  refine ⟨a', h0, h1, fun i j hi hj => ?_⟩
  rw [h2 i j hi hj, if_pos (Or.inl hi)]

/-- Concrete cases with padding: two fused 1x2 results with leading dimension 3 and `beta` one. -/
example : matMulFusedBC (K := Rat) 2 1 2 2 2 2 3 2 1 [1, 2] [1, 2, 3, 4, 5, 6, 7, 8] [1, 1, 1, 1, 9, 9] =
    some [23, 29, 35, 41, 9, 9] := by decide +kernel
example : transposeDense (K := Rat) 2 [1, 2, 3, 4] = some [1, 3, 2, 4] := by decide +kernel

/-- A concrete case: [[2,1],[1,1]] is accepted. -/
example : (inv2 (K := Rat) (1/1000000) (fun i j => if i = 0 ∧ j = 0 then 2 else 1)).isSome = true := by decide +kernel

end Edge.Linalg
