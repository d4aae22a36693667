import Verif.Dg.Tensor
import Verif.Linalg.Formats
/-!
Matrix kernels of `MmXsmmFused` (src/data/MmXsmmFused.hpp): what a generated sparse kernel computes, and when it computes the same as the dense
kernels of `linalg::Matrix`.
-/
namespace Edge.Fused
open Edge Edge.Linalg Edge.Dg

variable {K : Type} [Field K] [LinearOrder K]

/-- A kernel, as requested by `MmXsmmFused::add` (src/data/MmXsmmFused.hpp:100-139 and the variant for double precision): format, pointers and
indices of the sparse matrix, sizes, leading dimensions and beta; alpha is one in all calls. The values at generation are not part of the kernel: they are passed when
it is called. -/
structure Kern (K : Type) where
  csr : Bool
  ptr : List Nat
  idx : List Nat
  m : Nat
  n : Nat
  ldA : Nat
  ldB : Nat
  ldC : Nat
  beta : K

/-- Sum over the non-zeros `lo`, ..., `hi - 1` of a line. -/
def lineSum (lo hi : Nat) (term : Nat → Option K) (x : K) : Option K :=
  forN (hi - lo) (fun p s => do
    let v ← term (lo + p)
    some (s + v)) x

/-- Call of a kernel of `libxsmm_create_packed_spxgemm_csr` / `libxsmm_create_packed_spxgemm_csc` (calls: src/data/MmXsmmFused.hpp:134-137) for `r` fused runs.
LIBXSMM is not part of the code; this is the documented function of its packed sparse kernels: `C = beta * C + A * B`, where the first (CSR) or
second (CSC) operand is the array of non-zeros and the runs are the fastest dimension of the other arrays. -/
def Kern.run (kn : Kern K) (r : Nat) (a b c : List K) : Option (List K) :=
  loop3 kn.m kn.n r (fun i j q c => do
    let li := if kn.csr then i else j
    let lo ← rd kn.ptr li
    let hi ← rd kn.ptr (li + 1)
    let x ← rd c (at3 kn.ldC r i j q)
    let s ← lineSum lo hi (fun p => do
      let l ← rd kn.idx p
      let u ← rd a (if kn.csr then p else at3 kn.ldA r i l q)
      let v ← rd b (if kn.csr then at3 kn.ldB r l j q else p)
      some (u * v)) (if kn.beta = 0 then 0 else kn.beta * x)
    wr c (at3 kn.ldC r i j q) s) c

/-- `MmXsmmFused::add` (src/data/MmXsmmFused.hpp:113-143): kernel groups are added if required, the kernel is appended to its group. That LIBXSMM returns a kernel
is assumed. -/
def addKern (g : Nat) (k : Kern K) (gs : List (List (Kern K))) : List (List (Kern K)) :=
  (if g ≥ gs.length then gs ++ List.replicate (g + 1 - gs.length) [] else gs).modify g (· ++ [k])

/-- `m_mm.m_kernels[g][i]( a, b, c )`. -/
def callKern (gs : List (List (Kern K))) (g i r : Nat) (a b c : List K) : Option (List K) := do
  let ks ← rd gs g
  let k ← rd ks i
  k.run r a b c

/-! ### Lines -/

/-- Line `li` of a sparse matrix with pointers `ptr`, indices `idx` and values `vals` holds the numbers `coef l`, `l < k`: every sum over the stored entries is
the sum over all of them. -/
def Line (ptr idx : List Nat) (vals : List K) (li k : Nat) (coef : Nat → K) : Prop :=
  ∃ lo hi, ∃ I : Nat → Nat, ∃ X : Nat → K, ptr[li]? = some lo ∧ ptr[li + 1]? = some hi ∧
    (∀ p, p < hi - lo → idx[lo + p]? = some (I p) ∧ vals[lo + p]? = some (X p) ∧ I p < k) ∧
    ∀ g : Nat → K, ∑ p ∈ Finset.range (hi - lo), X p * g (I p) = ∑ l ∈ Finset.range k, coef l * g l

omit [LinearOrder K] in
theorem lineSum_eq {lo hi : Nat} {term : Nat → Option K} {x : K} (T : Nat → K) (h : ∀ p, p < hi - lo → term (lo + p) = some (T p)) :
    lineSum lo hi term x = some (x + ∑ p ∈ Finset.range (hi - lo), T p) := by
  rw [lineSum]
  generalize hi - lo = n at h
  induction n with
  | zero => simp
  | succ n ih =>
    rw [forN_succ, ih fun p hp => h p (by omega)]
    simp only [Option.bind_some, h n (by omega), Option.bind_eq_bind, Finset.sum_range_succ, add_assoc]

/-- Nested loop over part of an array. -/
theorem loop3_part {α : Type} {m n r ld : Nat} {c : List α} {C : Nat → Nat → Nat → α} (hld : n ≤ ld)
    (hC : ∀ q i j, q < r → i < m → j < n → c[at3 ld r i j q]? = some (C q i j))
    {body : Nat → Nat → Nat → List α → Option (List α)} (v : Nat → Nat → Nat → α)
    (hb : ∀ i j q (l : List α), i < m → j < n → q < r → at3 ld r i j q < l.length → l[at3 ld r i j q]? = some (C q i j) →
      body i j q l = some (l.set (at3 ld r i j q) (v q i j))) :
    ∃ c', loop3 m n r body c = some c' ∧ c'.length = c.length ∧
      (∀ q i j, q < r → i < m → j < n → c'[at3 ld r i j q]? = some (v q i j)) ∧
      ∀ p : Nat, (∀ q i j, q < r → i < m → j < n → p ≠ at3 ld r i j q) → c'[p]? = c[p]? := by
  have hnd : ((triples m n r).map (fun p => at3 ld r p.1 p.2.1 p.2.2)).Nodup := by
    refine nodup_map_of_inj (nodup_triples m n r) ?_
    intro x hx y hy e
    have hx' := mem_triples.1 hx
    have hy' := mem_triples.1 hy
    obtain ⟨h1, h2, h3⟩ := at3_inj e (by omega) (by omega) hx'.2.2 hy'.2.2
    exact Prod.ext h1 (Prod.ext h2 h3)
  obtain ⟨c', g0, g1, g2, g3⟩ := scatter (ts := triples m n r) (idx := fun p => at3 ld r p.1 p.2.1 p.2.2)
    (f := fun l p => body p.1 p.2.1 p.2.2 l) (c := c) (fun p _ => v p.2.2 p.1 p.2.1) hnd
    (fun t ht => by
      have := mem_triples.1 ht
      exact (List.getElem?_eq_some_iff.1 (hC t.2.2 t.1 t.2.1 this.2.2 this.1 this.2.1)).1)
    (fun t ht l' x hl hx hx' => by
      have := mem_triples.1 ht
      have hf := hC t.2.2 t.1 t.2.1 this.2.2 this.1 this.2.1
      rw [hf] at hx'
      cases hx'
      exact hb _ _ _ l' this.1 this.2.1 this.2.2 (List.getElem?_eq_some_iff.1 hx).1 hx)
  refine ⟨c', by rw [loop3, forN_triples, g0], g1, ?_, ?_⟩
  · intro q i j hq hi hj
    rw [g2 (i, j, q) (mem_triples.2 ⟨hi, hj, hq⟩), hC q i j hq hi hj]
    rfl
  · intro p hp
    refine g3 p fun hm => ?_
    obtain ⟨t, ht, e⟩ := List.mem_map.1 hm
    have ht' := mem_triples.1 ht
    exact hp _ _ _ ht'.2.2 ht'.1 ht'.2.1 e.symm

/-- CSC kernel: `C[q] = beta * C[q] + A[q] * B`. -/
theorem csc_spec {kn : Kern K} (hk : kn.csr = false) {r k : Nat} {a vals c : List K} (A C : Nat → Nat → Nat → K)
    (B : Nat → Nat → K) (hld : kn.n ≤ kn.ldC)
    (hA : ∀ q i l, q < r → i < kn.m → l < k → 0 < kn.n → a[at3 kn.ldA r i l q]? = some (A q i l))
    (hB : ∀ j, j < kn.n → Line kn.ptr kn.idx vals j k (fun l => B l j))
    (hC : ∀ q i j, q < r → i < kn.m → j < kn.n → c[at3 kn.ldC r i j q]? = some (C q i j)) :
    ∃ c', kn.run r a vals c = some c' ∧ c'.length = c.length ∧
      (∀ q i j, q < r → i < kn.m → j < kn.n → c'[at3 kn.ldC r i j q]? =
        some (kn.beta * C q i j + 1 * ((List.range k).map (fun l => A q i l * B l j)).sum)) ∧
      ∀ p : Nat, (∀ q i j, q < r → i < kn.m → j < kn.n → p ≠ at3 kn.ldC r i j q) → c'[p]? = c[p]? := by
  refine loop3_part hld hC _ ?_
  intro i j q l hi hj hq hl hx
  obtain ⟨lo, hi', I, X, p0, p1, p2, p3⟩ := hB j hj
  have e := lineSum_eq (lo := lo) (hi := hi') (x := if kn.beta = 0 then 0 else kn.beta * C q i j) (term := fun p => do
      let l ← rd kn.idx p
      let u ← rd a (at3 kn.ldA r i l q)
      let v ← rd vals p
      some (u * v)) (fun p => X p * A q i (I p)) (by
    intro p hp
    obtain ⟨h1, h2, h3⟩ := p2 p hp
    simp only [rd, h1, h2, hA q i (I p) hq hi h3 (by omega), Option.bind_eq_bind, Option.bind_some, mul_comm])
  simp only [hk, Bool.false_eq_true, if_false, Option.bind_eq_bind] at e ⊢
  simp only [rd] at e hx ⊢
  rw [p0, Option.bind_some, p1, Option.bind_some, hx, Option.bind_some, e, Option.bind_some, wr_some hl, p3 (A q i), one_mul, sum_range_list]
  congr 2
  · congr 1
    · split <;> simp_all
    · exact Finset.sum_congr rfl fun _ _ => mul_comm _ _

/-- CSR kernel: `C[q] = beta * C[q] + A * B[q]`. -/
theorem csr_spec {kn : Kern K} (hk : kn.csr = true) {r k : Nat} {vals b c : List K} (B C : Nat → Nat → Nat → K)
    (A : Nat → Nat → K) (hld : kn.n ≤ kn.ldC)
    (hA : ∀ i, i < kn.m → Line kn.ptr kn.idx vals i k (A i))
    (hB : ∀ q l j, q < r → l < k → j < kn.n → 0 < kn.m → b[at3 kn.ldB r l j q]? = some (B q l j))
    (hC : ∀ q i j, q < r → i < kn.m → j < kn.n → c[at3 kn.ldC r i j q]? = some (C q i j)) :
    ∃ c', kn.run r vals b c = some c' ∧ c'.length = c.length ∧
      (∀ q i j, q < r → i < kn.m → j < kn.n → c'[at3 kn.ldC r i j q]? =
        some (kn.beta * C q i j + 1 * ((List.range k).map (fun l => A i l * B q l j)).sum)) ∧
      ∀ p : Nat, (∀ q i j, q < r → i < kn.m → j < kn.n → p ≠ at3 kn.ldC r i j q) → c'[p]? = c[p]? := by
  refine loop3_part hld hC _ ?_
  intro i j q l hi hj hq hl hx
  obtain ⟨lo, hi', I, X, p0, p1, p2, p3⟩ := hA i hi
  have e := lineSum_eq (lo := lo) (hi := hi') (x := if kn.beta = 0 then 0 else kn.beta * C q i j) (term := fun p => do
      let l ← rd kn.idx p
      let u ← rd vals p
      let v ← rd b (at3 kn.ldB r l j q)
      some (u * v)) (fun p => X p * B q (I p) j) (by
    intro p hp
    obtain ⟨h1, h2, h3⟩ := p2 p hp
    simp only [rd, h1, h2, hB q (I p) j hq h3 hj (by omega), Option.bind_eq_bind, Option.bind_some])
  simp only [hk, if_true, Option.bind_eq_bind] at e ⊢
  simp only [rd] at e hx ⊢
  rw [p0, Option.bind_some, p1, Option.bind_some, hx, Option.bind_some, e, Option.bind_some, wr_some hl, p3 (fun l => B q l j), one_mul, sum_range_list]
  congr 2
  congr 1
  split <;> simp_all

omit [Field K] [LinearOrder K] in
/-- Two arrays which are changed in the same way are the same. -/
theorem part_ext {m n r ld : Nat} {c c' c'' : List K} {v : Nat → Nat → Nat → K}
    (h1 : ∀ q i j, q < r → i < m → j < n → c'[at3 ld r i j q]? = some (v q i j))
    (h2 : ∀ p : Nat, (∀ q i j, q < r → i < m → j < n → p ≠ at3 ld r i j q) → c'[p]? = c[p]?)
    (h1' : ∀ q i j, q < r → i < m → j < n → c''[at3 ld r i j q]? = some (v q i j))
    (h2' : ∀ p : Nat, (∀ q i j, q < r → i < m → j < n → p ≠ at3 ld r i j q) → c''[p]? = c[p]?) : c' = c'' := by
  apply List.ext_getElem?
  intro p
  by_cases h : ∃ q i j, q < r ∧ i < m ∧ j < n ∧ p = at3 ld r i j q
  · obtain ⟨q, i, j, hq, hi, hj, rfl⟩ := h
    rw [h1 q i j hq hi hj, h1' q i j hq hi hj]
  · have h' : ∀ q i j, q < r → i < m → j < n → p ≠ at3 ld r i j q := fun q i j hq hi hj e => h ⟨q, i, j, hq, hi, hj, e⟩
    rw [h2 p h', h2' p h']

/-! ### What a successful dense kernel has read -/

omit [Field K] [LinearOrder K] in
/-- In a successful loop every iteration was successful. -/
theorem forN_each {σ : Type _} {n : Nat} {body : Nat → σ → Option σ} {s t : σ} (P : σ → Prop) (h0 : P s)
    (hs : ∀ i u u', i < n → P u → body i u = some u' → P u') (h : forN n body s = some t) :
    P t ∧ ∀ i < n, ∃ u u', P u ∧ body i u = some u' := by
  induction n generalizing t with
  | zero => simp at h; exact ⟨h ▸ h0, fun i hi => absurd hi (by omega)⟩
  | succ n ih =>
    rw [forN_succ] at h
    cases hu : forN n body s with
    | none => rw [hu] at h; cases h
    | some u =>
      rw [hu, Option.bind_some] at h
      obtain ⟨p1, p2⟩ := ih (fun i a b hi => hs i a b (by omega)) hu
      refine ⟨hs n u t (by omega) p1 h, fun i hi => ?_⟩
      by_cases e : i = n
      · subst e; exact ⟨u, t, p1, h⟩
      · exact p2 i (by omega)

omit [Field K] [LinearOrder K] in
theorem loop3_each {σ : Type} {m n r : Nat} {body : Nat → Nat → Nat → σ → Option σ} {s t : σ} (P : σ → Prop) (h0 : P s)
    (hs : ∀ i j q u u', P u → body i j q u = some u' → P u') (h : loop3 m n r body s = some t) :
    P t ∧ ∀ i < m, ∀ j < n, ∀ q < r, ∃ u u', P u ∧ body i j q u = some u' := by
  have hq : ∀ i j u u', P u → forN r (fun k s => body i j k s) u = some u' → P u' := fun i j u u' hp he =>
    (forN_each P hp (fun q a b _ => hs i j q a b) he).1
  have hj : ∀ i u u', P u → forN n (fun j s => forN r (fun k s => body i j k s) s) u = some u' → P u' := fun i u u' hp he =>
    (forN_each P hp (fun j a b _ => hq i j a b) he).1
  obtain ⟨p1, p2⟩ := forN_each P h0 (fun i a b _ => hj i a b) h
  refine ⟨p1, fun i hi j hj' q hq' => ?_⟩
  obtain ⟨u, u', hu, he⟩ := p2 i hi
  obtain ⟨v, v', hv, he'⟩ := (forN_each P hu (fun j a b _ => hq i j a b) he).2 j hj'
  exact (forN_each P hv (fun q a b _ => hs i j q a b) he').2 q hq'

omit [Field K] [LinearOrder K] in
theorem wr_len {α : Type} {l l' : List α} {i : Nat} {x : α} (h : wr l i x = some l') : l'.length = l.length := by
  unfold wr at h
  split at h
  · cases h; simp
  · cases h

omit [Field K] [LinearOrder K] in
theorem rd_lt {α : Type} {l : List α} {i : Nat} {x : α} (h : rd l i = some x) : i < l.length := (List.getElem?_eq_some_iff.1 h).1

theorem init_reads {r m n ldC : Nat} {beta : K} {c c' : List K} (h : fusedInit r m n ldC beta c = some c') :
    c'.length = c.length ∧ ∀ i < m, ∀ j < n, ∀ q < r, at3 ldC r i j q < c.length := by
  have h' : loop3 m n r (fun i j q (c : List K) => do
    let x ← rd c (i * ldC * r + j * r + q)
    wr c (i * ldC * r + j * r + q) (if beta ≠ 0 then x * beta else 0)) c = some c' := h
  obtain ⟨p1, p2⟩ := loop3_each (fun u => u.length = c.length) rfl (by
    intro i j q u u' hu he
    simp only [Option.bind_eq_bind, Option.bind_eq_some_iff] at he
    obtain ⟨x, -, he⟩ := he
    exact (wr_len he).trans hu) h'
  refine ⟨p1, fun i hi j hj q hq => ?_⟩
  obtain ⟨u, u', hu, he⟩ := p2 i hi j hj q hq
  simp only [Option.bind_eq_bind, Option.bind_eq_some_iff] at he
  obtain ⟨x, he, -⟩ := he
  rw [← hu]
  exact rd_lt he

theorem ac_reads {r m n k ldA ldB ldC : Nat} {alpha beta : K} {a b c c' : List K}
    (h : matMulFusedAC r m n k ldA ldB ldC alpha beta a b c = some c') :
    c'.length = c.length ∧ (∀ i < m, ∀ j < n, ∀ q < r, at3 ldC r i j q < c.length) ∧
      ∀ i < m, ∀ l < k, ∀ q < r, 0 < n → at3 ldA r i l q < a.length := by
  simp only [matMulFusedAC, Option.bind_eq_bind] at h
  obtain ⟨c0, h0, h1⟩ := Option.bind_eq_some_iff.1 h
  obtain ⟨i1, i2⟩ := init_reads h0
  have step : ∀ l i j q (u u' : List K), u.length = c.length → ((rd u (i * ldC * r + j * r + q)).bind fun x => (rd a (i * ldA * r + l * r + q)).bind fun w =>
      (rd b (l * ldB + j)).bind fun v => wr u (i * ldC * r + j * r + q) (x + alpha * w * v)) = some u' → u'.length = c.length := by
    intro l i j q u u' hu he
    simp only [Option.bind_eq_some_iff] at he
    obtain ⟨x, -, y, -, z, -, he⟩ := he
    exact (wr_len he).trans hu
  obtain ⟨p1, p2⟩ := forN_each (fun u : List K => u.length = c.length) i1 (fun l u u' _ hu he => (loop3_each (σ := List K) _ hu (fun i j q => step l i j q) he).1) h1
  refine ⟨p1, i2, fun i hi l hl q hq hn => ?_⟩
  obtain ⟨u, u', hu, he⟩ := p2 l hl
  obtain ⟨v, v', hv, he'⟩ := (loop3_each (σ := List K) _ hu (fun i j q => step l i j q) he).2 i hi 0 hn q hq
  simp only [Option.bind_eq_some_iff] at he'
  obtain ⟨x, -, y, he', -⟩ := he'
  exact rd_lt he'

theorem bc_reads {r m n k ldA ldB ldC : Nat} {alpha beta : K} {a b c c' : List K}
    (h : matMulFusedBC r m n k ldA ldB ldC alpha beta a b c = some c') :
    c'.length = c.length ∧ (∀ i < m, ∀ j < n, ∀ q < r, at3 ldC r i j q < c.length) ∧
      ∀ l < k, ∀ j < n, ∀ q < r, 0 < m → at3 ldB r l j q < b.length := by
  simp only [matMulFusedBC, Option.bind_eq_bind] at h
  obtain ⟨c0, h0, h1⟩ := Option.bind_eq_some_iff.1 h
  obtain ⟨i1, i2⟩ := init_reads h0
  have step : ∀ l i j q (u u' : List K), u.length = c.length → ((rd u (i * ldC * r + j * r + q)).bind fun x => (rd a (i * ldA + l)).bind fun w =>
      (rd b (l * ldB * r + j * r + q)).bind fun v => wr u (i * ldC * r + j * r + q) (x + alpha * w * v)) = some u' → u'.length = c.length := by
    intro l i j q u u' hu he
    simp only [Option.bind_eq_some_iff] at he
    obtain ⟨x, -, y, -, z, -, he⟩ := he
    exact (wr_len he).trans hu
  obtain ⟨p1, p2⟩ := forN_each (fun u : List K => u.length = c.length) i1 (fun l u u' _ hu he => (loop3_each (σ := List K) _ hu (fun i j q => step l i j q) he).1) h1
  refine ⟨p1, i2, fun l hl j hj q hq hm => ?_⟩
  obtain ⟨u, u', hu, he⟩ := p2 l hl
  obtain ⟨v, v', hv, he'⟩ := (loop3_each (σ := List K) _ hu (fun i j q => step l i j q) he).2 0 hm j hj q hq
  simp only [Option.bind_eq_some_iff] at he'
  obtain ⟨x, -, y, -, z, he', -⟩ := he'
  exact rd_lt he'

/-- The number at a position of an array. -/
def val (l : List K) (p : Nat) : K := (l[p]?).getD 0

omit [LinearOrder K] in
theorem val_some {l : List K} {p : Nat} (h : p < l.length) : l[p]? = some (val l p) := by
  simp [val, List.getElem?_eq_getElem h]

/-- A CSC kernel does what the dense kernel does. -/
theorem csc_eq {kn : Kern K} (hk : kn.csr = false) {r m n k ldB : Nat} {beta : K} {a b vals c c' : List K} {B : Nat → Nat → K}
    (hm : kn.m = m) (hn : kn.n = n) (hbe : kn.beta = beta) (hld : n ≤ kn.ldC) (hb : Mat k n ldB b B) (hB : ∀ j, j < n → Line kn.ptr kn.idx vals j k (fun l => B l j))
    (h : matMulFusedAC r m n k kn.ldA ldB kn.ldC 1 beta a b c = some c') : kn.run r a vals c = some c' := by
  obtain ⟨-, r1, r2⟩ := ac_reads h
  have hA : ∀ q i l, q < r → i < m → l < k → a[at3 kn.ldA r i l q]? = some (val a (at3 kn.ldA r i l q)) ∨ n = 0 := by
    intro q i l hq hi hl
    by_cases h0 : n = 0
    · exact Or.inr h0
    · exact Or.inl (val_some (r2 i hi l hl q hq (by omega)))
  subst hm hn hbe
  obtain ⟨d, d0, -, d2, d3⟩ := csc_spec hk (r := r) (k := k) (a := a) (vals := vals) (c := c) (fun q i l => val a (at3 kn.ldA r i l q))
    (fun q i j => val c (at3 kn.ldC r i j q)) B hld (fun q i l hq hi hl h0 => (hA q i l hq hi hl).resolve_right (by omega)) hB
    (fun q i j hq hi hj => val_some (r1 i hi j hj q hq))
  rw [d0]
  by_cases h0 : kn.n = 0
  · have e : d = c' := by
      have : c' = c := by
        simp only [matMulFusedAC, fusedInit, h0, forN_zero, Option.bind_eq_bind] at h
        have e1 : ∀ n (c : List K), forN n (fun _ c => some c) c = some c := by
          intro n c; induction n with
          | zero => rfl
          | succ n ih => rw [forN_succ, ih]; rfl
        simp only [e1, Option.bind_some] at h
        exact (Option.some.inj h).symm
      rw [this]
      apply List.ext_getElem?
      intro p
      exact d3 p fun q i j _ _ hj => absurd hj (by omega)
    rw [e]
  obtain ⟨d', e0, -, e2, e3⟩ := C54_fusedAC (r := r) (m := kn.m) (n := kn.n) (k := k) (ldA := kn.ldA) (ldB := ldB) (ldC := kn.ldC) (alpha := 1) (beta := kn.beta)
    (a := a) (b := b) (c := c) (fun q i l => val a (at3 kn.ldA r i l q)) (fun q i j => val c (at3 kn.ldC r i j q)) B hld
    (fun q i l hq hi hl => (hA q i l hq hi hl).resolve_right h0) hb (fun q i j hq hi hj => val_some (r1 i hi j hj q hq))
  rw [h] at e0
  cases e0
  rw [part_ext d2 d3 e2 e3]

/-- A CSR kernel does what the dense kernel does. -/
theorem csr_eq {kn : Kern K} (hk : kn.csr = true) {r m n k ldA : Nat} {beta : K} {a b vals c c' : List K} {A : Nat → Nat → K}
    (hm : kn.m = m) (hn : kn.n = n) (hbe : kn.beta = beta) (hld : n ≤ kn.ldC) (ha : Mat m k ldA a A) (hA : ∀ i, i < m → Line kn.ptr kn.idx vals i k (A i))
    (h0 : 0 < m) (h : matMulFusedBC r m n k ldA kn.ldB kn.ldC 1 beta a b c = some c') : kn.run r vals b c = some c' := by
  obtain ⟨-, r1, r2⟩ := bc_reads h
  subst hm hn hbe
  obtain ⟨d, d0, -, d2, d3⟩ := csr_spec hk (r := r) (k := k) (vals := vals) (b := b) (c := c) (fun q l j => val b (at3 kn.ldB r l j q))
    (fun q i j => val c (at3 kn.ldC r i j q)) A hld hA (fun q l j hq hl hj _ => val_some (r2 l hl j hj q hq h0))
    (fun q i j hq hi hj => val_some (r1 i hi j hj q hq))
  obtain ⟨d', e0, -, e2, e3⟩ := C54_fusedBC (r := r) (m := kn.m) (n := kn.n) (k := k) (ldA := ldA) (ldB := kn.ldB) (ldC := kn.ldC) (alpha := 1) (beta := kn.beta)
    (a := a) (b := b) (c := c) (fun q l j => val b (at3 kn.ldB r l j q)) (fun q i j => val c (at3 kn.ldC r i j q)) A hld ha
    (fun q l j hq hl hj => val_some (r2 l hl j hj q hq h0)) (fun q i j hq hi hj => val_some (r1 i hi j hj q hq))
  rw [h] at e0
  cases e0
  rw [d0, part_ext d2 d3 e2 e3]

end Edge.Fused
