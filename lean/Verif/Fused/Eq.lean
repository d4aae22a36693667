import Verif.Fused.Setup2
import Verif.Fused.Pats
import Verif.Dg.CkProps
/-!
The fused kernels compute the same as the vanilla kernels.
-/
namespace Edge.Fused
open Edge Edge.Linalg Edge.Dg

variable {K : Type} [Field K] [LinearOrder K]

/-! ### Loops and kernels -/

omit [Field K] [LinearOrder K] in
/-- Two loops which do the same. -/
theorem forN_rel {σ τ : Type _} {n : Nat} {b1 : Nat → σ → Option σ} {b2 : Nat → τ → Option τ} {s s' : σ} {t : τ} (R : Nat → σ → τ → Prop) (h0 : R 0 s t)
    (hs : ∀ i u u' v, i < n → R i u v → b1 i u = some u' → ∃ v', b2 i v = some v' ∧ R (i + 1) u' v') (h : forN n b1 s = some s') :
    ∃ t', forN n b2 t = some t' ∧ R n s' t' := by
  induction n generalizing s' with
  | zero => simp at h; exact ⟨t, rfl, h ▸ h0⟩
  | succ n ih =>
    rw [forN_succ] at h
    obtain ⟨u, hu, hu'⟩ := Option.bind_eq_some_iff.1 h
    obtain ⟨v, hv, hR⟩ := ih (fun i a a' b hi => hs i a a' b (by omega)) hu
    obtain ⟨v', e1, e2⟩ := hs n u s' v (by omega) hR hu'
    exact ⟨v', by rw [forN_succ, hv]; exact e1, e2⟩

omit [Field K] [LinearOrder K] in
theorem forN_same {σ : Type _} {n : Nat} {b1 b2 : Nat → σ → Option σ} {s s' : σ} (hs : ∀ i u u', i < n → b1 i u = some u' → b2 i u = some u') (h : forN n b1 s = some s') :
    forN n b2 s = some s' := by
  obtain ⟨t, h1, h2⟩ := forN_rel (b2 := b2) (fun _ u v => u = v) rfl (fun i u u' v hi e hb => ⟨u', e ▸ hs i u u' hi hb, rfl⟩) h
  rw [h1, h2]

omit [Field K] [LinearOrder K] in
theorem at3_le {a b r i j q : Nat} (h : a ≤ b) : at3 a r i j q ≤ at3 b r i j q := by
  unfold at3
  have := Nat.mul_le_mul_right r (Nat.mul_le_mul_left i h)
  omega

/-- What a successful dense kernel with fused runs in the first matrix has computed. -/
theorem ac_char {r m n k ldA ldB ldC : Nat} {beta : K} {a b c c' : List K} {B : Nat → Nat → K} (hld : n ≤ ldC) (hb : Mat k n ldB b B)
    (h : matMulFusedAC r m n k ldA ldB ldC 1 beta a b c = some c') : c'.length = c.length ∧
      (∀ q i j, q < r → i < m → j < n → c'[at3 ldC r i j q]? = some (beta * val c (at3 ldC r i j q) + ∑ l ∈ Finset.range k, val a (at3 ldA r i l q) * B l j)) ∧
      ∀ p : Nat, (∀ q i j, q < r → i < m → j < n → p ≠ at3 ldC r i j q) → c'[p]? = c[p]? := by
  obtain ⟨r0, r1, r2⟩ := ac_reads h
  by_cases h0 : n = 0
  · have : c' = c := by
      simp only [matMulFusedAC, fusedInit, h0, forN_zero, Option.bind_eq_bind] at h
      have e1 : ∀ n (c : List K), forN n (fun _ c => some c) c = some c := by
        intro n c; induction n with
        | zero => rfl
        | succ n ih => rw [forN_succ, ih]; rfl
      simp only [e1, Option.bind_some] at h
      exact (Option.some.inj h).symm
    subst this
    exact ⟨rfl, fun q i j _ _ hj => absurd hj (by omega), fun _ _ => rfl⟩
  obtain ⟨d', e0, -, e2, e3⟩ := C54_fusedAC (r := r) (m := m) (n := n) (k := k) (ldA := ldA) (ldB := ldB) (ldC := ldC) (alpha := 1) (beta := beta)
    (a := a) (b := b) (c := c) (fun q i l => val a (at3 ldA r i l q)) (fun q i j => val c (at3 ldC r i j q)) B hld
    (fun q i l hq hi hl => val_some (r2 i hi l hl q hq (by omega))) hb (fun q i j hq hi hj => val_some (r1 i hi j hj q hq))
  rw [h] at e0
  cases e0
  refine ⟨r0, fun q i j hq hi hj => ?_, e3⟩
  have := e2 q i j hq hi hj
  rw [one_mul, sum_range_list] at this
  exact this

/-- What a successful dense kernel with fused runs in the second matrix has computed. -/
theorem bc_char {r m n k ldA ldB ldC : Nat} {beta : K} {a b c c' : List K} {A : Nat → Nat → K} (hld : n ≤ ldC) (ha : Mat m k ldA a A)
    (h : matMulFusedBC r m n k ldA ldB ldC 1 beta a b c = some c') : c'.length = c.length ∧
      (∀ q i j, q < r → i < m → j < n → c'[at3 ldC r i j q]? = some (beta * val c (at3 ldC r i j q) + ∑ l ∈ Finset.range k, A i l * val b (at3 ldB r l j q))) ∧
      ∀ p : Nat, (∀ q i j, q < r → i < m → j < n → p ≠ at3 ldC r i j q) → c'[p]? = c[p]? := by
  obtain ⟨r0, r1, r2⟩ := bc_reads h
  by_cases h0 : m = 0
  · have : c' = c := by
      simp only [matMulFusedBC, fusedInit, h0, forN_zero, Option.bind_eq_bind] at h
      have e1 : ∀ n (c : List K), forN n (fun _ c => some c) c = some c := by
        intro n c; induction n with
        | zero => rfl
        | succ n ih => rw [forN_succ, ih]; rfl
      simp only [e1, Option.bind_some] at h
      exact (Option.some.inj h).symm
    subst this
    exact ⟨rfl, fun q i j _ hi _ => absurd hi (by omega), fun _ _ => rfl⟩
  obtain ⟨d', e0, -, e2, e3⟩ := C54_fusedBC (r := r) (m := m) (n := n) (k := k) (ldA := ldA) (ldB := ldB) (ldC := ldC) (alpha := 1) (beta := beta)
    (a := a) (b := b) (c := c) (fun q l j => val b (at3 ldB r l j q)) (fun q i j => val c (at3 ldC r i j q)) A hld ha
    (fun q l j hq hl hj => val_some (r2 l hl j hj q hq (by omega))) (fun q i j hq hi hj => val_some (r1 i hi j hj q hq))
  rw [h] at e0
  cases e0
  refine ⟨r0, fun q i j hq hi hj => ?_, e3⟩
  have := e2 q i j hq hi hj
  rw [one_mul, sum_range_list] at this
  exact this

/-- CSC kernel in terms of the values of the arrays. -/
theorem csc_run {kn : Kern K} (hk : kn.csr = false) {r m n k ldA ldC : Nat} {beta : K} {a vals c : List K} {B : Nat → Nat → K} (hm : kn.m = m) (hn : kn.n = n)
    (hA : kn.ldA = ldA) (hC : kn.ldC = ldC) (hbe : kn.beta = beta) (hld : n ≤ ldC) (hB : ∀ j, j < n → Line kn.ptr kn.idx vals j k (fun l => B l j))
    (ha : ∀ i < m, ∀ l < k, ∀ q < r, at3 ldA r i l q < a.length) (hc : ∀ i < m, ∀ j < n, ∀ q < r, at3 ldC r i j q < c.length) :
    ∃ c', kn.run r a vals c = some c' ∧ c'.length = c.length ∧
      (∀ q i j, q < r → i < m → j < n → c'[at3 ldC r i j q]? = some (beta * val c (at3 ldC r i j q) + ∑ l ∈ Finset.range k, val a (at3 ldA r i l q) * B l j)) ∧
      ∀ p : Nat, (∀ q i j, q < r → i < m → j < n → p ≠ at3 ldC r i j q) → c'[p]? = c[p]? := by
  subst hm hn hA hC hbe
  obtain ⟨d, d0, d1, d2, d3⟩ := csc_spec hk (r := r) (k := k) (a := a) (vals := vals) (c := c) (fun q i l => val a (at3 kn.ldA r i l q))
    (fun q i j => val c (at3 kn.ldC r i j q)) B hld (fun q i l hq hi hl _ => val_some (ha i hi l hl q hq)) hB
    (fun q i j hq hi hj => val_some (hc i hi j hj q hq))
  refine ⟨d, d0, d1, fun q i j hq hi hj => ?_, d3⟩
  rw [d2 q i j hq hi hj, one_mul, sum_range_list]

/-- CSR kernel in terms of the values of the arrays. -/
theorem csr_run {kn : Kern K} (hk : kn.csr = true) {r m n k ldB ldC : Nat} {beta : K} {b vals c : List K} {A : Nat → Nat → K} (hm : kn.m = m) (hn : kn.n = n)
    (hB : kn.ldB = ldB) (hC : kn.ldC = ldC) (hbe : kn.beta = beta) (hld : n ≤ ldC) (hA : ∀ i, i < m → Line kn.ptr kn.idx vals i k (A i))
    (hb : ∀ l < k, ∀ j < n, ∀ q < r, at3 ldB r l j q < b.length) (hc : ∀ i < m, ∀ j < n, ∀ q < r, at3 ldC r i j q < c.length) :
    ∃ c', kn.run r vals b c = some c' ∧ c'.length = c.length ∧
      (∀ q i j, q < r → i < m → j < n → c'[at3 ldC r i j q]? = some (beta * val c (at3 ldC r i j q) + ∑ l ∈ Finset.range k, A i l * val b (at3 ldB r l j q))) ∧
      ∀ p : Nat, (∀ q i j, q < r → i < m → j < n → p ≠ at3 ldC r i j q) → c'[p]? = c[p]? := by
  subst hm hn hB hC hbe
  obtain ⟨d, d0, d1, d2, d3⟩ := csr_spec hk (r := r) (k := k) (vals := vals) (b := b) (c := c) (fun q l j => val b (at3 kn.ldB r l j q))
    (fun q i j => val c (at3 kn.ldC r i j q)) A hld hA (fun q l j hq hl hj _ => val_some (hb l hl j hj q hq))
    (fun q i j hq hi hj => val_some (hc i hi j hj q hq))
  refine ⟨d, d0, d1, fun q i j hq hi hj => ?_, d3⟩
  rw [d2 q i j hq hi hj, one_mul, sum_range_list]

/-- A CSR kernel gives the result of the dense kernel if the sums are the same. -/
theorem csr_same {kn : Kern K} (hk : kn.csr = true) {r m n k k' ldA ldB ldB' ldC : Nat} {beta : K} {a b b' vals c c' : List K} {A A' : Nat → Nat → K} (hm : kn.m = m)
    (hn : kn.n = n) (hB : kn.ldB = ldB') (hC : kn.ldC = ldC) (hbe : kn.beta = beta) (hld : n ≤ ldC) (ha : Mat m k ldA a A)
    (hA : ∀ i, i < m → Line kn.ptr kn.idx vals i k' (A' i)) (hb : ∀ l < k', ∀ j < n, ∀ q < r, at3 ldB' r l j q < b'.length)
    (hsum : ∀ q i j, q < r → i < m → j < n → ∑ l ∈ Finset.range k', A' i l * val b' (at3 ldB' r l j q) = ∑ l ∈ Finset.range k, A i l * val b (at3 ldB r l j q))
    (h : matMulFusedBC r m n k ldA ldB ldC 1 beta a b c = some c') : kn.run r vals b' c = some c' := by
  obtain ⟨-, e2, e3⟩ := bc_char hld ha h
  obtain ⟨-, r1, -⟩ := bc_reads h
  obtain ⟨d, d0, -, d2, d3⟩ := csr_run hk hm hn hB hC hbe hld hA hb r1
  rw [d0, part_ext (v := fun q i j => beta * val c (at3 ldC r i j q) + ∑ l ∈ Finset.range k, A i l * val b (at3 ldB r l j q))
    (fun q i j hq hi hj => by rw [d2 q i j hq hi hj, hsum q i j hq hi hj]) d3 e2 e3]

/-- A CSC kernel gives the result of the dense kernel if the sums are the same. -/
theorem csc_same {kn : Kern K} (hk : kn.csr = false) {r m n k k' ldA ldA' ldB ldC : Nat} {beta : K} {a a' b vals c c' : List K} {B B' : Nat → Nat → K} (hm : kn.m = m)
    (hn : kn.n = n) (hA : kn.ldA = ldA') (hC : kn.ldC = ldC) (hbe : kn.beta = beta) (hld : n ≤ ldC) (hb : Mat k n ldB b B)
    (hB : ∀ j, j < n → Line kn.ptr kn.idx vals j k' (fun l => B' l j)) (ha : ∀ i < m, ∀ l < k', ∀ q < r, at3 ldA' r i l q < a'.length)
    (hsum : ∀ q i j, q < r → i < m → j < n → ∑ l ∈ Finset.range k', val a' (at3 ldA' r i l q) * B' l j = ∑ l ∈ Finset.range k, val a (at3 ldA r i l q) * B l j)
    (h : matMulFusedAC r m n k ldA ldB ldC 1 beta a b c = some c') : kn.run r a' vals c = some c' := by
  obtain ⟨-, e2, e3⟩ := ac_char hld hb h
  obtain ⟨-, r1, -⟩ := ac_reads h
  obtain ⟨d, d0, -, d2, d3⟩ := csc_run hk hm hn hA hC hbe hld hB ha r1
  rw [d0, part_ext (v := fun q i j => beta * val c (at3 ldC r i j q) + ∑ l ∈ Finset.range k, val a (at3 ldA r i l q) * B l j)
    (fun q i j hq hi hj => by rw [d2 q i j hq hi hj, hsum q i j hq hi hj]) d3 e2 e3]

omit [LinearOrder K] in
theorem val_of {l : List K} {p : Nat} {x : K} (h : l[p]? = some x) : val l p = x := by simp [val, h]

omit [LinearOrder K] in
theorem val_drop (l : List K) (o p : Nat) : val (l.drop o) p = val l (o + p) := by simp [val, List.getElem?_drop]

omit [Field K] [LinearOrder K] in
theorem Mat.le {α : Type} {rows cols : Nat} {l : List α} {f : Nat → Nat → α} (h : Mat rows cols cols l f) : rows * cols ≤ l.length := by
  rcases Nat.eq_zero_or_pos rows with rfl | hr
  · simp
  rcases Nat.eq_zero_or_pos cols with rfl | hc
  · simp
  have := (List.getElem?_eq_some_iff.1 (h (rows - 1) (cols - 1) (by omega) (by omega))).1
  have e : rows * cols = (rows - 1) * cols + cols := by
    obtain ⟨n, rfl⟩ := Nat.exists_eq_succ_of_ne_zero hr.ne'
    simp [Nat.succ_mul]
  omega

/-- The matrices of `ls` are the sparse versions of the matrices of `ld` for the positions `pos`. -/
def SparseAll (pos : List (Nat × Nat)) (n rows cols : Nat) (ld ls : List (List K)) : Prop :=
  ∀ i < n, ∃ d s, rd ld i = some d ∧ rd ls i = some s ∧ SparseOf pos rows cols d s

/-! ### Time prediction -/

/-- Setting of the time prediction. -/
structure TpSet (c : Cfg) (ev : Env K) (pt : Pats) (st stT starE starA srcA sE sA sS : List (List K)) (G : Nat → Nat → Nat → K) (tp : Prep K) : Prop where
  dims : Dims c.nDis c.nQtsE c.nQtsM
  shr : Shrink c
  pat : PatOk K c.nDis c.nQtsE c.nQtsM pt
  dense : Mats c.nDis c.nMds c.nMds c.nMds st G
  clean : ∀ di < c.nDis, Clean ev c.nMds c.nMds (G di)
  neg : Mats c.nDis c.nMds c.nMds c.nMds stT (fun di i j => -(G di i j))
  tp : TpOk c ev pt st tp
  star : SparseAll (starEPos c.nDis) c.nDis c.nQtsE c.nQtsE starE sE
  starA : 0 < c.nRms → SparseAll (starAPos c.nDis) c.nDis c.nQtsM c.nDis starA sA
  src : SparseAll (srcPos c.nDis) c.nRms c.nQtsM c.nQtsM srcA sS

theorem Dims.qts {d qE qM : Nat} (h : Dims d qE qM) : qM + d = qE ∧ 0 < qM ∧ 0 < d := by
  rcases h with ⟨rfl, rfl, rfl⟩ | ⟨rfl, rfl, rfl⟩ <;> omega

theorem Shrink.le {c : Cfg} (h : Shrink c) : ∀ k, k < c.oTi → c.ck k ≤ c.nMds := by
  intro k
  induction k with
  | zero => intro _; rw [h.ck0]
  | succ k ih => intro hk; exact (h.lt k hk).le.trans (ih (by omega))

variable [IsStrictOrderedRing K]

theorem ckDims_eq {c : Cfg} {ev : Env K} {pt : Pats} {st stT starE starA srcA sE sA sS : List (List K)} {G : Nat → Nat → Nat → K} {tp : Prep K}
    (hS : TpSet c ev pt st stT starE starA srcA sE sA sS G tp) {re : Nat} (h1 : 1 ≤ re) (h2 : re < c.oTi) (hre : 0 < c.nRms → re = 1)
    {prev sc scF dE ls : List K} (hl : scF.length = sc.length) {sc' dE' ls' : List K}
    (h : ckDims c stT starE starA re prev (sc, dE, ls) = some (sc', dE', ls')) :
    ∃ scF', ckDimsF c tp sE sA re prev (scF, dE, ls) = some (scF', dE', ls') ∧ scF'.length = sc'.length := by
  obtain ⟨q1, q2, q3⟩ := hS.dims.qts
  have hck : c.ck re ≤ c.nMds := hS.shr.le re h2
  refine Exists.elim (forN_rel (s := (sc, dE, ls)) (t := (scF, dE, ls)) (b2 := fun di (s : List K × List K × List K) => do
      let st ← rd tp.mats ((re - 1) * c.nDis + di)
      let scratch ← callKern tp.gs 0 ((re - 1) * c.nDis + di) c.nCrs prev st s.1
      let sE ← rd sE di
      let dE ← callKern tp.gs 1 (re - 1) c.nCrs sE scratch s.2.1
      let ls ← if c.nRms > 0 then do
          let sA ← rd sA di
          callKern tp.gs 2 0 c.nCrs sA scratch s.2.2
        else some s.2.2
      some (scratch, dE, ls))
    (fun _ (u v : List K × List K × List K) => v.1.length = u.1.length ∧ v.2.1 = u.2.1 ∧ v.2.2 = u.2.2) ⟨hl, rfl, rfl⟩ ?hs h) ?fin
  case fin =>
    rintro ⟨a, b, e⟩ ⟨g1, g2, g3, g4⟩
    simp only at g2 g3 g4
    subst g3 g4
    exact ⟨a, g1, g2⟩
  rintro di ⟨u1, u2, u3⟩ ⟨w1, w2, w3⟩ ⟨v1, v2, v3⟩ hdi ⟨hl, e1, e2⟩ hb
  simp only at hl e1 e2
  subst e1 e2
  simp only [Option.bind_eq_bind, Option.bind_eq_some_iff] at hb
  obtain ⟨sT, b1, x1, b2, dS, b3, x2, b4, b5⟩ := hb
  obtain ⟨x3, b9, b6⟩ : ∃ x3, (if c.nRms > 0 then (rd starA di).bind fun sA => matMulFusedBC c.nCrs c.nQtsM (c.ck 1) c.nDis c.nDis c.nMds c.nMds 1 1 sA
      (x1.drop (at3 c.nMds c.nCrs c.nQtsM 0 0)) v3 else some v3) = some x3 ∧ (x1, x2, x3) = (w1, w2, w3) := by
    split at b5
    · simp only [Option.bind_eq_some_iff] at b5
      obtain ⟨dA, c1, x3, c2, c3⟩ := b5
      cases c3
      rename_i hr
      exact ⟨_, by rw [if_pos hr, c1]; exact c2, rfl⟩
    · simp only [Option.bind_some, Option.some.injEq] at b5
      rename_i hr
      exact ⟨_, by rw [if_neg hr], b5⟩
  simp only [Prod.mk.injEq] at b6
  obtain ⟨rfl, rfl, rfl⟩ := b6
  obtain ⟨ad, m, vals, t1, t2, t3, t4, t5⟩ := hS.tp.csc (re - 1) (by omega) di hdi
  rw [show re - 1 + 1 = re by omega] at t2 t5
  obtain ⟨ad', t1', hG⟩ := hS.dense di hdi
  rw [t1'] at t1
  cases t1
  obtain ⟨sT', t6, hN⟩ := hS.neg di hdi
  rw [t6] at b1
  cases b1
  obtain ⟨dS', sS', t7, t8, t9⟩ := hS.star di hdi
  rw [t7] at b3
  cases b3
  -- stiffness
  have hN' : Mat (c.ck (re - 1)) (c.ck re) c.nMds sT (fun i j => -(G di i j)) := fun i j hi hj =>
    hN i j (lt_of_lt_of_le hi (hS.shr.le _ (by omega))) (lt_of_lt_of_le hj hck)
  obtain ⟨y0, y1, -⟩ := ac_char hck hN' b2
  obtain ⟨-, z1, z2⟩ := ac_reads b2
  obtain ⟨xF, f0, f1, f2, -⟩ := csc_run (kn := ⟨false, m.ptr, m.idx, c.nQtsE, c.ck re, c.nMds, 0, c.ck re, 0⟩) rfl (r := c.nCrs) (k := c.ck (re - 1)) (a := prev)
    (vals := vals) (c := v1) (B := fun i j => -1 * G di i j) rfl rfl rfl rfl rfl le_rfl
    (fun j hj => csc_line hG (Mat.le hG) (hS.clean di hdi) (by simpa using hS.shr.le _ (by omega)) (by simpa using hck) t2 t4 (by simpa using hj))
    (fun i hi l hl' q hq => z2 i hi l hl' q hq (by have := hS.tp.pos (re - 1) (by omega); rwa [show re - 1 + 1 = re by omega] at this))
    (fun i hi j hj q hq => by rw [hl]; exact lt_of_le_of_lt (at3_le hck) (z1 i hi j hj q hq))
  have hval : ∀ i < c.nQtsE, ∀ j < c.ck re, ∀ q < c.nCrs, val xF (at3 (c.ck re) c.nCrs i j q) = val x1 (at3 c.nMds c.nCrs i j q) := by
    intro i hi j hj q hq
    rw [val_of (f2 q i j hq hi hj), val_of (y1 q i j hq hi hj)]
    simp
  have hlenF : ∀ i < c.nQtsE, ∀ j < c.ck re, ∀ q < c.nCrs, at3 (c.ck re) c.nCrs i j q < xF.length := fun i hi j hj q hq =>
    (List.getElem?_eq_some_iff.1 (f2 q i j hq hi hj)).1
  -- star matrix
  have k1 := csr_same (kn := ⟨true, pt.starE.ptr, pt.starE.idx, c.nQtsE, c.ck re, 0, c.ck re, c.nMds, 1⟩) rfl (b' := xF) (ldB' := c.ck re) rfl rfl rfl rfl rfl hck t9.mat
    (hS.pat.starE _ _ t9) hlenF (fun q i j hq hi hj => Finset.sum_congr rfl fun l hl' => by rw [hval l (Finset.mem_range.1 hl') j hj q hq]) b4
  have hst := hS.tp.star (re - 1) (by omega)
  rw [show re - 1 + 1 = re by omega] at hst
  refine ⟨(xF, x2, x3), ?_, f1.trans (hl.trans y0.symm), rfl, rfl⟩
  simp only [t3, t8, Option.bind_eq_bind, Option.bind_some, callKern_eq t5, f0, callKern_eq hst, k1]
  by_cases hr : 0 < c.nRms
  · obtain ⟨dA, sA', u4, u5, u6⟩ := hS.starA hr di hdi
    rw [if_pos hr] at b9 ⊢
    simp only [u4, Option.bind_some] at b9
    have hre1 := hre hr
    subst hre1
    have k2 := csr_same (kn := ⟨true, pt.starA.ptr, pt.starA.idx, c.nQtsM, c.ck 1, 0, c.ck 1, c.nMds, 1⟩) rfl (b' := xF) (ldB' := c.ck 1) rfl rfl rfl rfl rfl hck u6.mat
      (hS.pat.starA _ _ u6) (by rw [q1]; exact hlenF) (fun q i j hq hi hj => by
        rw [Finset.sum_range_add, Finset.sum_eq_zero (s := Finset.range c.nQtsM), zero_add]
        · refine Finset.sum_congr rfl fun l hl' => ?_
          rw [if_pos (by omega), val_drop, hval (c.nQtsM + l) (by have := Finset.mem_range.1 hl'; omega) j hj q hq, Nat.add_sub_cancel_left]
          congr 2
          simp only [at3]
          ring
        · intro l hl'
          rw [if_neg (by have := Finset.mem_range.1 hl'; omega), zero_mul]) b9
    rw [u5, Option.bind_some, callKern_eq (hS.tp.an hr).2.1, k2]
    rfl
  · rw [if_neg hr] at b9 ⊢
    cases b9
    rfl

theorem ckAn_eq {c : Cfg} {ev : Env K} {pt : Pats} {st stT starE starA srcA sE sA sS : List (List K)} {G : Nat → Nat → Nat → K} {tp : Prep K}
    (hS : TpSet c ev pt st stT starE starA srcA sE sA sS G tp) {sca : K} {rfs : List K} {de : Nat} {ls : List K} {s s' : List K × List (List (List K)) × List (List K)}
    (h : ckAn c sca srcA rfs de ls s = some s') : ckAnF c tp sca sS rfs de ls s = some s' := by
  obtain ⟨q1, q2, q3⟩ := hS.dims.qts
  unfold ckAn at h
  unfold ckAnF
  refine forN_same ?_ h
  intro rm u u' hrm hb
  simp only [Option.bind_eq_bind, Option.bind_eq_some_iff] at hb
  obtain ⟨d, b1, dA, b2, prev, b3, dE, b4, rest⟩ := hb
  obtain ⟨d', s', t1, t2, t3⟩ := hS.src rm hrm
  rw [t1] at b1
  cases b1
  have hr : 0 < c.nRms := by omega
  obtain ⟨n1, -, n3⟩ := hS.tp.an hr
  have k1 := csr_same (kn := ⟨true, pt.srcA.ptr, pt.srcA.idx, c.nQtsM, c.nMds, 0, c.nMds, c.nMds, 1⟩) rfl (b' := prev) (ldB' := c.nMds) rfl rfl rfl rfl rfl le_rfl t3.mat
    (hS.pat.srcA n1 _ _ t3) (fun l hl j hj q hq => (bc_reads b4).2.2 l hl j hj q hq q2) (fun q i j hq hi hj => rfl) b4
  simp only [Option.bind_eq_bind, t2, Option.bind_some, b2, b3, callKern_eq n3, k1, Option.bind_eq_some_iff]
  exact rest

omit [LinearOrder K] [IsStrictOrderedRing K] in
theorem ckInit_scratch {c : Cfg} {dT : K} {dofsE : List K} {dofsA : List (List K)} {m m' : CkMem K} (h : ckInit c dT dofsE dofsA m = some m') (sc : List K) :
    ckInit c dT dofsE dofsA { m with scratch := sc } = some { m' with scratch := sc } ∧ m'.scratch = m.scratch := by
  simp only [ckInit, Option.bind_eq_bind, Option.bind_eq_some_iff] at h ⊢
  obtain ⟨d0, h1, x, h2, derE, h3, y, h4, h5⟩ := h
  cases h5
  exact ⟨⟨d0, h1, x, h2, derE, h3, y, h4, rfl⟩, rfl⟩

/-- The time prediction. -/
theorem ck_eq {c : Cfg} {ev : Env K} {pt : Pats} {st stT starE starA srcA sE sA sS : List (List K)} {G : Nat → Nat → Nat → K} {tp : Prep K}
    (hS : TpSet c ev pt st stT starE starA srcA sE sA sS G tp) {dT : K} {rfs dofsE : List K} {dofsA : List (List K)} {m m' : CkMem K}
    {sc0 : List K} (hl0 : sc0.length = m.scratch.length) (h : ck c dT stT starE starA srcA rfs dofsE dofsA m = some m') :
    ∃ sc, ckF c tp dT sE sA sS rfs dofsE dofsA { m with scratch := sc0 } = some { m' with scratch := sc } ∧ sc.length = m'.scratch.length := by
  simp only [ck, Option.bind_eq_bind, Option.bind_eq_some_iff] at h
  obtain ⟨m0, h0, ⟨m1, s1⟩, h1, h2⟩ := h
  cases h2
  obtain ⟨i1, i2⟩ := ckInit_scratch h0 sc0
  refine Exists.elim (forN_rel (s := (m0, dT)) (t := ({ m0 with scratch := sc0 }, dT)) (b2 := fun i (s : CkMem K × K) => do
      let m := s.1
      let de := i + 1
      let re := if c.nRms = 0 then de else 1
      let dE ← rd m.derE de
      let dE ← loop3 c.nQtsE c.nMds c.nCrs (fun qt md cr (d : List K) => wr d (at3 c.nMds c.nCrs qt md cr) 0) dE
      let ls : List K := List.replicate (c.nQtsM * c.nMds * c.nCrs) 0
      let prev ← rd m.derE (de - 1)
      let (scratch, dE, ls) ← ckDimsF c tp sE sA re prev (m.scratch, dE, ls)
      let sca := s.2 * (dT / (de + 1 : Nat))
      let (dE, derA, tIntA) ← ckAnF c tp sca sS rfs de ls (dE, m.derA, m.tIntA)
      let derE ← wr m.derE de dE
      let tIntE ← loop3 c.nQtsE (if c.nRms = 0 then c.ck de else c.nMds) c.nCrs (fun qt md cr t => do
        let x ← rd t (at3 c.nMds c.nCrs qt md cr)
        let y ← rd dE (at3 c.nMds c.nCrs qt md cr)
        wr t (at3 c.nMds c.nCrs qt md cr) (x + sca * y)) m.tIntE
      some (⟨derE, derA, tIntE, tIntA, scratch⟩, sca))
    (fun _ (u v : CkMem K × K) => v.1.derE = u.1.derE ∧ v.1.derA = u.1.derA ∧ v.1.tIntE = u.1.tIntE ∧ v.1.tIntA = u.1.tIntA ∧ v.1.scratch.length = u.1.scratch.length ∧ v.2 = u.2)
    ⟨rfl, rfl, rfl, rfl, hl0.trans (congrArg List.length i2.symm), rfl⟩ ?hs h1) ?fin
  case fin =>
    rintro ⟨m2, s2⟩ ⟨g1, g2, g3, g4, g5, g6, g7⟩
    refine ⟨m2.scratch, ?_, g6⟩
    simp only at g2 g3 g4 g5
    simp only [ckF, i1, Option.bind_eq_bind, Option.bind_some]
    simp only [Option.bind_eq_bind] at g1
    rw [g1, Option.bind_some]
    cases m2
    simp only at g2 g3 g4 g5 ⊢
    rw [g2, g3, g4, g5]
  rintro i ⟨u, us⟩ ⟨u', us'⟩ ⟨v, vs⟩ hi ⟨e1, e2, e3, e4, e5, e6⟩ hb
  simp only at e1 e2 e3 e4 e5 e6
  subst e6
  simp only [Option.bind_eq_bind, Option.bind_eq_some_iff] at hb
  obtain ⟨dE0, b1, dE1, b2, prev, b3, ⟨sc, dE2, ls⟩, b4, ⟨dE3, derA, tIntA⟩, b5, derE, b6, tIntE, b7, b8⟩ := hb
  cases b8
  obtain ⟨scF, k1, k2⟩ := ckDims_eq hS (re := if c.nRms = 0 then i + 1 else 1) (by split <;> omega) (by split <;> omega) (fun h => by rw [if_neg (by omega)]) e5 b4
  have k3 := ckAn_eq hS b5
  refine ⟨(⟨derE, derA, tIntE, tIntA, scF⟩, _), ?_, rfl, rfl, rfl, rfl, k2, rfl⟩
  simp only [Option.bind_eq_bind, e1, e2, e3, e4, b1, Option.bind_some, b2, b3, k1, k3, b6, b7]

end Edge.Fused
