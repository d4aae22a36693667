import Verif.Dg.Tensor
import Mathlib.Data.Nat.Factorial.Basic
import Mathlib.Tactic.FieldSimp
import Mathlib.Tactic.Ring
/-!
Time prediction and volume integration (C74): what the kernels compute, for all sizes, orders, numbers of relaxation
mechanisms and fused runs.
-/
namespace Edge.Dg
open Edge Edge.Linalg Finset

variable {K : Type} [Field K] [LinearOrder K]

/-! ### Specification -/

/-- Right-hand side of the elastic equations in an element: `Σ_di S_di e G_di + Σ_rm src_rm a_rm` for the elastic modes `e` and
the memory variables `a`. `S` are the Jacobians (star matrices), `G` the stiffness matrices (with inverse mass matrix). -/
def rhsE (c : Cfg) (G S src : Nat → Nat → Nat → K) (e : Nat → Nat → Nat → K) (a : Nat → Nat → Nat → Nat → K)
    (q md r : Nat) : K :=
  (∑ di ∈ range c.nDis, ∑ p ∈ range c.nQtsE, S di q p * ∑ m ∈ range c.nMds, e p m r * G di m md) +
    if q < c.nQtsM then ∑ rm ∈ range c.nRms, ∑ p ∈ range c.nQtsM, src rm q p * a rm p md r else 0

/-- Right-hand side of the equations of memory variables `rm`: `ω_rm (Σ_di SA_di v G_di + relax a_rm)`, where `v` are the
particle velocities. Relaxation decays for `relax = -1`. -/
def rhsA (c : Cfg) (relax : K) (G SA : Nat → Nat → Nat → K) (rf : Nat → K) (e : Nat → Nat → Nat → K)
    (a : Nat → Nat → Nat → Nat → K) (rm q md r : Nat) : K :=
  rf rm * ((∑ di ∈ range c.nDis, ∑ d ∈ range c.nDis, SA di q d * ∑ m ∈ range c.nMds, e (c.nQtsM + d) m r * G di m md) +
    relax * a rm q md r)

/-- Time derivatives of the solution of `e' = rhsE e a`, `a' = rhsA e a`. -/
def derivs (c : Cfg) (relax : K) (G S SA src : Nat → Nat → Nat → K) (rf : Nat → K) (e0 : Nat → Nat → Nat → K)
    (a0 : Nat → Nat → Nat → Nat → K) : Nat → (Nat → Nat → Nat → K) × (Nat → Nat → Nat → Nat → K)
  | 0 => (e0, a0)
  | n + 1 =>
    let d := derivs c relax G S SA src rf e0 a0 n
    (rhsE c G S src d.1 d.2, rhsA c relax G SA rf d.1 d.2)

/-- Integral over `[0, t]` of the Taylor polynomial with derivatives `f 0, ..., f (n - 1)` at zero. -/
def taylorInt (n : Nat) (t : K) (f : Nat → K) : K := ∑ k ∈ range n, t ^ (k + 1) / ((k + 1).factorial : K) * f k

/-- Value at `t` of the Taylor polynomial with derivatives `f 0, ..., f (n - 1)` at zero. -/
def taylor (n : Nat) (t : K) (f : Nat → K) : K := ∑ k ∈ range n, t ^ k / (k.factorial : K) * f k

/-- `n` arrays of size `sz`. -/
def Arrs (n sz : Nat) (l : List (List K)) : Prop := l.length = n ∧ ∀ i < n, ∃ d, l[i]? = some d ∧ d.length = sz

/-- Sizes of the kernels: the stresses precede the velocities in the elastic quantities; the number of modes decreases. -/
structure Sizes (c : Cfg) : Prop where
  qts : c.nQtsM + c.nDis ≤ c.nQtsE
  ord : 0 < c.oTi
  ck0 : c.ck 0 = c.nMds
  ckLe : ∀ n, c.ck n ≤ c.nMds

/-- Block structure of the stiffness matrices: the derivative of a function of the first `ck n` modes has no contribution in
modes beyond the first `ck (n + 1)`. With relaxation only the first block is used. -/
def Hier (c : Cfg) (G : Nat → Nat → Nat → K) : Prop :=
  ∀ n di m md, (0 < c.nRms → n = 0) → n + 1 < c.oTi → di < c.nDis → m < c.ck n → c.ck (n + 1) ≤ md → md < c.nMds → G di m md = 0

/-! ### Helpers -/

omit [Field K] [LinearOrder K] in
theorem Arrs.get {n sz : Nat} {l : List (List K)} (h : Arrs n sz l) {i : Nat} (hi : i < n) :
    ∃ d, rd l i = some d ∧ d.length = sz := h.2 i hi

omit [Field K] [LinearOrder K] in
theorem Arrs.wr {n sz : Nat} {l : List (List K)} (h : Arrs n sz l) {i : Nat} (hi : i < n) {d : List K} (hd : d.length = sz) :
    wr l i d = some (l.set i d) ∧ Arrs n sz (l.set i d) := by
  refine ⟨wr_some (by rw [h.1]; exact hi) _, by simp [h.1], fun j hj => ?_⟩
  by_cases e : i = j
  · subst e; exact ⟨d, by rw [List.getElem?_set_self (by rw [h.1]; exact hi)], hd⟩
  · rw [List.getElem?_set_ne e]; exact h.2 j hj

theorem wr_idx {l : List K} {i : Nat} (h : i < l.length) (x : K) : wr l i x = some (l.set i x) := wr_some h x

/-- `x += sca * y` for the first `n` modes. -/
theorem axpy3 {Q M R n : Nat} {sca : K} {t d : List K} {f g : Nat → Nat → Nat → K} (ht : Rep Q M R t f) (hd : Rep Q M R d g)
    (hn : n ≤ M) :
    ∃ t', loop3 Q n R (fun qt md cr t => do
      let x ← rd t (at3 M R qt md cr)
      let y ← rd d (at3 M R qt md cr)
      wr t (at3 M R qt md cr) (x + sca * y)) t = some t' ∧
      Rep Q M R t' (fun q md r => f q md r + if md < n then sca * g q md r else 0) := by
  obtain ⟨t', h0, h1⟩ := loop3_spec ht le_rfl hn (fun q md r x => x + sca * g q md r) (body := fun qt md cr t => do
      let x ← rd t (at3 M R qt md cr)
      let y ← rd d (at3 M R qt md cr)
      wr t (at3 M R qt md cr) (x + sca * y)) (fun q md r l' h1 h2 h3 hl hx => by
    simp only [Option.bind_eq_bind]
    rw [rd, hx, Option.bind_some, hd.rd h1 (by omega) h3, Option.bind_some, wr_some hl])
  refine ⟨t', h0, h1.congr fun q md r k1 _ _ => ?_⟩
  by_cases hc : md < n
  · simp [hc, k1]
  · simp [hc]

/-- Copy with a factor. -/
theorem scale3 {Q M R : Nat} {t d : List K} {g : Nat → Nat → Nat → K} (sca : K) (ht : t.length = Q * M * R)
    (hd : Rep Q M R d g) :
    ∃ t', loop3 Q M R (fun qt md cr t => do
      let x ← rd d (at3 M R qt md cr)
      wr t (at3 M R qt md cr) (sca * x)) t = some t' ∧ Rep Q M R t' (fun q md r => sca * g q md r) := by
  have : Inhabited K := ⟨0⟩
  obtain ⟨t', h0, h1⟩ := loop3_spec (rep_of_length ht) le_rfl le_rfl (fun q md r _ => sca * g q md r)
    (body := fun qt md cr t => do
      let x ← rd d (at3 M R qt md cr)
      wr t (at3 M R qt md cr) (sca * x)) (fun q md r l' h1 h2 h3 hl hx => by
    rw [hd.rd h1 h2 h3, Option.bind_eq_bind, Option.bind_some, wr_some hl])
  exact ⟨t', h0, h1.congr fun q md r k1 k2 _ => by simp [k1, k2]⟩

/-- Copy. -/
theorem copy3 {Q M R : Nat} {t d : List K} {g : Nat → Nat → Nat → K} (ht : t.length = Q * M * R) (hd : Rep Q M R d g) :
    ∃ t', loop3 Q M R (fun qt md cr t => do
      let x ← rd d (at3 M R qt md cr)
      wr t (at3 M R qt md cr) x) t = some t' ∧ Rep Q M R t' g := by
  have : Inhabited K := ⟨0⟩
  obtain ⟨t', h0, h1⟩ := loop3_spec (rep_of_length ht) le_rfl le_rfl (fun q md r _ => g q md r)
    (body := fun qt md cr t => do
      let x ← rd d (at3 M R qt md cr)
      wr t (at3 M R qt md cr) x) (fun q md r l' h1 h2 h3 hl hx => by
    rw [hd.rd h1 h2 h3, Option.bind_eq_bind, Option.bind_some, wr_some hl])
  exact ⟨t', h0, h1.congr fun q md r k1 k2 _ => by simp [k1, k2]⟩

/-! ### Evaluation and integration of given derivatives -/

/-- Derivative arrays `der` hold `D`. -/
def Ders (c : Cfg) (der : List (List K)) (D : Nat → Nat → Nat → Nat → K) : Prop :=
  ∀ n < c.oTi, ∃ d, rd der n = some d ∧ Rep c.nQtsE c.nMds c.nCrs d (D n)

/-- Scalars of the loop over the derivatives. -/
theorem sca_step (t : K) (i k : Nat) : t ^ (i + k) / ((i + k).factorial : K) * (t / ((i + k + 1 : Nat) : K)) =
    t ^ (i + k + 1) / ((i + k + 1).factorial : K) := by
  rw [Nat.factorial_succ, Nat.cast_mul, div_mul_div_comm, ← pow_succ, mul_comm ((i + k).factorial : K)]

/-- `integrate`: the coefficients are those of the time integral of the Taylor polynomial. Without relaxation the modes beyond
the first `ck n` of derivative `n` are ignored. -/
theorem integrate_spec {c : Cfg} (hs : Sizes c) {dt : K} {der : List (List K)} {D : Nat → Nat → Nat → Nat → K}
    (hD : Ders c der D) {tInt : List K} (ht : tInt.length = c.nQtsE * c.nMds * c.nCrs) :
    ∃ t, integrate c dt der tInt = some t ∧ Rep c.nQtsE c.nMds c.nCrs t (fun q md r =>
      taylorInt c.oTi dt (fun n => if c.nRms = 0 ∧ ¬ md < c.ck n then 0 else D n q md r)) := by
  obtain ⟨d0, hd0, r0⟩ := hD 0 hs.ord
  obtain ⟨t0, g0, g1⟩ := scale3 dt ht r0
  obtain ⟨s, h0, h1, -⟩ := forN_inv (n := c.oTi - 1) (s := (t0, dt)) (body := fun i (s : List K × K) => do
    let de := i + 1
    let sca := s.2 * (dt / (de + 1 : Nat))
    let d ← rd der de
    let tInt ← loop3 c.nQtsE (if c.nRms = 0 then c.ck de else c.nMds) c.nCrs (fun qt md cr tInt => do
      let x ← rd tInt (at3 c.nMds c.nCrs qt md cr)
      let y ← rd d (at3 c.nMds c.nCrs qt md cr)
      wr tInt (at3 c.nMds c.nCrs qt md cr) (x + sca * y)) s.1
    some (tInt, sca))
    (fun i s => Rep c.nQtsE c.nMds c.nCrs s.1 (fun q md r =>
      taylorInt (i + 1) dt (fun n => if c.nRms = 0 ∧ ¬ md < c.ck n then 0 else D n q md r)) ∧
      s.2 = dt ^ (i + 1) / ((i + 1).factorial : K)) ⟨g1.congr (by
        intro q md r _ k2 _
        simp [taylorInt, hs.ck0, k2]), by simp⟩ (by
    rintro i ⟨t, sca⟩ hi ⟨h1, h2⟩
    obtain ⟨d, hd, rd'⟩ := hD (i + 1) (by omega)
    dsimp only at h1 h2
    have e := sca_step dt i 1
    rw [← h2] at e
    obtain ⟨t', k0, k1⟩ := axpy3 (sca := sca * (dt / ((i + 1 + 1 : Nat) : K))) (n := if c.nRms = 0 then c.ck (i + 1) else c.nMds)
      h1 rd' (by split; exacts [hs.ckLe _, le_rfl])
    refine ⟨(t', sca * (dt / ((i + 1 + 1 : Nat) : K))), ?_, ?_, e⟩
    · simp only [hd, Option.bind_eq_bind, Option.bind_some]
      simp only [Option.bind_eq_bind] at k0
      rw [k0, Option.bind_some]
    · refine k1.congr fun q md r _ k2 _ => ?_
      simp only [taylorInt]
      rw [sum_range_succ _ (i + 1), e]
      congr 1
      by_cases hr : c.nRms = 0
      · by_cases hm : md < c.ck (i + 1) <;> simp [hr, hm]
      · simp [hr, k2])
  refine ⟨s.1, ?_, ?_⟩
  · simp only [integrate, hd0, Option.bind_eq_bind, Option.bind_some]
    simp only [Option.bind_eq_bind] at g0 h0
    rw [g0, Option.bind_some, h0]
    rfl
  · have : c.oTi - 1 + 1 = c.oTi := by have := hs.ord; omega
    rw [this] at h1
    exact h1

/-- `evalTimePrediction` at a point. -/
theorem evalPoint_spec {c : Cfg} (hs : Sizes c) {pt : K} {der : List (List K)} {D : Nat → Nat → Nat → Nat → K}
    (hD : Ders c der D) {pre : List K} (ht : pre.length = c.nQtsE * c.nMds * c.nCrs) :
    ∃ t, evalPoint c pt der pre = some t ∧ Rep c.nQtsE c.nMds c.nCrs t (fun q md r =>
      taylor c.oTi pt (fun n => if md < c.ck n then D n q md r else 0)) := by
  obtain ⟨d0, hd0, r0⟩ := hD 0 hs.ord
  obtain ⟨t0, g0, g1⟩ := copy3 ht r0
  obtain ⟨s, h0, h1, -⟩ := forN_inv (n := c.oTi - 1) (s := (t0, (1 : K))) (body := fun i (s : List K × K) => do
    let de := i + 1
    let sca := s.2 * (pt / de)
    let d ← rd der de
    let pre ← loop3 c.nQtsE (c.ck de) c.nCrs (fun qt md cr pre => do
      let x ← rd pre (at3 c.nMds c.nCrs qt md cr)
      let y ← rd d (at3 c.nMds c.nCrs qt md cr)
      wr pre (at3 c.nMds c.nCrs qt md cr) (x + sca * y)) s.1
    some (pre, sca))
    (fun i s => Rep c.nQtsE c.nMds c.nCrs s.1 (fun q md r =>
      taylor (i + 1) pt (fun n => if md < c.ck n then D n q md r else 0)) ∧
      s.2 = pt ^ i / (i.factorial : K)) ⟨g1.congr (by
        intro q md r _ k2 _
        simp [taylor, hs.ck0, k2]), by simp⟩ (by
    rintro i ⟨t, sca⟩ hi ⟨h1, h2⟩
    obtain ⟨d, hd, rd'⟩ := hD (i + 1) (by omega)
    dsimp only at h1 h2
    have e := sca_step pt i 0
    simp only [Nat.add_zero] at e
    rw [← h2] at e
    obtain ⟨t', k0, k1⟩ := axpy3 (sca := sca * (pt / ((i + 1 : Nat) : K))) (n := c.ck (i + 1))
      h1 rd' (hs.ckLe _)
    refine ⟨(t', sca * (pt / ((i + 1 : Nat) : K))), ?_, ?_, e⟩
    · simp only [hd, Option.bind_eq_bind, Option.bind_some]
      simp only [Option.bind_eq_bind] at k0
      rw [k0, Option.bind_some]
    · refine k1.congr fun q md r _ k2 _ => ?_
      simp only [taylor]
      rw [sum_range_succ _ (i + 1), e]
      congr 1
      by_cases hm : md < c.ck (i + 1) <;> simp [hm])
  refine ⟨s.1, ?_, ?_⟩
  · simp only [evalPoint, hd0, Option.bind_eq_bind, Option.bind_some]
    simp only [Option.bind_eq_bind] at g0 h0
    rw [g0, Option.bind_some, h0]
    rfl
  · have : c.oTi - 1 + 1 = c.oTi := by have := hs.ord; omega
    rw [this] at h1
    exact h1

/-! ### The Cauchy-Kowalevski procedure -/

/-- The first `b` elastic derivatives are set. -/
def DersE (c : Cfg) (E : Nat → Nat → Nat → Nat → K) (b : Nat) (l : List (List K)) : Prop :=
  Arrs c.oTi (c.nQtsE * c.nMds * c.nCrs) l ∧ ∀ n < b, ∃ d, rd l n = some d ∧ Rep c.nQtsE c.nMds c.nCrs d (E n)

/-- The first `b rm` anelastic derivatives of every mechanism `rm` are set (`A n rm`). -/
def DersA (c : Cfg) (A : Nat → Nat → Nat → Nat → Nat → K) (b : Nat → Nat) (l : List (List (List K))) : Prop :=
  l.length = c.nRms ∧ ∀ rm < c.nRms, ∃ dA, rd l rm = some dA ∧ Arrs c.oTi (c.nQtsM * c.nMds * c.nCrs) dA ∧
    ∀ n < b rm, ∃ d, rd dA n = some d ∧ Rep c.nQtsM c.nMds c.nCrs d (A n rm)

/-- Arrays per mechanism. -/
def PerRm (c : Cfg) (f : Nat → Nat → Nat → Nat → K) (l : List (List K)) : Prop :=
  l.length = c.nRms ∧ ∀ rm < c.nRms, ∃ t, rd l rm = some t ∧ Rep c.nQtsM c.nMds c.nCrs t (f rm)

omit [Field K] [LinearOrder K] in
theorem PerRm.congr {c : Cfg} {f g : Nat → Nat → Nat → Nat → K} {l : List (List K)} (h : PerRm c f l)
    (e : ∀ rm q md r, rm < c.nRms → q < c.nQtsM → md < c.nMds → r < c.nCrs → f rm q md r = g rm q md r) : PerRm c g l := by
  refine ⟨h.1, fun rm hrm => ?_⟩
  obtain ⟨t, h1, h2⟩ := h.2 rm hrm
  exact ⟨t, h1, h2.congr fun q md r => e rm q md r hrm⟩

omit [Field K] [LinearOrder K] in
theorem PerRm.set {c : Cfg} {f g : Nat → Nat → Nat → Nat → K} {l : List (List K)} (h : PerRm c f l) {rm : Nat}
    (hrm : rm < c.nRms) {t : List K} (ht : Rep c.nQtsM c.nMds c.nCrs t (g rm))
    (e : ∀ rm', rm' ≠ rm → f rm' = g rm') : wr l rm t = some (l.set rm t) ∧ PerRm c g (l.set rm t) := by
  have hl : rm < l.length := by rw [h.1]; exact hrm
  refine ⟨wr_some hl _, by simp [h.1], fun rm' hrm' => ?_⟩
  by_cases e' : rm = rm'
  · subst e'; exact ⟨t, by rw [rd, List.getElem?_set_self hl], ht⟩
  · rw [rd, List.getElem?_set_ne e', ← e rm' (fun e => e' e.symm)]
    exact h.2 rm' hrm'

omit [Field K] [LinearOrder K] in
theorem DersE.set {c : Cfg} {E : Nat → Nat → Nat → Nat → K} {b : Nat} {l : List (List K)} (h : DersE c E b l) (hb : b < c.oTi)
    {d : List K} (hd : Rep c.nQtsE c.nMds c.nCrs d (E b)) : wr l b d = some (l.set b d) ∧ DersE c E (b + 1) (l.set b d) := by
  obtain ⟨h1, h2⟩ := h.1.wr hb hd.1
  refine ⟨h1, h2, fun n hn => ?_⟩
  by_cases e : b = n
  · subst e; exact ⟨d, by rw [rd, List.getElem?_set_self (by rw [h.1.1]; exact hb)], hd⟩
  · rw [rd, List.getElem?_set_ne e]; exact h.2 n (by omega)

omit [Field K] [LinearOrder K] in
theorem DersA.set {c : Cfg} {A : Nat → Nat → Nat → Nat → Nat → K} {b b' : Nat → Nat} {l : List (List (List K))}
    (h : DersA c A b l) {rm : Nat} (hrm : rm < c.nRms) {dA : List (List K)} (hdA : rd l rm = some dA) (hb : b rm < c.oTi)
    {d : List K} (hd : Rep c.nQtsM c.nMds c.nCrs d (A (b rm) rm)) (e : ∀ rm', rm' ≠ rm → b rm' = b' rm')
    (e1 : b' rm = b rm + 1) :
    wr dA (b rm) d = some (dA.set (b rm) d) ∧ wr l rm (dA.set (b rm) d) = some (l.set rm (dA.set (b rm) d)) ∧
      DersA c A b' (l.set rm (dA.set (b rm) d)) := by
  have hl : rm < l.length := by rw [h.1]; exact hrm
  obtain ⟨dA', g0, g1, g2⟩ := h.2 rm hrm
  rw [hdA] at g0
  cases g0
  obtain ⟨k1, k2⟩ := g1.wr hb hd.1
  refine ⟨k1, wr_some hl _, by simp [h.1], fun rm' hrm' => ?_⟩
  by_cases e' : rm = rm'
  · subst e'
    refine ⟨_, by rw [rd, List.getElem?_set_self hl], k2, fun n hn => ?_⟩
    by_cases e2 : b rm = n
    · subst e2; exact ⟨d, by rw [rd, List.getElem?_set_self (by rw [g1.1]; exact hb)], hd⟩
    · rw [rd, List.getElem?_set_ne e2]; exact g2 n (by omega)
  · rw [rd, List.getElem?_set_ne e', ← e rm' (fun e => e' e.symm)]
    exact h.2 rm' hrm'

/-- Matrices per dimension or mechanism. -/
def Mats (n rows cols ld : Nat) (l : List (List K)) (f : Nat → Nat → Nat → K) : Prop :=
  ∀ i < n, ∃ d, rd l i = some d ∧ Mat rows cols ld d (f i)

theorem ckDims_spec {c : Cfg} (hs : Sizes c) {stiffT starE starA : List (List K)} {G S SA : Nat → Nat → Nat → K}
    (hG : Mats c.nDis c.nMds c.nMds c.nMds stiffT G) (hS : Mats c.nDis c.nQtsE c.nQtsE c.nQtsE starE S)
    (hSA : 0 < c.nRms → Mats c.nDis c.nQtsM c.nDis c.nDis starA SA) {re : Nat} (hre : 0 < c.nRms → re = 1)
    {prev : List K} {e : Nat → Nat → Nat → K} (hp : Rep c.nQtsE c.nMds c.nCrs prev e)
    {scratch dE ls : List K} (hsc : scratch.length = c.nQtsE * c.nMds * c.nCrs)
    {C L : Nat → Nat → Nat → K} (hC : Rep c.nQtsE c.nMds c.nCrs dE C) (hL : Rep c.nQtsM c.nMds c.nCrs ls L) :
    ∃ s, ckDims c stiffT starE starA re prev (scratch, dE, ls) = some s ∧ s.1.length = c.nQtsE * c.nMds * c.nCrs ∧
      Rep c.nQtsE c.nMds c.nCrs s.2.1 (fun q md r => C q md r + if md < c.ck re then
        ∑ di ∈ range c.nDis, ∑ p ∈ range c.nQtsE, S di q p * ∑ m ∈ range (c.ck (re - 1)), e p m r * G di m md else 0) ∧
      Rep c.nQtsM c.nMds c.nCrs s.2.2 (fun q md r => L q md r + if 0 < c.nRms ∧ md < c.ck 1 then
        ∑ di ∈ range c.nDis, ∑ d ∈ range c.nDis, SA di q d * ∑ m ∈ range (c.ck 0), e (c.nQtsM + d) m r * G di m md else 0) := by
  have hinh : Inhabited K := ⟨0⟩
  have hqts := hs.qts
  refine forN_inv (n := c.nDis) (s := (scratch, dE, ls)) (fun n s => s.1.length = c.nQtsE * c.nMds * c.nCrs ∧
      Rep c.nQtsE c.nMds c.nCrs s.2.1 (fun q md r => C q md r + if md < c.ck re then
        ∑ di ∈ range n, ∑ p ∈ range c.nQtsE, S di q p * ∑ m ∈ range (c.ck (re - 1)), e p m r * G di m md else 0) ∧
      Rep c.nQtsM c.nMds c.nCrs s.2.2 (fun q md r => L q md r + if 0 < c.nRms ∧ md < c.ck 1 then
        ∑ di ∈ range n, ∑ d ∈ range c.nDis, SA di q d * ∑ m ∈ range (c.ck 0), e (c.nQtsM + d) m r * G di m md else 0))
      ⟨hsc, hC.congr (by intros; simp), hL.congr (by intros; simp)⟩ ?_
  rintro di ⟨sc, dE, ls⟩ hdi ⟨h1, h2, h3⟩
  dsimp only at h1 h2 h3
  obtain ⟨st, hst, mst⟩ := hG di hdi
  obtain ⟨sE, hsE, msE⟩ := hS di hdi
  obtain ⟨sc', a0, a1⟩ := mmAC (Q := c.nQtsE) (n := c.ck re) (k := c.ck (re - 1)) (ldB := c.nMds) (beta := (0 : K)) hp
    (fun i j hi hj => mst i j (lt_of_lt_of_le hi (hs.ckLe _)) (lt_of_lt_of_le hj (hs.ckLe _))) (rep_of_length h1) le_rfl
    (hs.ckLe _) le_rfl (hs.ckLe _)
  obtain ⟨dE', b0, b1⟩ := mmBC0 (n := c.ck re) (beta := (1 : K)) msE a1 h2 le_rfl le_rfl (hs.ckLe _)
  have hfin : Rep c.nQtsE c.nMds c.nCrs dE' (fun q md r => C q md r + if md < c.ck re then
        ∑ di ∈ range (di + 1), ∑ p ∈ range c.nQtsE, S di q p * ∑ m ∈ range (c.ck (re - 1)), e p m r * G di m md else 0) := by
    refine b1.congr fun q md r k1 k2 k3 => ?_
    by_cases hm : md < c.ck re
    · simp only [k1, hm, and_self, if_true, one_mul, sum_range_succ _ di, zero_mul, zero_add, add_assoc]
      congr 2
      refine sum_congr rfl fun p hp => ?_
      simp only [mem_range.1 hp, and_true, if_true]
    · simp [hm]
  by_cases hr : 0 < c.nRms
  · obtain ⟨sA, hsA, msA⟩ := hSA hr di hdi
    have ere := hre hr
    subst ere
    obtain ⟨ls', g0, g1⟩ := mmBC (n := c.ck 1) (off := c.nQtsM) (beta := (1 : K)) msA a1 h3 hqts le_rfl (hs.ckLe _)
    refine ⟨(sc', dE', ls'), ?_, a1.1, hfin, ?_⟩
    · simp only [hst, hsE, hsA, Option.bind_eq_bind, Option.bind_some, hr, if_true, gt_iff_lt]
      rw [a0, Option.bind_some, b0, Option.bind_some, g0, Option.bind_some]
    · refine g1.congr fun q md r k1 k2 k3 => ?_
      by_cases hm : md < c.ck 1
      · simp only [k1, hm, hr, and_self, if_true, one_mul, sum_range_succ _ di, zero_mul, zero_add, add_assoc]
        congr 2
        refine sum_congr rfl fun p hp => ?_
        have := mem_range.1 hp
        have h' : c.nQtsM + p < c.nQtsE := by omega
        simp only [h', and_true, true_and, if_true, Nat.sub_self]
      · simp [hm]
  · refine ⟨(sc', dE', ls), ?_, a1.1, hfin, h3.congr fun q md r _ _ _ => ?_⟩
    · simp only [hst, hsE, Option.bind_eq_bind, Option.bind_some, hr, if_false, gt_iff_lt]
      rw [a0, Option.bind_some, b0, Option.bind_some]
    · simp [hr]

theorem ckAn_spec {c : Cfg} (hs : Sizes c) {sca : K} {srcA : List (List K)} {rfs : List K} {src : Nat → Nat → Nat → K}
    {rf : Nat → K} (hsrc : Mats c.nRms c.nQtsM c.nQtsM c.nQtsM srcA src) (hrf : ∀ rm < c.nRms, rd rfs rm = some (rf rm))
    {de : Nat} (hde : 0 < de) (hdeo : de < c.oTi) {ls dE : List K} {L C : Nat → Nat → Nat → K}
    (hL : Rep c.nQtsM c.nMds c.nCrs ls L) (hC : Rep c.nQtsE c.nMds c.nCrs dE C)
    {A : Nat → Nat → Nat → Nat → Nat → K} {derA : List (List (List K))} (hA : DersA c A (fun _ => de) derA)
    (hrec : ∀ rm q md r, rm < c.nRms → q < c.nQtsM → md < c.nMds → r < c.nCrs →
      A de rm q md r = rf rm * (L q md r + A (de - 1) rm q md r))
    {f : Nat → Nat → Nat → Nat → K} {tIntA : List (List K)} (hT : PerRm c f tIntA) :
    ∃ s, ckAn c sca srcA rfs de ls (dE, derA, tIntA) = some s ∧
      Rep c.nQtsE c.nMds c.nCrs s.1 (fun q md r => C q md r + if q < c.nQtsM then
        ∑ rm ∈ range c.nRms, ∑ p ∈ range c.nQtsM, src rm q p * A (de - 1) rm p md r else 0) ∧
      DersA c A (fun _ => de + 1) s.2.1 ∧ PerRm c (fun rm q md r => f rm q md r + sca * A de rm q md r) s.2.2 := by
  have hqts := hs.qts
  obtain ⟨s, h0, h1, h2, h3⟩ := forN_inv (n := c.nRms) (s := (dE, derA, tIntA)) (body := fun rm s => do
    let src ← rd srcA rm
    let dA ← rd s.2.1 rm
    let prev ← rd dA (de - 1)
    let dE ← matMulFusedBC c.nCrs c.nQtsM c.nMds c.nQtsM c.nQtsM c.nMds c.nMds 1 1 src prev s.1
    let rf ← rd rfs rm
    let cur ← rd dA de
    let t ← rd s.2.2 rm
    let (cur, t) ← loop3 c.nQtsM c.nMds c.nCrs (fun qt md cr (s : List K × List K) => do
      let l ← rd ls (at3 c.nMds c.nCrs qt md cr)
      let p ← rd prev (at3 c.nMds c.nCrs qt md cr)
      let d ← wr s.1 (at3 c.nMds c.nCrs qt md cr) (rf * (l + p))
      let x ← rd s.2 (at3 c.nMds c.nCrs qt md cr)
      let y ← rd d (at3 c.nMds c.nCrs qt md cr)
      let t ← wr s.2 (at3 c.nMds c.nCrs qt md cr) (x + sca * y)
      some (d, t)) (cur, t)
    let dA ← wr dA de cur
    let derA ← wr s.2.1 rm dA
    let tIntA ← wr s.2.2 rm t
    some (dE, derA, tIntA))
    (fun n s => Rep c.nQtsE c.nMds c.nCrs s.1 (fun q md r => C q md r + if q < c.nQtsM then
        ∑ rm ∈ range n, ∑ p ∈ range c.nQtsM, src rm q p * A (de - 1) rm p md r else 0) ∧
      DersA c A (fun rm => if rm < n then de + 1 else de) s.2.1 ∧
      PerRm c (fun rm q md r => if rm < n then f rm q md r + sca * A de rm q md r else f rm q md r) s.2.2)
    ⟨hC.congr (by intros; simp), hA, hT.congr (by intros; simp)⟩ (by
    rintro rm ⟨dE, derA, tIntA⟩ hrm ⟨h1, h2, h3⟩
    dsimp only at h1 h2 h3
    obtain ⟨sr, hsr, msr⟩ := hsrc rm hrm
    obtain ⟨dA, hdA, a1, a2⟩ := h2.2 rm hrm
    beta_reduce at a2
    rw [if_neg (by omega)] at a2
    obtain ⟨prev, hprev, rprev⟩ := a2 (de - 1) (by omega)
    obtain ⟨cur, hcur, lcur⟩ := a1.get hdeo
    obtain ⟨t, ht, rt⟩ := h3.2 rm hrm
    simp only [lt_irrefl, if_false] at rt
    obtain ⟨dE', b0, b1⟩ := mmBC0 (n := c.nMds) (beta := (1 : K)) msr rprev h1 le_rfl (by omega) le_rfl
    have hinh : Inhabited K := ⟨0⟩
    obtain ⟨s, l0, l1, l2⟩ := loop3_spec2 (rep_of_length lcur) rt (body := fun qt md cr (s : List K × List K) => do
      let l ← rd ls (at3 c.nMds c.nCrs qt md cr)
      let p ← rd prev (at3 c.nMds c.nCrs qt md cr)
      let d ← wr s.1 (at3 c.nMds c.nCrs qt md cr) (rf rm * (l + p))
      let x ← rd s.2 (at3 c.nMds c.nCrs qt md cr)
      let y ← rd d (at3 c.nMds c.nCrs qt md cr)
      let t ← wr s.2 (at3 c.nMds c.nCrs qt md cr) (x + sca * y)
      some (d, t)) (fun q md r => rf rm * (L q md r + A (de - 1) rm q md r))
      (fun q md r => f rm q md r + sca * (rf rm * (L q md r + A (de - 1) rm q md r)))
      (fun q md r s k1 k2 k3 m1 m2 hx => by
        simp only [Option.bind_eq_bind]
        rw [hL.rd k1 k2 k3, Option.bind_some, rprev.rd k1 k2 k3, Option.bind_some, wr_some m1, Option.bind_some, rd, hx,
          Option.bind_some, rd, List.getElem?_set_self m1, Option.bind_some, wr_some m2, Option.bind_some])
    have l1' : Rep c.nQtsM c.nMds c.nCrs s.1 (A de rm) := l1.congr fun q md r k1 k2 k3 => (hrec rm q md r hrm k1 k2 k3).symm
    have ebr : (if rm < rm then de + 1 else de) = de := by simp
    obtain ⟨w1, w2, w3⟩ := h2.set (b' := fun rm' => if rm' < rm + 1 then de + 1 else de) hrm hdA (d := s.1)
      (by rw [ebr]; exact hdeo) (by rw [ebr]; exact l1') (by
        intro rm' hne
        by_cases hlt : rm' < rm
        · rw [if_pos hlt, if_pos (by omega)]
        · rw [if_neg hlt, if_neg (by omega)]) (by simp)
    rw [ebr] at w1 w2 w3
    obtain ⟨v1, v2⟩ := h3.set (g := fun rm' q md r => if rm' < rm + 1 then f rm' q md r + sca * A de rm' q md r
        else f rm' q md r) hrm (t := s.2) (l2.congr fun q md r k1 k2 k3 => by
          simp only [Nat.lt_succ_self, if_true]
          rw [hrec rm q md r hrm k1 k2 k3]) (by
        intro rm' hne
        funext q md r
        by_cases hlt : rm' < rm
        · rw [if_pos hlt, if_pos (by omega)]
        · rw [if_neg hlt, if_neg (by omega)])
    refine ⟨(dE', derA.set rm (dA.set de s.1), tIntA.set rm s.2), ?_, ?_, w3, v2⟩
    · simp only [Option.bind_eq_bind] at l0 ⊢
      rw [hsr, Option.bind_some, hdA, Option.bind_some, hprev, Option.bind_some, b0, Option.bind_some, hrf rm hrm,
        Option.bind_some, hcur, Option.bind_some, ht, Option.bind_some, l0, Option.bind_some]
      rw [w1, Option.bind_some, w2, Option.bind_some, v1, Option.bind_some]
    · refine b1.congr fun q md r k1 k2 k3 => ?_
      by_cases hq : q < c.nQtsM
      · simp only [hq, k2, and_self, if_true, one_mul, sum_range_succ _ rm, add_assoc]
      · simp [hq])
  refine ⟨s, h0, h1, ?_, h3.congr (by intro rm q md r hrm _ _ _; simp [hrm])⟩
  refine ⟨h2.1, fun rm hrm => ?_⟩
  obtain ⟨dA, x1, x2, x3⟩ := h2.2 rm hrm
  beta_reduce at x3
  rw [if_pos hrm] at x3
  exact ⟨dA, x1, x2, x3⟩

/-- Memory of the output arguments of `ck`. -/
structure CkOut (c : Cfg) (m : CkMem K) : Prop where
  derE : Arrs c.oTi (c.nQtsE * c.nMds * c.nCrs) m.derE
  derA : m.derA.length = c.nRms ∧ ∀ rm < c.nRms, ∃ dA, rd m.derA rm = some dA ∧ Arrs c.oTi (c.nQtsM * c.nMds * c.nCrs) dA
  tIntE : m.tIntE.length = c.nQtsE * c.nMds * c.nCrs
  tIntA : Arrs c.nRms (c.nQtsM * c.nMds * c.nCrs) m.tIntA
  scratch : m.scratch.length = c.nQtsE * c.nMds * c.nCrs

theorem init2 {Q M R : Nat} {d t dofs : List K} {e : Nat → Nat → Nat → K} (dT : K) (hd : d.length = Q * M * R)
    (ht : t.length = Q * M * R) (he : Rep Q M R dofs e) :
    ∃ s, loop3 Q M R (fun qt md cr (s : List K × List K) => do
      let x ← rd dofs (at3 M R qt md cr)
      let d ← wr s.1 (at3 M R qt md cr) x
      let t ← wr s.2 (at3 M R qt md cr) (dT * x)
      some (d, t)) (d, t) = some s ∧ Rep Q M R s.1 e ∧ Rep Q M R s.2 (fun q md r => dT * e q md r) := by
  have hinh : Inhabited K := ⟨0⟩
  refine loop3_spec2 (rep_of_length hd) (rep_of_length ht) e (fun q md r => dT * e q md r) ?_
  intro q md r s k1 k2 k3 m1 m2 hx
  simp only [Option.bind_eq_bind]
  rw [he.rd k1 k2 k3, Option.bind_some, wr_some m1, Option.bind_some, wr_some m2, Option.bind_some]

theorem ckInit_spec {c : Cfg} (hs : Sizes c) {dT : K} {dofsE : List K} {dofsA : List (List K)} {e0 : Nat → Nat → Nat → K}
    {a0 : Nat → Nat → Nat → Nat → K} (he : Rep c.nQtsE c.nMds c.nCrs dofsE e0) (ha : PerRm c a0 dofsA)
    {E : Nat → Nat → Nat → Nat → K} {A : Nat → Nat → Nat → Nat → Nat → K} (hE : E 0 = e0) (hA : A 0 = a0)
    {m : CkMem K} (hm : CkOut c m) :
    ∃ m', ckInit c dT dofsE dofsA m = some m' ∧ DersE c E 1 m'.derE ∧ DersA c A (fun _ => 1) m'.derA ∧
      Rep c.nQtsE c.nMds c.nCrs m'.tIntE (fun q md r => dT * e0 q md r) ∧
      PerRm c (fun rm q md r => dT * a0 rm q md r) m'.tIntA ∧ m'.scratch.length = c.nQtsE * c.nMds * c.nCrs := by
  have hinh : Inhabited K := ⟨0⟩
  obtain ⟨d0, hd0, ld0⟩ := hm.derE.get hs.ord
  obtain ⟨s, h0, h1, h2⟩ := init2 dT ld0 hm.tIntE he
  obtain ⟨w1, w2⟩ := DersE.set (E := E) (b := 0) ⟨hm.derE, fun n hn => absurd hn (by omega)⟩ hs.ord (d := s.1) (hE ▸ h1)
  have hT0 : PerRm c (fun rm q md r => (((m.tIntA[rm]?).getD default)[at3 c.nMds c.nCrs q md r]?).getD default) m.tIntA := by
    refine ⟨hm.tIntA.1, fun rm hrm => ?_⟩
    obtain ⟨t, h1, h2⟩ := hm.tIntA.2 rm hrm
    refine ⟨t, h1, ?_⟩
    beta_reduce
    rw [h1]
    exact rep_of_length h2
  obtain ⟨u, g0, g1, g2⟩ := forN_inv (n := c.nRms) (s := (m.derA, m.tIntA))
    (body := fun rm (s : List (List (List K)) × List (List K)) => do
    let dofs ← rd dofsA rm
    let dA ← rd s.1 rm
    let d0 ← rd dA 0
    let t ← rd s.2 rm
    let (d0, t) ← loop3 c.nQtsM c.nMds c.nCrs (fun qt md cr (s : List K × List K) => do
      let x ← rd dofs (at3 c.nMds c.nCrs qt md cr)
      let d ← wr s.1 (at3 c.nMds c.nCrs qt md cr) x
      let t ← wr s.2 (at3 c.nMds c.nCrs qt md cr) (dT * x)
      some (d, t)) (d0, t)
    let dA ← wr dA 0 d0
    let derA ← wr s.1 rm dA
    let tIntA ← wr s.2 rm t
    some (derA, tIntA))
    (fun n s => DersA c A (fun rm => if rm < n then 1 else 0) s.1 ∧
      PerRm c (fun rm q md r => if rm < n then dT * a0 rm q md r else
        (((m.tIntA[rm]?).getD default)[at3 c.nMds c.nCrs q md r]?).getD default) s.2)
    ⟨⟨hm.derA.1, fun rm hrm => by
        obtain ⟨dA, x1, x2⟩ := hm.derA.2 rm hrm
        exact ⟨dA, x1, x2, fun n hn => absurd hn (by simp)⟩⟩, hT0.congr (by intros; simp)⟩ (by
    rintro rm ⟨derA, tIntA⟩ hrm ⟨h1, h2⟩
    dsimp only at h1 h2
    obtain ⟨dofs, hdofs, rdofs⟩ := ha.2 rm hrm
    obtain ⟨dA, hdA, a1, a2⟩ := h1.2 rm hrm
    obtain ⟨d0, hd0, ld0⟩ := a1.get hs.ord
    obtain ⟨t, ht, rt⟩ := h2.2 rm hrm
    obtain ⟨s, l0, l1, l2⟩ := init2 dT ld0 rt.1 rdofs
    have ebr : (if rm < rm then 1 else 0) = 0 := by simp
    obtain ⟨w1, w2, w3⟩ := h1.set (b' := fun rm' => if rm' < rm + 1 then 1 else 0) hrm hdA (d := s.1)
      (by rw [ebr]; exact hs.ord) (by rw [ebr, hA]; exact l1) (by
        intro rm' hne
        by_cases hlt : rm' < rm
        · rw [if_pos hlt, if_pos (by omega)]
        · rw [if_neg hlt, if_neg (by omega)]) (by simp)
    rw [ebr] at w1 w2 w3
    obtain ⟨v1, v2⟩ := h2.set (g := fun rm' q md r => if rm' < rm + 1 then dT * a0 rm' q md r else
        (((m.tIntA[rm']?).getD default)[at3 c.nMds c.nCrs q md r]?).getD default) hrm (t := s.2)
      (l2.congr fun q md r k1 k2 k3 => by simp) (by
        intro rm' hne
        funext q md r
        by_cases hlt : rm' < rm
        · rw [if_pos hlt, if_pos (by omega)]
        · rw [if_neg hlt, if_neg (by omega)])
    refine ⟨(derA.set rm (dA.set 0 s.1), tIntA.set rm s.2), ?_, w3, v2⟩
    simp only [Option.bind_eq_bind] at l0 ⊢
    rw [hdofs, Option.bind_some, hdA, Option.bind_some, hd0, Option.bind_some, ht, Option.bind_some, l0, Option.bind_some]
    rw [w1, Option.bind_some, w2, Option.bind_some, v1, Option.bind_some])
  refine ⟨{ m with derE := m.derE.set 0 s.1, derA := u.1, tIntE := s.2, tIntA := u.2 }, ?_, w2, ?_, h2, ?_, hm.scratch⟩
  · simp only [ckInit, Option.bind_eq_bind] at h0 g0 ⊢
    rw [hd0, Option.bind_some, h0, Option.bind_some]
    rw [w1, Option.bind_some, g0, Option.bind_some]
  · refine ⟨g1.1, fun rm hrm => ?_⟩
    obtain ⟨dA, x1, x2, x3⟩ := g1.2 rm hrm
    beta_reduce at x3
    rw [if_pos hrm] at x3
    exact ⟨dA, x1, x2, x3⟩
  · exact g2.congr (by intro rm q md r hrm _ _ _; simp [hrm])

end Edge.Dg
