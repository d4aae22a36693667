import Verif.Dg.CkProps
import Verif.Util.Rat
import Mathlib.Tactic.NormNum
/-!
Properties of time prediction and volume integration (C74).
-/
namespace Edge.Dg
open Edge Edge.Linalg Finset

variable {K : Type} [Field K] [LinearOrder K]

/-- Input arguments of the volume kernels: Jacobians, source matrices and relaxation frequencies. -/
structure Mats3 (c : Cfg) (starE starA srcA : List (List K)) (rfs : List K) (S SA src : Nat → Nat → Nat → K) (rf : Nat → K) :
    Prop where
  starE : Mats c.nDis c.nQtsE c.nQtsE c.nQtsE starE S
  starA : 0 < c.nRms → Mats c.nDis c.nQtsM c.nDis c.nDis starA SA
  srcA : Mats c.nRms c.nQtsM c.nQtsM c.nQtsM srcA src
  rfs : ∀ rm < c.nRms, rd rfs rm = some (rf rm)

omit [LinearOrder K] in
/-- Without relaxation the modes of derivative `n` beyond the first `ck n` vanish. -/
theorem derivs_zero {c : Cfg} (hs : Sizes c) (hr : c.nRms = 0) {G : Nat → Nat → Nat → K} (hG : Hier c G) {relax : K}
    {S SA src : Nat → Nat → Nat → K} {rf : Nat → K} {e0 : Nat → Nat → Nat → K} {a0 : Nat → Nat → Nat → Nat → K} :
    ∀ n < c.oTi, ∀ q md r, c.ck n ≤ md → md < c.nMds → (derivs c relax G S SA src rf e0 a0 n).1 q md r = 0 := by
  intro n
  induction n with
  | zero => intro _ q md r h1 h2; rw [hs.ck0] at h1; omega
  | succ n ih =>
    intro hn q md r h1 h2
    show rhsE c G S src _ _ q md r = 0
    simp only [rhsE, hr, range_zero, sum_empty, ite_self, add_zero]
    refine sum_eq_zero fun di hdi => sum_eq_zero fun p _ => ?_
    rw [sum_eq_zero, mul_zero]
    intro m hm
    by_cases hc : m < c.ck n
    · rw [hG n di m md (fun h => absurd h (by omega)) hn (mem_range.1 hdi) hc h1 h2, mul_zero]
    · rw [ih (by omega) p m r (by omega) (mem_range.1 hm), zero_mul]

/-- The recursion of `ck`: with the block structure of the stiffness matrices the truncated products are the full ones. -/
theorem trunc_sum {c : Cfg} (hs : Sizes c) {G : Nat → Nat → Nat → K} (hG : Hier c G) {e : Nat → Nat → Nat → K} {n : Nat}
    (hn : n + 1 < c.oTi) (hz : c.nRms = 0 → ∀ q md r, c.ck n ≤ md → md < c.nMds → e q md r = 0) {di p md r : Nat}
    (hdi : di < c.nDis) (hmd : md < c.nMds) :
    (if md < c.ck (if c.nRms = 0 then n + 1 else 1) then
      ∑ m ∈ range (c.ck ((if c.nRms = 0 then n + 1 else 1) - 1)), e p m r * G di m md else 0) =
      ∑ m ∈ range c.nMds, e p m r * G di m md := by
  by_cases hr : c.nRms = 0
  · simp only [hr, if_true, Nat.add_sub_cancel]
    by_cases hm : md < c.ck (n + 1)
    · rw [if_pos hm]
      refine sum_subset (fun x hx => mem_range.2 (lt_of_lt_of_le (mem_range.1 hx) (hs.ckLe _))) fun m hm hn => ?_
      rw [hz hr p m r (by simpa using hn) (mem_range.1 hm), zero_mul]
    · rw [if_neg hm, sum_eq_zero]
      intro m hm'
      by_cases hc : m < c.ck n
      · rw [hG n di m md (fun h => absurd h (by omega)) hn hdi hc (by omega) hmd, mul_zero]
      · rw [hz hr p m r (by omega) (mem_range.1 hm'), zero_mul]
  · simp only [hr, if_false, Nat.sub_self, hs.ck0]
    by_cases hm : md < c.ck 1
    · rw [if_pos hm]
    · rw [if_neg hm, sum_eq_zero]
      intro m hm'
      rw [hG 0 di m md (fun _ => rfl) (by omega) hdi (by rw [hs.ck0]; exact mem_range.1 hm') (by simpa using hm) hmd, mul_zero]

/-- C74: what the time prediction computes, for all orders, sizes, fused runs and relaxation mechanisms: the time derivatives
and the time integrals of the Taylor polynomial of the solution of `e' = rhsE e a`, `a' = rhsA e a` with *growing* relaxation
(`relax = 1`). -/
theorem C74_ck_partial {c : Cfg} (hs : Sizes c) {dT : K} {stiffT starE starA srcA : List (List K)} {rfs : List K}
    {G S SA src : Nat → Nat → Nat → K} {rf : Nat → K} (hG : Mats c.nDis c.nMds c.nMds c.nMds stiffT G) (hh : Hier c G)
    (hm3 : Mats3 c starE starA srcA rfs S SA src rf) {dofsE : List K} {dofsA : List (List K)} {e0 : Nat → Nat → Nat → K}
    {a0 : Nat → Nat → Nat → Nat → K} (he : Rep c.nQtsE c.nMds c.nCrs dofsE e0) (ha : PerRm c a0 dofsA) {m : CkMem K}
    (hm : CkOut c m) :
    ∃ m', ck c dT stiffT starE starA srcA rfs dofsE dofsA m = some m' ∧ CkOut c m' ∧
      (∀ n < c.oTi, ∃ d, rd m'.derE n = some d ∧
        Rep c.nQtsE c.nMds c.nCrs d (derivs c 1 G S SA src rf e0 a0 n).1) ∧
      (∀ rm < c.nRms, ∃ dA, rd m'.derA rm = some dA ∧ ∀ n < c.oTi, ∃ d, rd dA n = some d ∧
        Rep c.nQtsM c.nMds c.nCrs d ((derivs c 1 G S SA src rf e0 a0 n).2 rm)) ∧
      Rep c.nQtsE c.nMds c.nCrs m'.tIntE (fun q md r =>
        taylorInt c.oTi dT (fun n => (derivs c 1 G S SA src rf e0 a0 n).1 q md r)) ∧
      (∀ rm < c.nRms, ∃ t, rd m'.tIntA rm = some t ∧ Rep c.nQtsM c.nMds c.nCrs t (fun q md r =>
        taylorInt c.oTi dT (fun n => (derivs c 1 G S SA src rf e0 a0 n).2 rm q md r))) := by
  have hinh : Inhabited K := ⟨0⟩
  let D := derivs c 1 G S SA src rf e0 a0
  obtain ⟨m0, i0, i1, i2, i3, i4, i5⟩ := ckInit_spec (dT := dT) hs he ha (E := fun n => (D n).1) (A := fun n => (D n).2) rfl rfl hm
  obtain ⟨⟨m', sca⟩, h0, h1, h2, h3, h4, h5, -⟩ := forN_inv (n := c.oTi - 1) (s := (m0, dT)) (body := fun i (s : CkMem K × K) => do
    let m := s.1
    let de := i + 1
    let re := if c.nRms = 0 then de else 1
    let dE ← rd m.derE de
    let dE ← loop3 c.nQtsE c.nMds c.nCrs (fun qt md cr (d : List K) => wr d (at3 c.nMds c.nCrs qt md cr) 0) dE
    let ls : List K := List.replicate (c.nQtsM * c.nMds * c.nCrs) 0
    let prev ← rd m.derE (de - 1)
    let (scratch, dE, ls) ← ckDims c stiffT starE starA re prev (m.scratch, dE, ls)
    let sca := s.2 * (dT / (de + 1 : Nat))
    let (dE, derA, tIntA) ← ckAn c sca srcA rfs de ls (dE, m.derA, m.tIntA)
    let derE ← wr m.derE de dE
    let tIntE ← loop3 c.nQtsE (if c.nRms = 0 then c.ck de else c.nMds) c.nCrs (fun qt md cr t => do
      let x ← rd t (at3 c.nMds c.nCrs qt md cr)
      let y ← rd dE (at3 c.nMds c.nCrs qt md cr)
      wr t (at3 c.nMds c.nCrs qt md cr) (x + sca * y)) m.tIntE
    some (⟨derE, derA, tIntE, tIntA, scratch⟩, sca))
    (fun i s => DersE c (fun n => (D n).1) (i + 1) s.1.derE ∧ DersA c (fun n => (D n).2) (fun _ => i + 1) s.1.derA ∧
      Rep c.nQtsE c.nMds c.nCrs s.1.tIntE (fun q md r => taylorInt (i + 1) dT (fun n => (D n).1 q md r)) ∧
      PerRm c (fun rm q md r => taylorInt (i + 1) dT (fun n => (D n).2 rm q md r)) s.1.tIntA ∧
      s.1.scratch.length = c.nQtsE * c.nMds * c.nCrs ∧ s.2 = dT ^ (i + 1) / ((i + 1).factorial : K))
    ⟨i1, i2, i3.congr (by intros; simp only [taylorInt, zero_add, sum_range_one, pow_one, Nat.factorial_one, Nat.cast_one, div_one]; rfl), i4.congr (by intros; simp only [taylorInt, zero_add, sum_range_one, pow_one, Nat.factorial_one, Nat.cast_one, div_one]; rfl), i5, by simp⟩ (by
    rintro i ⟨m, sca⟩ hi ⟨h1, h2, h3, h4, h5, h6⟩
    dsimp only at h1 h2 h3 h4 h5 h6
    have hio : i + 1 < c.oTi := by omega
    obtain ⟨dE, hdE, ldE⟩ := h1.1.get hio
    obtain ⟨prev, hprev, rprev⟩ := h1.2 i (by omega)
    have e := sca_step dT i 1
    rw [← h6] at e
    -- zeroed derivative
    obtain ⟨dE0, z0, z1⟩ := loop3_spec (rep_of_length ldE) le_rfl le_rfl (fun _ _ _ _ => (0 : K))
      (body := fun qt md cr (d : List K) => wr d (at3 c.nMds c.nCrs qt md cr) 0)
      (fun q md r l' _ _ _ hl _ => wr_some hl _)
    have z1' : Rep c.nQtsE c.nMds c.nCrs dE0 (fun _ _ _ => (0 : K)) := z1.congr fun q md r k1 k2 _ => by simp [k1, k2]
    -- products
    obtain ⟨⟨sc', dE1, ls'⟩, p0, p1, p2, p3⟩ := ckDims_spec hs hG hm3.starE hm3.starA (re := if c.nRms = 0 then i + 1 else 1)
      (fun h => if_neg (by omega)) rprev h5 z1' (rep_replicate c.nQtsM c.nMds c.nCrs (0 : K))
    dsimp only at p1 p2 p3
    have hz : c.nRms = 0 → ∀ q md r, c.ck i ≤ md → md < c.nMds → (D i).1 q md r = 0 := fun hr =>
      derivs_zero hs hr hh i (by omega)
    have p2' : Rep c.nQtsE c.nMds c.nCrs dE1 (fun q md r => ∑ di ∈ range c.nDis, ∑ p ∈ range c.nQtsE, S di q p *
        ∑ m ∈ range c.nMds, (D i).1 p m r * G di m md) := p2.congr fun q md r _ k2 _ => by
      rw [zero_add]
      by_cases hc : md < c.ck (if c.nRms = 0 then i + 1 else 1)
      · rw [if_pos hc]
        refine sum_congr rfl fun di hdi => sum_congr rfl fun p _ => ?_
        rw [← trunc_sum hs hh hio hz (mem_range.1 hdi) k2, if_pos hc]
      · rw [if_neg hc]
        refine (sum_eq_zero fun di hdi => sum_eq_zero fun p _ => ?_).symm
        rw [← trunc_sum hs hh hio hz (mem_range.1 hdi) k2, if_neg hc, mul_zero]
    have p3' : 0 < c.nRms → Rep c.nQtsM c.nMds c.nCrs ls' (fun q md r => ∑ di ∈ range c.nDis, ∑ d ∈ range c.nDis, SA di q d *
        ∑ m ∈ range c.nMds, (D i).1 (c.nQtsM + d) m r * G di m md) := fun hr => p3.congr fun q md r _ k2 _ => by
      rw [zero_add]
      have hr' : ¬ c.nRms = 0 := by omega
      have e1 : (if c.nRms = 0 then i + 1 else 1) = 1 := if_neg hr'
      by_cases hc : md < c.ck 1
      · rw [if_pos ⟨hr, hc⟩]
        refine sum_congr rfl fun di hdi => sum_congr rfl fun p _ => ?_
        rw [← trunc_sum hs hh hio hz (mem_range.1 hdi) k2, e1, if_pos hc]
      · rw [if_neg (fun h => hc h.2)]
        refine (sum_eq_zero fun di hdi => sum_eq_zero fun p _ => ?_).symm
        rw [← trunc_sum hs hh hio hz (mem_range.1 hdi) k2, e1, if_neg hc, mul_zero]
    -- anelastic part
    obtain ⟨⟨dE2, derA', tIntA'⟩, q0, q1, q2, q3⟩ := ckAn_spec (sca := sca * (dT / ((i + 1 + 1 : Nat) : K))) hs hm3.srcA hm3.rfs
      (de := i + 1) (by omega) hio p3 p2' h2 (by
        intro rm q md r hrm k1 k2 k3
        rw [p3.unique (p3' (by omega)) k1 k2 k3, Nat.add_sub_cancel]
        show rhsA c 1 G SA rf _ _ rm q md r = _
        rw [rhsA, one_mul]) h4
    dsimp only at q1 q2 q3
    rw [Nat.add_sub_cancel] at q1
    have q1' : Rep c.nQtsE c.nMds c.nCrs dE2 (D (i + 1)).1 := q1
    obtain ⟨w1, w2⟩ := h1.set hio q1'
    obtain ⟨t', x0, x1⟩ := axpy3 (sca := sca * (dT / ((i + 1 + 1 : Nat) : K)))
      (n := if c.nRms = 0 then c.ck (i + 1) else c.nMds) h3 q1' (by split; exacts [hs.ckLe _, le_rfl])
    refine ⟨(⟨m.derE.set (i + 1) dE2, derA', t', tIntA', sc'⟩, sca * (dT / ((i + 1 + 1 : Nat) : K))), ?_, w2, q2, ?_, ?_, p1, e⟩
    · simp only [Option.bind_eq_bind, Nat.add_sub_cancel] at z0 p0 q0 x0 ⊢
      rw [hdE, Option.bind_some, z0, Option.bind_some, hprev, Option.bind_some, p0, Option.bind_some, q0, Option.bind_some,
        w1, Option.bind_some, x0, Option.bind_some]
    · refine x1.congr fun q md r k1 k2 k3 => ?_
      simp only [taylorInt]
      rw [sum_range_succ _ (i + 1), e]
      congr 1
      by_cases hr : c.nRms = 0
      · by_cases hm : md < c.ck (i + 1)
        · simp [hr, hm]
        · have : (D (i + 1)).1 q md r = 0 := derivs_zero hs hr hh (i + 1) hio q md r (by omega) k2
          simp [hr, hm, this]
      · simp [hr, k2]
    · refine q3.congr fun rm q md r _ _ _ _ => ?_
      simp only [taylorInt]
      rw [sum_range_succ _ (i + 1), e])
  have ho : c.oTi - 1 + 1 = c.oTi := by have := hs.ord; omega
  dsimp only at h1 h2 h3 h4 h5
  rw [ho] at h1 h2 h3 h4
  refine ⟨m', ?_, ⟨h1.1, ⟨h2.1, fun rm hrm => ?_⟩, h3.1, ⟨h4.1, fun rm hrm => ?_⟩, h5⟩, h1.2, fun rm hrm => ?_, h3, fun rm hrm => ?_⟩
  · simp only [ck, Option.bind_eq_bind] at h0 ⊢
    rw [i0, Option.bind_some, h0, Option.bind_some]
  · obtain ⟨dA, x1, x2, -⟩ := h2.2 rm hrm
    exact ⟨dA, x1, x2⟩
  · obtain ⟨t, x1, x2⟩ := h4.2 rm hrm
    exact ⟨t, x1, x2.1⟩
  · obtain ⟨dA, x1, -, x3⟩ := h2.2 rm hrm
    exact ⟨dA, x1, x3⟩
  · exact h4.2 rm hrm

/-- The relaxation does not matter without mechanisms. -/
theorem derivs_relax {c : Cfg} (hr : c.nRms = 0) (relax relax' : K) {G S SA src : Nat → Nat → Nat → K} {rf : Nat → K}
    {e0 : Nat → Nat → Nat → K} {a0 : Nat → Nat → Nat → Nat → K} (n : Nat) :
    (derivs c relax G S SA src rf e0 a0 n).1 = (derivs c relax' G S SA src rf e0 a0 n).1 := by
  induction n with
  | zero => rfl
  | succ n ih =>
    show rhsE c G S src _ _ = rhsE c G S src _ _
    funext q md r
    simp only [rhsE, hr, range_zero, sum_empty, ih]

/-- C74: the volume integration adds the right-hand side of the equations with *decaying* relaxation (`relax = -1`), applied to
the time integrated degrees of freedom, for all sizes, fused runs and relaxation mechanisms. Only the modes which the stiffness
matrices use are read. -/
theorem C74_volInt {c : Cfg} (hs : Sizes c) {stiff starE starA srcA : List (List K)} {rfs : List K}
    {G S SA src : Nat → Nat → Nat → K} {rf : Nat → K} (hG : Mats c.nDis c.nMds c.nMds c.nMds stiff G)
    (hz : ∀ di m md, di < c.nDis → c.ck 1 ≤ m → m < c.nMds → md < c.nMds → G di m md = 0)
    (hm3 : Mats3 c starE starA srcA rfs S SA src rf) {tE dofsE scratch : List K} {tA dofsA : List (List K)}
    {e d : Nat → Nat → Nat → K} {a da : Nat → Nat → Nat → Nat → K} (he : Rep c.nQtsE c.nMds c.nCrs tE e)
    (ha : PerRm c a tA) (hd : Rep c.nQtsE c.nMds c.nCrs dofsE d) (hda : PerRm c da dofsA)
    (hsc : scratch.length = c.nQtsE * c.nMds * c.nCrs) :
    ∃ E' A' s', volInt c stiff starE starA srcA rfs tE tA dofsE dofsA scratch = some (E', A', s') ∧
      Rep c.nQtsE c.nMds c.nCrs E' (fun q md r => d q md r + rhsE c G S src e a q md r) ∧
      PerRm c (fun rm q md r => da rm q md r + rhsA c (-1) G SA rf e a rm q md r) A' := by
  have hinh : Inhabited K := ⟨0⟩
  have hqts := hs.qts
  have htr : ∀ di p md r, di < c.nDis → md < c.nMds →
      ∑ m ∈ range (c.ck 1), e p m r * G di m md = ∑ m ∈ range c.nMds, e p m r * G di m md := fun di p md r h1 h2 =>
    sum_subset (fun x hx => mem_range.2 (lt_of_lt_of_le (mem_range.1 hx) (hs.ckLe _))) fun m hm hn => by
      rw [hz di m md h1 (by simpa using hn) (mem_range.1 hm) h2, mul_zero]
  obtain ⟨⟨sc, dE, ls⟩, h0, -, h2, h3⟩ := forN_inv (n := c.nDis)
    (s := (scratch, dofsE, List.replicate (c.nQtsM * c.nMds * c.nCrs) (0 : K)))
    (body := fun di (s : List K × List K × List K) => do
    let st ← rd stiff di
    let scratch ← matMulFusedAC c.nCrs c.nQtsE c.nMds (c.ck 1) c.nMds c.nMds c.nMds 1 0 tE st s.1
    let sE ← rd starE di
    let dofsE ← matMulFusedBC c.nCrs c.nQtsE c.nMds c.nQtsE c.nQtsE c.nMds c.nMds 1 1 sE scratch s.2.1
    let ls ← if c.nRms > 0 then do
        let sA ← rd starA di
        matMulFusedBC c.nCrs c.nQtsM c.nMds c.nDis c.nDis c.nMds c.nMds 1 1 sA
          (scratch.drop (at3 c.nMds c.nCrs c.nQtsM 0 0)) s.2.2
      else some s.2.2
    some (scratch, dofsE, ls))
    (fun n s => s.1.length = c.nQtsE * c.nMds * c.nCrs ∧
      Rep c.nQtsE c.nMds c.nCrs s.2.1 (fun q md r => d q md r +
        ∑ di ∈ range n, ∑ p ∈ range c.nQtsE, S di q p * ∑ m ∈ range c.nMds, e p m r * G di m md) ∧
      Rep c.nQtsM c.nMds c.nCrs s.2.2 (fun q md r => if 0 < c.nRms then
        ∑ di ∈ range n, ∑ d ∈ range c.nDis, SA di q d * ∑ m ∈ range c.nMds, e (c.nQtsM + d) m r * G di m md else 0))
    ⟨hsc, hd.congr (by intros; simp), (rep_replicate c.nQtsM c.nMds c.nCrs (0 : K)).congr (by intros; simp)⟩ (by
    rintro di ⟨sc, dE, ls⟩ hdi ⟨h1, h2, h3⟩
    dsimp only at h1 h2 h3
    obtain ⟨st, hst, mst⟩ := hG di hdi
    obtain ⟨sE, hsE, msE⟩ := hm3.starE di hdi
    obtain ⟨sc', a0, a1⟩ := mmAC (Q := c.nQtsE) (n := c.nMds) (k := c.ck 1) (ldB := c.nMds) (beta := (0 : K)) he
      (fun i j hi hj => mst i j (lt_of_lt_of_le hi (hs.ckLe _)) hj) (rep_of_length h1) le_rfl (hs.ckLe _) le_rfl le_rfl
    have a1' : Rep c.nQtsE c.nMds c.nCrs sc' (fun q md r => ∑ m ∈ range c.nMds, e q m r * G di m md) :=
      a1.congr fun q md r k1 k2 _ => by simp only [k1, k2, and_self, if_true, zero_mul, zero_add, htr di q md r hdi k2]
    obtain ⟨dE', b0, b1⟩ := mmBC0 (n := c.nMds) (beta := (1 : K)) msE a1' h2 le_rfl le_rfl le_rfl
    have b1' : Rep c.nQtsE c.nMds c.nCrs dE' (fun q md r => d q md r +
        ∑ di ∈ range (di + 1), ∑ p ∈ range c.nQtsE, S di q p * ∑ m ∈ range c.nMds, e p m r * G di m md) :=
      b1.congr fun q md r k1 k2 _ => by
        simp only [k1, k2, and_self, if_true, one_mul, sum_range_succ _ di, add_assoc]
    by_cases hr : 0 < c.nRms
    · obtain ⟨sA, hsA, msA⟩ := hm3.starA hr di hdi
      obtain ⟨ls', g0, g1⟩ := mmBC (n := c.nMds) (off := c.nQtsM) (beta := (1 : K)) msA a1' h3 hqts le_rfl le_rfl
      refine ⟨(sc', dE', ls'), ?_, a1.1, b1', g1.congr fun q md r k1 k2 _ => ?_⟩
      · simp only [hst, hsE, hsA, Option.bind_eq_bind, Option.bind_some, hr, if_true, gt_iff_lt]
        rw [a0, Option.bind_some, b0, Option.bind_some, g0, Option.bind_some]
      · simp only [k1, k2, hr, and_self, if_true, one_mul, sum_range_succ _ di]
    · refine ⟨(sc', dE', ls), ?_, a1.1, b1', h3.congr fun q md r _ _ _ => ?_⟩
      · simp only [hst, hsE, Option.bind_eq_bind, Option.bind_some, hr, if_false, gt_iff_lt]
        rw [a0, Option.bind_some, b0, Option.bind_some]
      · simp [hr])
  dsimp only at h2 h3
  obtain ⟨⟨E', A'⟩, g0, g1, g2⟩ := forN_inv (n := c.nRms) (s := (dE, dofsA)) (body := fun rm (s : List K × List (List K)) => do
    let src ← rd srcA rm
    let tA ← rd tA rm
    let dofsE ← matMulFusedBC c.nCrs c.nQtsM c.nMds c.nQtsM c.nQtsM c.nMds c.nMds 1 1 src tA s.1
    let rf ← rd rfs rm
    let d ← rd s.2 rm
    let d ← loop3 c.nQtsM c.nMds c.nCrs (fun qt md cr d => do
      let x ← rd d (at3 c.nMds c.nCrs qt md cr)
      let l ← rd ls (at3 c.nMds c.nCrs qt md cr)
      let t ← rd tA (at3 c.nMds c.nCrs qt md cr)
      wr d (at3 c.nMds c.nCrs qt md cr) (x + rf * (l - t))) d
    let dofsA ← wr s.2 rm d
    some (dofsE, dofsA))
    (fun n s => Rep c.nQtsE c.nMds c.nCrs s.1 (fun q md r => (d q md r +
        ∑ di ∈ range c.nDis, ∑ p ∈ range c.nQtsE, S di q p * ∑ m ∈ range c.nMds, e p m r * G di m md) +
        if q < c.nQtsM then ∑ rm ∈ range n, ∑ p ∈ range c.nQtsM, src rm q p * a rm p md r else 0) ∧
      PerRm c (fun rm q md r => if rm < n then da rm q md r + rhsA c (-1) G SA rf e a rm q md r else da rm q md r) s.2)
    ⟨h2.congr (by intros; simp), hda.congr (by intros; simp)⟩ (by
    rintro rm ⟨dE, dofsA⟩ hrm ⟨h1, h4⟩
    dsimp only at h1 h4
    obtain ⟨sr, hsr, msr⟩ := hm3.srcA rm hrm
    obtain ⟨t, ht, rt⟩ := ha.2 rm hrm
    obtain ⟨x, hx, rx⟩ := h4.2 rm hrm
    simp only [lt_irrefl, if_false] at rx
    obtain ⟨dE', b0, b1⟩ := mmBC0 (n := c.nMds) (beta := (1 : K)) msr rt h1 le_rfl (by omega) le_rfl
    obtain ⟨x', l0, l1⟩ := loop3_spec rx le_rfl le_rfl (fun q md r y => y + rhsA c (-1) G SA rf e a rm q md r)
      (body := fun qt md cr d => do
      let x ← rd d (at3 c.nMds c.nCrs qt md cr)
      let l ← rd ls (at3 c.nMds c.nCrs qt md cr)
      let t ← rd t (at3 c.nMds c.nCrs qt md cr)
      wr d (at3 c.nMds c.nCrs qt md cr) (x + rf rm * (l - t))) (fun q md r l' k1 k2 k3 hl hx => by
        simp only [Option.bind_eq_bind]
        rw [rd, hx, Option.bind_some, h3.rd k1 k2 k3, Option.bind_some, rt.rd k1 k2 k3, Option.bind_some, wr_some hl]
        have : 0 < c.nRms := by omega
        simp only [rhsA, this, if_true, neg_one_mul, ← sub_eq_add_neg])
    obtain ⟨v1, v2⟩ := h4.set (g := fun rm' q md r => if rm' < rm + 1 then da rm' q md r + rhsA c (-1) G SA rf e a rm' q md r
        else da rm' q md r) hrm (t := x') (l1.congr fun q md r k1 k2 k3 => by simp [k1, k2]) (by
        intro rm' hne
        funext q md r
        by_cases hlt : rm' < rm
        · rw [if_pos hlt, if_pos (by omega)]
        · rw [if_neg hlt, if_neg (by omega)])
    refine ⟨(dE', dofsA.set rm x'), ?_, ?_, v2⟩
    · simp only [Option.bind_eq_bind] at l0 ⊢
      rw [hsr, Option.bind_some, ht, Option.bind_some, b0, Option.bind_some, hm3.rfs rm hrm, Option.bind_some, hx,
        Option.bind_some, l0, Option.bind_some, v1, Option.bind_some]
    · refine b1.congr fun q md r k1 k2 k3 => ?_
      by_cases hq : q < c.nQtsM
      · simp only [hq, k2, and_self, if_true, one_mul, sum_range_succ _ rm, add_assoc]
      · simp [hq])
  refine ⟨E', A', sc, ?_, g1.congr fun q md r _ _ _ => ?_, g2.congr fun rm q md r hrm _ _ _ => by simp [hrm]⟩
  · simp only [volInt, Option.bind_eq_bind] at h0 g0 ⊢
    rw [h0, Option.bind_some, g0, Option.bind_some]
  · rw [rhsE, add_assoc]

end Edge.Dg
