import Verif.Fused.Eq
/-!
The fused volume integration computes the same as the vanilla one.
-/
namespace Edge.Fused
open Edge Edge.Linalg Edge.Dg

variable {K : Type} [Field K] [LinearOrder K] [IsStrictOrderedRing K]

/-- Setting of the volume integration. -/
structure VolSet (c : Cfg) (ev : Env K) (pt : Pats) (st stV starE starA srcA sE sA sS : List (List K)) (G : Nat → Nat → Nat → K) (tp : Prep K) : Prop where
  dims : Dims c.nDis c.nQtsE c.nQtsM
  ckLe : c.ck 1 ≤ c.nMds
  pat : PatOk K c.nDis c.nQtsE c.nQtsM pt
  dense : Mats c.nDis c.nMds c.nMds c.nMds st G
  clean : ∀ di < c.nDis, Clean ev c.nMds c.nMds (G di)
  van : Mats c.nDis c.nMds c.nMds c.nMds stV G
  tp : VolOk c ev pt st tp
  star : SparseAll (starEPos c.nDis) c.nDis c.nQtsE c.nQtsE starE sE
  starA : 0 < c.nRms → SparseAll (starAPos c.nDis) c.nDis c.nQtsM c.nDis starA sA
  src : SparseAll (srcPos c.nDis) c.nRms c.nQtsM c.nQtsM srcA sS

/-- Rows of the stiffness matrices beyond the modes of the first derivative are zero. -/
theorem VolSet.zero {c : Cfg} {ev : Env K} {pt : Pats} {st stV starE starA srcA sE sA sS : List (List K)} {G : Nat → Nat → Nat → K} {tp : Prep K}
    (hS : VolSet c ev pt st stV starE starA srcA sE sA sS G tp) {di : Nat} (hdi : di < c.nDis) {r j : Nat} (h1 : c.ck 1 ≤ r) (hr : r < c.nMds) (hj : j < c.nMds) :
    G di r j = 0 := by
  obtain ⟨a, t1, hG⟩ := hS.dense di hdi
  exact (hS.clean di hdi r j hr hj).2 (hS.tp.rows di hdi a (G di) t1 hG r j hr hj h1)

theorem sum_cut {n k : Nat} (h : k ≤ n) {f : Nat → K} (hz : ∀ l, k ≤ l → l < n → f l = 0) : ∑ l ∈ Finset.range n, f l = ∑ l ∈ Finset.range k, f l := by
  symm
  refine Finset.sum_subset (fun l hl => Finset.mem_range.2 (lt_of_lt_of_le (Finset.mem_range.1 hl) h)) fun l hl hl' => hz l ?_ (Finset.mem_range.1 hl)
  exact not_lt.1 fun h => hl' (Finset.mem_range.2 h)

omit [Field K] [LinearOrder K] [IsStrictOrderedRing K] in
theorem at3_bound {Q M R i j q : Nat} (hi : i < Q) (hj : j < M) (hq : q < R) : at3 M R i j q < Q * M * R := by
  have h1 := mad_lt hi hj
  have h2 := mad_lt h1 hq
  unfold at3
  rw [← Nat.add_mul]
  exact h2

/-- A dimension without relaxation mechanisms: the order of the products is different. -/
theorem volDim_el {c : Cfg} {ev : Env K} {pt : Pats} {st stV starE starA srcA sE sA sS : List (List K)} {G : Nat → Nat → Nat → K} {tp : Prep K}
    (hS : VolSet c ev pt st stV starE starA srcA sE sA sS G tp) (hr : c.nRms = 0) {di : Nat} (hdi : di < c.nDis) {t sc scF dofs x1 x2 sV dS : List K}
    (hl : scF.length = sc.length) (b1 : rd stV di = some sV) (b2 : matMulFusedAC c.nCrs c.nQtsE c.nMds (c.ck 1) c.nMds c.nMds c.nMds 1 0 t sV sc = some x1)
    (b3 : rd starE di = some dS) (b4 : matMulFusedBC c.nCrs c.nQtsE c.nMds c.nQtsE c.nQtsE c.nMds c.nMds 1 1 dS x1 dofs = some x2) :
    ∃ s xF v, rd sE di = some s ∧ callKern tp.gs 1 0 c.nCrs s t scF = some xF ∧ rd tp.mats di = some v ∧ callKern tp.gs 0 di c.nCrs xF v dofs = some x2 ∧
      xF.length = x1.length := by
  obtain ⟨q1, q2, q3⟩ := hS.dims.qts
  have hck := hS.ckLe
  have hpos := hS.tp.pos
  obtain ⟨ad, m, vals, t1, t2, t3, t4, t5⟩ := hS.tp.csc di hdi
  obtain ⟨ad', t1', hG⟩ := hS.dense di hdi
  rw [t1'] at t1
  cases t1
  obtain ⟨sV', t6, hV⟩ := hS.van di hdi
  rw [t6] at b1
  cases b1
  obtain ⟨dS', s, t7, t8, t9⟩ := hS.star di hdi
  rw [t7] at b3
  cases b3
  have hV' : Mat (c.ck 1) c.nMds c.nMds sV (G di) := fun i j hi hj => hV i j (lt_of_lt_of_le hi hck) hj
  obtain ⟨y0, y1, -⟩ := ac_char le_rfl hV' b2
  obtain ⟨-, z1, z2⟩ := ac_reads b2
  obtain ⟨-, w1, w2⟩ := bc_char le_rfl t9.mat b4
  obtain ⟨-, v1, -⟩ := bc_reads b4
  have hst := hS.tp.star
  simp only [hr, if_true] at hst t5
  obtain ⟨xF, f0, f1, f2, -⟩ := csr_run (kn := ⟨true, pt.starE.ptr, pt.starE.idx, c.nQtsE, c.ck 1, 0, c.nMds, c.ck 1, 0⟩) rfl (r := c.nCrs) (b := t) (c := scF)
    rfl rfl rfl rfl rfl le_rfl (hS.pat.starE _ _ t9) (fun l hl' j hj q hq => z2 l hl' j hj q hq (by omega))
    (fun i hi j hj q hq => by rw [hl]; exact lt_of_le_of_lt (at3_le hck) (z1 i hi j (lt_of_lt_of_le hj hck) q hq))
  obtain ⟨d, d0, -, d2, d3⟩ := csc_run (kn := ⟨false, m.ptr, m.idx, c.nQtsE, c.nMds, c.ck 1, 0, c.nMds, 1⟩) rfl (r := c.nCrs) (k := c.nMds) (a := xF) (vals := vals)
    (c := dofs) (B := fun i j => 1 * G di i j) rfl rfl rfl rfl rfl le_rfl
    (fun j hj => csc_line hG (Mat.le hG) (hS.clean di hdi) (sr := none) (sc := none) le_rfl le_rfl t2 (fun p x hx => by rw [one_mul]; exact t4 p x hx) hj)
    (fun i hi l hl' q hq => by
      rw [f1, hl]
      exact lt_of_le_of_lt (at3_le hck) (z1 i hi l hl' q hq)) v1
  refine ⟨s, xF, vals, t8, by rw [callKern_eq hst, f0], t3, ?_, f1.trans (hl.trans y0.symm)⟩
  rw [callKern_eq t5, d0, part_ext (fun q i j hq hi hj => ?_) d3 w1 w2]
  rw [d2 q i j hq hi hj]
  congr 2
  rw [sum_cut hck (fun l h1 h2 => by rw [hS.zero hdi h1 h2 hj]; simp)]
  have e1 : ∀ l ∈ Finset.range (c.ck 1), val xF (at3 (c.ck 1) c.nCrs i l q) * (1 * G di l j) =
      ∑ l' ∈ Finset.range c.nQtsE, val dS (i * c.nQtsE + l') * (val t (at3 c.nMds c.nCrs l' l q) * G di l j) := by
    intro l hl'
    rw [val_of (f2 q i l hq hi (Finset.mem_range.1 hl')), zero_mul, zero_add, one_mul, Finset.sum_mul]
    exact Finset.sum_congr rfl fun _ _ => mul_assoc _ _ _
  rw [Finset.sum_congr rfl e1, Finset.sum_comm]
  refine Finset.sum_congr rfl fun l' hl' => ?_
  rw [val_of (y1 q l' j hq (Finset.mem_range.1 hl') hj), zero_mul, zero_add, Finset.mul_sum]

/-- A dimension with relaxation mechanisms. -/
theorem volDim_an {c : Cfg} {ev : Env K} {pt : Pats} {st stV starE starA srcA sE sA sS : List (List K)} {G : Nat → Nat → Nat → K} {tp : Prep K}
    (hS : VolSet c ev pt st stV starE starA srcA sE sA sS G tp) (hr : 0 < c.nRms) {di : Nat} (hdi : di < c.nDis) {t sc scF dofs ls x1 x2 x3 sV dS dA : List K}
    (ht : t.length = c.nQtsE * c.nMds * c.nCrs) (hl : scF.length = sc.length) (b1 : rd stV di = some sV)
    (b2 : matMulFusedAC c.nCrs c.nQtsE c.nMds (c.ck 1) c.nMds c.nMds c.nMds 1 0 t sV sc = some x1)
    (b3 : rd starE di = some dS) (b4 : matMulFusedBC c.nCrs c.nQtsE c.nMds c.nQtsE c.nQtsE c.nMds c.nMds 1 1 dS x1 dofs = some x2) (b5 : rd starA di = some dA)
    (b6 : matMulFusedBC c.nCrs c.nQtsM c.nMds c.nDis c.nDis c.nMds c.nMds 1 1 dA (x1.drop (at3 c.nMds c.nCrs c.nQtsM 0 0)) ls = some x3) :
    ∃ v xF s a, rd tp.mats di = some v ∧ callKern tp.gs 0 di c.nCrs t v scF = some xF ∧ rd sE di = some s ∧ callKern tp.gs 1 0 c.nCrs s xF dofs = some x2 ∧
      rd sA di = some a ∧ callKern tp.gs 2 0 c.nCrs a xF ls = some x3 ∧ xF.length = x1.length := by
  obtain ⟨q1, q2, q3⟩ := hS.dims.qts
  have hck := hS.ckLe
  obtain ⟨ad, m, vals, t1, t2, t3, t4, t5⟩ := hS.tp.csc di hdi
  obtain ⟨ad', t1', hG⟩ := hS.dense di hdi
  rw [t1'] at t1
  cases t1
  obtain ⟨sV', t6, hV⟩ := hS.van di hdi
  rw [t6] at b1
  cases b1
  obtain ⟨dS', s, t7, t8, t9⟩ := hS.star di hdi
  rw [t7] at b3
  cases b3
  obtain ⟨dA', s', u4, u5, u6⟩ := hS.starA hr di hdi
  rw [u4] at b5
  cases b5
  have hV' : Mat (c.ck 1) c.nMds c.nMds sV (G di) := fun i j hi hj => hV i j (lt_of_lt_of_le hi hck) hj
  obtain ⟨y0, y1, -⟩ := ac_char le_rfl hV' b2
  obtain ⟨-, z1, z2⟩ := ac_reads b2
  have hst := hS.tp.star
  have hne : c.nRms ≠ 0 := by omega
  simp only [hne, if_false] at hst t5
  obtain ⟨xF, f0, f1, f2, -⟩ := csc_run (kn := ⟨false, m.ptr, m.idx, c.nQtsE, c.nMds, c.nMds, 0, c.nMds, 0⟩) rfl (r := c.nCrs) (k := c.nMds) (a := t) (vals := vals)
    (c := scF) (B := fun i j => 1 * G di i j) rfl rfl rfl rfl rfl le_rfl
    (fun j hj => csc_line hG (Mat.le hG) (hS.clean di hdi) (sr := none) (sc := none) le_rfl le_rfl t2 (fun p x hx => by rw [one_mul]; exact t4 p x hx) hj)
    (fun i hi l hl' q hq => by rw [ht]; exact at3_bound hi hl' hq) (fun i hi j hj q hq => by rw [hl]; exact z1 i hi j hj q hq)
  have hval : ∀ i < c.nQtsE, ∀ j < c.nMds, ∀ q < c.nCrs, val xF (at3 c.nMds c.nCrs i j q) = val x1 (at3 c.nMds c.nCrs i j q) := by
    intro i hi j hj q hq
    rw [val_of (f2 q i j hq hi hj), val_of (y1 q i j hq hi hj), sum_cut hck (fun l h1 h2 => by rw [hS.zero hdi h1 h2 hj]; simp)]
    simp
  have hlenF : ∀ i < c.nQtsE, ∀ j < c.nMds, ∀ q < c.nCrs, at3 c.nMds c.nCrs i j q < xF.length := fun i hi j hj q hq =>
    (List.getElem?_eq_some_iff.1 (f2 q i j hq hi hj)).1
  have k1 := csr_same (kn := ⟨true, pt.starE.ptr, pt.starE.idx, c.nQtsE, c.nMds, 0, c.nMds, c.nMds, 1⟩) rfl (b' := xF) (ldB' := c.nMds) rfl rfl rfl rfl rfl le_rfl t9.mat
    (hS.pat.starE _ _ t9) hlenF (fun q i j hq hi hj => Finset.sum_congr rfl fun l hl' => by rw [hval l (Finset.mem_range.1 hl') j hj q hq]) b4
  have k2 := csr_same (kn := ⟨true, pt.starA.ptr, pt.starA.idx, c.nQtsM, c.nMds, 0, c.nMds, c.nMds, 1⟩) rfl (b' := xF) (ldB' := c.nMds) rfl rfl rfl rfl rfl le_rfl u6.mat
    (hS.pat.starA _ _ u6) (by rw [q1]; exact hlenF) (fun q i j hq hi hj => by
      rw [Finset.sum_range_add, Finset.sum_eq_zero (s := Finset.range c.nQtsM), zero_add]
      · refine Finset.sum_congr rfl fun l hl' => ?_
        rw [if_pos (by omega), val_drop, hval (c.nQtsM + l) (by have := Finset.mem_range.1 hl'; omega) j hj q hq, Nat.add_sub_cancel_left]
        congr 2
        simp only [at3]
        ring
      · intro l hl'
        rw [if_neg (by have := Finset.mem_range.1 hl'; omega), zero_mul]) b6
  exact ⟨vals, xF, s, s', t3, by rw [callKern_eq t5, f0], t8, by rw [callKern_eq hst, k1], u5, by rw [callKern_eq (hS.tp.an hr).2.1, k2], f1.trans (hl.trans y0.symm)⟩

/-- The volume integration. -/
theorem volInt_eq {c : Cfg} {ev : Env K} {pt : Pats} {st stV starE starA srcA sE sA sS : List (List K)} {G : Nat → Nat → Nat → K} {tp : Prep K}
    (hS : VolSet c ev pt st stV starE starA srcA sE sA sS G tp) {rfs t : List K} {tA : List (List K)} {dofsE : List K} {dofsA : List (List K)} {sc scF : List K}
    (ht : 0 < c.nRms → t.length = c.nQtsE * c.nMds * c.nCrs) (hl : scF.length = sc.length) {dofsE' : List K} {dofsA' : List (List K)} {sc' : List K}
    (h : volInt c stV starE starA srcA rfs t tA dofsE dofsA sc = some (dofsE', dofsA', sc')) :
    ∃ scF', volIntF c tp sE sA sS rfs t tA dofsE dofsA scF = some (dofsE', dofsA', scF') ∧ scF'.length = sc'.length := by
  obtain ⟨q1, q2, q3⟩ := hS.dims.qts
  simp only [volInt, Option.bind_eq_bind, Option.bind_eq_some_iff] at h
  obtain ⟨⟨sc1, e1, ls1⟩, h1, ⟨e2, a2⟩, h2, h3⟩ := h
  cases h3
  -- dimensions
  have hdim : ∀ scF0 : List K, scF0.length = sc.length → ∃ scF1, volDimsF c tp sE sA t (scF0, dofsE, List.replicate (c.nQtsM * c.nMds * c.nCrs) 0) = some (scF1, e1, ls1) ∧
      scF1.length = sc1.length := by
    intro scF0 hl0
    refine Exists.elim (forN_rel (s := (sc, dofsE, List.replicate (c.nQtsM * c.nMds * c.nCrs) 0)) (t := (scF0, dofsE, List.replicate (c.nQtsM * c.nMds * c.nCrs) 0)) (b2 := fun di (s : List K × List K × List K) =>
      if c.nRms = 0 then do
        let sE ← rd sE di
        let scratch ← callKern tp.gs 1 0 c.nCrs sE t s.1
        let st ← rd tp.mats di
        let dofsE ← callKern tp.gs 0 di c.nCrs scratch st s.2.1
        some (scratch, dofsE, s.2.2)
      else do
        let st ← rd tp.mats di
        let scratch ← callKern tp.gs 0 di c.nCrs t st s.1
        let sE ← rd sE di
        let dofsE ← callKern tp.gs 1 0 c.nCrs sE scratch s.2.1
        let sA ← rd sA di
        let ls ← callKern tp.gs 2 0 c.nCrs sA scratch s.2.2
        some (scratch, dofsE, ls))
      (fun _ (u v : List K × List K × List K) => v.1.length = u.1.length ∧ v.2.1 = u.2.1 ∧ v.2.2 = u.2.2) ⟨hl0, rfl, rfl⟩ ?hs h1) ?fin
    case fin =>
      rintro ⟨a, b, e⟩ ⟨g1, g2, g3, g4⟩
      simp only at g2 g3 g4
      subst g3 g4
      exact ⟨a, g1, g2⟩
    rintro di ⟨u1, u2, u3⟩ ⟨w1, w2, w3⟩ ⟨v1, v2, v3⟩ hdi ⟨hl, e1, e2⟩ hb
    simp only at hl e1 e2
    subst e1 e2
    simp only [Option.bind_eq_some_iff] at hb
    obtain ⟨sV, b1, x1, b2, dS, b3, x2, b4, b5⟩ := hb
    by_cases hr : c.nRms = 0
    · rw [if_neg (by omega)] at b5
      simp only [Option.bind_some, Option.some.injEq, Prod.mk.injEq] at b5
      obtain ⟨rfl, rfl, rfl⟩ := b5
      obtain ⟨s, xF, v, k1, k2, k3, k4, k5⟩ := volDim_el hS hr hdi hl b1 b2 b3 b4
      refine ⟨(xF, x2, v3), ?_, k5, rfl, rfl⟩
      rw [if_pos hr]
      simp only [Option.bind_eq_bind, k1, Option.bind_some, k2, k3, k4]
    · rw [if_pos (by omega)] at b5
      simp only [Option.bind_eq_some_iff] at b5
      obtain ⟨dA, b5, x3, b6, b7⟩ := b5
      cases b7
      obtain ⟨v, xF, s, a, k1, k2, k3, k4, k5, k6, k7⟩ := volDim_an hS (by omega) hdi (ht (by omega)) hl b1 b2 b3 b4 b5 b6
      refine ⟨(xF, w2, w3), ?_, k7, rfl, rfl⟩
      rw [if_neg hr]
      simp only [Option.bind_eq_bind, k1, Option.bind_some, k2, k3, k4, k5, k6]
  -- mechanisms
  have hmech : forN c.nRms (fun rm (s : List K × List (List K)) => do
      let src ← rd sS rm
      let tA ← rd tA rm
      let dofsE ← callKern tp.gs 2 1 c.nCrs src tA s.1
      let rf ← rd rfs rm
      let d ← rd s.2 rm
      let d ← loop3 c.nQtsM c.nMds c.nCrs (fun qt md cr d => do
        let x ← rd d (at3 c.nMds c.nCrs qt md cr)
        let l ← rd ls1 (at3 c.nMds c.nCrs qt md cr)
        let t ← rd tA (at3 c.nMds c.nCrs qt md cr)
        wr d (at3 c.nMds c.nCrs qt md cr) (x + rf * (l - t))) d
      let dofsA ← wr s.2 rm d
      some (dofsE, dofsA)) (e1, dofsA) = some (e2, a2) := by
    refine forN_same ?_ h2
    intro rm u u' hrm hb
    simp only [Option.bind_eq_some_iff] at hb
    obtain ⟨d, b1, ta, b2, dE, b4, rest⟩ := hb
    obtain ⟨d', s', t1, t2, t3⟩ := hS.src rm hrm
    rw [t1] at b1
    cases b1
    obtain ⟨n1, -, n3⟩ := hS.tp.an (by omega)
    have k1 := csr_same (kn := ⟨true, pt.srcA.ptr, pt.srcA.idx, c.nQtsM, c.nMds, 0, c.nMds, c.nMds, 1⟩) rfl (b' := ta) (ldB' := c.nMds) rfl rfl rfl rfl rfl le_rfl t3.mat
      (hS.pat.srcA n1 _ _ t3) (fun l hl j hj q hq => (bc_reads b4).2.2 l hl j hj q hq q2) (fun q i j hq hi hj => rfl) b4
    simp only [Option.bind_eq_bind, t2, Option.bind_some, b2, callKern_eq n3, k1, Option.bind_eq_some_iff]
    exact rest
  by_cases hr : 0 < c.nRms
  · have hz : ∃ z, loop3 c.nQtsE c.nMds c.nCrs (fun qt md cr (d : List K) => wr d (at3 c.nMds c.nCrs qt md cr) 0) scF = some z ∧ z.length = scF.length := by
      have hb : ∀ q i j, q < c.nCrs → i < c.nQtsE → j < c.nMds → at3 c.nMds c.nCrs i j q < scF.length := by
        intro q i j hq hi hj
        rw [hl]
        obtain ⟨-, hp⟩ := forN_each (fun u : List K × List K × List K => u.1.length = sc.length) rfl (by
          intro di u u' _ hu he
          simp only [Option.bind_eq_some_iff] at he
          obtain ⟨sV, b1, x1, b2, dS, b3, x2, b4, b5⟩ := he
          rw [if_pos hr] at b5
          simp only [Option.bind_eq_some_iff] at b5
          obtain ⟨dA, b5, x3, b6, b7⟩ := b5
          cases b7
          exact ((ac_reads b2).1).trans hu) h1
        obtain ⟨u, u', hu, he⟩ := hp 0 q3
        simp only [Option.bind_eq_some_iff] at he
        obtain ⟨sV, b1, x1, b2, -⟩ := he
        rw [← hu]
        exact (ac_reads b2).2.1 i hi j hj q hq
      obtain ⟨z, p1, p2, -⟩ := loop3_part (c := scF) (C := fun q i j => val scF (at3 c.nMds c.nCrs i j q)) (ld := c.nMds) (m := c.nQtsE) (n := c.nMds) (r := c.nCrs) le_rfl
        (fun q i j hq hi hj => val_some (hb q i j hq hi hj)) (body := fun qt md cr (d : List K) => wr d (at3 c.nMds c.nCrs qt md cr) 0) (fun _ _ _ => 0)
        (fun i j q l _ _ _ hlt _ => wr_some hlt 0)
      exact ⟨z, p1, p2⟩
    obtain ⟨z, p1, p2⟩ := hz
    obtain ⟨scF1, k1, k2⟩ := hdim z (p2.trans hl)
    refine ⟨scF1, ?_, k2⟩
    simp only [volIntF, Option.bind_eq_bind]
    rw [if_pos hr, p1]
    simp only [Option.bind_eq_bind] at hmech
    simp only [Option.bind_some, k1, hmech]
  · obtain ⟨scF1, k1, k2⟩ := hdim scF hl
    refine ⟨scF1, ?_, k2⟩
    simp only [volIntF, Option.bind_eq_bind]
    rw [if_neg hr]
    simp only [Option.bind_eq_bind] at hmech
    simp only [Option.bind_some, k1, hmech]

end Edge.Fused
