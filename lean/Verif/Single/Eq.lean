import Verif.Single.Model
import Verif.Fused.Eq
/-!
The kernels for single simulations compute the same as the vanilla kernels.
-/
namespace Edge.Single
open Edge Edge.Linalg Edge.Dg Edge.Step Edge.Rate Edge.Fused

variable {K : Type} [Field K] [LinearOrder K]

/-! ### Matrix kernels -/

/-- What a successful dense kernel has read of its second matrix. -/
theorem ac_readsB {r m n k ldA ldB ldC : Nat} {alpha beta : K} {a b c c' : List K} (h : matMulFusedAC r m n k ldA ldB ldC alpha beta a b c = some c') :
    ∀ l < k, ∀ j < n, 0 < m → 0 < r → l * ldB + j < b.length := by
  simp only [matMulFusedAC, Option.bind_eq_bind] at h
  obtain ⟨c0, h0, h1⟩ := Option.bind_eq_some_iff.1 h
  intro l hl j hj hm hr
  obtain ⟨u, u', -, he⟩ := (forN_each (fun _ : List K => True) trivial (fun _ _ _ _ _ _ => trivial) h1).2 l hl
  obtain ⟨v, v', -, he'⟩ := (loop3_each (σ := List K) (fun _ => True) trivial (fun _ _ _ _ _ _ _ => trivial) he).2 0 hm j hj 0 hr
  simp only [Option.bind_eq_some_iff] at he'
  obtain ⟨x, -, y, -, z, he', -⟩ := he'
  exact rd_lt he'

omit [LinearOrder K] in
theorem sum_run {k : Nat} {u v : Nat → Option K} {U V : Nat → K} (hu : ∀ l < k, u l = some (U l)) (hv : ∀ l < k, v l = some (V l)) (x : K) :
    forN k (fun l s => (u l).bind fun p => (v l).bind fun q => some (s + p * q)) x = some (x + ∑ l ∈ Finset.range k, U l * V l) := by
  induction k with
  | zero => simp
  | succ k ih =>
    rw [forN_succ, ih (fun l hl => hu l (by omega)) (fun l hl => hv l (by omega)), Option.bind_some, hu k (by omega), hv k (by omega)]
    simp only [Option.bind_some, Finset.sum_range_succ, add_assoc]

/-- A column-major kernel for the flipped matrices does what the dense row-major kernel does. -/
theorem ac_gemm {m n k ldA ldB ldC : Nat} {beta : K} {a b c c' : List K} (hld : n ≤ ldC) (h : matMulFusedAC 1 m n k ldA ldB ldC 1 beta a b c = some c') :
    (⟨n, m, k, ldB, ldA, ldC, beta⟩ : Gemm K).run b a c = some c' := by
  rcases Nat.eq_zero_or_pos m with rfl | hm
  · have e1 : ∀ n (c : List K), forN n (fun _ c => some c) c = some c := by
      intro n c; induction n with
      | zero => rfl
      | succ n ih => rw [forN_succ, ih]; rfl
    simp only [matMulFusedAC, fusedInit, forN_zero, Option.bind_eq_bind, Option.bind_some, e1] at h
    simp only [Gemm.run, forN_zero, h]
  rcases Nat.eq_zero_or_pos n with rfl | hn
  · have e1 : ∀ n (c : List K), forN n (fun _ c => some c) c = some c := by
      intro n c; induction n with
      | zero => rfl
      | succ n ih => rw [forN_succ, ih]; rfl
    simp only [matMulFusedAC, fusedInit, forN_zero, Option.bind_eq_bind, e1, Option.bind_some] at h
    simp only [Gemm.run, forN_zero, e1, h]
  have hb : Mat k n ldB b (fun l j => val b (l * ldB + j)) := fun l j hl hj => val_some (ac_readsB h l hl j hj hm one_pos)
  obtain ⟨-, r1, r2⟩ := ac_reads h
  obtain ⟨-, e2, e3⟩ := ac_char hld hb h
  obtain ⟨d, d0, -, d2, d3⟩ := loop3_part (m := m) (n := n) (r := 1) (ld := ldC) (c := c) (C := fun q i j => val c (at3 ldC 1 i j q)) hld
    (fun q i j hq hi hj => val_some (r1 i hi j hj q hq))
    (body := fun j i _ (c : List K) => (rd c (j * ldC + i)).bind fun x =>
      (forN k (fun l s => (rd b (l * ldB + i)).bind fun u => (rd a (j * ldA + l)).bind fun v => some (s + u * v)) (if beta = 0 then 0 else beta * x)).bind fun s => wr c (j * ldC + i) s)
    (fun q i j => beta * val c (at3 ldC 1 i j q) + ∑ l ∈ Finset.range k, val a (at3 ldA 1 i l q) * val b (l * ldB + j)) (by
      intro i j q l hi hj hq hl hx
      obtain rfl : q = 0 := by omega
      have ea : ∀ ld i j, at3 ld 1 i j 0 = i * ld + j := fun ld i j => by simp [at3]
      rw [ea] at hl hx ⊢
      rw [rd, hx, Option.bind_some, sum_run (u := fun l => rd b (l * ldB + j)) (v := fun l => rd a (i * ldA + l)) (U := fun l => val b (l * ldB + j)) (V := fun l => val a (at3 ldA 1 i l 0)) (fun l hl => hb l j hl hj)
        (fun l hl => by rw [rd, ← ea]; exact val_some (r2 i hi l hl 0 one_pos hn)), Option.bind_some, wr_some hl]
      congr 2
      have hbz : (if beta = 0 then 0 else beta * val c (i * ldC + j)) = beta * val c (i * ldC + j) := by
        split <;> simp_all
      rw [hbz]
      congr 1
      exact Finset.sum_congr rfl fun l _ => mul_comm _ _)
  have hd : (⟨n, m, k, ldB, ldA, ldC, beta⟩ : Gemm K).run b a c = loop3 m n 1 (fun j i _ (c : List K) => (rd c (j * ldC + i)).bind fun x =>
      (forN k (fun l s => (rd b (l * ldB + i)).bind fun u => (rd a (j * ldA + l)).bind fun v => some (s + u * v)) (if beta = 0 then 0 else beta * x)).bind fun s => wr c (j * ldC + i) s) c := by
    rw [Gemm.run, loop3]
    simp only [forN_succ, forN_zero, Option.bind_some, Option.bind_eq_bind]
  rw [hd, d0, part_ext (v := fun q i j => beta * val c (at3 ldC 1 i j q) + ∑ l ∈ Finset.range k, val a (at3 ldA 1 i l q) * val b (l * ldB + j)) d2 d3 e2 e3]

/-- For a single run the two dense kernels are the same. -/
theorem bc_gemm {m n k ldA ldB ldC : Nat} {beta : K} {a b c c' : List K} (hld : n ≤ ldC) (h : matMulFusedBC 1 m n k ldA ldB ldC 1 beta a b c = some c') :
    (⟨n, m, k, ldB, ldA, ldC, beta⟩ : Gemm K).run b a c = some c' := by
  refine ac_gemm hld (Eq.trans ?_ h)
  simp only [matMulFusedAC, matMulFusedBC, forN_succ, forN_zero, Option.bind_some, Nat.mul_one, Nat.add_zero]

/-! ### Generated kernels -/

/-- Kernel `i` of group `g`. -/
def Has (gs : List (List (Gemm K))) (g i : Nat) (k : Gemm K) : Prop := ∃ ks, gs[g]? = some ks ∧ ks[i]? = some k

omit [Field K] [LinearOrder K] in
theorem callG_eq [Field K] [LinearOrder K] {gs : List (List (Gemm K))} {g i : Nat} {k : Gemm K} (h : Has gs g i k) (a b c : List K) : callG gs g i a b c = k.run a b c := by
  obtain ⟨ks, h1, h2⟩ := h
  simp only [callG, rd, h1, h2, Option.bind_eq_bind, Option.bind_some]

/-- Groups of the time prediction after `n` derivatives. -/
def tpGroups (c : Cfg) (n : Nat) : List (List (Gemm K)) :=
  [(List.range n).map (fun i => ⟨c.ck (i + 1), c.nQtsE, c.ck i, c.nMds, c.nMds, c.nMds, 0⟩),
   (List.range n).map (fun i => ⟨c.ck (i + 1), c.nQtsE, c.nQtsE, c.nMds, c.nQtsE, c.nMds, 1⟩)] ++
  if c.nRms > 0 then [(List.range n).flatMap (fun _ => [⟨c.ck 1, c.nQtsM, c.nDis, c.nMds, c.nDis, c.nMds, 1⟩, ⟨c.nMds, c.nQtsM, c.nQtsM, c.nMds, c.nQtsM, c.nMds, 1⟩])] else []

omit [LinearOrder K] in
theorem genTimePred_eq (c : Cfg) : ∃ gs, (genTimePred c : Option (List (List (Gemm K)))) = some gs ∧ (1 < c.oTi → gs = tpGroups c (c.oTi - 1)) := by
  have key : ∀ n, forN n (fun i gs => some (genDer c i gs)) ([] : List (List (Gemm K))) = some (if n = 0 then [] else tpGroups c n) := by
    intro n
    induction n with
    | zero => rfl
    | succ n ih =>
      rw [forN_succ, ih, Option.bind_some, if_neg (Nat.succ_ne_zero n)]
      congr 1
      by_cases hr : c.nRms > 0
      · rcases Nat.eq_zero_or_pos n with rfl | hn
        · simp [genDer, addG, tpGroups, hr, List.modify]
        · rw [if_neg (by omega)]
          simp [genDer, addG, tpGroups, hr, List.range_succ, List.modify]
      · rcases Nat.eq_zero_or_pos n with rfl | hn
        · simp [genDer, addG, tpGroups, hr, List.modify]
        · rw [if_neg (by omega)]
          simp [genDer, addG, tpGroups, hr, List.range_succ, List.modify]
  refine ⟨_, key _, fun h => by rw [if_neg (by omega)]⟩

omit [LinearOrder K] in
theorem genTimePred_has {c : Cfg} {gs : List (List (Gemm K))} (h : genTimePred c = some gs) {i : Nat} (hi : i + 1 < c.oTi) :
    Has gs 0 i ⟨c.ck (i + 1), c.nQtsE, c.ck i, c.nMds, c.nMds, c.nMds, 0⟩ ∧ Has gs 1 i ⟨c.ck (i + 1), c.nQtsE, c.nQtsE, c.nMds, c.nQtsE, c.nMds, 1⟩ ∧
    (0 < c.nRms → Has gs 2 0 ⟨c.ck 1, c.nQtsM, c.nDis, c.nMds, c.nDis, c.nMds, 1⟩ ∧ Has gs 2 1 ⟨c.nMds, c.nQtsM, c.nQtsM, c.nMds, c.nQtsM, c.nMds, 1⟩) := by
  obtain ⟨gs', h1, h2⟩ := genTimePred_eq (K := K) c
  rw [h] at h1
  cases h1
  rw [h2 (by omega)]
  have hlt : i < c.oTi - 1 := by omega
  refine ⟨⟨_, rfl, by simp [hlt]⟩, ⟨_, rfl, by simp [hlt]⟩, fun hr => ?_⟩
  obtain ⟨n, hn⟩ : ∃ n, c.oTi - 1 = n + 1 := ⟨c.oTi - 2, by omega⟩
  constructor
  · exact ⟨_, by simp only [tpGroups, if_pos (show c.nRms > 0 from hr)]; rfl, by rw [hn, List.range_succ_eq_map]; rfl⟩
  · exact ⟨_, by simp only [tpGroups, if_pos (show c.nRms > 0 from hr)]; rfl, by rw [hn, List.range_succ_eq_map]; rfl⟩

omit [LinearOrder K] in
theorem genVolInt_has (c : Cfg) : Has (genVolInt c : List (List (Gemm K))) 0 0 ⟨c.nMds, c.nQtsE, c.ck 1, c.nMds, c.nMds, c.nMds, 0⟩ ∧
    Has (genVolInt c : List (List (Gemm K))) 0 1 ⟨c.nMds, c.nQtsE, c.nQtsE, c.nMds, c.nQtsE, c.nMds, 1⟩ ∧
    (0 < c.nRms → Has (genVolInt c : List (List (Gemm K))) 1 0 ⟨c.nMds, c.nQtsM, c.nDis, c.nMds, c.nDis, c.nMds, 1⟩ ∧
      Has (genVolInt c : List (List (Gemm K))) 1 1 ⟨c.nMds, c.nQtsM, c.nQtsM, c.nMds, c.nQtsM, c.nMds, 1⟩) := by
  by_cases hr : c.nRms > 0
  · refine ⟨⟨_, by simp [genVolInt, addG, hr, List.modify]; rfl, rfl⟩, ⟨_, by simp [genVolInt, addG, hr, List.modify]; rfl, rfl⟩, fun _ =>
      ⟨⟨_, by simp [genVolInt, addG, hr, List.modify]; rfl, rfl⟩, ⟨_, by simp [genVolInt, addG, hr, List.modify]; rfl, rfl⟩⟩⟩
  · exact ⟨⟨_, by simp [genVolInt, addG, hr, List.modify]; rfl, rfl⟩, ⟨_, by simp [genVolInt, addG, hr, List.modify]; rfl, rfl⟩, fun h => absurd h hr⟩

omit [LinearOrder K] in
theorem genSurfInt_has (c : Cfg) : Has (genSurfInt c : List (List (Gemm K))) 0 0 ⟨c.nMdsFa, c.nQtsE, c.nMds, c.nMdsFa, c.nMds, c.nMdsFa, 0⟩ ∧
    Has (genSurfInt c : List (List (Gemm K))) 0 1 ⟨c.nMdsFa, c.nQtsE, c.nQtsE, c.nMdsFa, c.nQtsE, c.nMdsFa, 0⟩ ∧
    Has (genSurfInt c : List (List (Gemm K))) 0 2 ⟨c.nMds, c.nQtsE, c.nMdsFa, c.nMds, c.nMdsFa, c.nMds, 1⟩ ∧
    Has (genSurfInt c : List (List (Gemm K))) 1 0 ⟨c.nMdsFa, c.nQtsM, c.nQtsE, c.nMdsFa, c.nQtsE, c.nMdsFa, 0⟩ ∧
    Has (genSurfInt c : List (List (Gemm K))) 1 1 ⟨c.nMds, c.nQtsM, c.nMdsFa, c.nMds, c.nMdsFa, c.nMds, 1⟩ := by
  refine ⟨⟨_, by simp [genSurfInt, addG, List.modify]; rfl, rfl⟩, ⟨_, by simp [genSurfInt, addG, List.modify]; rfl, rfl⟩, ⟨_, by simp [genSurfInt, addG, List.modify]; rfl, rfl⟩,
    ⟨_, by simp [genSurfInt, addG, List.modify]; rfl, rfl⟩, ⟨_, by simp [genSurfInt, addG, List.modify]; rfl, rfl⟩⟩

/-! ### Kernels -/

theorem ckDims_eq {c : Cfg} (h1 : c.nCrs = 1) {gs : List (List (Gemm K))} (hg : genTimePred c = some gs) (hck : ∀ k < c.oTi, c.ck k ≤ c.nMds) {stiffT starE starA : List (List K)} {re : Nat}
    (h0 : 0 < re) (hre : re < c.oTi) {prev : List K} {s s' : List K × List K × List K} (h : ckDims c stiffT starE starA re prev s = some s') :
    ckDimsS c gs stiffT starE starA re prev s = some s' := by
  obtain ⟨i, rfl⟩ : ∃ i, re = i + 1 := ⟨re - 1, by omega⟩
  obtain ⟨k1, k2, k3⟩ := genTimePred_has hg hre
  unfold ckDims at h
  unfold ckDimsS
  refine forN_same ?_ h
  rintro di u u' - hb
  rw [h1] at hb
  simp only [Nat.add_sub_cancel, Option.bind_eq_bind, Option.bind_eq_some_iff] at hb ⊢
  obtain ⟨st, b1, sc, b2, sE, b3, dE, b4, rest⟩ := hb
  refine ⟨st, b1, sc, ?_, sE, b3, dE, ?_, ?_⟩
  · rw [callG_eq k1]
    exact ac_gemm (hck _ hre) b2
  · rw [callG_eq k2]
    exact bc_gemm (hck _ hre) b4
  · by_cases hr : c.nRms > 0
    · rw [if_pos hr] at rest ⊢
      simp only [Option.bind_eq_some_iff] at rest ⊢
      obtain ⟨sA, b5, ls, b6, b7⟩ := rest
      refine ⟨sA, b5, ls, ?_, b7⟩
      rw [callG_eq (k3 hr).1]
      exact bc_gemm (hck _ (by omega)) b6
    · rw [if_neg hr] at rest ⊢
      exact rest

theorem ckAn_eq {c : Cfg} (h1 : c.nCrs = 1) {gs : List (List (Gemm K))} (hg : genTimePred c = some gs) (ho : 1 < c.oTi) {sca : K} {srcA : List (List K)} {rfs : List K} {de : Nat} {ls : List K}
    {s s' : List K × List (List (List K)) × List (List K)} (h : ckAn c sca srcA rfs de ls s = some s') : ckAnS c gs sca srcA rfs de ls s = some s' := by
  unfold ckAn at h
  unfold ckAnS
  refine forN_same ?_ h
  rintro rm u u' hrm hb
  obtain ⟨-, -, k3⟩ := genTimePred_has (i := 0) hg (by omega)
  rw [h1] at hb
  simp only [Option.bind_eq_bind, Option.bind_eq_some_iff] at hb
  obtain ⟨src, b1, dA, b2, prev, b3, dE, b4, rest⟩ := hb
  have e : callG gs 2 1 prev src u.1 = some dE := by
    rw [callG_eq (k3 (by omega)).2]
    exact bc_gemm le_rfl b4
  simp only [Option.bind_eq_bind, b1, b2, b3, e, Option.bind_some, Option.bind_eq_some_iff]
  exact rest

omit [LinearOrder K] in
theorem ckInit_eq {c : Cfg} (h1 : c.nCrs = 1) (dT : K) (dofsE : List K) (dofsA : List (List K)) (m : CkMem K) : ckInitS c dT dofsE dofsA m = ckInit c dT dofsE dofsA m := by
  unfold ckInitS ckInit
  rw [h1]

theorem ck_eq {c : Cfg} (h1 : c.nCrs = 1) {gs : List (List (Gemm K))} (hg : genTimePred c = some gs) (hck : ∀ k < c.oTi, c.ck k ≤ c.nMds) {dT : K} {stiffT starE starA srcA : List (List K)}
    {rfs dofsE : List K} {dofsA : List (List K)} {m m' : CkMem K} (h : ck c dT stiffT starE starA srcA rfs dofsE dofsA m = some m') :
    ckS c gs dT stiffT starE starA srcA rfs dofsE dofsA m = some m' := by
  simp only [ck, Option.bind_eq_bind, Option.bind_eq_some_iff] at h
  obtain ⟨m0, h0, ⟨m1, s1⟩, h2, h3⟩ := h
  cases h3
  simp only [ckS, ckInit_eq h1, h0, Option.bind_eq_bind, Option.bind_some, Option.bind_eq_some_iff]
  refine ⟨(m1, s1), forN_same ?_ h2, rfl⟩
  rintro i ⟨u, us⟩ ⟨u', us'⟩ hi hb
  rw [h1] at hb
  simp only [Option.bind_eq_some_iff] at hb ⊢
  obtain ⟨dE0, b1, dE1, b2, prev, b3, x, b4, y, b5, rest⟩ := hb
  exact ⟨dE0, b1, dE1, b2, prev, b3, x, ckDims_eq h1 hg hck (by split <;> omega) (by split <;> omega) b4, y, ckAn_eq h1 hg (by omega) b5, rest⟩

theorem volInt_eq {c : Cfg} (h1 : c.nCrs = 1) {stiff starE starA srcA : List (List K)} {rfs t : List K} {tA : List (List K)} {dofsE : List K} {dofsA : List (List K)} {sc : List K}
    {r : List K × List (List K) × List K} (h : volInt c stiff starE starA srcA rfs t tA dofsE dofsA sc = some r) :
    volIntS c (genVolInt c) stiff starE starA srcA rfs t tA dofsE dofsA sc = some r := by
  obtain ⟨k1, k2, k3⟩ := genVolInt_has (K := K) c
  unfold volInt at h
  unfold volIntS
  rw [h1] at h
  simp only [Option.bind_eq_bind, Option.bind_eq_some_iff] at h ⊢
  obtain ⟨x, h2, y, h3, h4⟩ := h
  refine ⟨x, forN_same ?_ h2, y, forN_same ?_ h3, h4⟩
  · rintro di u u' - hb
    simp only [Option.bind_eq_some_iff] at hb ⊢
    obtain ⟨st, b1, sc, b2, sE, b3, dE, b4, rest⟩ := hb
    refine ⟨st, b1, sc, ?_, sE, b3, dE, ?_, ?_⟩
    · rw [callG_eq k1]
      exact ac_gemm le_rfl b2
    · rw [callG_eq k2]
      exact bc_gemm le_rfl b4
    · by_cases hr : c.nRms > 0
      · rw [if_pos hr] at rest ⊢
        simp only [Option.bind_eq_some_iff] at rest ⊢
        obtain ⟨sA, b5, ls, b6, b7⟩ := rest
        refine ⟨sA, b5, ls, ?_, b7⟩
        rw [callG_eq (k3 hr).1]
        exact bc_gemm le_rfl b6
      · rw [if_neg hr] at rest ⊢
        exact rest
  · rintro rm u u' hrm hb
    simp only [Option.bind_eq_some_iff] at hb ⊢
    obtain ⟨src, b1, tA', b2, dE, b3, rest⟩ := hb
    refine ⟨src, b1, tA', b2, dE, ?_, rest⟩
    rw [callG_eq (k3 (by omega)).2]
    exact bc_gemm le_rfl b3

theorem fluxInt_eq {c : Cfg} (h1 : c.nCrs = 1) {t mat out r : List K} (h : fluxInt c t mat out = some r) : callG (genSurfInt c) 0 0 mat t out = some r := by
  rw [callG_eq (genSurfInt_has c).1]
  unfold fluxInt at h
  rw [h1] at h
  exact ac_gemm le_rfl h

theorem fluxSolve_eq {c : Cfg} (h1 : c.nCrs = 1) {fsE fsA fT tFi dofsE upA sc1 : List K} {r : List K × List K × List K} (h : fluxSolve c fsE fsA fT tFi dofsE upA sc1 = some r) :
    fluxSolveS c (genSurfInt c) fsE fsA fT tFi dofsE upA sc1 = some r := by
  obtain ⟨-, k1, k2, k3, k4⟩ := genSurfInt_has (K := K) c
  unfold fluxSolve at h
  unfold fluxSolveS
  rw [h1] at h
  simp only [Option.bind_eq_bind, Option.bind_eq_some_iff] at h ⊢
  obtain ⟨x, b1, y, b2, rest⟩ := h
  refine ⟨x, by rw [callG_eq k1]; exact bc_gemm le_rfl b1, y, by rw [callG_eq k2]; exact ac_gemm le_rfl b2, ?_⟩
  by_cases hr : c.nRms > 0
  · rw [if_pos hr] at rest ⊢
    simp only [Option.bind_eq_some_iff] at rest ⊢
    obtain ⟨x', b3, y', b4, b5⟩ := rest
    exact ⟨x', by rw [callG_eq k3]; exact bc_gemm le_rfl b3, y', by rw [callG_eq k4]; exact ac_gemm le_rfl b4, b5⟩
  · rw [if_neg hr] at rest ⊢
    exact rest

theorem surfLocal_eq {c : Cfg} (h1 : c.nCrs = 1) {LN FT fsE fsA : List (List K)} {rfs t dofsE : List K} {dofsA : List (List K)} {sc0 sc1 : List K}
    {r : List K × List (List K) × List K × List K} (h : surfLocal c LN FT fsE fsA rfs t dofsE dofsA sc0 sc1 = some r) :
    surfLocalS c (genSurfInt c) LN FT fsE fsA rfs t dofsE dofsA sc0 sc1 = some r := by
  unfold surfLocal at h
  unfold surfLocalS
  simp only [Option.bind_eq_bind, Option.bind_eq_some_iff] at h ⊢
  obtain ⟨x, h2, rest⟩ := h
  rw [h1] at h2
  refine ⟨x, forN_same ?_ h2, rest⟩
  rintro fa u u' - hb
  simp only [Option.bind_eq_some_iff] at hb ⊢
  obtain ⟨mat, b1, sc, b2, fE, b3, fA, b4, fT, b5, y, b6, b7⟩ := hb
  exact ⟨mat, b1, sc, fluxInt_eq h1 b2, fE, b3, fA, b4, fT, b5, y, fluxSolve_eq h1 b6, b7⟩

theorem surfNeigh_eq {c : Cfg} (h1 : c.nCrs = 1) {LN FT : List (List K)} {fa : Nat} {vId : Option Nat} {fId : Nat} {fsE fsA t : List K} {tFi : Option (List K)} {dofsE upA sc0 sc1 : List K}
    {r : List K × List K × List K × List K} (h : surfNeigh c LN FT fa vId fId fsE fsA t tFi dofsE upA sc0 sc1 = some r) :
    surfNeighS c (genSurfInt c) LN FT fa vId fId fsE fsA t tFi dofsE upA sc0 sc1 = some r := by
  simp only [surfNeigh, Option.bind_eq_bind, Option.bind_eq_some_iff] at h
  obtain ⟨x, b1, fT, b2, y, b3, b4⟩ := h
  cases tFi with
  | some t =>
    simp only [surfNeighS, Option.bind_eq_bind, Option.bind_eq_some_iff]
    exact ⟨x, b1, fT, b2, y, fluxSolve_eq h1 b3, b4⟩
  | none =>
    simp only [faceValues, neighFluxInt, Option.bind_eq_bind, Option.bind_eq_some_iff] at b1
    obtain ⟨z, ⟨mat, c1, c2⟩, c3⟩ := b1
    simp only [surfNeighS, neighFluxIntS, Option.bind_eq_bind, Option.bind_eq_some_iff]
    cases c3
    exact ⟨z, ⟨mat, c1, fluxInt_eq h1 c2⟩, _, rfl, fT, b2, y, fluxSolve_eq h1 b3, b4⟩

/-! ### Updates -/

section
variable {c : Cfg} (h1 : c.nCrs = 1) {ks : Kerns K} (hk : mkKerns c = some ks) (hck : ∀ k < c.oTi, c.ck k ≤ c.nMds)
include h1 hk

omit h1 [LinearOrder K] in
theorem mkKerns_eq : genTimePred c = some ks.tp ∧ ks.vp = genVolInt c ∧ ks.sp = genSurfInt c := by
  simp only [mkKerns, Option.bind_eq_bind, Option.bind_eq_some_iff] at hk
  obtain ⟨tp, a, b⟩ := hk
  cases b
  exact ⟨a, rfl, rfl⟩

include hck in
theorem localEl_eq {dT : K} {stT stV LN FT starE starA srcA fsE fsA : List (List K)} {rfs dofsE : List K} {dofsA : List (List K)} {m : CkMem K} {sc0 sc1 : List K}
    {r : List K × List (List K) × CkMem K} (h : localEl c dT stT stV LN FT starE starA srcA fsE fsA rfs dofsE dofsA m sc0 sc1 = some r) :
    localElS c ks dT stT stV LN FT starE starA srcA fsE fsA rfs dofsE dofsA m sc0 sc1 = some r := by
  obtain ⟨e1, e2, e3⟩ := mkKerns_eq hk
  simp only [localEl, Option.bind_eq_bind, Option.bind_eq_some_iff] at h
  obtain ⟨m1, b1, x, b2, y, b3, b4⟩ := h
  simp only [localElS, Option.bind_eq_bind, Option.bind_eq_some_iff, e2, e3]
  exact ⟨m1, ck_eq h1 e1 hck b1, x, volInt_eq h1 b2, y, surfLocal_eq h1 b3, b4⟩

theorem neighEl_eq {LN FT : List (List K)} {rfs : List K} {firstTs : Bool} {fs : List (FaceIn K)} {dofsE : List K} {dofsA : List (List K)} {sc0 sc1 : List K}
    {r : List K × List (List K)} (h : neighEl c LN FT rfs firstTs fs dofsE dofsA sc0 sc1 = some r) : neighElS c ks LN FT rfs firstTs fs dofsE dofsA sc0 sc1 = some r := by
  obtain ⟨-, -, e3⟩ := mkKerns_eq hk
  simp only [neighEl, Option.bind_eq_bind, Option.bind_eq_some_iff] at h
  obtain ⟨x, h2, h3⟩ := h
  rw [h1] at h2
  simp only [neighElS, Option.bind_eq_bind, Option.bind_eq_some_iff]
  refine ⟨x, forN_same ?_ h2, h3⟩
  rintro fa u u' - hb
  simp only [Option.bind_eq_some_iff] at hb ⊢
  obtain ⟨f, b1, b2⟩ := hb
  refine ⟨f, b1, ?_⟩
  unfold neighFace at b2
  unfold neighFaceS
  by_cases ho : f.outflow
  · rw [if_pos ho] at b2 ⊢
    exact b2
  · rw [if_neg ho] at b2 ⊢
    simp only [Option.bind_eq_bind, Option.bind_eq_some_iff] at b2 ⊢
    obtain ⟨y, b3, b4⟩ := b2
    exact ⟨y, b3, by rw [e3]; exact surfNeigh_eq h1 b4⟩

include hck in
theorem exec_eq {dt : Nat → Nat → K} {stT stV LN FT : List (List K)} {els : List (REl K)} {sc0 sc1 : List K} {st st' : List (RSt K)} {ev : Ev}
    (h : exec c dt stT stV LN FT els sc0 sc1 st ev = some st') : execS c ks dt stT stV LN FT els sc0 sc1 st ev = some st' := by
  cases ev with
  | loc el =>
    simp only [exec, locEl, Option.bind_eq_bind, Option.bind_eq_some_iff] at h
    obtain ⟨E, b1, x, b2, y, b3, t, b4, b5⟩ := h
    simp only [execS, locElS, Option.bind_eq_bind, Option.bind_eq_some_iff]
    exact ⟨E, b1, x, b2, y, localEl_eq h1 hk hck b3, t, b4, b5⟩
  | nei el =>
    simp only [exec, neiEl, Option.bind_eq_bind, Option.bind_eq_some_iff] at h
    obtain ⟨E, b1, x, b2, fs, b3, y, b4, b5⟩ := h
    simp only [execS, neiElS, Option.bind_eq_bind, Option.bind_eq_some_iff]
    exact ⟨E, b1, x, b2, fs, b3, y, neighEl_eq h1 hk b4, b5⟩

end

theorem foldlM_same {σ α : Type} {f g : σ → α → Option σ} (hs : ∀ s a s', f s a = some s' → g s a = some s') : ∀ {l : List α} {s s' : σ}, l.foldlM f s = some s' → l.foldlM g s = some s'
  | [], _, _, h => h
  | a :: l, s, s', h => by
    rw [List.foldlM_cons, Option.bind_eq_bind, Option.bind_eq_some_iff] at h ⊢
    obtain ⟨t, b1, b2⟩ := h
    exact ⟨t, hs _ _ _ b1, foldlM_same hs b2⟩

end Edge.Single
