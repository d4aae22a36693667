import Verif.Fused.EqVol
/-!
The fused surface integration computes the same as the vanilla one.
-/
namespace Edge.Fused
open Edge Edge.Linalg Edge.Dg

variable {K : Type} [Field K] [LinearOrder K] [IsStrictOrderedRing K]

/-- Setting of the surface integration: `LN` and `FT` are the matrices of the vanilla kernel, `fL`, `fN` and `fT` those of the constructor of the fused kernel. -/
structure SurfSet (c : Cfg) (ev : Env K) (pt : Pats) (fL fN fT LN FT : List (List K)) (A B : Nat → Nat → Nat → K) (sp : Prep K) : Prop where
  dims : Dims c.nDis c.nQtsE c.nQtsM
  pat : PatOk K c.nDis c.nQtsE c.nQtsM pt
  lenLN : LN.length = c.nFas + fN.length
  lenL : fL.length = c.nFas
  lenT : fT.length = c.nFas
  ln : Mats (c.nFas + fN.length) c.nMds c.nMdsFa c.nMdsFa (fL ++ fN) A
  t : Mats c.nFas c.nMdsFa c.nMds c.nMds fT B
  cleanL : ∀ k < c.nFas + fN.length, Clean ev c.nMds c.nMdsFa (A k)
  cleanT : ∀ k < c.nFas, Clean ev c.nMdsFa c.nMds (B k)
  vanL : Mats (c.nFas + fN.length) c.nMds c.nMdsFa c.nMdsFa LN A
  vanT : Mats c.nFas c.nMdsFa c.nMds c.nMds FT B
  sp : SurfOk c ev pt fL fN fT sp
  mds : 0 < c.nMds
  mdsFa : 0 < c.nMdsFa

/-- First kernel. -/
theorem fluxInt_eq {c : Cfg} {ev : Env K} {pt : Pats} {fL fN fT LN FT : List (List K)} {A B : Nat → Nat → Nat → K} {sp : Prep K}
    (hS : SurfSet c ev pt fL fN fT LN FT A B sp) {id : Nat} {mat t out x : List K} (h1 : rd LN id = some mat)
    (h : fluxInt c t mat out = some x) : fluxIntF c sp id t out = some x := by
  have hid : id < c.nFas + fN.length := hS.lenLN ▸ rd_lt h1
  obtain ⟨mat', t1, hV⟩ := hS.vanL id hid
  rw [t1] at h1
  cases h1
  obtain ⟨a, t2, hA⟩ := hS.ln id hid
  obtain ⟨m, vals, s1, s2, s3, s4⟩ := hS.sp.ln id a t2
  have k1 := csc_same (kn := ⟨false, m.ptr, m.idx, c.nQtsE, c.nMdsFa, c.nMds, 0, c.nMdsFa, 0⟩) rfl (a' := t) (vals := vals) (k' := c.nMds) (B' := fun i j => 1 * A id i j)
    rfl rfl rfl rfl rfl le_rfl hV
    (fun j hj => csc_line hA (Mat.le hA) (hS.cleanL id hid) (sr := none) (sc := none) le_rfl le_rfl s1 (fun p x hx => by rw [one_mul]; exact s3 p x hx) hj)
    (fun i hi l hl q hq => (ac_reads h).2.2 i hi l hl q hq hS.mdsFa) (fun q i j _ _ _ => by simp only [one_mul]) h
  simp only [fluxIntF, Option.bind_eq_bind, s2, Option.bind_some, callKern_eq s4, k1]

/-- Flux solver and transposed matrix. -/
theorem fluxSolve_eq {c : Cfg} {ev : Env K} {pt : Pats} {fL fN fT LN FT : List (List K)} {A B : Nat → Nat → Nat → K} {sp : Prep K}
    (hS : SurfSet c ev pt fL fN fT LN FT A B sp) {fa : Nat} (hfa : fa < c.nFas) {fsE fsA mat tFi dofsE upA sc1 : List K} (h1 : rd FT fa = some mat)
    (hE : c.nQtsE * c.nQtsE ≤ fsE.length) (hA : 0 < c.nRms → c.nQtsM * c.nQtsE ≤ fsA.length) {r : List K × List K × List K}
    (h : fluxSolve c fsE fsA mat tFi dofsE upA sc1 = some r) : fluxSolveF c sp fN.length fa fsE fsA tFi dofsE upA sc1 = some r := by
  obtain ⟨q1, q2, q3⟩ := hS.dims.qts
  obtain ⟨mat', t1, hV⟩ := hS.vanT fa hfa
  rw [t1] at h1
  cases h1
  obtain ⟨a, t2, hB⟩ := hS.t fa hfa
  obtain ⟨m, vals, s1, s2, s3, s4, s5⟩ := hS.sp.t fa a t2
  have hline : ∀ j, j < c.nMds → Line m.ptr m.idx vals j c.nMdsFa (fun l => 1 * B fa l j) := fun j hj =>
    csc_line hB (Mat.le hB) (hS.cleanT fa hfa) (sr := none) (sc := none) le_rfl le_rfl s1 (fun p x hx => by rw [one_mul]; exact s3 p x hx) hj
  simp only [fluxSolve, Option.bind_eq_bind, Option.bind_eq_some_iff] at h
  obtain ⟨x1, b1, x2, b2, b3⟩ := h
  have mE : Mat c.nQtsE c.nQtsE c.nQtsE fsE (fun r l => val fsE (r * c.nQtsE + l)) := fun _ _ hi hj => val_some (lt_of_lt_of_le (mad_lt hi hj) hE)
  have k1 := csr_same (kn := ⟨true, pt.fsE.ptr, pt.fsE.idx, c.nQtsE, c.nMdsFa, 0, c.nMdsFa, c.nMdsFa, 0⟩) rfl (b' := tFi) (ldB' := c.nMdsFa) rfl rfl rfl rfl rfl le_rfl mE
    (hS.pat.fsE _ hE) (fun l hl j hj q hq => (bc_reads b1).2.2 l hl j hj q hq (by omega)) (fun _ _ _ _ _ _ => rfl) b1
  have k2 := csc_same (kn := ⟨false, m.ptr, m.idx, c.nQtsE, c.nMds, c.nMdsFa, 0, c.nMds, 1⟩) rfl (a' := x1) (vals := vals) (k' := c.nMdsFa) (B' := fun i j => 1 * B fa i j)
    rfl rfl rfl rfl rfl le_rfl hV hline (fun i hi l hl q hq => (ac_reads b2).2.2 i hi l hl q hq hS.mds) (fun q i j _ _ _ => by simp only [one_mul]) b2
  simp only [fluxSolveF, Option.bind_eq_bind, s2, Option.bind_some, callKern_eq hS.sp.fsE, k1, callKern_eq s4, k2]
  by_cases hr : 0 < c.nRms
  · rw [if_pos hr] at b3 ⊢
    simp only [Option.bind_eq_some_iff] at b3
    obtain ⟨x3, b3, x4, b4, b5⟩ := b3
    cases b5
    have mA : Mat c.nQtsM c.nQtsE c.nQtsE fsA (fun r l => val fsA (r * c.nQtsE + l)) := fun _ _ hi hj => val_some (lt_of_lt_of_le (mad_lt hi hj) (hA hr))
    have k3 := csr_same (kn := ⟨true, pt.fsA.ptr, pt.fsA.idx, c.nQtsM, c.nMdsFa, 0, c.nMdsFa, c.nMdsFa, 0⟩) rfl (b' := tFi) (ldB' := c.nMdsFa) rfl rfl rfl rfl rfl le_rfl mA
      (hS.pat.fsA _ (hA hr)) (fun l hl j hj q hq => (bc_reads b3).2.2 l hl j hj q hq (by omega)) (fun _ _ _ _ _ _ => rfl) b3
    have k4 := csc_same (kn := ⟨false, m.ptr, m.idx, c.nQtsM, c.nMds, c.nMdsFa, 0, c.nMds, 1⟩) rfl (a' := x3) (vals := vals) (k' := c.nMdsFa) (B' := fun i j => 1 * B fa i j)
      rfl rfl rfl rfl rfl le_rfl hV hline (fun i hi l hl q hq => (ac_reads b4).2.2 i hi l hl q hq hS.mds) (fun q i j _ _ _ => by simp only [one_mul]) b4
    simp only [callKern_eq (hS.sp.fsA hr), k3, Option.bind_some, callKern_eq s5, k4]
  · rw [if_neg hr] at b3 ⊢
    exact b3

/-- Flux solvers of the faces. -/
def Solvers (c : Cfg) (fsE fsA : List (List K)) : Prop :=
  (∀ fa < c.nFas, ∀ f, rd fsE fa = some f → c.nQtsE * c.nQtsE ≤ f.length) ∧ ∀ fa < c.nFas, ∀ f, rd fsA fa = some f → c.nQtsM * c.nQtsE ≤ f.length

/-- The local surface integration. -/
theorem surfLocal_eq {c : Cfg} {ev : Env K} {pt : Pats} {fL fN fT LN FT : List (List K)} {A B : Nat → Nat → Nat → K} {sp : Prep K}
    (hS : SurfSet c ev pt fL fN fT LN FT A B sp) {fsE fsA : List (List K)} (hF : Solvers c fsE fsA) {rfs t dofsE : List K} {dofsA : List (List K)} {sc0 sc1 : List K}
    {r : List K × List (List K) × List K × List K} (h : surfLocal c LN FT fsE fsA rfs t dofsE dofsA sc0 sc1 = some r) :
    surfLocalF c sp fN.length fsE fsA rfs t dofsE dofsA sc0 sc1 = some r := by
  simp only [surfLocal, Option.bind_eq_bind, Option.bind_eq_some_iff] at h
  obtain ⟨x, h1, h2⟩ := h
  have k := forN_same (b2 := fun fa (s : List K × List K × List K × List K) =>
      (fluxIntF c sp fa t s.2.2.1).bind fun sc0 => (rd fsE fa).bind fun fE => (fsAOf c fsA fa).bind fun fA =>
      (fluxSolveF c sp fN.length fa fE fA sc0 s.1 s.2.1 s.2.2.2).bind fun (dofsE, upA, sc1) => some (dofsE, upA, sc0, sc1)) (by
    intro fa u u' hfa hb
    simp only [Option.bind_eq_some_iff] at hb
    obtain ⟨mat, b1, x1, b2, fE, b3, fA, b4, mT, b5, rr, b6, b7⟩ := hb
    have hA : 0 < c.nRms → c.nQtsM * c.nQtsE ≤ fA.length := by
      intro hr
      rw [fsAOf, if_pos hr] at b4
      exact hF.2 fa hfa fA b4
    simp only [fluxInt_eq hS b1 b2, Option.bind_some, b3, b4, fluxSolve_eq hS hfa b5 (hF.1 fa hfa fE b3) hA b6]
    exact b7) h1
  simp only [surfLocalF, Option.bind_eq_bind]
  rw [k, Option.bind_some]
  exact h2

/-- A face of the neighboring surface integration. -/
theorem surfNeigh_eq {c : Cfg} {ev : Env K} {pt : Pats} {fL fN fT LN FT : List (List K)} {A B : Nat → Nat → Nat → K} {sp : Prep K}
    (hS : SurfSet c ev pt fL fN fT LN FT A B sp) {fa : Nat} (hfa : fa < c.nFas) {vId : Option Nat} {fId : Nat} {fsE fsA t : List K}
    {tFi : Option (List K)} {dofsE upA sc0 sc1 : List K} (hE : c.nQtsE * c.nQtsE ≤ fsE.length) (hA : 0 < c.nRms → c.nQtsM * c.nQtsE ≤ fsA.length)
    {r : List K × List K × List K × List K} (h : surfNeigh c LN FT fa vId fId fsE fsA t tFi dofsE upA sc0 sc1 = some r) :
    surfNeighF c sp fN.length fa vId fId fsE fsA t tFi dofsE upA sc0 sc1 = some r := by
  simp only [surfNeigh, Option.bind_eq_bind, Option.bind_eq_some_iff] at h
  obtain ⟨⟨tF, s0⟩, h1, mT, h2, x, h3, h4⟩ := h
  have k1 := fluxSolve_eq hS hfa h2 hE hA h3
  cases tFi with
  | some v =>
    simp only [faceValues, Option.some.injEq, Prod.mk.injEq] at h1
    obtain ⟨rfl, rfl⟩ := h1
    simp only [surfNeighF, Option.bind_eq_bind, Option.bind_some, k1]
    exact h4
  | none =>
    simp only [faceValues, neighFluxInt, Option.bind_eq_bind, Option.bind_eq_some_iff, Option.some.injEq, Prod.mk.injEq] at h1
    obtain ⟨y, ⟨mat, b1, b2⟩, rfl, rfl⟩ := h1
    simp only [surfNeighF, neighFluxIntF, fluxInt_eq hS b1 b2, Option.bind_eq_bind, Option.bind_some, k1]
    exact h4

end Edge.Fused
