import Verif.Single.Eq
import Verif.Work.Results
/-!
C105: the kernels for single simulations compute the same as the vanilla kernels. Whenever the vanilla kernels are successful (all accesses are within the arrays), the kernels for single simulations are
successful and write the same numbers to all arrays, including the scratch memory.
-/
namespace Edge.Single
open Edge Edge.Linalg Edge.Dg Edge.Step Edge.Rate

variable {K : Type} [Field K] [LinearOrder K]

/-- A single simulation; the recursions of the time prediction use at most all modes. -/
structure One (c : Cfg) : Prop where
  crs : c.nCrs = 1
  ck : ∀ k < c.oTi, c.ck k ≤ c.nMds

omit [LinearOrder K] in
/-- The constructor is successful for all constants. -/
theorem C105_setUp (c : Cfg) : ∃ ks : Kerns K, mkKerns c = some ks := by
  obtain ⟨gs, h, -⟩ := genTimePred_eq (K := K) c
  exact ⟨⟨gs, genVolInt c, genSurfInt c⟩, by simp only [mkKerns, h, Option.bind_eq_bind, Option.bind_some]⟩

/-- The condition holds for all elements and orders. -/
theorem one_of {c : Cfg} (h : Sizes c) (h1 : c.nCrs = 1) : One c := ⟨h1, fun k _ => h.ckLe k⟩

section
variable {c : Cfg} (hc : One c) {ks : Kerns K} (hk : mkKerns c = some ks)
include hc hk

/-- **Time prediction.** -/
theorem C105_timePred {dT : K} {stT starE starA srcA : List (List K)} {rfs dofsE : List K} {dofsA : List (List K)} {m m' : CkMem K}
    (h : ck c dT stT starE starA srcA rfs dofsE dofsA m = some m') : ckS c ks.tp dT stT starE starA srcA rfs dofsE dofsA m = some m' :=
  ck_eq hc.crs (mkKerns_eq hk).1 hc.ck h

/-- **Volume integration.** -/
theorem C105_volInt {stV starE starA srcA : List (List K)} {rfs t : List K} {tA : List (List K)} {dofsE : List K} {dofsA : List (List K)} {sc : List K} {r : List K × List (List K) × List K}
    (h : volInt c stV starE starA srcA rfs t tA dofsE dofsA sc = some r) : volIntS c ks.vp stV starE starA srcA rfs t tA dofsE dofsA sc = some r := by
  rw [(mkKerns_eq hk).2.1]
  exact volInt_eq hc.crs h

/-- **Surface integration**, local part. -/
theorem C105_surfLocal {LN FT fsE fsA : List (List K)} {rfs t dofsE : List K} {dofsA : List (List K)} {sc0 sc1 : List K} {r : List K × List (List K) × List K × List K}
    (h : surfLocal c LN FT fsE fsA rfs t dofsE dofsA sc0 sc1 = some r) : surfLocalS c ks.sp LN FT fsE fsA rfs t dofsE dofsA sc0 sc1 = some r := by
  rw [(mkKerns_eq hk).2.2]
  exact surfLocal_eq hc.crs h

/-- **Surface integration**, part of the neighbours: for every face, orientation of the neighbour, boundary (`vId = none`) and with or without data of a message. -/
theorem C105_surfNeigh {LN FT : List (List K)} {fa : Nat} {vId : Option Nat} {fId : Nat} {fsE fsA t : List K} {tFi : Option (List K)} {dofsE upA sc0 sc1 : List K}
    {r : List K × List K × List K × List K} (h : surfNeigh c LN FT fa vId fId fsE fsA t tFi dofsE upA sc0 sc1 = some r) :
    surfNeighS c ks.sp LN FT fa vId fId fsE fsA t tFi dofsE upA sc0 sc1 = some r := by
  rw [(mkKerns_eq hk).2.2]
  exact surfNeigh_eq hc.crs h

/-- **Time step of an element**, with any number of relaxation mechanisms and kinds of faces. -/
theorem C105_step {dT : K} {stT stV LN FT starE starA srcA fsE fsA : List (List K)} {rfs : List K} {firstTs : Bool} {fs : List (FaceIn K)} {dofsE : List K} {dofsA : List (List K)} {m : CkMem K}
    {sc0 sc1 : List K} {r : List K × List (List K) × CkMem K} (h : stepEl c dT stT stV LN FT starE starA srcA fsE fsA rfs firstTs fs dofsE dofsA m sc0 sc1 = some r) :
    stepElS c ks dT stT stV LN FT starE starA srcA fsE fsA rfs firstTs fs dofsE dofsA m sc0 sc1 = some r := by
  simp only [stepEl, Option.bind_eq_bind, Option.bind_eq_some_iff] at h
  obtain ⟨x, b1, y, b2, b3⟩ := h
  simp only [stepElS, Option.bind_eq_bind, Option.bind_eq_some_iff]
  exact ⟨x, localEl_eq hc.crs hk hc.ck b1, y, neighEl_eq hc.crs hk b2, b3⟩

/-- **Runs of a mesh with local time stepping**: any updates of any elements in any intervals, in any order. -/
theorem C105_run {stT stV LN FT : List (List K)} {els : List (REl K)} {sc0 sc1 : List K} {ivs : List ((Nat → Nat → K) × List Ev)} {st r : List (RSt K)}
    (h : runSync c stT stV LN FT els sc0 sc1 ivs st = some r) : runSyncS c ks stT stV LN FT els sc0 sc1 ivs st = some r :=
  foldlM_same (fun _ _ _ h => foldlM_same (fun _ _ _ h => exec_eq hc.crs hk hc.ck h) h) h

end

/-- **Simulations** of the code with its time steps, threads and work packages (claim C104). -/
theorem C105_sim {c : Cfg} (hc : One c) {ks : Kerns ℝ} (hk : mkKerns c = some ks) {stT stV LN FT : List (List ℝ)} {els : List (REl ℝ)} {sc0 sc1 : List ℝ} {is : List Work.Itv} {st r : List (RSt ℝ)}
    (h : Work.simRun c stT stV LN FT els sc0 sc1 is st = some r) : runSyncS c ks stT stV LN FT els sc0 sc1 (is.map (fun i => (i.dt, i.x.out))) st = some r :=
  C105_run hc hk h

end Edge.Single
