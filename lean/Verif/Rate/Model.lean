import Verif.Step.Model
/-!
Model of time steps of a mesh with local time stepping: elements have time steps of different sizes (src/impl/seismic/solvers/AderDg.hpp, src/impl/seismic/steps.inc).
-/
namespace Edge.Rate
open Edge Edge.Dg Edge.Step

variable {K : Type} [Field K] [LinearOrder K]

/-- Constant data of an element: star matrices, flux solvers, faces, time group, bits `EL_INT_LT` and `EL_INT_GT` of the sparse type, bits `C_LTS_AD` for each of the faces (src/dg/const_ader.inc:46-131).
The bits are set in `EdgeV::setLtsTypes` (`Verif.Lts`). -/
structure REl (K : Type) extends MEl K where
  tg : Nat
  isLt : Bool
  isGt : Bool
  ad : List AdBits

/-- State of an element: degrees of freedom, memory of the time prediction (with `o_tDofs[0]`), the arrays `o_tDofs[1]` and `o_tDofs[2]`, and the numbers of local and neighboring updates since the
synchronization: `getUpdatesSync()` of the time group at an update (src/time/TimeGroupStatic.h:216; it is the number of executions of the update for all elements of the group, claims C03 and C05). -/
structure RSt (K : Type) where
  dofs : List K
  mem : CkMem K
  lt : Option (List K)
  gt : Option (List K)
  nl : Nat
  nn : Nat

/-- `o_tDofs[0..2][el]`. -/
def RSt.tDofs (x : RSt K) : TDofs K := ⟨x.mem.tIntE, x.lt, x.gt⟩

/-- Iteration of `AderDg::local` for element `el` (src/impl/seismic/solvers/AderDg.hpp:363-520) in step 0 of its time group (src/impl/seismic/steps.inc:24-47), with time step `dt tg k` of the `k`-th step of group `tg` since the synchronization (src/time/TimeGroupStatic.cpp:94-101, claims C02 and C03). The arrays for elements with
other time steps are written before the volume integration in the code, they share no data. Point sources (step 1), receivers and messages are left out. -/
def locEl (c : Cfg) (dt : Nat → Nat → K) (stiffT stiffV fIntLN fIntT : List (List K)) (els : List (REl K)) (sc0 sc1 : List K) (st : List (RSt K)) (el : Nat) : Option (List (RSt K)) := do
  let E ← rd els el
  let x ← rd st el
  let y ← localEl c (dt E.tg x.nl) stiffT stiffV fIntLN fIntT E.starE [] [] E.fsL [] [] x.dofs [] x.mem sc0 sc1
  let t ← localLts c E.isLt E.isGt (x.nl % 2 == 0) (dt E.tg x.nl) y.2.2.derE ⟨y.2.2.tIntE, x.lt, x.gt⟩
  wr st el ⟨y.1, y.2.2, t.lt, t.gt, x.nl + 1, x.nn⟩

/-- Input of the neighboring update of a face. -/
def toIn (f : MFace K) (ad : AdBits) (t : TDofs K) : FaceIn K := ⟨f.outflow, f.freeSurface, f.vId, f.fId, ad, f.fsE, [], t, none⟩

/-- Data of the faces of element `el` in the neighboring update; `ts` are the time integrated modes of all elements. -/
def facesIn (ts : List (TDofs K)) (el : Nat) (fs : List (MFace K)) (ads : List AdBits) : Option (List (FaceIn K)) :=
  (List.range fs.length).mapM (fun fa => do
    let f ← rd fs fa
    let a ← rd ads fa
    let t ← if f.outflow then some ⟨[], none, none⟩ else rd ts (f.nb el)
    some (toIn f a t))

/-- Iteration of `AderDg::neigh` for element `el` (src/impl/seismic/solvers/AderDg.hpp:572-719) in step 2 of its time group (src/impl/seismic/steps.inc:55-77). -/
def neiEl (c : Cfg) (fIntLN fIntT : List (List K)) (els : List (REl K)) (sc0 sc1 : List K) (st : List (RSt K)) (el : Nat) : Option (List (RSt K)) := do
  let E ← rd els el
  let x ← rd st el
  let fs ← facesIn (st.map (·.tDofs)) el E.faces E.ad
  let y ← neighEl c fIntLN fIntT [] (x.nn % 2 == 0) fs x.dofs [] sc0 sc1
  wr st el { x with dofs := y.1, nn := x.nn + 1 }

/-- Updates of an element. -/
inductive Ev where
  | loc (el : Nat)
  | nei (el : Nat)
deriving DecidableEq

/-- Execution of an update. -/
def exec (c : Cfg) (dt : Nat → Nat → K) (stiffT stiffV fIntLN fIntT : List (List K)) (els : List (REl K)) (sc0 sc1 : List K) (st : List (RSt K)) : Ev → Option (List (RSt K))
  | .loc el => locEl c dt stiffT stiffV fIntLN fIntT els sc0 sc1 st el
  | .nei el => neiEl c fIntLN fIntT els sc0 sc1 st el

/-- Execution of a sequence of updates, in the order in which the scheduler and the workers execute them (src/time/Manager.cpp); updates of elements which are executed at the same time do
not share data which is written (claim C06). -/
def runEv (c : Cfg) (dt : Nat → Nat → K) (stiffT stiffV fIntLN fIntT : List (List K)) (els : List (REl K)) (sc0 sc1 : List K) (evs : List Ev) (st : List (RSt K)) : Option (List (RSt K)) :=
  evs.foldlM (exec c dt stiffT stiffV fIntLN fIntT els sc0 sc1) st

/-- Counters at a synchronization (src/time/TimeGroupStatic.cpp:68-77): reset of the number of updates. -/
def sync (st : List (RSt K)) : List (RSt K) := st.map (fun x => { x with nl := 0, nn := 0 })

/-- Intervals between synchronizations (src/main.cpp:360-370, src/time/Manager.cpp:simulate): the time steps of the groups and the updates of each interval. -/
def runSync (c : Cfg) (stiffT stiffV fIntLN fIntT : List (List K)) (els : List (REl K)) (sc0 sc1 : List K) (ivs : List ((Nat → Nat → K) × List Ev)) (st : List (RSt K)) : Option (List (RSt K)) :=
  ivs.foldlM (fun st iv => runEv c iv.1 stiffT stiffV fIntLN fIntT els sc0 sc1 iv.2 (sync st)) st

end Edge.Rate
