import Verif.Dg.LtsModel
/-!
Model of a time step of an element: the local and the neighboring update of `AderDg` (src/impl/seismic/solvers/AderDg.hpp), composed of the kernels of `Verif.Dg`.
-/
namespace Edge.Step
open Edge Edge.Dg

variable {K : Type} [Field K] [LinearOrder K]

/-- An element in `AderDg::local` (src/impl/seismic/solvers/AderDg.hpp:363-520): time prediction, volume integration, local surface integration. Buffers of local time
stepping and messages (`localLts`, `sendFace`), receivers and prefetches do not change the degrees of freedom and are left out. The volume integration uses the scratch
memory of the prediction. -/
def localEl (c : Cfg) (dT : K) (stiffT stiffV fIntLN fIntT starE starA srcA fsE fsA : List (List K)) (rfs dofsE : List K) (dofsA : List (List K)) (m : CkMem K)
    (sc0 sc1 : List K) : Option (List K × List (List K) × CkMem K) := do
  let m ← ck c dT stiffT starE starA srcA rfs dofsE dofsA m
  let (dofsE, dofsA, _) ← volInt c stiffV starE starA srcA rfs m.tIntE m.tIntA dofsE dofsA m.scratch
  let (dofsE, dofsA, _, _) ← surfLocal c fIntLN fIntT fsE fsA rfs m.tIntE dofsE dofsA sc0 sc1
  some (dofsE, dofsA, m)

/-- A time step of an element: `AderDg::local`, then `AderDg::neigh` (src/impl/seismic/solvers/AderDg.hpp:572-719) with the faces `fs`. -/
def stepEl (c : Cfg) (dT : K) (stiffT stiffV fIntLN fIntT starE starA srcA fsE fsA : List (List K)) (rfs : List K) (firstTs : Bool) (fs : List (FaceIn K))
    (dofsE : List K) (dofsA : List (List K)) (m : CkMem K) (sc0 sc1 : List K) : Option (List K × List (List K) × CkMem K) := do
  let (dofsE, dofsA, m) ← localEl c dT stiffT stiffV fIntLN fIntT starE starA srcA fsE fsA rfs dofsE dofsA m sc0 sc1
  let (dofsE, dofsA) ← neighEl c fIntLN fIntT rfs firstTs fs dofsE dofsA sc0 sc1
  some (dofsE, dofsA, m)

/-! ### Mesh -/

/-- A face of an element, as used in the neighboring update: boundary conditions, ids of the vertex and of the face in the adjacent element, flux solver and id of the
adjacent element. -/
structure MFace (K : Type) where
  outflow : Bool
  freeSurface : Bool
  vId : Option Nat
  fId : Nat
  fsE : List K
  ne : Nat

/-- Constant data of an element: star matrices, flux solvers of the local update, faces. -/
structure MEl (K : Type) where
  starE : List (List K)
  fsL : List (List K)
  faces : List (MFace K)

/-- Element whose data are used at a face in `AderDg::neigh` (src/impl/seismic/solvers/AderDg.hpp:592-596). -/
def MFace.nb (f : MFace K) (el : Nat) : Nat := if f.freeSurface then el else f.ne

/-- Input of the neighboring update of a face with time integrated modes `t`, all elements have the same time step. -/
def MFace.toIn (f : MFace K) (t : List K) : FaceIn K :=
  ⟨f.outflow, f.freeSurface, f.vId, f.fId, ⟨true, false, false⟩, f.fsE, [], ⟨t, none, none⟩, none⟩

/-- Data of the faces of element `el` in the neighboring update; `ts` are the time integrated modes of all elements. -/
def facesIn (ts : List (List K)) (el : Nat) (fs : List (MFace K)) : Option (List (FaceIn K)) :=
  fs.mapM (fun f => (if f.outflow then some [] else rd ts (f.nb el)).map f.toIn)

/-- `AderDg::local` for element `el`. The state of an element are its degrees of freedom and the memory of the time prediction. -/
def localOf (c : Cfg) (dT : K) (stiffT stiffV fIntLN fIntT : List (List K)) (els : List (MEl K)) (sc0 sc1 : List K) (st : List (List K × CkMem K)) (el : Nat) :
    Option (List K × CkMem K) := do
  let E ← rd els el
  let x ← rd st el
  let y ← localEl c dT stiffT stiffV fIntLN fIntT E.starE [] [] E.fsL [] [] x.1 [] x.2 sc0 sc1
  some (y.1, y.2.2)

/-- `AderDg::neigh` for element `el`. -/
def neighOf (c : Cfg) (fIntLN fIntT : List (List K)) (els : List (MEl K)) (sc0 sc1 : List K) (st : List (List K × CkMem K)) (el : Nat) : Option (List K × CkMem K) := do
  let E ← rd els el
  let x ← rd st el
  let fs ← facesIn (st.map (·.2.tIntE)) el E.faces
  let y ← neighEl c fIntLN fIntT [] false fs x.1 [] sc0 sc1
  some (y.1, x.2)

/-- A global time step of all elements of a partition without relaxation mechanisms, wave field components, sources and messages: the local updates of all elements (loop
src/impl/seismic/solvers/AderDg.hpp:363), then the neighboring ones (loop src/impl/seismic/solvers/AderDg.hpp:572; src/impl/seismic/steps.inc:24-77, with a single time group). -/
def stepMesh (c : Cfg) (stiffT stiffV fIntLN fIntT : List (List K)) (els : List (MEl K)) (sc0 sc1 : List K) (st : List (List K × CkMem K)) (dT : K) :
    Option (List (List K × CkMem K)) := do
  let st ← (List.range els.length).mapM (localOf c dT stiffT stiffV fIntLN fIntT els sc0 sc1 st)
  (List.range els.length).mapM (neighOf c fIntLN fIntT els sc0 sc1 st)

/-- Time steps of sizes `dts`. -/
def runMesh (c : Cfg) (stiffT stiffV fIntLN fIntT : List (List K)) (els : List (MEl K)) (sc0 sc1 : List K) (dts : List K) (st : List (List K × CkMem K)) :
    Option (List (List K × CkMem K)) :=
  dts.foldlM (stepMesh c stiffT stiffV fIntLN fIntT els sc0 sc1) st

end Edge.Step
