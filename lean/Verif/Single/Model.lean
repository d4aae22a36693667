import Verif.Rate.Model
/-!
Model of the kernels of the seismic solver for single (not fused) simulations (src/impl/seismic/kernels/TimePredSingle.hpp, VolIntSingle.hpp, SurfIntSingle.hpp, src/data/MmXsmmSingle.hpp): generation of the
matrix kernels and the kernels themselves. Prefetches are left out. The constants `c` are those of `Verif.Dg` with one run, arrays `x[Q][M][1]` are flat lists in C order.
-/
namespace Edge.Single
open Edge Edge.Linalg Edge.Dg Edge.Step Edge.Rate

variable {K : Type} [Field K] [LinearOrder K]

/-! ### Matrix kernels -/

/-- A kernel, as requested by `MmXsmmSingle::add` (src/data/MmXsmmSingle.hpp:78-112, 146-182): sizes, leading dimensions and beta; alpha is one in all calls. -/
structure Gemm (K : Type) where
  m : Nat
  n : Nat
  k : Nat
  ldA : Nat
  ldB : Nat
  ldC : Nat
  beta : K

/-- Call of a kernel of `libxsmm_xmmdispatch` (src/data/MmXsmmSingle.hpp:99-108). LIBXSMM is not part of the code; this is the documented function of its dense kernels without transposition:
`C = beta * C + A * B`, all matrices are column-major. -/
def Gemm.run (g : Gemm K) (a b c : List K) : Option (List K) :=
  forN g.n (fun j c => forN g.m (fun i (c : List K) => do
    let x ← rd c (j * g.ldC + i)
    let s ← forN g.k (fun l s => do
      let u ← rd a (l * g.ldA + i)
      let v ← rd b (j * g.ldB + l)
      some (s + u * v)) (if g.beta = 0 then 0 else g.beta * x)
    wr c (j * g.ldC + i) s) c) c

/-- `MmXsmmSingle::add` (src/data/MmXsmmSingle.hpp:92-111): kernel groups are added if required, the kernel is appended to its group. That LIBXSMM returns a kernel is assumed. -/
def addG (g : Nat) (k : Gemm K) (gs : List (List (Gemm K))) : List (List (Gemm K)) :=
  (if g ≥ gs.length then gs ++ List.replicate (g + 1 - gs.length) [] else gs).modify g (· ++ [k])

/-- `m_mm.m_kernels[g][i]( a, b, c )`. -/
def callG (gs : List (List (Gemm K))) (g i : Nat) (a b c : List K) : Option (List K) := do
  let ks ← rd gs g
  let k ← rd ks i
  k.run a b c

/-! ### Time prediction -/

/-- Kernels of a derivative in `TimePredSingle::generateKernels` (src/impl/seismic/kernels/TimePredSingle.hpp:99-149); `i + 1` is `l_de`. -/
def genDer (c : Cfg) (i : Nat) (gs : List (List (Gemm K))) : List (List (Gemm K)) :=
  let gs := addG 0 ⟨c.ck (i + 1), c.nQtsE, c.ck i, c.nMds, c.nMds, c.nMds, 0⟩ gs
  let gs := addG 1 ⟨c.ck (i + 1), c.nQtsE, c.nQtsE, c.nMds, c.nQtsE, c.nMds, 1⟩ gs
  if c.nRms > 0 then
    let gs := addG 2 ⟨c.ck 1, c.nQtsM, c.nDis, c.nMds, c.nDis, c.nMds, 1⟩ gs
    addG 2 ⟨c.nMds, c.nQtsM, c.nQtsM, c.nMds, c.nQtsM, c.nMds, 1⟩ gs
  else gs

/-- `TimePredSingle::generateKernels` (src/impl/seismic/kernels/TimePredSingle.hpp:97-151). -/
def genTimePred (c : Cfg) : Option (List (List (Gemm K))) := forN (c.oTi - 1) (fun i gs => some (genDer c i gs)) []

/-- The products of a derivative (src/impl/seismic/kernels/TimePredSingle.hpp:247-264). -/
def ckDimsS (c : Cfg) (gs : List (List (Gemm K))) (stiffT starE starA : List (List K)) (re : Nat) (prev : List K) (s : List K × List K × List K) : Option (List K × List K × List K) :=
  forN c.nDis (fun di (s : List K × List K × List K) => do
    let st ← rd stiffT di
    let scratch ← callG gs 0 (re - 1) st prev s.1
    let sE ← rd starE di
    let dE ← callG gs 1 (re - 1) scratch sE s.2.1
    let ls ← if c.nRms > 0 then do
        let sA ← rd starA di
        callG gs 2 0 (scratch.drop (at3 c.nMds 1 c.nQtsM 0 0)) sA s.2.2
      else some s.2.2
    some (scratch, dE, ls)) s

/-- The anelastic part of a derivative (src/impl/seismic/kernels/TimePredSingle.hpp:269-283). -/
def ckAnS (c : Cfg) (gs : List (List (Gemm K))) (sca : K) (srcA : List (List K)) (rfs : List K) (de : Nat) (ls : List K)
    (s : List K × List (List (List K)) × List (List K)) : Option (List K × List (List (List K)) × List (List K)) :=
  forN c.nRms (fun rm (s : List K × List (List (List K)) × List (List K)) => do
    let src ← rd srcA rm
    let dA ← rd s.2.1 rm
    let prev ← rd dA (de - 1)
    let dE ← callG gs 2 1 prev src s.1
    let rf ← rd rfs rm
    let cur ← rd dA de
    let t ← rd s.2.2 rm
    let (cur, t) ← loop3 c.nQtsM c.nMds 1 (fun qt md cr (s : List K × List K) => do
      let l ← rd ls (at3 c.nMds 1 qt md cr)
      let p ← rd prev (at3 c.nMds 1 qt md cr)
      let d ← wr s.1 (at3 c.nMds 1 qt md cr) (rf * (l + p))
      let x ← rd s.2 (at3 c.nMds 1 qt md cr)
      let y ← rd d (at3 c.nMds 1 qt md cr)
      let t ← wr s.2 (at3 c.nMds 1 qt md cr) (x + sca * y)
      some (d, t)) (cur, t)
    let dA ← wr dA de cur
    let derA ← wr s.2.1 rm dA
    let tIntA ← wr s.2.2 rm t
    some (dE, derA, tIntA)) s

/-- Initialisation in `TimePredSingle::ck` (src/impl/seismic/kernels/TimePredSingle.hpp:205-226). -/
def ckInitS (c : Cfg) (dT : K) (dofsE : List K) (dofsA : List (List K)) (m : CkMem K) : Option (CkMem K) := do
  let d0 ← rd m.derE 0
  let (d0, tIntE) ← loop3 c.nQtsE c.nMds 1 (fun qt md cr (s : List K × List K) => do
    let x ← rd dofsE (at3 c.nMds 1 qt md cr)
    let d ← wr s.1 (at3 c.nMds 1 qt md cr) x
    let t ← wr s.2 (at3 c.nMds 1 qt md cr) (dT * x)
    some (d, t)) (d0, m.tIntE)
  let derE ← wr m.derE 0 d0
  let (derA, tIntA) ← forN c.nRms (fun rm (s : List (List (List K)) × List (List K)) => do
    let dofs ← rd dofsA rm
    let dA ← rd s.1 rm
    let d0 ← rd dA 0
    let t ← rd s.2 rm
    let (d0, t) ← loop3 c.nQtsM c.nMds 1 (fun qt md cr (s : List K × List K) => do
      let x ← rd dofs (at3 c.nMds 1 qt md cr)
      let d ← wr s.1 (at3 c.nMds 1 qt md cr) x
      let t ← wr s.2 (at3 c.nMds 1 qt md cr) (dT * x)
      some (d, t)) (d0, t)
    let dA ← wr dA 0 d0
    let derA ← wr s.1 rm dA
    let tIntA ← wr s.2 rm t
    some (derA, tIntA)) (m.derA, m.tIntA)
  some { m with derE := derE, derA := derA, tIntE := tIntE, tIntA := tIntA }

/-- `TimePredSingle::ck` (src/impl/seismic/kernels/TimePredSingle.hpp:191-296) with the stiffness matrices of `storeStiffTDense` (src/dg/TimePred.hpp:68-101), which are the same ones for all recursions. -/
def ckS (c : Cfg) (gs : List (List (Gemm K))) (dT : K) (stiffT starE starA srcA : List (List K)) (rfs : List K) (dofsE : List K) (dofsA : List (List K))
    (m : CkMem K) : Option (CkMem K) := do
  let m ← ckInitS c dT dofsE dofsA m
  let (m, _) ← forN (c.oTi - 1) (fun i (s : CkMem K × K) => do
    let m := s.1
    let de := i + 1
    let re := if c.nRms = 0 then de else 1
    let dE ← rd m.derE de
    let dE ← loop3 c.nQtsE c.nMds 1 (fun qt md cr (d : List K) => wr d (at3 c.nMds 1 qt md cr) 0) dE
    let ls : List K := List.replicate (c.nQtsM * c.nMds * 1) 0
    let prev ← rd m.derE (de - 1)
    let (scratch, dE, ls) ← ckDimsS c gs stiffT starE starA re prev (m.scratch, dE, ls)
    let sca := s.2 * (dT / (de + 1 : Nat))
    let (dE, derA, tIntA) ← ckAnS c gs sca srcA rfs de ls (dE, m.derA, m.tIntA)
    let derE ← wr m.derE de dE
    let tIntE ← loop3 c.nQtsE (if c.nRms = 0 then c.ck de else c.nMds) 1 (fun qt md cr t => do
      let x ← rd t (at3 c.nMds 1 qt md cr)
      let y ← rd dE (at3 c.nMds 1 qt md cr)
      wr t (at3 c.nMds 1 qt md cr) (x + sca * y)) m.tIntE
    some (⟨derE, derA, tIntE, tIntA, scratch⟩, sca)) (m, dT)
  some m

/-! ### Volume integration -/

/-- `VolIntSingle::generateKernels` (src/impl/seismic/kernels/VolIntSingle.hpp:94-144). -/
def genVolInt (c : Cfg) : List (List (Gemm K)) :=
  let gs := addG 0 ⟨c.nMds, c.nQtsE, c.ck 1, c.nMds, c.nMds, c.nMds, 0⟩ []
  let gs := addG 0 ⟨c.nMds, c.nQtsE, c.nQtsE, c.nMds, c.nQtsE, c.nMds, 1⟩ gs
  if c.nRms > 0 then
    let gs := addG 1 ⟨c.nMds, c.nQtsM, c.nDis, c.nMds, c.nDis, c.nMds, 1⟩ gs
    addG 1 ⟨c.nMds, c.nQtsM, c.nQtsM, c.nMds, c.nQtsM, c.nMds, 1⟩ gs
  else gs

/-- `VolIntSingle::apply` (src/impl/seismic/kernels/VolIntSingle.hpp:179-230). -/
def volIntS (c : Cfg) (gs : List (List (Gemm K))) (stiff starE starA srcA : List (List K)) (rfs : List K) (tDofsE : List K) (tDofsA : List (List K))
    (dofsE : List K) (dofsA : List (List K)) (scratch : List K) : Option (List K × List (List K) × List K) := do
  let ls : List K := List.replicate (c.nQtsM * c.nMds * 1) 0
  let (scratch, dofsE, ls) ← forN c.nDis (fun di (s : List K × List K × List K) => do
    let st ← rd stiff di
    let scratch ← callG gs 0 0 st tDofsE s.1
    let sE ← rd starE di
    let dofsE ← callG gs 0 1 scratch sE s.2.1
    let ls ← if c.nRms > 0 then do
        let sA ← rd starA di
        callG gs 1 0 (scratch.drop (at3 c.nMds 1 c.nQtsM 0 0)) sA s.2.2
      else some s.2.2
    some (scratch, dofsE, ls)) (scratch, dofsE, ls)
  let (dofsE, dofsA) ← forN c.nRms (fun rm (s : List K × List (List K)) => do
    let src ← rd srcA rm
    let tA ← rd tDofsA rm
    let dofsE ← callG gs 1 1 tA src s.1
    let rf ← rd rfs rm
    let d ← rd s.2 rm
    let d ← loop3 c.nQtsM c.nMds 1 (fun qt md cr d => do
      let x ← rd d (at3 c.nMds 1 qt md cr)
      let l ← rd ls (at3 c.nMds 1 qt md cr)
      let t ← rd tA (at3 c.nMds 1 qt md cr)
      wr d (at3 c.nMds 1 qt md cr) (x + rf * (l - t))) d
    let dofsA ← wr s.2 rm d
    some (dofsE, dofsA)) (dofsE, dofsA)
  some (dofsE, dofsA, scratch)

/-! ### Surface integration -/

/-- `SurfIntSingle::generateKernels` (src/impl/seismic/kernels/SurfIntSingle.hpp:102-162). -/
def genSurfInt (c : Cfg) : List (List (Gemm K)) :=
  let gs := addG 0 ⟨c.nMdsFa, c.nQtsE, c.nMds, c.nMdsFa, c.nMds, c.nMdsFa, 0⟩ []
  let gs := addG 0 ⟨c.nMdsFa, c.nQtsE, c.nQtsE, c.nMdsFa, c.nQtsE, c.nMdsFa, 0⟩ gs
  let gs := addG 0 ⟨c.nMds, c.nQtsE, c.nMdsFa, c.nMds, c.nMdsFa, c.nMds, 1⟩ gs
  let gs := addG 1 ⟨c.nMdsFa, c.nQtsM, c.nQtsE, c.nMdsFa, c.nQtsE, c.nMdsFa, 0⟩ gs
  addG 1 ⟨c.nMds, c.nQtsM, c.nMdsFa, c.nMds, c.nMdsFa, c.nMds, 1⟩ gs

/-- Flux solver and transposed flux matrix (src/impl/seismic/kernels/SurfIntSingle.hpp:227-250, 332-355); `tFi` is the result of the first kernel. -/
def fluxSolveS (c : Cfg) (gs : List (List (Gemm K))) (fsE fsA fIntT tFi : List K) (dofsE upA sc1 : List K) : Option (List K × List K × List K) := do
  let sc1 ← callG gs 0 1 tFi fsE sc1
  let dofsE ← callG gs 0 2 fIntT sc1 dofsE
  if c.nRms > 0 then do
    let sc1 ← callG gs 1 0 tFi fsA sc1
    let upA ← callG gs 1 1 fIntT sc1 upA
    some (dofsE, upA, sc1)
  else some (dofsE, upA, sc1)

/-- `SurfIntSingle::local` (src/impl/seismic/kernels/SurfIntSingle.hpp:198-255) with the function `scatterUpdateA` of all kernels. -/
def surfLocalS (c : Cfg) (gs : List (List (Gemm K))) (fIntLN fIntT fsE fsA : List (List K)) (rfs : List K) (tDofsE dofsE : List K) (dofsA : List (List K))
    (sc0 sc1 : List K) : Option (List K × List (List K) × List K × List K) := do
  let upA : List K := List.replicate (c.nQtsM * c.nMds * 1) 0
  let (dofsE, upA, sc0, sc1) ← forN c.nFas (fun fa (s : List K × List K × List K × List K) => do
    let mat ← rd fIntLN fa
    let sc0 ← callG gs 0 0 mat tDofsE s.2.2.1
    let fE ← rd fsE fa
    let fA ← fsAOf c fsA fa
    let fT ← rd fIntT fa
    let (dofsE, upA, sc1) ← fluxSolveS c gs fE fA fT sc0 s.1 s.2.1 s.2.2.2
    some (dofsE, upA, sc0, sc1)) (dofsE, upA, sc0, sc1)
  let dofsA ← if c.nRms > 0 then scatterUpdateA c rfs upA dofsA else some dofsA
  some (dofsE, dofsA, sc0, sc1)

/-- `SurfIntSingle::neighFluxInt` (src/impl/seismic/kernels/SurfIntSingle.hpp:267-289). -/
def neighFluxIntS (c : Cfg) (gs : List (List (Gemm K))) (fIntLN : List (List K)) (fa : Nat) (vId : Option Nat) (fId : Nat) (tDofsE out : List K) : Option (List K) := do
  let mat ← rd fIntLN (match vId with
    | some v => c.nFas + (v * c.nFas + fId)
    | none => fa)
  callG gs 0 0 mat tDofsE out

/-- `SurfIntSingle::neigh` (src/impl/seismic/kernels/SurfIntSingle.hpp:306-356). -/
def surfNeighS (c : Cfg) (gs : List (List (Gemm K))) (fIntLN fIntT : List (List K)) (fa : Nat) (vId : Option Nat) (fId : Nat) (fsE fsA tDofsE : List K)
    (tFi : Option (List K)) (dofsE upA sc0 sc1 : List K) : Option (List K × List K × List K × List K) := do
  let (tF, sc0) ← match tFi with
    | none => do
      let sc0 ← neighFluxIntS c gs fIntLN fa vId fId tDofsE sc0
      some (sc0, sc0)
    | some t => some (t, sc0)
  let fT ← rd fIntT fa
  let (dofsE, upA, sc1) ← fluxSolveS c gs fsE fsA fT tF dofsE upA sc1
  some (dofsE, upA, sc0, sc1)

/-! ### Updates of elements -/

/-- The kernels of `AderDg` (src/impl/seismic/solvers/AderDg.hpp:259-264) for single simulations (src/impl/seismic/kernels/Kernels.hpp:94-108): matrix kernels of time prediction, volume and surface
integration. -/
structure Kerns (K : Type) where
  tp : List (List (Gemm K))
  vp : List (List (Gemm K))
  sp : List (List (Gemm K))

/-- Constructor of the kernels (src/impl/seismic/kernels/Kernels.hpp:138-141). -/
def mkKerns (c : Cfg) : Option (Kerns K) := do
  let tp ← genTimePred c
  some ⟨tp, genVolInt c, genSurfInt c⟩

/-- An element in `AderDg::local` (src/impl/seismic/solvers/AderDg.hpp:363-520), see `Step.localEl`. -/
def localElS (c : Cfg) (ks : Kerns K) (dT : K) (stiffT stiffV fIntLN fIntT starE starA srcA fsE fsA : List (List K)) (rfs dofsE : List K) (dofsA : List (List K)) (m : CkMem K)
    (sc0 sc1 : List K) : Option (List K × List (List K) × CkMem K) := do
  let m ← ckS c ks.tp dT stiffT starE starA srcA rfs dofsE dofsA m
  let (dofsE, dofsA, _) ← volIntS c ks.vp stiffV starE starA srcA rfs m.tIntE m.tIntA dofsE dofsA m.scratch
  let (dofsE, dofsA, _, _) ← surfLocalS c ks.sp fIntLN fIntT fsE fsA rfs m.tIntE dofsE dofsA sc0 sc1
  some (dofsE, dofsA, m)

/-- A face in `AderDg::neigh` (src/impl/seismic/solvers/AderDg.hpp:586-707), see `Dg.neighFace`. -/
def neighFaceS (c : Cfg) (ks : Kerns K) (fIntLN fIntT : List (List K)) (firstTs : Bool) (fa : Nat) (f : FaceIn K) (s : List K × List K × List K × List K) :
    Option (List K × List K × List K × List K) :=
  if f.outflow then some s
  else do
    let (tD, tFi) ← faceSource c firstTs f
    let vId := if f.freeSurface then none else f.vId
    let fId := if f.freeSurface then 65535 else f.fId
    surfNeighS c ks.sp fIntLN fIntT fa vId fId f.fsE f.fsA tD tFi s.1 s.2.1 s.2.2.1 s.2.2.2

/-- An element in `AderDg::neigh` (src/impl/seismic/solvers/AderDg.hpp:572-719), see `Dg.neighEl`. -/
def neighElS (c : Cfg) (ks : Kerns K) (fIntLN fIntT : List (List K)) (rfs : List K) (firstTs : Bool) (fs : List (FaceIn K)) (dofsE : List K)
    (dofsA : List (List K)) (sc0 sc1 : List K) : Option (List K × List (List K)) := do
  let upA : List K := List.replicate (c.nQtsM * c.nMds * 1) 0
  let (dofsE, upA, _, _) ← forN c.nFas (fun fa s => do
    let f ← rd fs fa
    neighFaceS c ks fIntLN fIntT firstTs fa f s) (dofsE, upA, sc0, sc1)
  let dofsA ← if c.nRms > 0 then scatterUpdateA c rfs upA dofsA else some dofsA
  some (dofsE, dofsA)

/-- A time step of an element, see `Step.stepEl`. -/
def stepElS (c : Cfg) (ks : Kerns K) (dT : K) (stiffT stiffV fIntLN fIntT starE starA srcA fsE fsA : List (List K)) (rfs : List K) (firstTs : Bool) (fs : List (FaceIn K))
    (dofsE : List K) (dofsA : List (List K)) (m : CkMem K) (sc0 sc1 : List K) : Option (List K × List (List K) × CkMem K) := do
  let (dofsE, dofsA, m) ← localElS c ks dT stiffT stiffV fIntLN fIntT starE starA srcA fsE fsA rfs dofsE dofsA m sc0 sc1
  let (dofsE, dofsA) ← neighElS c ks fIntLN fIntT rfs firstTs fs dofsE dofsA sc0 sc1
  some (dofsE, dofsA, m)

/-- Local update of element `el` of a mesh with local time stepping, see `Rate.locEl`. -/
def locElS (c : Cfg) (ks : Kerns K) (dt : Nat → Nat → K) (stiffT stiffV fIntLN fIntT : List (List K)) (els : List (REl K)) (sc0 sc1 : List K) (st : List (RSt K)) (el : Nat) : Option (List (RSt K)) := do
  let E ← rd els el
  let x ← rd st el
  let y ← localElS c ks (dt E.tg x.nl) stiffT stiffV fIntLN fIntT E.starE [] [] E.fsL [] [] x.dofs [] x.mem sc0 sc1
  let t ← localLts c E.isLt E.isGt (x.nl % 2 == 0) (dt E.tg x.nl) y.2.2.derE ⟨y.2.2.tIntE, x.lt, x.gt⟩
  wr st el ⟨y.1, y.2.2, t.lt, t.gt, x.nl + 1, x.nn⟩

/-- Neighboring update of element `el`, see `Rate.neiEl`. -/
def neiElS (c : Cfg) (ks : Kerns K) (fIntLN fIntT : List (List K)) (els : List (REl K)) (sc0 sc1 : List K) (st : List (RSt K)) (el : Nat) : Option (List (RSt K)) := do
  let E ← rd els el
  let x ← rd st el
  let fs ← Rate.facesIn (st.map (·.tDofs)) el E.faces E.ad
  let y ← neighElS c ks fIntLN fIntT [] (x.nn % 2 == 0) fs x.dofs [] sc0 sc1
  wr st el { x with dofs := y.1, nn := x.nn + 1 }

/-- Execution of an update, see `Rate.exec`. -/
def execS (c : Cfg) (ks : Kerns K) (dt : Nat → Nat → K) (stiffT stiffV fIntLN fIntT : List (List K)) (els : List (REl K)) (sc0 sc1 : List K) (st : List (RSt K)) : Ev → Option (List (RSt K))
  | .loc el => locElS c ks dt stiffT stiffV fIntLN fIntT els sc0 sc1 st el
  | .nei el => neiElS c ks fIntLN fIntT els sc0 sc1 st el

/-- Intervals between synchronizations with the updates of each interval, see `Rate.runSync`. -/
def runSyncS (c : Cfg) (ks : Kerns K) (stiffT stiffV fIntLN fIntT : List (List K)) (els : List (REl K)) (sc0 sc1 : List K) (ivs : List ((Nat → Nat → K) × List Ev)) (st : List (RSt K)) :
    Option (List (RSt K)) :=
  ivs.foldlM (fun st iv => iv.2.foldlM (execS c ks iv.1 stiffT stiffV fIntLN fIntT els sc0 sc1) (sync st)) st

end Edge.Single
