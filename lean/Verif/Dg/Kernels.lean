import Verif.Linalg.Model
/-!
Model of the ADER-DG kernels of the seismic solver (vanilla implementation, `src/impl/seismic/kernels`): time prediction,
volume integration and surface integration. Arrays `x[Q][M][R]` are flat lists in C order; a pointer into the middle of an
array is the remaining part of the list. The numbers are those of a field; rounding is not modelled. Pointers which are passed
for prefetching are not modelled: the vanilla kernels do not use them.
-/
namespace Edge.Dg
open Edge Edge.Linalg

variable {K : Type} [Field K] [LinearOrder K]

/-- Template parameters and derived constants of the kernels (src/impl/seismic/kernels/TimePredVanilla.hpp:68-88,
src/impl/seismic/kernels/SurfIntVanilla.hpp:66-95): dimensions, elastic quantities, quantities per relaxation mechanism,
element modes, face modes, fused runs, relaxation mechanisms, order in time, faces. `ck` is `CE_N_ELEMENT_MODES_CK`
(src/constants.hpp:134-141) for the element type and the order. -/
structure Cfg where
  nDis : Nat
  nQtsE : Nat
  nQtsM : Nat
  nMds : Nat
  nMdsFa : Nat
  nCrs : Nat
  nRms : Nat
  oTi : Nat
  nFas : Nat
  ck : Nat → Nat

/-- `for qt, md, cr: body` on an array. -/
def loop3 {σ : Type} (q m r : Nat) (body : Nat → Nat → Nat → σ → Option σ) (s : σ) : Option σ :=
  forN q (fun i s => forN m (fun j s => forN r (fun k s => body i j k s) s) s) s

/-- Position of `x[qt][md][cr]` in an array with `m` modes and `r` runs. -/
def at3 (m r qt md cr : Nat) : Nat := qt * m * r + md * r + cr

/-- `evalTimePrediction` for a point (src/impl/seismic/kernels/TimePred.hpp:135-154). -/
def evalPoint (c : Cfg) (pt : K) (der : List (List K)) (pre : List K) : Option (List K) := do
  let d0 ← rd der 0
  let pre ← loop3 c.nQtsE c.nMds c.nCrs (fun qt md cr pre => do
    let x ← rd d0 (at3 c.nMds c.nCrs qt md cr)
    wr pre (at3 c.nMds c.nCrs qt md cr) x) pre
  let (pre, _) ← forN (c.oTi - 1) (fun i (s : List K × K) => do
    let de := i + 1
    let sca := s.2 * (pt / de)
    let d ← rd der de
    let pre ← loop3 c.nQtsE (c.ck de) c.nCrs (fun qt md cr pre => do
      let x ← rd pre (at3 c.nMds c.nCrs qt md cr)
      let y ← rd d (at3 c.nMds c.nCrs qt md cr)
      wr pre (at3 c.nMds c.nCrs qt md cr) (x + sca * y)) s.1
    some (pre, sca)) (pre, 1)
  some pre

/-- `TimePred::evalTimePrediction` (src/impl/seismic/kernels/TimePred.hpp:130-156). -/
def evalTimePrediction (c : Cfg) (pts : List K) (der : List (List K)) (pre : List (List K)) : Option (List (List K)) :=
  forN pts.length (fun l pre => do
    let pt ← rd pts l
    let p ← rd pre l
    let p ← evalPoint c pt der p
    wr pre l p) pre

/-- `TimePred::integrate` (src/impl/seismic/kernels/TimePred.hpp:165-202). -/
def integrate (c : Cfg) (dt : K) (der : List (List K)) (tInt : List K) : Option (List K) := do
  let d0 ← rd der 0
  let tInt ← loop3 c.nQtsE c.nMds c.nCrs (fun qt md cr tInt => do
    let x ← rd d0 (at3 c.nMds c.nCrs qt md cr)
    wr tInt (at3 c.nMds c.nCrs qt md cr) (dt * x)) tInt
  let (tInt, _) ← forN (c.oTi - 1) (fun i (s : List K × K) => do
    let de := i + 1
    let sca := s.2 * (dt / (de + 1 : Nat))
    let d ← rd der de
    let tInt ← loop3 c.nQtsE (if c.nRms = 0 then c.ck de else c.nMds) c.nCrs (fun qt md cr tInt => do
      let x ← rd tInt (at3 c.nMds c.nCrs qt md cr)
      let y ← rd d (at3 c.nMds c.nCrs qt md cr)
      wr tInt (at3 c.nMds c.nCrs qt md cr) (x + sca * y)) s.1
    some (tInt, sca)) (tInt, dt)
  some tInt

/-- Output and scratch arrays of `ck`: derivatives (elastic: by derivative, anelastic: by mechanism and derivative), time
integrated degrees of freedom, scratch memory. -/
structure CkMem (K : Type) where
  derE : List (List K)
  derA : List (List (List K))
  tIntE : List K
  tIntA : List (List K)
  scratch : List K

/-- Initialisation in `TimePredVanilla::ck` (src/impl/seismic/kernels/TimePredVanilla.hpp:213-236). -/
def ckInit (c : Cfg) (dT : K) (dofsE : List K) (dofsA : List (List K)) (m : CkMem K) : Option (CkMem K) := do
  let d0 ← rd m.derE 0
  let (d0, tIntE) ← loop3 c.nQtsE c.nMds c.nCrs (fun qt md cr (s : List K × List K) => do
    let x ← rd dofsE (at3 c.nMds c.nCrs qt md cr)
    let d ← wr s.1 (at3 c.nMds c.nCrs qt md cr) x
    let t ← wr s.2 (at3 c.nMds c.nCrs qt md cr) (dT * x)
    some (d, t)) (d0, m.tIntE)
  let derE ← wr m.derE 0 d0
  let (derA, tIntA) ← forN c.nRms (fun rm (s : List (List (List K)) × List (List K)) => do
    let dofs ← rd dofsA rm
    let dA ← rd s.1 rm
    let d0 ← rd dA 0
    let t ← rd s.2 rm
    let (d0, t) ← loop3 c.nQtsM c.nMds c.nCrs (fun qt md cr (s : List K × List K) => do
      let x ← rd dofs (at3 c.nMds c.nCrs qt md cr)
      let d ← wr s.1 (at3 c.nMds c.nCrs qt md cr) x
      let t ← wr s.2 (at3 c.nMds c.nCrs qt md cr) (dT * x)
      some (d, t)) (d0, t)
    let dA ← wr dA 0 d0
    let derA ← wr s.1 rm dA
    let tIntA ← wr s.2 rm t
    some (derA, tIntA)) (m.derA, m.tIntA)
  some { m with derE := derE, derA := derA, tIntE := tIntE, tIntA := tIntA }

/-- The products of a derivative (src/impl/seismic/kernels/TimePredVanilla.hpp:242-275, kernels: 99-160): zeroed derivative
`dE` and anelastic buffer `ls`, and the loop over the dimensions. `re` is the recursive id; the dense stiffness matrices are
the same ones for all recursions (src/dg/TimePred.hpp:88-93). -/
def ckDims (c : Cfg) (stiffT starE starA : List (List K)) (re : Nat) (prev : List K) (s : List K × List K × List K) :
    Option (List K × List K × List K) :=
  forN c.nDis (fun di (s : List K × List K × List K) => do
    let st ← rd stiffT di
    let scratch ← matMulFusedAC c.nCrs c.nQtsE (c.ck re) (c.ck (re - 1)) c.nMds c.nMds c.nMds 1 0 prev st s.1
    let sE ← rd starE di
    let dE ← matMulFusedBC c.nCrs c.nQtsE (c.ck re) c.nQtsE c.nQtsE c.nMds c.nMds 1 1 sE scratch s.2.1
    let ls ← if c.nRms > 0 then do
        let sA ← rd starA di
        matMulFusedBC c.nCrs c.nQtsM (c.ck 1) c.nDis c.nDis c.nMds c.nMds 1 1 sA
          (scratch.drop (at3 c.nMds c.nCrs c.nQtsM 0 0)) s.2.2
      else some s.2.2
    some (scratch, dE, ls)) s

/-- The anelastic part of a derivative (src/impl/seismic/kernels/TimePredVanilla.hpp:278-294). -/
def ckAn (c : Cfg) (sca : K) (srcA : List (List K)) (rfs : List K) (de : Nat) (ls : List K)
    (s : List K × List (List (List K)) × List (List K)) : Option (List K × List (List (List K)) × List (List K)) :=
  forN c.nRms (fun rm (s : List K × List (List (List K)) × List (List K)) => do
    let src ← rd srcA rm
    let dA ← rd s.2.1 rm
    let prev ← rd dA (de - 1)
    let dE ← matMulFusedBC c.nCrs c.nQtsM c.nMds c.nQtsM c.nQtsM c.nMds c.nMds 1 1 src prev s.1
    let rf ← rd rfs rm
    let cur ← rd dA de
    let t ← rd s.2.2 rm
    let (cur, t) ← loop3 c.nQtsM c.nMds c.nCrs (fun qt md cr (s : List K × List K) => do
      let l ← rd ls (at3 c.nMds c.nCrs qt md cr)
      let p ← rd prev (at3 c.nMds c.nCrs qt md cr)
      let d ← wr s.1 (at3 c.nMds c.nCrs qt md cr) (rf * (l + p))
      let x ← rd s.2 (at3 c.nMds c.nCrs qt md cr)
      let y ← rd d (at3 c.nMds c.nCrs qt md cr)
      let t ← wr s.2 (at3 c.nMds c.nCrs qt md cr) (x + sca * y)
      some (d, t)) (cur, t)
    let dA ← wr dA de cur
    let derA ← wr s.2.1 rm dA
    let tIntA ← wr s.2.2 rm t
    some (dE, derA, tIntA)) s

/-- `TimePredVanilla::ck` (src/impl/seismic/kernels/TimePredVanilla.hpp:200-306). The local array of the anelastic part is
zeroed before it is used. -/
def ck (c : Cfg) (dT : K) (stiffT starE starA srcA : List (List K)) (rfs : List K) (dofsE : List K) (dofsA : List (List K))
    (m : CkMem K) : Option (CkMem K) := do
  let m ← ckInit c dT dofsE dofsA m
  let (m, _) ← forN (c.oTi - 1) (fun i (s : CkMem K × K) => do
    let m := s.1
    let de := i + 1
    let re := if c.nRms = 0 then de else 1
    let dE ← rd m.derE de
    let dE ← loop3 c.nQtsE c.nMds c.nCrs (fun qt md cr (d : List K) => wr d (at3 c.nMds c.nCrs qt md cr) 0) dE
    let ls : List K := List.replicate (c.nQtsM * c.nMds * c.nCrs) 0
    let prev ← rd m.derE (de - 1)
    let (scratch, dE, ls) ← ckDims c stiffT starE starA re prev (m.scratch, dE, ls)
    let sca := s.2 * (dT / (de + 1 : Nat))
    let (dE, derA, tIntA) ← ckAn c sca srcA rfs de ls (dE, m.derA, m.tIntA)
    let derE ← wr m.derE de dE
    let tIntE ← loop3 c.nQtsE (if c.nRms = 0 then c.ck de else c.nMds) c.nCrs (fun qt md cr t => do
      let x ← rd t (at3 c.nMds c.nCrs qt md cr)
      let y ← rd dE (at3 c.nMds c.nCrs qt md cr)
      wr t (at3 c.nMds c.nCrs qt md cr) (x + sca * y)) m.tIntE
    some (⟨derE, derA, tIntE, tIntA, scratch⟩, sca)) (m, dT)
  some m

/-- `VolIntVanilla::apply` (src/impl/seismic/kernels/VolIntVanilla.hpp:189-241, kernels: 96-154): scratch memory, elastic and
anelastic degrees of freedom. -/
def volInt (c : Cfg) (stiff starE starA srcA : List (List K)) (rfs : List K) (tDofsE : List K) (tDofsA : List (List K))
    (dofsE : List K) (dofsA : List (List K)) (scratch : List K) : Option (List K × List (List K) × List K) := do
  let ls : List K := List.replicate (c.nQtsM * c.nMds * c.nCrs) 0
  let (scratch, dofsE, ls) ← forN c.nDis (fun di (s : List K × List K × List K) => do
    let st ← rd stiff di
    let scratch ← matMulFusedAC c.nCrs c.nQtsE c.nMds (c.ck 1) c.nMds c.nMds c.nMds 1 0 tDofsE st s.1
    let sE ← rd starE di
    let dofsE ← matMulFusedBC c.nCrs c.nQtsE c.nMds c.nQtsE c.nQtsE c.nMds c.nMds 1 1 sE scratch s.2.1
    let ls ← if c.nRms > 0 then do
        let sA ← rd starA di
        matMulFusedBC c.nCrs c.nQtsM c.nMds c.nDis c.nDis c.nMds c.nMds 1 1 sA
          (scratch.drop (at3 c.nMds c.nCrs c.nQtsM 0 0)) s.2.2
      else some s.2.2
    some (scratch, dofsE, ls)) (scratch, dofsE, ls)
  let (dofsE, dofsA) ← forN c.nRms (fun rm (s : List K × List (List K)) => do
    let src ← rd srcA rm
    let tA ← rd tDofsA rm
    let dofsE ← matMulFusedBC c.nCrs c.nQtsM c.nMds c.nQtsM c.nQtsM c.nMds c.nMds 1 1 src tA s.1
    let rf ← rd rfs rm
    let d ← rd s.2 rm
    let d ← loop3 c.nQtsM c.nMds c.nCrs (fun qt md cr d => do
      let x ← rd d (at3 c.nMds c.nCrs qt md cr)
      let l ← rd ls (at3 c.nMds c.nCrs qt md cr)
      let t ← rd tA (at3 c.nMds c.nCrs qt md cr)
      wr d (at3 c.nMds c.nCrs qt md cr) (x + rf * (l - t))) d
    let dofsA ← wr s.2 rm d
    some (dofsE, dofsA)) (dofsE, dofsA)
  some (dofsE, dofsA, scratch)

/-- `SurfInt::scatterUpdateA` (src/impl/seismic/kernels/SurfInt.hpp:139-156). -/
def scatterUpdateA (c : Cfg) (rfs : List K) (up : List K) (dofsA : List (List K)) : Option (List (List K)) :=
  forN c.nRms (fun rm (dofsA : List (List K)) => do
    let rf ← rd rfs rm
    let d ← rd dofsA rm
    let d ← loop3 c.nQtsM c.nMds c.nCrs (fun qt md cr d => do
      let x ← rd d (at3 c.nMds c.nCrs qt md cr)
      let u ← rd up (at3 c.nMds c.nCrs qt md cr)
      wr d (at3 c.nMds c.nCrs qt md cr) (x + rf * u)) d
    wr dofsA rm d) dofsA

/-- First kernel of the surface integration: flux matrix of a face (src/impl/seismic/kernels/SurfIntVanilla.hpp:107-119). -/
def fluxInt (c : Cfg) (tDofsE mat out : List K) : Option (List K) :=
  matMulFusedAC c.nCrs c.nQtsE c.nMdsFa c.nMds c.nMds c.nMdsFa c.nMdsFa 1 0 tDofsE mat out

/-- Flux solver and transposed flux matrix (src/impl/seismic/kernels/SurfIntVanilla.hpp:121-174, 337-356): `tFi` is the result
of the first kernel, `sc1` the second half of the scratch memory. -/
def fluxSolve (c : Cfg) (fsE fsA fIntT tFi : List K) (dofsE upA sc1 : List K) : Option (List K × List K × List K) := do
  let sc1 ← matMulFusedBC c.nCrs c.nQtsE c.nMdsFa c.nQtsE c.nQtsE c.nMdsFa c.nMdsFa 1 0 fsE tFi sc1
  let dofsE ← matMulFusedAC c.nCrs c.nQtsE c.nMds c.nMdsFa c.nMdsFa c.nMds c.nMds 1 1 sc1 fIntT dofsE
  if c.nRms > 0 then do
    let sc1 ← matMulFusedBC c.nCrs c.nQtsM c.nMdsFa c.nQtsE c.nQtsE c.nMdsFa c.nMdsFa 1 0 fsA tFi sc1
    let upA ← matMulFusedAC c.nCrs c.nQtsM c.nMds c.nMdsFa c.nMdsFa c.nMds c.nMds 1 1 sc1 fIntT upA
    some (dofsE, upA, sc1)
  else some (dofsE, upA, sc1)

/-- Anelastic flux solver of a face; only used with relaxation mechanisms
(src/impl/seismic/kernels/SurfIntVanilla.hpp:247-252). -/
def fsAOf (c : Cfg) (fsA : List (List K)) (fa : Nat) : Option (List K) := if c.nRms > 0 then rd fsA fa else some []

/-- `SurfIntVanilla::local` (src/impl/seismic/kernels/SurfIntVanilla.hpp:212-262). -/
def surfLocal (c : Cfg) (fIntLN fIntT fsE fsA : List (List K)) (rfs : List K) (tDofsE dofsE : List K) (dofsA : List (List K))
    (sc0 sc1 : List K) : Option (List K × List (List K) × List K × List K) := do
  let upA : List K := List.replicate (c.nQtsM * c.nMds * c.nCrs) 0
  let (dofsE, upA, sc0, sc1) ← forN c.nFas (fun fa (s : List K × List K × List K × List K) => do
    let mat ← rd fIntLN fa
    let sc0 ← fluxInt c tDofsE mat s.2.2.1
    let fE ← rd fsE fa
    let fA ← fsAOf c fsA fa
    let fT ← rd fIntT fa
    let (dofsE, upA, sc1) ← fluxSolve c fE fA fT sc0 s.1 s.2.1 s.2.2.2
    some (dofsE, upA, sc0, sc1)) (dofsE, upA, sc0, sc1)
  let dofsA ← if c.nRms > 0 then scatterUpdateA c rfs upA dofsA else some dofsA
  some (dofsE, dofsA, sc0, sc1)

/-- Id of the flux matrix in `SurfIntVanilla::neighFluxInt` (src/impl/seismic/kernels/SurfIntVanilla.hpp:280-287) with
`SurfInt::fMatId` (src/impl/seismic/kernels/SurfInt.hpp:127-130). An unset vertex id is `none`. Ids beyond 16 bits are not
modelled: there are at most 18 matrices. -/
def fMatId (c : Cfg) (fa : Nat) (vId : Option Nat) (fId : Nat) : Nat :=
  match vId with
  | some v => c.nFas + (v * c.nFas + fId)
  | none => fa

/-- `SurfIntVanilla::neighFluxInt` (src/impl/seismic/kernels/SurfIntVanilla.hpp:274-293). -/
def neighFluxInt (c : Cfg) (fIntLN : List (List K)) (fa : Nat) (vId : Option Nat) (fId : Nat) (tDofsE out : List K) :
    Option (List K) := do
  let mat ← rd fIntLN (fMatId c fa vId fId)
  fluxInt c tDofsE mat out

/-- Values at the face in `SurfIntVanilla::neigh` (src/impl/seismic/kernels/SurfIntVanilla.hpp:321-334): computed in the first
half of the scratch memory, or the data of a message `tFi`, if there is one. -/
def faceValues (c : Cfg) (fIntLN : List (List K)) (fa : Nat) (vId : Option Nat) (fId : Nat) (tDofsE : List K)
    (tFi : Option (List K)) (sc0 : List K) : Option (List K × List K) :=
  match tFi with
  | none => do
    let sc0 ← neighFluxInt c fIntLN fa vId fId tDofsE sc0
    some (sc0, sc0)
  | some t => some (t, sc0)

/-- `SurfIntVanilla::neigh` (src/impl/seismic/kernels/SurfIntVanilla.hpp:310-357). -/
def surfNeigh (c : Cfg) (fIntLN fIntT : List (List K)) (fa : Nat) (vId : Option Nat) (fId : Nat) (fsE fsA tDofsE : List K)
    (tFi : Option (List K)) (dofsE upA sc0 sc1 : List K) : Option (List K × List K × List K × List K) := do
  let (tF, sc0) ← faceValues c fIntLN fa vId fId tDofsE tFi sc0
  let fT ← rd fIntT fa
  let (dofsE, upA, sc1) ← fluxSolve c fsE fsA fT tF dofsE upA sc1
  some (dofsE, upA, sc0, sc1)

end Edge.Dg
