import Verif.Dg.Kernels
/-!
Model of the element updates of the ADER-DG solver with local time stepping (`src/impl/seismic/solvers/AderDg.hpp`). The loop
over the elements is left out: an iteration of the local update touches only data of its element, an iteration of the
neighboring update writes only data of its element and reads time integrated data of others. Receivers are modelled in
`Verif.Recv`; pointers for prefetching are not modelled.
-/
namespace Edge.Dg
open Edge Edge.Linalg

variable {K : Type} [Field K] [LinearOrder K]

/-- Time integrated degrees of freedom of an element: `o_tDofs[0..2][el]`. The second and third ones are only allocated if an
adjacent element has a larger or smaller time step; `none` is the null pointer. -/
structure TDofs (K : Type) where
  eq : List K
  lt : Option (List K)
  gt : Option (List K)

/-- Update of the summed and the half time integrals in `AderDg::local` (src/impl/seismic/solvers/AderDg.hpp:381-417).
`isLt`, `isGt`: bits `EL_INT_LT`, `EL_INT_GT` of the element's sparse type. -/
def localLts (c : Cfg) (isLt isGt firstTs : Bool) (dt : K) (der : List (List K)) (t : TDofs K) : Option (TDofs K) := do
  let lt ← if isLt then do
      let x ← t.lt
      let x ← if firstTs then
          loop3 c.nQtsE c.nMds c.nCrs (fun qt md cr (x : List K) => wr x (at3 c.nMds c.nCrs qt md cr) 0) x
        else some x
      let x ← loop3 c.nQtsE c.nMds c.nCrs (fun qt md cr (x : List K) => do
        let a ← rd x (at3 c.nMds c.nCrs qt md cr)
        let b ← rd t.eq (at3 c.nMds c.nCrs qt md cr)
        wr x (at3 c.nMds c.nCrs qt md cr) (a + b)) x
      some (some x)
    else some t.lt
  let gt ← if isGt then do
      let x ← t.gt
      let x ← integrate c (1 / 2 * dt) der x
      some (some x)
    else some t.gt
  some ⟨t.eq, lt, gt⟩

/-- Data of a face for an adjacent element of another rank in `AderDg::local` (src/impl/seismic/solvers/AderDg.hpp:419-470).
`adEq`, `adLt`: bits of the element's sparse type for the face. The message buffer of a "greater than" relation has twice the
size. -/
def sendFace (c : Cfg) (fIntLN : List (List K)) (vId : Option Nat) (fa : Nat) (adEq adLt firstTs : Bool) (t : TDofs K)
    (buf : List K) : Option (List K) :=
  if adEq then neighFluxInt c fIntLN 65535 vId fa t.eq buf
  else if adLt then
    if !firstTs then do
      let x ← t.lt
      neighFluxInt c fIntLN 65535 vId fa x buf
    else some buf
  else do
    let x ← t.gt
    let buf ← neighFluxInt c fIntLN 65535 vId fa x buf
    let snd ← neighFluxInt c fIntLN 65535 vId fa t.eq (buf.drop (at3 c.nMdsFa c.nCrs c.nQtsE 0 0))
    let buf := buf.take (at3 c.nMdsFa c.nCrs c.nQtsE 0 0) ++ snd
    loop3 c.nQtsE c.nMdsFa c.nCrs (fun qt md cr (buf : List K) => do
      let x ← rd buf (at3 c.nMdsFa c.nCrs (c.nQtsE + qt) md cr)
      let y ← rd buf (at3 c.nMdsFa c.nCrs qt md cr)
      wr buf (at3 c.nMdsFa c.nCrs (c.nQtsE + qt) md cr) (x - y)) buf

/-- Time integrated data of the adjacent element on the same rank in `AderDg::neigh` (src/impl/seismic/solvers/AderDg.hpp:612-667).
`t` are the arrays of the adjacent element, `adEq`, `adGt` bits of the element which is updated. The local array which is
filled is uninitialised; all of its entries are written. -/
def assemble (c : Cfg) (adEq adGt firstTs : Bool) (t : TDofs K) : Option (List K) := do
  let out : List K := List.replicate (c.nQtsE * c.nMds * c.nCrs) 0
  if adEq then
    loop3 c.nQtsE c.nMds c.nCrs (fun qt md cr out => do
      let x ← rd t.eq (at3 c.nMds c.nCrs qt md cr)
      wr out (at3 c.nMds c.nCrs qt md cr) x) out
  else if adGt then do
    let l ← t.lt
    loop3 c.nQtsE c.nMds c.nCrs (fun qt md cr out => do
      let x ← rd l (at3 c.nMds c.nCrs qt md cr)
      wr out (at3 c.nMds c.nCrs qt md cr) x) out
  else do
    let g ← t.gt
    if firstTs then
      loop3 c.nQtsE c.nMds c.nCrs (fun qt md cr out => do
        let x ← rd g (at3 c.nMds c.nCrs qt md cr)
        wr out (at3 c.nMds c.nCrs qt md cr) x) out
    else
      loop3 c.nQtsE c.nMds c.nCrs (fun qt md cr out => do
        let x ← rd t.eq (at3 c.nMds c.nCrs qt md cr)
        let y ← rd g (at3 c.nMds c.nCrs qt md cr)
        wr out (at3 c.nMds c.nCrs qt md cr) (x - y)) out

/-- Relation of an element to the one at a face, bits `C_LTS_AD[fa]` of the element's sparse type. -/
structure AdBits where
  eq : Bool
  lt : Bool
  gt : Bool

/-- Face of an element in `AderDg::neigh`: boundary conditions, ids, bits, flux solvers, and where the data of the adjacent
element is: arrays on the same rank (of the element itself at the free surface) or a message. -/
structure FaceIn (K : Type) where
  outflow : Bool
  freeSurface : Bool
  vId : Option Nat
  fId : Nat
  ad : AdBits
  fsE : List K
  fsA : List K
  tNe : TDofs K
  recv : Option (List K)

/-- Source of the data of a face in `AderDg::neigh` (src/impl/seismic/solvers/AderDg.hpp:611-681): time integrated modes, or
the part of a message. The message is read from the second half in the second step of an element with a smaller time step. -/
def faceSource (c : Cfg) (firstTs : Bool) (f : FaceIn K) : Option (List K × Option (List K)) :=
  match f.recv with
  | none => do
    let x ← assemble c f.ad.eq f.ad.gt firstTs f.tNe
    some (x, none)
  | some b =>
    let off := if f.ad.lt then (if firstTs then 0 else c.nQtsE) else 0
    some ([], some (b.drop (at3 c.nMdsFa c.nCrs off 0 0)))

/-- Contribution of a face in `AderDg::neigh` (src/impl/seismic/solvers/AderDg.hpp:586-707). At the free
surface the ids are unset. -/
def neighFace (c : Cfg) (fIntLN fIntT : List (List K)) (firstTs : Bool) (fa : Nat) (f : FaceIn K)
    (s : List K × List K × List K × List K) : Option (List K × List K × List K × List K) :=
  if f.outflow then some s
  else do
    let (tD, tFi) ← faceSource c firstTs f
    let vId := if f.freeSurface then none else f.vId
    let fId := if f.freeSurface then 65535 else f.fId
    surfNeigh c fIntLN fIntT fa vId fId f.fsE f.fsA tD tFi s.1 s.2.1 s.2.2.1 s.2.2.2

/-- An element in `AderDg::neigh` (src/impl/seismic/solvers/AderDg.hpp:572-719). -/
def neighEl (c : Cfg) (fIntLN fIntT : List (List K)) (rfs : List K) (firstTs : Bool) (fs : List (FaceIn K)) (dofsE : List K)
    (dofsA : List (List K)) (sc0 sc1 : List K) : Option (List K × List (List K)) := do
  let upA : List K := List.replicate (c.nQtsM * c.nMds * c.nCrs) 0
  let (dofsE, upA, _, _) ← forN c.nFas (fun fa s => do
    let f ← rd fs fa
    neighFace c fIntLN fIntT firstTs fa f s) (dofsE, upA, sc0, sc1)
  let dofsA ← if c.nRms > 0 then scatterUpdateA c rfs upA dofsA else some dofsA
  some (dofsE, dofsA)

end Edge.Dg
