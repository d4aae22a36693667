import Verif.Dg.Kernels

/-!
Model of the kernels of the advection equation: /repo/src/impl/advection/kernels/{TimePred,VolInt,SurfInt}.hpp, and of the
updates of an element in /repo/src/impl/advection/solvers/AderDg.hpp lines 184-400 (without MPI). Arrays are in C order
(one quantity, modes, fused simulations). `K` is any field with a decidable order (no rounding).
-/
namespace Edge.Advection
open Edge Edge.Dg Edge.Linalg

/-- Sizes of the kernels: dimensions, modes of the element and of its faces, fused simulations, time order, faces
(TimePred.hpp:60-64, SurfInt.hpp:60-76). -/
structure KCfg where
  nDis : Nat
  nMds : Nat
  nMdsFa : Nat
  nCrs : Nat
  oTi : Nat
  nFas : Nat

section
variable {K : Type} [Field K] [LinearOrder K]

/-- The loop over the dimensions in `TimePred::ck` (TimePred.hpp:118-147): scratch memory and derivative. -/
def ckDims (c : KCfg) (star : List K) (stiffT : List (List K)) (prev : List K) (s : List K × List K) : Option (List K × List K) :=
  forN c.nDis (fun di (s : List K × List K) => do
    let st ← rd stiffT di
    let scratch ← matMulFusedAC c.nCrs 1 c.nMds c.nMds c.nMds c.nMds c.nMds 1 0 prev st s.1
    let cur ← matMulFusedBC c.nCrs 1 c.nMds 1 1 c.nMds c.nMds 1 1 (star.drop di) scratch s.2
    some (scratch, cur)) s

/-- `o_tInt[md][cr] += sca * d[md][cr]` for all modes and simulations (TimePred.hpp:153-154, 187-192). -/
def axpy (c : KCfg) (sca : K) (d t : List K) : Option (List K) :=
  loop3 1 c.nMds c.nCrs (fun q md cr t => do
    let x ← rd t (at3 c.nMds c.nCrs q md cr)
    let y ← rd d (at3 c.nMds c.nCrs q md cr)
    wr t (at3 c.nMds c.nCrs q md cr) (x + sca * y)) t

/-- `TimePred::ck` (TimePred.hpp:92-156): derivatives and time integrated degrees of freedom. -/
def ck (c : KCfg) (dT : K) (star : List K) (stiffT : List (List K)) (dofs : List K) (der : List (List K)) (tInt scratch : List K) :
    Option (List (List K) × List K) := do
  let d0 ← rd der 0
  let (d0, tInt) ← loop3 1 c.nMds c.nCrs (fun q md cr (s : List K × List K) => do
    let x ← rd dofs (at3 c.nMds c.nCrs q md cr)
    let d ← wr s.1 (at3 c.nMds c.nCrs q md cr) x
    let t ← wr s.2 (at3 c.nMds c.nCrs q md cr) (dT * x)
    some (d, t)) (d0, tInt)
  let der ← wr der 0 d0
  let (der, tInt, _, _) ← forN (c.oTi - 1) (fun i (s : List (List K) × List K × List K × K) => do
    let de := i + 1
    let cur ← rd s.1 de
    let cur ← loop3 1 c.nMds c.nCrs (fun q md cr (d : List K) => wr d (at3 c.nMds c.nCrs q md cr) 0) cur
    let prev ← rd s.1 (de - 1)
    let (scratch, cur) ← ckDims c star stiffT prev (s.2.2.1, cur)
    let der ← wr s.1 de cur
    let sca := s.2.2.2 * (dT / (de + 1 : Nat))
    let tInt ← axpy c sca cur s.2.1
    some (der, tInt, scratch, sca)) (der, tInt, scratch, dT)
  some (der, tInt)

/-- `TimePred::integrate` (TimePred.hpp:165-195). -/
def integrate (c : KCfg) (dt : K) (der : List (List K)) (tInt : List K) : Option (List K) := do
  let d0 ← rd der 0
  let tInt ← loop3 1 c.nMds c.nCrs (fun q md cr t => do
    let x ← rd d0 (at3 c.nMds c.nCrs q md cr)
    wr t (at3 c.nMds c.nCrs q md cr) (dt * x)) tInt
  let (tInt, _) ← forN (c.oTi - 1) (fun i (s : List K × K) => do
    let de := i + 1
    let sca := s.2 * (dt / (de + 1 : Nat))
    let d ← rd der de
    let tInt ← axpy c sca d s.1
    some (tInt, sca)) (tInt, dt)
  some tInt

/-- `VolInt::apply` (VolInt.hpp:88-126): temporary product and degrees of freedom. -/
def volInt (c : KCfg) (star : List K) (stiff : List (List K)) (tDofs : List K) (s : List K × List K) : Option (List K × List K) :=
  forN c.nDis (fun di (s : List K × List K) => do
    let st ← rd stiff di
    let tmp ← matMulFusedAC c.nCrs 1 c.nMds c.nMds c.nMds c.nMds c.nMds 1 0 tDofs st s.1
    let dofs ← matMulFusedBC c.nCrs 1 c.nMds 1 c.nMds c.nMds c.nMds 1 1 (star.drop di) tmp s.2
    some (tmp, dofs)) s

/-- The three products of a face (SurfInt.hpp:108-147, 183-222): flux matrix `mat`, flux solver (first entry of `fs`), transposed
flux matrix `fT`; the two halves of the scratch memory and the degrees of freedom. -/
def surfFace (c : KCfg) (mat fs fT tDofs : List K) (s : List K × List K × List K) : Option (List K × List K × List K) := do
  let sc0 ← matMulFusedAC c.nCrs 1 c.nMdsFa c.nMds c.nMds c.nMdsFa c.nMdsFa 1 0 tDofs mat s.1
  let sc1 ← matMulFusedBC c.nCrs 1 c.nMdsFa 1 1 c.nMdsFa c.nMdsFa 1 0 fs sc0 s.2.1
  let dofs ← matMulFusedAC c.nCrs 1 c.nMds c.nMdsFa c.nMdsFa c.nMds c.nMds 1 1 sc1 fT s.2.2
  some (sc0, sc1, dofs)

/-- `SurfInt::local` (SurfInt.hpp:101-149). -/
def surfLocal (c : KCfg) (fIntLN fIntT : List (List K)) (fs tDofs : List K) (s : List K × List K × List K) :
    Option (List K × List K × List K) :=
  forN c.nFas (fun fa s => do
    let mat ← rd fIntLN fa
    let fT ← rd fIntT fa
    surfFace c mat (fs.drop fa) fT tDofs s) s

/-- `SurfInt::neigh` (SurfInt.hpp:161-223); an unset vertex id is `none`. -/
def surfNeigh (c : KCfg) (fIntLN fIntT : List (List K)) (fa : Nat) (vId : Option Nat) (fId : Nat) (fs : K) (tDofs : List K)
    (s : List K × List K × List K) : Option (List K × List K × List K) := do
  let mat ← rd fIntLN (match vId with
    | some v => c.nFas + v * c.nFas + fId
    | none => fa)
  let fT ← rd fIntT fa
  surfFace c mat [fs] fT tDofs s

/-- Time integrated data of an element (`o_tDofs`): full step, sum for neighbours with larger steps, first half for neighbours
with smaller steps. -/
structure TDofs (K : Type) where
  eq : List K
  lt : List K
  gt : List K

/-- Memory on the stack in the updates: derivatives and scratch memory. -/
structure Stack (K : Type) where
  der : List (List K)
  scr : List K
  sc0 : List K
  sc1 : List K

/-- Data for neighbours with larger time steps (AderDg.hpp:206-219): reset in the first step of a pair, then summed up. -/
def sumLt (c : KCfg) (firstTs lt : Bool) (eq l : List K) : Option (List K) :=
  if lt then
    if firstTs then
      (loop3 1 c.nMds c.nCrs (fun q md cr (d : List K) => wr d (at3 c.nMds c.nCrs q md cr) 0) l).bind (axpy c 1 eq)
    else axpy c 1 eq l
  else some l

/-- Data for neighbours with smaller time steps (AderDg.hpp:221-226). -/
def halfGt (c : KCfg) (gt : Bool) (dt : K) (der : List (List K)) (g : List K) : Option (List K) :=
  if gt then integrate c (1 / 2 * dt) der g else some g

/-- `AderDg::local` for an element (AderDg.hpp:196-272; without the copies for MPI): `lt` and `gt` are the bits EL_INT_LT and
EL_INT_GT of the element's sparse type. The scratch arrays of the kernels are one memory here. -/
def localEl (c : KCfg) (stiffT stiffV fIntLN fIntT : List (List K)) (firstTs : Bool) (dt : K) (lt gt : Bool) (star fs : List K)
    (mem : Stack K) (dofs : List K) (t : TDofs K) : Option (List K × TDofs K) := do
  let (der, eq) ← ck c dt star stiffT dofs mem.der t.eq mem.scr
  let l ← sumLt c firstTs lt eq t.lt
  let g ← halfGt c gt dt der t.gt
  let (_, dofs) ← volInt c star stiffV eq (mem.scr, dofs)
  let (_, _, dofs) ← surfLocal c fIntLN fIntT fs eq (mem.sc0, mem.sc1, dofs)
  some (dofs, ⟨eq, l, g⟩)

/-- Relation of the time steps at a face: the bits AD_EQ, AD_GT and AD_LT of the element's sparse type (seen from the element). -/
inductive Rel where
  | eq | gt | lt

/-- Data of the neighbour at a face (AderDg.hpp:331-364). -/
def assemble (c : KCfg) (firstTs : Bool) (rel : Rel) (t : TDofs K) : Option (List K) :=
  match rel with
  | .eq => some t.eq
  | .gt => some t.lt
  | .lt => if firstTs then some t.gt else axpy c (-1) t.gt t.eq

/-- Face of an element in `AderDg::neigh`: boundary condition, neighbour and ids (AderDg.hpp:318-330, 386-393). -/
structure AFace where
  outflow : Bool
  ne : Nat
  vId : Option Nat
  fId : Nat
  rel : Rel

/-- `AderDg::neigh` for an element (AderDg.hpp:316-402): `ts` are the data of all elements. -/
def neighEl (c : KCfg) (fIntLN fIntT : List (List K)) (firstTs : Bool) (fs : List K) (faces : List AFace) (ts : List (TDofs K))
    (el : Nat) (mem : Stack K) (dofs : List K) : Option (List K) := do
  let (_, _, dofs) ← forN c.nFas (fun fa (s : List K × List K × List K) => do
    let f ← rd faces fa
    let t ← rd ts (if f.outflow then el else f.ne)
    let d ← assemble c firstTs f.rel t
    let x ← rd fs (c.nFas + fa)
    surfNeigh c fIntLN fIntT fa (if f.outflow then none else f.vId) f.fId x d s) (mem.sc0, mem.sc1, dofs)
  some dofs

/-- An element of a mesh: star values and flux solvers, bits of its sparse type, faces. -/
structure AEl (K : Type) where
  star : List K
  fs : List K
  lt : Bool
  gt : Bool
  faces : List AFace

/-- `AderDg::local` for all elements (AderDg.hpp:196-272): every element reads and writes only its own data. -/
def localAll (c : KCfg) (stiffT stiffV fIntLN fIntT : List (List K)) (firstTs : Bool) (dt : K) (mem : Stack K) (els : List (AEl K))
    (st : List (List K × TDofs K)) : Option (List (List K × TDofs K)) :=
  (List.range els.length).mapM (fun el => do
    let E ← rd els el
    let s ← rd st el
    localEl c stiffT stiffV fIntLN fIntT firstTs dt E.lt E.gt E.star E.fs mem s.1 s.2)

/-- `AderDg::neigh` for all elements (AderDg.hpp:316-402): the time integrated data is only read. -/
def neighAll (c : KCfg) (fIntLN fIntT : List (List K)) (firstTs : Bool) (mem : Stack K) (els : List (AEl K))
    (st : List (List K × TDofs K)) : Option (List (List K × TDofs K)) :=
  (List.range els.length).mapM (fun el => do
    let E ← rd els el
    let s ← rd st el
    let d ← neighEl c fIntLN fIntT firstTs E.fs E.faces (st.map (·.2)) el mem s.1
    some (d, s.2))

/-- A time step of all elements with the same time step: local updates, then neighboring updates
(src/impl/advection/inc/time/tgs_steps.inc, for a single time group without MPI). -/
def stepMesh (c : KCfg) (stiffT stiffV fIntLN fIntT : List (List K)) (mem : Stack K) (els : List (AEl K)) (st : List (List K × TDofs K)) (dt : K) :
    Option (List (List K × TDofs K)) :=
  (localAll c stiffT stiffV fIntLN fIntT true dt mem els st).bind (neighAll c fIntLN fIntT true mem els)

/-- Consecutive time steps. -/
def runMesh (c : KCfg) (stiffT stiffV fIntLN fIntT : List (List K)) (mem : Stack K) (els : List (AEl K)) (dts : List K) (st : List (List K × TDofs K)) :
    Option (List (List K × TDofs K)) := dts.foldlM (stepMesh c stiffT stiffV fIntLN fIntT mem els) st

end
end Edge.Advection
