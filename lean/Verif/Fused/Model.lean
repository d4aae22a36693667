import Verif.Fused.Kern
import Verif.Seismic.Model
/-!
Model of the optimised kernels of the seismic solver for fused simulations (src/impl/seismic/kernels/TimePredFused.hpp, VolIntFused.hpp, SurfIntFused.hpp, FakeMats.hpp):
set-up of sparse matrices and kernels, and the kernels themselves. Triangular and tetrahedral elements are modelled: for these `PP_T_BASIS_HIERARCHICAL` is set
(src/dg/const_ader.inc:26-30) and the scratch memory is not zeroed. Prefetches and performance counters are left out.
-/
namespace Edge.Fused
open Edge Edge.Linalg Edge.Dg

/-! ### Patterns of the sparse matrices -/

/-- Row-major array of a matrix given by a function. -/
def tab {α : Type} (m n : Nat) (f : Nat → Nat → α) : List α := (List.range m).flatMap (fun i => (List.range n).map (f i))

/-- Sum of absolute values of the Jacobians for unit parameters in `FakeMats::starCsrE` (src/impl/seismic/kernels/FakeMats.hpp:53-68). -/
def fakeStarE (d : Nat) : List ℚ :=
  if d = 2 then List.zipWith (fun x y => |x| + |y|) (Seismic.flat (Seismic.jac2 (1 : ℚ) 1 1 0)) (Seismic.flat (Seismic.jac2 (1 : ℚ) 1 1 1))
  else List.zipWith (fun x y => |x| + |y|)
    (List.zipWith (fun x y => |x| + |y|) (Seismic.flat (Seismic.jac3 (1 : ℚ) 1 1 0)) (Seismic.flat (Seismic.jac3 (1 : ℚ) 1 1 1)))
    (Seismic.flat (Seismic.jac3 (1 : ℚ) 1 1 2))

section
variable {K : Type} [Field K]

/-- `ViscoElasticity::star`, 2D dense (src/impl/seismic/setups/ViscoElasticity.cpp:178-215), direction `di`: entry of row `q` and column `d`. -/
def starA2 (jacInv : Nat → Nat → K) (di q d : Nat) : K :=
  match q, d with
  | 0, 0 => 0 + -1 * jacInv 0 di
  | 2, 1 => 0 + -1 / 2 * jacInv 0 di
  | 1, 1 => 0 + -1 * jacInv 1 di
  | 2, 0 => 0 + -1 / 2 * jacInv 1 di
  | _, _ => 0

/-- `ViscoElasticity::star`, 3D dense (src/impl/seismic/setups/ViscoElasticity.cpp:233-295). -/
def starA3 (jacInv : Nat → Nat → K) (di q d : Nat) : K :=
  match q, d with
  | 0, 0 => 0 + -1 * jacInv 0 di
  | 3, 1 => 0 + -1 / 2 * jacInv 0 di
  | 5, 2 => 0 + -1 / 2 * jacInv 0 di
  | 1, 1 => 0 + -1 * jacInv 1 di
  | 3, 0 => 0 + -1 / 2 * jacInv 1 di
  | 4, 2 => 0 + -1 / 2 * jacInv 1 di
  | 2, 2 => 0 + -1 * jacInv 2 di
  | 4, 1 => 0 + -1 / 2 * jacInv 2 di
  | 5, 0 => 0 + -1 / 2 * jacInv 2 di
  | _, _ => 0

/-- Positions of the entries of the sparse variant of `ViscoElasticity::star` (src/impl/seismic/setups/ViscoElasticity.cpp:217-231, 297-318). -/
def starAPos (d : Nat) : List (Nat × Nat) :=
  if d = 2 then [(0, 0), (1, 1), (2, 0), (2, 1)] else [(0, 0), (1, 1), (2, 2), (3, 0), (3, 1), (4, 1), (4, 2), (5, 0), (5, 2)]

/-- Source matrix of a mechanism in `ViscoElasticity::src` (src/impl/seismic/setups/ViscoElasticity.h:236-262, 410-441): `l_nzs` is `z0`, `z1`, `z2`. The coefficients are
not modelled. -/
def srcOf (d : Nat) (z0 z1 z2 : K) (q p : Nat) : K :=
  if q < d ∧ p < d then (if q = p then z0 else z2) else if q = p then z1 else 0

/-- Positions of the entries of the sparse variant of `ViscoElasticity::src` (src/impl/seismic/setups/ViscoElasticity.h:305-313, 486-504). -/
def srcPos (d : Nat) : List (Nat × Nat) :=
  if d = 2 then [(0, 0), (0, 1), (1, 0), (1, 1), (2, 2)]
  else [(0, 0), (0, 1), (0, 2), (1, 0), (1, 1), (1, 2), (2, 0), (2, 1), (2, 2), (3, 3), (4, 4), (5, 5)]

end

/-- The patterns of `FakeMats`. -/
structure Pats where
  starE : Comp ℚ
  starA : Comp ℚ
  srcA : Comp ℚ
  fsE : Comp ℚ
  fsA : Comp ℚ

/-- `FakeMats< d >` (src/impl/seismic/kernels/FakeMats.hpp:53-177); `z0`, `z1`, `z2` are the entries of the source matrix of the fake material. -/
def fakeMats (d nQtsE nQtsM : Nat) (z0 z1 z2 : ℚ) : Option Pats := do
  let starE ← denseToCsr nQtsE nQtsE (fakeStarE d) 0 none none ⟨[], [], []⟩
  let starA ← denseToCsr nQtsM d (tab nQtsM d (if d = 2 then starA2 (fun _ _ => 1) 0 else starA3 (fun _ _ => 1) 0)) 0 none none ⟨[], [], []⟩
  let srcA ← denseToCsr nQtsM nQtsM (tab nQtsM nQtsM (srcOf d z0 z1 z2)) 0 none none ⟨[], [], []⟩
  let fsE ← denseToCsr nQtsE nQtsE (tab nQtsE nQtsE (fun _ _ => 1)) 0 none none ⟨[], [], []⟩
  let fsA ← denseToCsr nQtsM nQtsE (tab nQtsM nQtsE (fun _ _ => 1)) 0 none none ⟨[], [], []⟩
  some ⟨starE, { starA with idx := starA.idx.map (· + nQtsM) }, srcA, fsE, fsA⟩

/-- Numbers of non-zeros (src/impl/seismic/const.inc:61-63, 81-83, 101-103). -/
def nzStarE (d : Nat) : Nat := if d = 2 then 10 else 24
def nzStarA (d : Nat) : Nat := if d = 2 then 4 else 9
def nzSrcA (d : Nat) : Nat := if d = 2 then 5 else 12

variable {K : Type} [Field K] [LinearOrder K]

/-- Numerical settings: tolerance `TOL.BASIS`, largest number, fill-in (src/impl/seismic/kernels/TimePredFused.hpp:129-133). -/
structure Env (K : Type) where
  tol : K
  big : K
  qfma : Bool

/-! ### Time prediction -/

/-- Output of the functions `getCsc...`: largest columns, offsets, values, matrices. -/
structure CscOut (K : Type) where
  maxNz : List Nat
  offs : List Nat
  nz : List K
  mats : List (Comp K)

/-- Values and offset of a matrix (src/impl/seismic/kernels/TimePredFused.hpp:185-188). -/
def pushMat (m : Comp K) (o : CscOut K) : Option (CscOut K) := do
  let b ← o.offs.getLast?
  some { o with nz := o.nz ++ m.val, offs := o.offs ++ [b + m.val.length] }

/-- Offset without values (src/impl/seismic/kernels/TimePredFused.hpp:193). -/
def pushOff (o : CscOut K) : Option (CscOut K) := do
  let b ← o.offs.getLast?
  some { o with offs := o.offs ++ [b] }

/-- Largest non-zero column of the first rows (src/impl/seismic/kernels/TimePredFused.hpp:161-166). A matrix without non-zeros in these rows is `none`: the code would
continue with the largest number. -/
def maxCol (c : Cfg) (crds : List (List (Entry K))) (rowMax : Nat) : Option Nat :=
  forN c.nDis (fun di mx => do
    let crd ← rd crds di
    let b ← getBlockNz crd (some 0) (some rowMax) (some 0) (some (c.nMds - 1))
    some (max mx b.2.2.2)) 0

/-- Sparse matrices of all dimensions (src/impl/seismic/kernels/TimePredFused.hpp:169-180 and VolIntFused.hpp:151-162). -/
def cscDims (c : Cfg) (ev : Env K) (st : List (List K)) (sr sc : Option Nat) : Option (List (Comp K)) :=
  forN c.nDis (fun di ms => do
    let a ← rd st di
    let m ← denseToCsc c.nMds c.nMds a ev.tol ev.big sr sc ev.qfma ⟨[], [], []⟩
    some (ms ++ [m])) []

/-- Coordinate format of all matrices (src/impl/seismic/kernels/TimePredFused.hpp:143-151 and VolIntFused.hpp:124-131). -/
def crdDims (c : Cfg) (ev : Env K) (st : List (List K)) : Option (List (List (Entry K))) :=
  forN c.nDis (fun di cs => do
    let a ← rd st di
    let m ← denseToCrd c.nMds c.nMds a ev.tol
    some (cs ++ [m])) []

/-- Derivative `i + 1` in `TimePredFused::getCscStiffT` (src/impl/seismic/kernels/TimePredFused.hpp:159-204); `s.2` is the last row `l_nzBl[0][0][1]`. -/
def stiffTStep (c : Cfg) (ev : Env K) (st : List (List K)) (crds : List (List (Entry K))) (i : Nat) (s : CscOut K × Nat) : Option (CscOut K × Nat) := do
  let mx ← maxCol c crds s.2
  let ms ← cscDims c ev st (some (s.2 + 1)) (some (mx + 1))
  let o : CscOut K := { s.1 with maxNz := s.1.maxNz ++ [mx], mats := s.1.mats ++ ms }
  let o ← if i + 1 = 1 ∨ mx < s.2 then ms.foldlM (fun o m => pushMat m o) o else forN c.nDis (fun _ o => pushOff o) o
  check (decide (mx + 1 = c.ck (i + 1)))
  some (o, mx)

/-- `TimePredFused::getCscStiffT` (src/impl/seismic/kernels/TimePredFused.hpp:124-205). -/
def getCscStiffT (c : Cfg) (ev : Env K) (st : List (List K)) : Option (CscOut K) := do
  let crds ← crdDims c ev st
  let s ← forN (c.oTi - 1) (stiffTStep c ev st crds) (⟨[], [0], [], []⟩, c.nMds - 1)
  some s.1

/-- Stored matrices (a pointer is the memory from its entry on) and generated kernels. -/
structure Prep (K : Type) where
  mats : List (List K)
  gs : List (List (Kern K))

/-- Kernels of a derivative in `TimePredFused::generateKernels` (src/impl/seismic/kernels/TimePredFused.hpp:230-265). -/
def genDer (c : Cfg) (pt : Pats) (o : CscOut K) (i : Nat) (gs : List (List (Kern K))) : Option (List (List (Kern K))) := do
  let mx ← rd o.maxNz i
  let gs ← forN c.nDis (fun di gs => do
    let m ← rd o.mats (i * c.nDis + di)
    some (addKern 0 ⟨false, m.ptr, m.idx, c.nQtsE, mx + 1, c.nMds, 0, mx + 1, 0⟩ gs)) gs
  some (addKern 1 ⟨true, pt.starE.ptr, pt.starE.idx, c.nQtsE, mx + 1, 0, mx + 1, c.nMds, 1⟩ gs)

/-- `TimePredFused::generateKernels` (src/impl/seismic/kernels/TimePredFused.hpp:212-312). -/
def genTimePred (c : Cfg) (pt : Pats) (o : CscOut K) : Option (List (List (Kern K))) := do
  check (decide (pt.starE.val.length = nzStarE c.nDis))
  let gs ← forN (c.oTi - 1) (genDer c pt o) []
  if c.nRms > 0 then do
    check (decide (pt.starA.val.length = nzStarA c.nDis))
    check (decide (pt.srcA.val.length = nzSrcA c.nDis))
    let mx ← rd o.maxNz 0
    let gs := addKern 2 ⟨true, pt.starA.ptr, pt.starA.idx, c.nQtsM, mx + 1, 0, mx + 1, c.nMds, 1⟩ gs
    some (addKern 2 ⟨true, pt.srcA.ptr, pt.srcA.idx, c.nQtsM, c.nMds, 0, c.nMds, c.nMds, 1⟩ gs)
  else some gs

/-- `TimePredFused::storeStiffTSparse` (src/impl/seismic/kernels/TimePredFused.hpp:322-355). -/
def storeStiffTSparse (c : Cfg) (o : CscOut K) : Option (List (List K)) := do
  let raw := o.nz.map (fun x => -x)
  check (decide (o.offs.length = (c.oTi - 1) * c.nDis + 1))
  forN ((c.oTi - 1) * c.nDis) (fun k ps => do
    let off ← rd o.offs k
    some (ps ++ [raw.drop off])) []

/-- Constructor `TimePredFused` (src/impl/seismic/kernels/TimePredFused.hpp:364-390) for the dense matrices `st`. -/
def initTimePred (c : Cfg) (ev : Env K) (pt : Pats) (st : List (List K)) : Option (Prep K) := do
  let o ← getCscStiffT c ev st
  let mats ← storeStiffTSparse c o
  let gs ← genTimePred c pt o
  some ⟨mats, gs⟩

/-- The products of a derivative (src/impl/seismic/kernels/TimePredFused.hpp:467-489). -/
def ckDimsF (c : Cfg) (tp : Prep K) (starE starA : List (List K)) (re : Nat) (prev : List K) (s : List K × List K × List K) : Option (List K × List K × List K) :=
  forN c.nDis (fun di (s : List K × List K × List K) => do
    let st ← rd tp.mats ((re - 1) * c.nDis + di)
    let scratch ← callKern tp.gs 0 ((re - 1) * c.nDis + di) c.nCrs prev st s.1
    let sE ← rd starE di
    let dE ← callKern tp.gs 1 (re - 1) c.nCrs sE scratch s.2.1
    let ls ← if c.nRms > 0 then do
        let sA ← rd starA di
        callKern tp.gs 2 0 c.nCrs sA scratch s.2.2
      else some s.2.2
    some (scratch, dE, ls)) s

/-- The anelastic part of a derivative (src/impl/seismic/kernels/TimePredFused.hpp:495-511). -/
def ckAnF (c : Cfg) (tp : Prep K) (sca : K) (srcA : List (List K)) (rfs : List K) (de : Nat) (ls : List K)
    (s : List K × List (List (List K)) × List (List K)) : Option (List K × List (List (List K)) × List (List K)) :=
  forN c.nRms (fun rm (s : List K × List (List (List K)) × List (List K)) => do
    let src ← rd srcA rm
    let dA ← rd s.2.1 rm
    let prev ← rd dA (de - 1)
    let dE ← callKern tp.gs 2 1 c.nCrs src prev s.1
    let rf ← rd rfs rm
    let cur ← rd dA de
    let t ← rd s.2.2 rm
    let (cur, t) ← loop3 c.nQtsM c.nMds c.nCrs (fun qt md cr (s : List K × List K) => do
      let l ← rd ls (at3 c.nMds c.nCrs qt md cr)
      let p ← rd prev (at3 c.nMds c.nCrs qt md cr)
      let d ← wr s.1 (at3 c.nMds c.nCrs qt md cr) (rf * (l + p))
      let x ← rd s.2 (at3 c.nMds c.nCrs qt md cr)
      let y ← rd d (at3 c.nMds c.nCrs qt md cr)
      let t ← wr s.2 (at3 c.nMds c.nCrs qt md cr) (x + sca * y)
      some (d, t)) (cur, t)
    let dA ← wr dA de cur
    let derA ← wr s.2.1 rm dA
    let tIntA ← wr s.2.2 rm t
    some (dE, derA, tIntA)) s

/-- `TimePredFused::ck` (src/impl/seismic/kernels/TimePredFused.hpp:407-525). The initialisation (422-446) is that of the vanilla kernel, `Dg.ckInit`. -/
def ckF (c : Cfg) (tp : Prep K) (dT : K) (starE starA srcA : List (List K)) (rfs : List K) (dofsE : List K) (dofsA : List (List K))
    (m : CkMem K) : Option (CkMem K) := do
  let m ← ckInit c dT dofsE dofsA m
  let (m, _) ← forN (c.oTi - 1) (fun i (s : CkMem K × K) => do
    let m := s.1
    let de := i + 1
    let re := if c.nRms = 0 then de else 1
    let dE ← rd m.derE de
    let dE ← loop3 c.nQtsE c.nMds c.nCrs (fun qt md cr (d : List K) => wr d (at3 c.nMds c.nCrs qt md cr) 0) dE
    let ls : List K := List.replicate (c.nQtsM * c.nMds * c.nCrs) 0
    let prev ← rd m.derE (de - 1)
    let (scratch, dE, ls) ← ckDimsF c tp starE starA re prev (m.scratch, dE, ls)
    let sca := s.2 * (dT / (de + 1 : Nat))
    let (dE, derA, tIntA) ← ckAnF c tp sca srcA rfs de ls (dE, m.derA, m.tIntA)
    let derE ← wr m.derE de dE
    let tIntE ← loop3 c.nQtsE (if c.nRms = 0 then c.ck de else c.nMds) c.nCrs (fun qt md cr t => do
      let x ← rd t (at3 c.nMds c.nCrs qt md cr)
      let y ← rd dE (at3 c.nMds c.nCrs qt md cr)
      wr t (at3 c.nMds c.nCrs qt md cr) (x + sca * y)) m.tIntE
    some (⟨derE, derA, tIntE, tIntA, scratch⟩, sca)) (m, dT)
  some m

/-! ### Volume integration -/

/-- Largest non-zero row (src/impl/seismic/kernels/VolIntFused.hpp:139-143). -/
def maxRow (c : Cfg) (crds : List (List (Entry K))) : Option Nat :=
  forN c.nDis (fun di mx => do
    let crd ← rd crds di
    let b ← getBlockNz crd (some 0) (some (c.nMds - 1)) (some 0) (some (c.nMds - 1))
    some (max mx b.2.1)) 0

/-- `VolIntFused::getCscStiff` (src/impl/seismic/kernels/VolIntFused.hpp:104-171): largest row, sparse matrices. A matrix without non-zeros is `none`. -/
def getCscStiff (c : Cfg) (ev : Env K) (st : List (List K)) : Option (Nat × CscOut K) := do
  let crds ← crdDims c ev st
  let mx ← maxRow c crds
  check (decide (mx + 1 = c.ck 1))
  let ms ← cscDims c ev st none none
  let o ← ms.foldlM (fun o m => pushMat m o) (⟨[], [0], [], ms⟩ : CscOut K)
  some (mx, o)

/-- `VolIntFused::generateKernels` (src/impl/seismic/kernels/VolIntFused.hpp:178-276). -/
def genVolInt (c : Cfg) (pt : Pats) (mx : Nat) (o : CscOut K) : Option (List (List (Kern K))) := do
  check (decide (pt.starE.val.length = nzStarE c.nDis))
  let gs ← forN c.nDis (fun di gs => do
    let m ← rd o.mats di
    some (addKern 0 ⟨false, m.ptr, m.idx, c.nQtsE, c.nMds, if c.nRms = 0 then mx + 1 else c.nMds, 0, c.nMds, if c.nRms = 0 then 1 else 0⟩ gs)) []
  let gs := addKern 1 ⟨true, pt.starE.ptr, pt.starE.idx, c.nQtsE, if c.nRms = 0 then mx + 1 else c.nMds, 0, c.nMds, if c.nRms = 0 then mx + 1 else c.nMds,
    if c.nRms = 0 then 0 else 1⟩ gs
  if c.nRms > 0 then do
    check (decide (pt.starA.val.length = nzStarA c.nDis))
    check (decide (pt.srcA.val.length = nzSrcA c.nDis))
    let gs := addKern 2 ⟨true, pt.starA.ptr, pt.starA.idx, c.nQtsM, c.nMds, 0, c.nMds, c.nMds, 1⟩ gs
    some (addKern 2 ⟨true, pt.srcA.ptr, pt.srcA.idx, c.nQtsM, c.nMds, 0, c.nMds, c.nMds, 1⟩ gs)
  else some gs

/-- `VolIntFused::storeStiffSparse` (src/impl/seismic/kernels/VolIntFused.hpp:285-314). -/
def storeStiffSparse (c : Cfg) (o : CscOut K) : Option (List (List K)) := do
  check (decide (o.offs.length = c.nDis + 1))
  forN c.nDis (fun k ps => do
    let off ← rd o.offs k
    some (ps ++ [o.nz.drop off])) []

/-- Constructor `VolIntFused` (src/impl/seismic/kernels/VolIntFused.hpp:324-347). -/
def initVolInt (c : Cfg) (ev : Env K) (pt : Pats) (st : List (List K)) : Option (Prep K) := do
  let (mx, o) ← getCscStiff c ev st
  let mats ← storeStiffSparse c o
  let gs ← genVolInt c pt mx o
  some ⟨mats, gs⟩

/-- Loop over the dimensions in `VolIntFused::apply` (src/impl/seismic/kernels/VolIntFused.hpp:389-419). -/
def volDimsF (c : Cfg) (tp : Prep K) (starE starA : List (List K)) (tDofsE : List K) (s : List K × List K × List K) : Option (List K × List K × List K) :=
  forN c.nDis (fun di (s : List K × List K × List K) =>
    if c.nRms = 0 then do
      let sE ← rd starE di
      let scratch ← callKern tp.gs 1 0 c.nCrs sE tDofsE s.1
      let st ← rd tp.mats di
      let dofsE ← callKern tp.gs 0 di c.nCrs scratch st s.2.1
      some (scratch, dofsE, s.2.2)
    else do
      let st ← rd tp.mats di
      let scratch ← callKern tp.gs 0 di c.nCrs tDofsE st s.1
      let sE ← rd starE di
      let dofsE ← callKern tp.gs 1 0 c.nCrs sE scratch s.2.1
      let sA ← rd starA di
      let ls ← callKern tp.gs 2 0 c.nCrs sA scratch s.2.2
      some (scratch, dofsE, ls)) s

/-- `VolIntFused::apply` (src/impl/seismic/kernels/VolIntFused.hpp:360-437). -/
def volIntF (c : Cfg) (tp : Prep K) (starE starA srcA : List (List K)) (rfs : List K) (tDofsE : List K) (tDofsA : List (List K))
    (dofsE : List K) (dofsA : List (List K)) (scratch : List K) : Option (List K × List (List K) × List K) := do
  let ls : List K := List.replicate (c.nQtsM * c.nMds * c.nCrs) 0
  let scratch ← if c.nRms > 0 then
      loop3 c.nQtsE c.nMds c.nCrs (fun qt md cr (d : List K) => wr d (at3 c.nMds c.nCrs qt md cr) 0) scratch
    else some scratch
  let (scratch, dofsE, ls) ← volDimsF c tp starE starA tDofsE (scratch, dofsE, ls)
  let (dofsE, dofsA) ← forN c.nRms (fun rm (s : List K × List (List K)) => do
    let src ← rd srcA rm
    let tA ← rd tDofsA rm
    let dofsE ← callKern tp.gs 2 1 c.nCrs src tA s.1
    let rf ← rd rfs rm
    let d ← rd s.2 rm
    let d ← loop3 c.nQtsM c.nMds c.nCrs (fun qt md cr d => do
      let x ← rd d (at3 c.nMds c.nCrs qt md cr)
      let l ← rd ls (at3 c.nMds c.nCrs qt md cr)
      let t ← rd tA (at3 c.nMds c.nCrs qt md cr)
      wr d (at3 c.nMds c.nCrs qt md cr) (x + rf * (l - t))) d
    let dofsA ← wr s.2 rm d
    some (dofsE, dofsA)) (dofsE, dofsA)
  some (dofsE, dofsA, scratch)

/-! ### Surface integration -/

/-- One of the three loops of `SurfIntFused::getCscFlux` (src/impl/seismic/kernels/SurfIntFused.hpp:141-158, 161-178, 181-198). -/
def cscFlux (ev : Env K) (rows cols : Nat) (fs : List (List K)) (o : CscOut K) : Option (CscOut K) :=
  fs.foldlM (fun o a => do
    let m ← denseToCsc rows cols a ev.tol ev.big none none ev.qfma ⟨[], [], []⟩
    pushMat m { o with mats := o.mats ++ [m] }) o

/-- `SurfIntFused::getCscFlux` (src/impl/seismic/kernels/SurfIntFused.hpp:121-199). -/
def getCscFlux (c : Cfg) (ev : Env K) (fL fN fT : List (List K)) : Option (CscOut K) := do
  let o ← cscFlux ev c.nMds c.nMdsFa fL ⟨[], [0], [], []⟩
  let o ← cscFlux ev c.nMds c.nMdsFa fN o
  cscFlux ev c.nMdsFa c.nMds fT o

/-- Kernels for the matrices from id `off` on (src/impl/seismic/kernels/SurfIntFused.hpp:223-239, 242-260, 263-281, 284-302). -/
def genFlux (g off cnt m n ldA : Nat) (beta : K) (o : CscOut K) (gs : List (List (Kern K))) : Option (List (List (Kern K))) :=
  forN cnt (fun f gs => do
    let ma ← rd o.mats (off + f)
    some (addKern g ⟨false, ma.ptr, ma.idx, m, n, ldA, 0, n, beta⟩ gs)) gs

/-- `SurfIntFused::generateKernels` (src/impl/seismic/kernels/SurfIntFused.hpp:208-347) with `nN` neighboring flux matrices. -/
def genSurfInt (c : Cfg) (pt : Pats) (nN : Nat) (o : CscOut K) : Option (List (List (Kern K))) := do
  let gs ← genFlux 0 0 c.nFas c.nQtsE c.nMdsFa c.nMds 0 o []
  let gs ← genFlux 0 c.nFas nN c.nQtsE c.nMdsFa c.nMds 0 o gs
  let gs ← genFlux 2 (c.nFas + nN) c.nFas c.nQtsE c.nMds c.nMdsFa 1 o gs
  let gs ← genFlux 4 (c.nFas + nN) c.nFas c.nQtsM c.nMds c.nMdsFa 1 o gs
  check (decide (pt.fsE.val.length = c.nQtsE * c.nQtsE))
  let gs := addKern 1 ⟨true, pt.fsE.ptr, pt.fsE.idx, c.nQtsE, c.nMdsFa, 0, c.nMdsFa, c.nMdsFa, 0⟩ gs
  if c.nRms > 0 then do
    check (decide (pt.fsA.val.length = c.nQtsM * c.nQtsE))
    some (addKern 3 ⟨true, pt.fsA.ptr, pt.fsA.idx, c.nQtsM, c.nMdsFa, 0, c.nMdsFa, c.nMdsFa, 0⟩ gs)
  else some gs

/-- `SurfIntFused::storeFluxSparse` (src/impl/seismic/kernels/SurfIntFused.hpp:359-394): pointers of all matrices; the transposed matrices start at id `c.nFas + nN`. -/
def storeFluxSparse (c : Cfg) (nN : Nat) (o : CscOut K) : Option (List (List K)) := do
  check (decide (o.offs.length = c.nFas + nN + c.nFas + 1))
  forN (c.nFas + nN + c.nFas) (fun k ps => do
    let off ← rd o.offs k
    some (ps ++ [o.nz.drop off])) []

/-- Constructor `SurfIntFused` (src/impl/seismic/kernels/SurfIntFused.hpp:438-469) for the flux matrices of `Basis::getFluxDense`. -/
def initSurfInt (c : Cfg) (ev : Env K) (pt : Pats) (fL fN fT : List (List K)) : Option (Prep K) := do
  let o ← getCscFlux c ev fL fN fT
  let mats ← storeFluxSparse c fN.length o
  let gs ← genSurfInt c pt fN.length o
  some ⟨mats, gs⟩

/-- First kernel with matrix `id` (src/impl/seismic/kernels/SurfIntFused.hpp:507-509, 567-569). -/
def fluxIntF (c : Cfg) (sp : Prep K) (id : Nat) (tDofsE out : List K) : Option (List K) := do
  let mat ← rd sp.mats id
  callKern sp.gs 0 id c.nCrs tDofsE mat out

/-- Flux solver and transposed flux matrix of face `fa` (src/impl/seismic/kernels/SurfIntFused.hpp:512-534, 613-635); `nN` as above. -/
def fluxSolveF (c : Cfg) (sp : Prep K) (nN fa : Nat) (fsE fsA tFi : List K) (dofsE upA sc1 : List K) : Option (List K × List K × List K) := do
  let sc1 ← callKern sp.gs 1 0 c.nCrs fsE tFi sc1
  let fT ← rd sp.mats (c.nFas + nN + fa)
  let dofsE ← callKern sp.gs 2 fa c.nCrs sc1 fT dofsE
  if c.nRms > 0 then do
    let sc1 ← callKern sp.gs 3 0 c.nCrs fsA tFi sc1
    let upA ← callKern sp.gs 4 fa c.nCrs sc1 fT upA
    some (dofsE, upA, sc1)
  else some (dofsE, upA, sc1)

/-- `SurfIntFused::local` (src/impl/seismic/kernels/SurfIntFused.hpp:483-539). -/
def surfLocalF (c : Cfg) (sp : Prep K) (nN : Nat) (fsE fsA : List (List K)) (rfs : List K) (tDofsE dofsE : List K) (dofsA : List (List K))
    (sc0 sc1 : List K) : Option (List K × List (List K) × List K × List K) := do
  let upA : List K := List.replicate (c.nQtsM * c.nMds * c.nCrs) 0
  let (dofsE, upA, sc0, sc1) ← forN c.nFas (fun fa (s : List K × List K × List K × List K) => do
    let sc0 ← fluxIntF c sp fa tDofsE s.2.2.1
    let fE ← rd fsE fa
    let fA ← fsAOf c fsA fa
    let (dofsE, upA, sc1) ← fluxSolveF c sp nN fa fE fA sc0 s.1 s.2.1 s.2.2.2
    some (dofsE, upA, sc0, sc1)) (dofsE, upA, sc0, sc1)
  let dofsA ← if c.nRms > 0 then scatterUpdateA c rfs upA dofsA else some dofsA
  some (dofsE, dofsA, sc0, sc1)

/-- `SurfIntFused::neighFluxInt` (src/impl/seismic/kernels/SurfIntFused.hpp:551-570). -/
def neighFluxIntF (c : Cfg) (sp : Prep K) (fa : Nat) (vId : Option Nat) (fId : Nat) (tDofsE out : List K) : Option (List K) :=
  fluxIntF c sp (fMatId c fa vId fId) tDofsE out

/-- `SurfIntFused::neigh` (src/impl/seismic/kernels/SurfIntFused.hpp:586-636). -/
def surfNeighF (c : Cfg) (sp : Prep K) (nN fa : Nat) (vId : Option Nat) (fId : Nat) (fsE fsA tDofsE : List K)
    (tFi : Option (List K)) (dofsE upA sc0 sc1 : List K) : Option (List K × List K × List K × List K) := do
  let (tF, sc0) ← match tFi with
    | none => do
      let sc0 ← neighFluxIntF c sp fa vId fId tDofsE sc0
      some (sc0, sc0)
    | some t => some (t, sc0)
  let (dofsE, upA, sc1) ← fluxSolveF c sp nN fa fsE fsA tF dofsE upA sc1
  some (dofsE, upA, sc0, sc1)

end Edge.Fused
