import Verif.Proj.Family
import Verif.Quad.Model
import Verif.Linalg.Model
/-!
The basis object, projections to modes and evaluations of modes (src/dg/Basis.cpp), initial degrees of freedom and error norms (src/setups/InitialDofs.hpp).

Numbers are those of an ordered field, counters are natural numbers. The one-dimensional quadrature rule, the square root and the
generated mass matrix (tools/edge_pre) are parameters. Arrays of the caller which are indexed by elements, quantities, modes and
fused runs are functions. Failing checks, out-of-bounds accesses and undefined basis functions are `none`.
-/
namespace Edge.Proj
open Edge Edge.Map Edge.Quad Edge.Basis

section
variable {K : Type} [Field K] [LinearOrder K]

/-! ### Sparse mass matrix -/

/-- `t_matCrd` (src/linalg/Matrix.h:48-57): entries with rows and columns. -/
structure Crd (K : Type) where
  nz : List K
  ro : List Nat
  co : List Nat

/-! ### The object -/

/-- `Basis::EvalBasis` (src/dg/Basis.h:74-79): values and derivatives of the functions of a basis at a point. -/
structure EvalBasis (K : Type) where
  val : List K
  valD : List (List K)

/-- `Basis::EvalQpRefElOrder` (src/dg/Basis.h:82-93): points and weights of a rule; values of the bases by point and order. -/
structure EvalQp (K : Type) where
  pts : List (Qp K)
  basis : List (List (EvalBasis K))

/-- `edge::dg::Basis` (src/dg/Basis.h:71-110), without the unused `m_flux`. -/
structure Bas (K : Type) where
  ent : Ent
  order : Nat
  nBase : Nat
  mass : Crd K
  qpEval : List (EvalQp K)

/-- `Basis::initMassMatrix` (src/dg/Basis.cpp:34-54): `raw` is the generated matrix `pre::dg::g_massRaw`. -/
def initMassMatrix (tolM : K) (nBase : Nat) (raw : List K) : Option (Crd K) := do
  check (decide (raw.length = nBase * nBase))
  let l ← Linalg.denseToCrd nBase nBase raw tolM
  some ⟨l.map (·.nz), l.map (·.ro), l.map (·.co)⟩

/-- Values and derivatives of a basis at a point (src/dg/Basis.cpp:103-131, the body of the loop over the orders). -/
def evalAt (e : Ent) (q : Qp K) (o : Nat) : Option (EvalBasis K) := do
  let v ← (List.range (nModes e o)).mapM (fun md => evalBasis md e q.x q.y q.z (-1) o)
  let d ← (List.range e.nDim).mapM (fun (di : Nat) => (List.range (nModes e o)).mapM (fun md => evalBasis md e q.x q.y q.z di o))
  some ⟨v, d⟩

/-- `Basis::initEvalQpRefEl` (src/dg/Basis.cpp:79-134). -/
def initEvalQpRefEl (sqrt : K → K) (tol : K) (pair : Nat → Nat → K × K) (e : Ent) (o : Nat) : Option (List (EvalQp K)) :=
  (List.range o).mapM (fun pq => do
    let pts ← qpts sqrt tol pair e (pq + 1) (refVe e)
    let b ← pts.mapM (fun q => (List.range o).mapM (fun pb => evalAt e q (pb + 1)))
    some ⟨pts, b⟩)

/-- `Basis::Basis` (src/dg/Basis.cpp:56-67). -/
def mkBasis (sqrt : K → K) (tol tolM : K) (pair : Nat → Nat → K × K) (raw : List K) (e : Ent) (o : Nat) : Option (Bas K) := do
  let m ← initMassMatrix tolM (nModes e o) raw
  let t ← initEvalQpRefEl sqrt tol pair e (o + 1)
  some ⟨e, o, nModes e o, m, t⟩

/-- A stored value of a basis function, `m_qpEval[orderQr-1].basis[qp][m_order-1].val[md]`. -/
def Bas.at (b : Bas K) (orderQr qp md : Nat) : Option K := do
  let r ← rd b.qpEval (orderQr - 1)
  let p ← rd r.basis qp
  let v ← rd p (b.order - 1)
  rd v.val md

/-- `Basis::qpts2modal` (src/dg/Basis.cpp:136-162): `evalF` are the values at the quadrature points. -/
def Bas.qpts2modal (b : Bas K) (evalF : List K) (orderQr : Nat) : Option (List K) := do
  check (decide (0 < orderQr))
  check (decide (orderQr ≤ b.qpEval.length))
  forN b.nBase (fun md modes => do
    let r ← rd b.qpEval (orderQr - 1)
    let s ← forN r.pts.length (fun qp s => do
      let f ← rd evalF qp
      let v ← b.at orderQr qp md
      let p ← rd r.pts qp
      some (s + f * v * p.w)) 0
    check (decide (md < b.mass.nz.length))
    let ro ← rd b.mass.ro md
    let co ← rd b.mass.co md
    check (decide (ro = co))
    let m ← rd b.mass.nz md
    some (modes ++ [s / m])) []

/-- `Basis::modal2ptval` (src/dg/Basis.cpp:164-186). -/
def Bas.modal2ptval (b : Bas K) (x y z : K) (modes : Nat → K) : Option K :=
  forN b.nBase (fun md s => do
    let v ← evalBasis md b.ent x y z (-1) b.order
    some (s + v * modes md)) 0

/-- `Basis::modal2refPtVal` (src/dg/Basis.cpp:188-203). -/
def Bas.modal2refPtVal (b : Bas K) (orderQr qp : Nat) (modes : Nat → K) : Option K :=
  forN b.nBase (fun md s => do
    let v ← b.at orderQr qp md
    some (s + v * modes md)) 0

/-- `Basis::getMassInvDense` (src/dg/Basis.cpp:205-231); the state is the matrix with the id of the next entry. -/
def Bas.getMassInvDense (b : Bas K) (n : Nat) (rowMajor : Bool) : Option (List K) := do
  check (decide (n ≤ b.nBase))
  let r ← forN n (fun ro s => forN n (fun co s =>
    if s.2 < b.mass.nz.length ∧ b.mass.ro[s.2]? = some ro ∧ b.mass.co[s.2]? = some co then do
      check (decide (ro = co))
      let m ← rd b.mass.nz s.2
      some (s.1 ++ [1 / m], s.2 + 1)
    else some (s.1 ++ [0], s.2)) s) ([], 0)
  if rowMajor then some r.1 else Linalg.transposeDense n r.1

/-! ### Initial values and errors -/

/-- Memory to which the expressions of a thread are bound: coordinates, and quantities of the fused runs. -/
structure Mem (K : Type) where
  crds : Nat → K
  qts : Nat → Nat → K

/-- Compiled expressions of the fused runs: their effect on the bound coordinates and quantities (src/data/Expression.hpp:111-113). -/
abbrev Exprs (K : Type) := Nat → (Nat → K) → (Nat → K) → (Nat → K) × (Nat → K)

/-- `InitialDofs::bc` (src/setups/InitialDofs.hpp:129-148): coordinates and quantities are the largest number. -/
def bc (big : K) : Mem K := ⟨fun _ => big, fun _ _ => big⟩

/-- Vertices, as used by `InitialDofs::qps` (src/setups/InitialDofs.hpp:97-106): zero in the additional dimensions. -/
def veCrds (e : Ent) (elVe : Nat → Nat → Nat) (coords : Nat → Nat → K) (el : Nat) : Nat → Nat → K :=
  fun d v => if d < e.nDim then coords (elVe el v) d else 0

/-- `CE_N_QUAD_POINTS` (src/constants.hpp:149-154). -/
def nQps (e : Ent) (o : Nat) : Nat := if e.nDim = 1 then o else if e.nDim = 2 then o * o else o * o * o

/-- Coordinates of a point. -/
def ptCrd (q : Qp K) (d : Nat) : K := if d = 0 then q.x else if d = 1 then q.y else q.z

/-- Evaluation of the expression of a fused run (src/setups/InitialDofs.hpp:225-235 with, 326-331 without reset of the quantities): the memory
and the values by run, quantity and point. -/
def evalRun (reset : Bool) (nQts : Nat) (E : Exprs K) (qp cr : Nat) (s : Mem K × (Nat → Nat → Nat → K)) : Mem K × (Nat → Nat → Nat → K) :=
  let q0 : Nat → K := if reset then fun qt => if qt < nQts then 0 else s.1.qts cr qt else s.1.qts cr
  let r := E cr s.1.crds q0
  (⟨r.1, fun c => if c = cr then r.2 else s.1.qts c⟩,
   fun c t p => if c = cr ∧ t < nQts ∧ p = qp then r.2 t else s.2 c t p)

/-- Evaluation of the expressions at the points of an element (src/setups/InitialDofs.hpp:218-236, 317-332). -/
def evalPts (reset : Bool) (e : Ent) (o nQts nCrs : Nat) (E : Exprs K) (pts : List (Qp K)) (s : Mem K × (Nat → Nat → Nat → K)) :
    Option (Mem K × (Nat → Nat → Nat → K)) :=
  forN (nQps e (o + 1)) (fun qp s => do
    let p ← rd pts qp
    forN nCrs (fun cr s => some (evalRun reset nQts E qp cr s)) (⟨fun d => if d < e.nDim then ptCrd p d else s.1.crds d, s.1.qts⟩, s.2)) s

/-- Degrees of freedom by element, quantity, mode and fused run. -/
abbrev Dofs (K : Type) := Nat → Nat → Nat → Nat → K

/-- `o_dofs[el][qt][md][cr] = v`. -/
def Dofs.set (d : Dofs K) (el qt md cr : Nat) (v : K) : Dofs K :=
  fun e' q' m' c' => if e' = el ∧ q' = qt ∧ m' = md ∧ c' = cr then v else d e' q' m' c'

/-- `InitialDofs::dg` for an element (src/setups/InitialDofs.hpp:200-257, the body of the loop): `q0` is the content of `l_q0`
when it is allocated. -/
def dgEl (sqrt : K → K) (tol : K) (pair : Nat → Nat → K × K) (e : Ent) (o nQts nCrs : Nat) (E : Exprs K) (b : Bas K) (elVe : Nat → Nat → Nat)
    (coords : Nat → Nat → K) (q0 : Nat → Nat → Nat → K) (el : Nat) (m : Mem K) (dofs : Dofs K) : Option (Mem K × Dofs K) := do
  let pts ← qpts sqrt tol pair e (o + 1) (veCrds e elVe coords el)
  check (decide (pts.length = nQps e (o + 1)))
  let r ← evalPts true e o nQts nCrs E pts (m, q0)
  let dofs ← forN nCrs (fun cr dofs => forN nQts (fun qt dofs => do
    let mds ← b.qpts2modal ((List.range (nQps e (o + 1))).map (r.2 cr qt)) (o + 1)
    forN (nModes e o) (fun md dofs => do
      let v ← rd mds md
      some (dofs.set el qt md cr v)) dofs) dofs) dofs
  some (r.1, dofs)

/-- `InitialDofs::dg` (src/setups/InitialDofs.hpp:176-260): `sched` is the order in which the threads process the elements, as pairs of
thread and element; each thread has own memory. -/
def dg (sqrt : K → K) (tol big : K) (pair : Nat → Nat → K × K) (e : Ent) (o nQts nCrs : Nat) (E : Exprs K) (b : Bas K) (elVe : Nat → Nat → Nat)
    (coords : Nat → Nat → K) (q0 : Nat → Nat → Nat → K) (sched : List (Nat × Nat)) (dofs : Dofs K) : Option (Dofs K) := do
  let r ← sched.foldlM (fun (s : (Nat → Mem K) × Dofs K) te => do
    let r ← dgEl sqrt tol pair e o nQts nCrs E b elVe coords q0 te.2 (s.1 te.1) s.2
    some (fun t => if t = te.1 then r.1 else s.1 t, r.2)) (fun _ => bc big, dofs)
  some r.2

/-- Error norms by quantity and fused run. -/
structure Norms (K : Type) where
  l1 : Nat → Nat → K
  l2p2 : Nat → Nat → K
  lInf : Nat → Nat → K

/-- `a[qt][cr] = v`. -/
def set2 (a : Nat → Nat → K) (qt cr : Nat) (v : K) : Nat → Nat → K := fun q c => if q = qt ∧ c = cr then v else a q c

/-- Update of the error norms (src/setups/InitialDofs.hpp:354-362, the body of the innermost loop). -/
def normStep (n : Norms K) (qt cr : Nat) (qN qR w : K) : Norms K :=
  let d := |qN - qR|
  ⟨set2 n.l1 qt cr (n.l1 qt cr + d * w), set2 n.l2p2 qt cr (n.l2p2 qt cr + d * d * w), set2 n.lInf qt cr (max (n.lInf qt cr) d)⟩

/-- `InitialDofs::err` for an element (src/setups/InitialDofs.hpp:301-365, the body of the loop). -/
def errEl (sqrt : K → K) (tol : K) (pair : Nat → Nat → K × K) (e : Ent) (o nQts nCrs : Nat) (E : Exprs K) (b : Bas K) (elVe : Nat → Nat → Nat)
    (coords : Nat → Nat → K) (q0 : Nat → Nat → Nat → K) (dofs : Dofs K) (el : Nat) (s : Mem K × Norms K) : Option (Mem K × Norms K) := do
  let pts ← qpts sqrt tol pair e (o + 1) (veCrds e elVe coords el)
  check (decide (pts.length = nQps e (o + 1)))
  let r ← evalPts false e o nQts nCrs E pts (s.1, q0)
  let n ← forN nCrs (fun cr n => do
    let qN ← (List.range nQts).mapM (fun qt => (List.range (nQps e (o + 1))).mapM (fun qp =>
      b.modal2refPtVal (o + 1) qp (fun md => dofs el qt md cr)))
    forN nQts (fun qt n => forN (nQps e (o + 1)) (fun qp n => do
      let l ← rd qN qt
      let v ← rd l qp
      let p ← rd pts qp
      some (normStep n qt cr v (r.2 cr qt qp) p.w)) n) n) s.2
  some (r.1, n)

/-- `InitialDofs::err` (src/setups/InitialDofs.hpp:285-367). The points of the reference element, which the function gets but does not
use, are only checked. -/
def err (sqrt : K → K) (tol big : K) (pair : Nat → Nat → K × K) (e : Ent) (o nQts nCrs : Nat) (E : Exprs K) (b : Bas K) (elVe : Nat → Nat → Nat)
    (coords : Nat → Nat → K) (q0 : Nat → Nat → Nat → K) (dofs : Dofs K) (first size : Nat) : Option (Norms K) := do
  let ptsR ← qpts sqrt tol pair e (o + 1) (refVe e)
  check (decide (ptsR.length = nQps e (o + 1)))
  let r ← forN size (fun i s => errEl sqrt tol pair e o nQts nCrs E b elVe coords q0 dofs (first + i) s)
    (bc big, ⟨fun _ _ => 0, fun _ _ => 0, fun _ _ => 0⟩)
  some r.2

end
end Edge.Proj
