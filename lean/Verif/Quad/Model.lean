import Verif.Map.Props
import Verif.Util.Scatter
/-!
Quadrature points and weights (src/dg/QuadraturePoints.h).

Numbers are those of an ordered field. The points and weights of the one-dimensional rule come from the library FastGL and are
a parameter, and so is the square root. Counters are natural numbers. The output vectors are empty when the functions are
called. Failing checks and assertions are `none`.
-/
namespace Edge.Quad
open Edge Edge.Map

/-- A quadrature point with its weight. -/
structure Qp (K : Type) where
  x : K
  y : K
  z : K
  w : K

section
variable {K : Type} [Field K] [LinearOrder K]

/-- One step of `QuadraturePoints::gaussLegendre` (src/dg/QuadraturePoints.h:60-73): the pair `n - qp` of the library, scaled
from [-1,1] to [0,1]. -/
def glStep (pair : Nat → Nat → K × K) (n qp : Nat) : K × K :=
  let t := pair n (n - qp)
  ((t.1 + 1) * (1 / 2), t.2 * (1 / 2))

/-- `QuadraturePoints::gaussLegendre` (src/dg/QuadraturePoints.h:50-75): points and weights. -/
def gaussLegendre (pair : Nat → Nat → K × K) (n : Nat) : Option (List (K × K)) := do
  let _ ← check (decide (0 < n))
  forN n (fun qp o => wr o qp (glStep pair n qp)) (List.replicate n (0, 0))

/-- `Mappings::distPts` (src/linalg/Mappings.hpp:49-56). -/
def distPts (sqrt : K → K) (p : Nat → Nat → K) : K :=
  sqrt ((p 0 1 - p 0 0) * (p 0 1 - p 0 0) + (p 1 1 - p 1 0) * (p 1 1 - p 1 0) + (p 2 1 - p 2 0) * (p 2 1 - p 2 0))

/-- `Mappings::map2dLine` (src/linalg/Mappings.hpp:80-104). -/
def map2dLine (sqrt : K → K) (src dst : Nat → Nat → K) (c : Nat → K) (d : Nat) : K :=
  let distIn := sqrt ((c 0 - src 0 0) * (c 0 - src 0 0) + (c 1 - src 1 0) * (c 1 - src 1 0) +
    (c 2 - src 2 0) * (c 2 - src 2 0))
  let scale := distIn / distPts sqrt src
  dst d 0 + scale * (dst d 1 - dst d 0)

/-- The reference line of `getQptsLine` (src/dg/QuadraturePoints.h:113). -/
def refLine (d v : Nat) : K := if d = 0 ∧ v = 1 then 1 else 0

/-- A quadrature point of a line (src/dg/QuadraturePoints.h:119-137). -/
def linePt (sqrt : K → K) (ves : Nat → Nat → K) (q : K × K) : Qp K :=
  let p := map2dLine sqrt refLine ves (fun d => if d = 0 then q.1 else 0)
  ⟨p 0, p 1, p 2, q.2 * distPts sqrt ves⟩

/-- `QuadraturePoints::getQptsLine` (src/dg/QuadraturePoints.h:95-139). -/
def qptsLine (sqrt : K → K) (pair : Nat → Nat → K × K) (n : Nat) (ves : Nat → Nat → K) : Option (List (Qp K)) := do
  let r ← gaussLegendre pair n
  forN n (fun qp o => do
    let q ← rd r qp
    wr o qp (linePt sqrt ves q)) (List.replicate n ⟨0, 0, 0, 0⟩)

/-- Lower and upper bound of the vertices in a dimension (src/dg/QuadraturePoints.h:170-181). -/
def minMax (ves : Nat → Nat → K) (d : Nat) : K × K :=
  ([1, 2, 3].foldl (fun a v => min a (ves d v)) (ves d 0), [1, 2, 3].foldl (fun a v => max a (ves d v)) (ves d 0))

/-- Free dimensions (src/dg/QuadraturePoints.h:184-193); with the assertion that there are two. The fixed dimension is the
last one whose extent is not above the tolerance. -/
def quadDims (tol : K) (ves : Nat → Nat → K) : Option (Nat × Nat × Nat) :=
  let free := (List.range 3).filter (fun d => decide ((minMax ves d).2 - (minMax ves d).1 > tol))
  let fixed := (List.range 3).filter (fun d => !decide ((minMax ves d).2 - (minMax ves d).1 > tol))
  match free, fixed.getLast? with
  | [a, b], some f => some (a, b, f)
  | _, _ => none

/-- A quadrature point of a rectangle (src/dg/QuadraturePoints.h:197-232); `a`, `b` are the free dimensions. The assertions of
the dimensions are those of `a < b` and hold for the results of `quadDims`. -/
def quadPt (tol : K) (ves : Nat → Nat → K) (a b f : Nat) (q1 q2 : K × K) : Option (Qp K) := do
  let crd := fun d =>
    if d = a then ((minMax ves d).2 - (minMax ves d).1) * q2.1 + (minMax ves d).1
    else if d = b then ((minMax ves d).2 - (minMax ves d).1) * q1.1 + (minMax ves d).1
    else if d = f then (minMax ves d).1 else 0
  let det := ((minMax ves a).2 - (minMax ves a).1) * ((minMax ves b).2 - (minMax ves b).1)
  let _ ← check (decide (det > tol))
  return ⟨crd 0, crd 1, crd 2, q1.2 * q2.2 * det⟩

/-- `QuadraturePoints::getQptsQuad4` (src/dg/QuadraturePoints.h:156-234). -/
def qptsQuad (tol : K) (pair : Nat → Nat → K × K) (n : Nat) (ves : Nat → Nat → K) : Option (List (Qp K)) := do
  let r ← gaussLegendre pair n
  let (a, b, f) ← quadDims tol ves
  forN n (fun p1 o => forN n (fun p2 o => do
    let q1 ← rd r p1
    let q2 ← rd r p2
    let q ← quadPt tol ves a b f q1 q2
    return o ++ [q]) o) []

/-- Scaling of the one-dimensional rule to [-1,1] (src/dg/QuadraturePoints.h:278-282, 437-441). -/
def toSym (q : K × K) : K × K := (q.1 * 2 - 1, q.2 * 2)

/-- A quadrature point of the reference triangle (src/dg/QuadraturePoints.h:304-317): coordinates and weight. -/
def triaRef (q1 q2 : K × K) : K × K × K :=
  ((q1.1 + 1) * (q2.1 - 1) / (-4), (q2.1 + 1) / 2, q1.2 * q2.2 * (q2.1 - 1) / (-8))

/-- A quadrature point of a triangle (src/dg/QuadraturePoints.h:321-341). -/
def triaPt (tol : K) (ves : Nat → Nat → K) (q : K × K × K) : Option (Qp K) := do
  let p := refToPhy .tria ves (fun d => if d = 0 then q.1 else q.2.1)
  let det := Linalg.det2 (fun i j : Fin 2 => evalJac .tria ves i j)
  let _ ← check (decide (det > tol))
  return ⟨p 0, p 1, 0, q.2.2 * det⟩

/-- `QuadraturePoints::getQPtsTria3` (src/dg/QuadraturePoints.h:263-342). -/
def qptsTria (tol : K) (pair : Nat → Nat → K × K) (n : Nat) (ves : Nat → Nat → K) : Option (List (Qp K)) := do
  let r ← gaussLegendre pair n
  let r := r.map toSym
  let ref ← forN n (fun d1 o => forN n (fun d2 o => do
    let q1 ← rd r d1
    let q2 ← rd r d2
    wr o (d1 * n + d2) (triaRef q1 q2)) o) (List.replicate (n * n) (0, 0, 0))
  forN (n * n) (fun qp o => do
    let q ← rd ref qp
    let p ← triaPt tol ves q
    wr o qp p) (List.replicate (n * n) ⟨0, 0, 0, 0⟩)

/-- A quadrature point of a cuboid (src/dg/QuadraturePoints.h:373-392). -/
def hexPt (tol : K) (ves : Nat → Nat → K) (q1 q2 q3 : K × K) : Option (Qp K) := do
  let p := refToPhy .hex ves (fun d => if d = 0 then q3.1 else if d = 1 then q2.1 else q1.1)
  let det := Linalg.det3 (fun i j : Fin 3 => evalJac .hex ves i j)
  let _ ← check (decide (det > tol))
  return ⟨p 0, p 1, p 2, q1.2 * q2.2 * q3.2 * det⟩

/-- `QuadraturePoints::getQPtsHex8r` (src/dg/QuadraturePoints.h:360-396). -/
def qptsHex (tol : K) (pair : Nat → Nat → K × K) (n : Nat) (ves : Nat → Nat → K) : Option (List (Qp K)) := do
  let r ← gaussLegendre pair n
  forN n (fun p1 o => forN n (fun p2 o => forN n (fun p3 o => do
    let q1 ← rd r p1
    let q2 ← rd r p2
    let q3 ← rd r p3
    let q ← hexPt tol ves q1 q2 q3
    return o ++ [q]) o) o) []

/-- A quadrature point of the reference tetrahedron (src/dg/QuadraturePoints.h:468-488). -/
def tetRef (q1 q2 q3 : K × K) : K × K × K × K :=
  ((q1.1 + 1) * (q2.1 - 1) * (q3.1 - 1) / 8, (q2.1 + 1) * (q3.1 - 1) / (-4), (q3.1 + 1) / 2,
    q1.2 * q2.2 * q3.2 * (q2.1 - 1) * (q3.1 - 1) * (q3.1 - 1) / (-64))

/-- A quadrature point of a tetrahedron (src/dg/QuadraturePoints.h:492-513). -/
def tetPt (tol : K) (ves : Nat → Nat → K) (q : K × K × K × K) : Option (Qp K) := do
  let p := refToPhy .tet ves (fun d => if d = 0 then q.1 else if d = 1 then q.2.1 else q.2.2.1)
  let det := Linalg.det3 (fun i j : Fin 3 => evalJac .tet ves i j)
  let _ ← check (decide (det > tol))
  return ⟨p 0, p 1, p 2, q.2.2.2 * det⟩

/-- `QuadraturePoints::getQPtsTet4` (src/dg/QuadraturePoints.h:423-514). -/
def qptsTet (tol : K) (pair : Nat → Nat → K × K) (n : Nat) (ves : Nat → Nat → K) : Option (List (Qp K)) := do
  let r ← gaussLegendre pair n
  let r := r.map toSym
  let ref ← forN n (fun d1 o => forN n (fun d2 o => forN n (fun d3 o => do
    let q1 ← rd r d1
    let q2 ← rd r d2
    let q3 ← rd r d3
    wr o (d1 * n * n + d2 * n + d3) (tetRef q1 q2 q3)) o) o) (List.replicate (n * n * n) (0, 0, 0, 0))
  forN (n * n * n) (fun qp o => do
    let q ← rd ref qp
    let p ← tetPt tol ves q
    wr o qp p) (List.replicate (n * n * n) ⟨0, 0, 0, 0⟩)

/-- `QuadraturePoints::getQpts` (src/dg/QuadraturePoints.h:531-582). -/
def qpts (sqrt : K → K) (tol : K) (pair : Nat → Nat → K × K) (ty : Ent) (n : Nat) (ves : Nat → Nat → K) :
    Option (List (Qp K)) :=
  match ty with
  | .line => qptsLine sqrt pair n ves
  | .quad => qptsQuad tol pair n ves
  | .tria => qptsTria tol pair n ves
  | .hex => qptsHex tol pair n ves
  | .tet => qptsTet tol pair n ves

end
end Edge.Quad
