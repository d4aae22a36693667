import Verif.Util.Loop
import Mathlib.Algebra.Order.Field.Basic
import Mathlib.Algebra.Order.Floor.Semiring
import Mathlib.Data.List.Sort
/-!
Model of the extrusion of surface meshes (tools/edge_cut/src/mesh/Extrude.cpp).

Conventions. A difference of sizes which wraps around is `none`; sums and products of sizes do not overflow. Coordinates are
elements of an ordered field: no rounding. The output is the list of the written triangles, each a triple of vertex ids, and the
points.
-/
namespace Edge.Cut
open Edge

/-- Ids of the vertices of a triangle. -/
abbrev Tri := Nat × Nat × Nat

/-- Written triangles and returned number of triangles. -/
structure Out where
  ts : List Tri
  n : Nat
deriving DecidableEq

/-- Outputs after each other. -/
def Out.cat (a b : Out) : Out := { ts := a.ts ++ b.ts, n := a.n + b.n }

/-- Outputs of the iterations of a loop. -/
def Out.all {α : Type} (f : α → Out) : List α → Out
  | [] => { ts := [], n := 0 }
  | a :: l => (f a).cat (Out.all f l)

/-- `writeTriasBlTr` (Extrude.cpp:45-60). -/
def triasBlTr (off sx sy : Nat) : Out :=
  { ts := [(off, off + sx, off + sx + sy), (off, off + sx + sy, off + sy)], n := 2 }

/-- `writeTriasBrTl` (Extrude.cpp:62-76). -/
def triasBrTl (off sx sy : Nat) : Out :=
  { ts := [(off, off + sx, off + sy), (off + sx, off + sx + sy, off + sy)], n := 2 }

/-- `writeTriasCr` (Extrude.cpp:78-96). -/
def triasCr (off sx sy : Nat) : Out :=
  { ts := [(off, off + 2 * sx, off + 2 * sx + 1 * sy), (off, off + 2 * sx + 1 * sy, off + 2 * sy),
      (off + 2 * sx + 1 * sy, off + 2 * sx + 2 * sy, off + 2 * sy)], n := 3 }

/-- `writeTriasCl` (Extrude.cpp:98-116). -/
def triasCl (off sx sy : Nat) : Out :=
  { ts := [(off, off + 2 * sx, off + 1 * sy), (off + 2 * sx, off + 2 * sx + 2 * sy, off + 1 * sy),
      (off + 1 * sy, off + 2 * sx + 2 * sy, off + 2 * sy)], n := 3 }

/-- `writeTriasCt` (Extrude.cpp:118-136). -/
def triasCt (off sx sy : Nat) : Out :=
  { ts := [(off, off + 1 * sx + 2 * sy, off + 2 * sy), (off, off + 2 * sx, off + 1 * sx + 2 * sy),
      (off + 2 * sx, off + 2 * sx + 2 * sy, off + 1 * sx + 2 * sy)], n := 3 }

/-- `writeTriasCb` (Extrude.cpp:138-156). -/
def triasCb (off sx sy : Nat) : Out :=
  { ts := [(off, off + 1 * sx, off + 2 * sy), (off + 1 * sx, off + 2 * sx + 2 * sy, off + 2 * sy),
      (off + 1 * sx, off + 2 * sx, off + 2 * sx + 2 * sy)], n := 3 }

/-- Difference of two sizes. -/
def sub (a b : Nat) : Option Nat := if b ≤ a then some (a - b) else none

/-- Values of the variable of a loop `for( v = start; v < stop; v += step )`; a step of zero does not end. -/
def steps (start stop step : Nat) : Option (List Nat) :=
  if stop ≤ start then some []
  else if step = 0 then none
  else some ((List.range ((stop - start + step - 1) / step)).map (fun i => start + i * step))

/-- One level of `writeTriaOff` (Extrude.cpp:172-226): `b` is the buffer, `s` the stride. -/
def level (nx ny b s : Nat) : Option Out := do
  let xr ← sub nx (1 + b + s)
  let yr ← sub ny (1 + b + s)
  let ly ← steps (b + s) yr s
  let lx ← steps ((b + s) * ny) (xr * ny) (s * ny)
  return ((triasBlTr (b * ny + b) (s * ny) s).cat <|
    (triasBrTl (xr * ny + b) (s * ny) s).cat <|
    (triasBrTl (b * ny + yr) (s * ny) s).cat <|
    (triasBlTr (xr * ny + yr) (s * ny) s).cat <|
    (Out.all (fun vy => triasCr (b * ny + vy) (s / 2 * ny) (s / 2)) ly).cat <|
    (Out.all (fun vy => triasCl (xr * ny + vy) (s / 2 * ny) (s / 2)) ly).cat <|
    (Out.all (fun vx => triasCt (b + vx) (s / 2 * ny) (s / 2)) lx).cat <|
    Out.all (fun vx => triasCb (yr + vx) (s / 2 * ny) (s / 2)) lx)

/-- All levels, from the outermost one, followed by the inner part (Extrude.cpp:171-239). Parameters: remaining levels, buffer,
stride. -/
def levels (nx ny : Nat) : Nat → Nat → Nat → Option Out
  | 0, b, _ => do
    let mx ← sub nx (1 + b)
    let my ← sub ny (1 + b)
    let lx ← steps b mx 1
    let ly ← steps b my 1
    return Out.all (fun vx => Out.all (fun vy => triasBlTr (vx * ny + vy) ny 1) ly) lx
  | n + 1, b, s => do
    let a ← level nx ny b s
    let r ← levels nx ny n (b + s) (s / 2)
    return a.cat r

/-- Outermost stride (Extrude.cpp:165-168). -/
def stride : Nat → Nat
  | 0 => 1
  | n + 1 => stride n * 2

/-- `writeTriaOff` (Extrude.cpp:158-242). -/
def writeTria (nx ny n : Nat) : Option Out := levels nx ny n 0 (stride n)

/-! ### Constructor and writing of all surfaces -/

/-- Point in space (Extrude.h:38). -/
abbrev Pt (K : Type) := K × K × K

section
variable {K : Type} [Field K] [LinearOrder K]

/-- Order of points: order of tuples. -/
def ptLe (p q : Pt K) : Prop :=
  p.1 < q.1 ∨ (p.1 = q.1 ∧ (p.2.1 < q.2.1 ∨ (p.2.1 = q.2.1 ∧ p.2.2 ≤ q.2.2)))

instance (p q : Pt K) : Decidable (ptLe p q) := by unfold ptLe; infer_instance

/-- `addSide` (Extrude.cpp:28-43). -/
def addSide (nSteps : Nat) (zT : K) (bnd : List (Pt K)) : List (Pt K) :=
  (List.range (nSteps + 1)).flatMap (fun (st : Nat) =>
    bnd.map (fun p => (p.1, p.2.1, p.2.2 + (st : K) * ((zT - p.2.2) / (nSteps : K)))))

/-- Number of points in y-direction (Extrude.cpp:285-293). Parameters: points left, number of points passed. -/
def findNy (eps : K) : List (Pt K) → Nat → Option Nat
  | p :: q :: l, k => if eps < |p.1 - q.1| then some (k + 1) else findNy eps (q :: l) (k + 1)
  | _, _ => none

/-- Refinement ratio (Extrude.cpp:298-299), an `unsigned short`. -/
def refRatio (n : Nat) : Nat := forLoop n
where
  /-- Doubling in 16-bit arithmetic. -/
  forLoop : Nat → Nat
    | 0 => 1
    | n + 1 => forLoop n * 2 % 65536

/-- Points per direction, fine and coarse, refinement ratio (Extrude.cpp:66-71). -/
structure Dims where
  nx : Nat
  ny : Nat
  nxC : Nat
  nyC : Nat
  ref : Nat
deriving DecidableEq

/-- Sizes of the grid (Extrude.cpp:285-311). -/
def dims (eps : K) (n : Nat) (surf : List (Pt K)) : Option Dims := do
  let ny ← findNy eps surf 0
  check (decide (surf.length % ny = 0))
  let nx := surf.length / ny
  let ref := refRatio n
  check (decide (ref ≠ 0))
  check (decide ((nx - 1) % ref = 0))
  check (decide ((ny - 1) % ref = 0))
  if 1 < ref then return { nx := nx, ny := ny, nxC := nx / ref + 1, nyC := ny / ref + 1, ref := ref }
  else return { nx := nx, ny := ny, nxC := nx, nyC := ny, ref := ref }

/-- Minimum of the differences found so far; none if there are none (largest value). -/
def minO (o : Option K) (d : K) : Option K :=
  match o with
  | none => some d
  | some m => some (min m d)

/-- Minimum difference in y-direction (Extrude.cpp:314-318). -/
def dMinY (d : Dims) (surf : List (Pt K)) : Option (Option K) :=
  forN (d.nyC - 1) (fun ve (o : Option K) => do
    let a ← rd surf ((ve + 1) * d.ref)
    let b ← rd surf ve
    return minO o (a.2.1 - b.2.1)) none

/-- Minimum difference in x-direction (Extrude.cpp:319-323). -/
def dMinX (d : Dims) (surf : List (Pt K)) : Option (Option K) := do
  let m ← sub d.nx d.ref
  let vs ← steps 0 (m * d.ny) (d.ny * d.ref)
  vs.foldlM (fun o ve => do
    let a ← rd surf (ve + d.ny * d.ref)
    let b ← rd surf ve
    return minO o (a.1 - b.1)) none

/-- Largest third coordinate (Extrude.cpp:270-273). -/
def zMax (surf : List (Pt K)) : Option K := surf.foldl (fun o p => some (match o with | none => p.2.2 | some m => max m p.2.2)) none

/-- Number of steps in depth (Extrude.cpp:326-330): the quotient of the depth and the smaller difference, rounded towards zero,
plus one. Quotients which are negative or with a zero denominator have no value as size; without any difference the denominator is
the largest number and the rounded quotient zero. -/
def nSteps [FloorSemiring K] (zT zM : K) (dx dy : Option K) : Option Nat := do
  check (decide (0 < zM - zT))
  match dx, dy with
  | none, none => return 0 + 1
  | some a, none => do
    check (decide (0 < a))
    return ⌊(zM - zT) / a⌋₊ + 1
  | none, some a => do
    check (decide (0 < a))
    return ⌊(zM - zT) / a⌋₊ + 1
  | some a, some b => do
    check (decide (0 < min a b))
    return ⌊(zM - zT) / min a b⌋₊ + 1

/-- Points of the surface at the given indices. -/
def pick (surf : List (Pt K)) (ids : List Nat) : Option (List (Pt K)) := ids.mapM (fun i => rd surf i)

/-- Boundaries of the surface, in the order in which they are extruded (Extrude.cpp:332-374). -/
structure Sides (K : Type) where
  front : List (Pt K)
  back : List (Pt K)
  left : List (Pt K)
  right : List (Pt K)

/-- Boundaries (Extrude.cpp:334-336, 344-348, 356-360, 368-370). -/
def bounds (d : Dims) (surf : List (Pt K)) : Option (Sides K) := do
  let xs ← steps 0 (d.nx * d.ny) (d.ny * d.ref)
  let ys ← steps 0 d.ny d.ref
  let front ← pick surf xs
  let back ← pick surf (xs.map (fun ve => d.ny - 1 + ve))
  let left ← pick surf ys
  let right ← pick surf (ys.map (fun ve => (d.nx - 1) * d.ny + ve))
  return { front := front, back := back.reverse, left := left.reverse, right := right }

/-- One written file: points, announced number of triangles, triangles. -/
structure File (K : Type) where
  pts : List (Pt K)
  nTria : Nat
  ts : List Tri

/-- The written files. -/
structure Files (K : Type) where
  left : File K
  right : File K
  front : File K
  back : File K
  bottom : File K
  top : File K

/-- Points of the bottom (Extrude.cpp:428-437). -/
def bottomPts (d : Dims) (zT : K) (surf : List (Pt K)) : Option (List (Pt K)) := do
  let ys ← steps 0 d.ny d.ref
  let xs ← steps 0 d.nx d.ref
  let ps ← pick surf (ys.flatMap (fun vy => xs.map (fun vx => vx * d.ny + vy)))
  return ps.map (fun p => (p.1, p.2.1, zT))

/-- File of a side (Extrude.cpp:391-425): `m` is the number of points of the boundary. -/
def sideFile (nSt m : Nat) (zT : K) (bnd : List (Pt K)) : Option (File K) := do
  let o ← writeTria (nSt + 1) m 0
  return { pts := addSide nSt zT bnd, nTria := (m - 1) * nSt * 2, ts := o.ts }

/-- `writeOff` (Extrude.cpp:377-457) after the sizes are known. -/
def writeOff (d : Dims) (n nSt : Nat) (zT : K) (surf : List (Pt K)) : Option (Files K) := do
  let b ← bounds d surf
  let left ← sideFile nSt d.nyC zT b.left
  let right ← sideFile nSt d.nyC zT b.right
  let front ← sideFile nSt d.nxC zT b.front
  let back ← sideFile nSt d.nxC zT b.back
  let bp ← bottomPts d zT surf
  let bo ← writeTria d.nyC d.nxC 0
  let tp ← writeTria d.nx d.ny n
  return {
    left := left
    right := right
    front := front
    back := back
    bottom := { pts := bp, nTria := (d.nxC - 1) * (d.nyC - 1) * 2, ts := bo.ts }
    top := { pts := surf, nTria := tp.n, ts := tp.ts } }

/-- Constructor and `writeOff` (Extrude.cpp:254-457). -/
def extrude [FloorSemiring K] (pts : List (Pt K)) (zT : K) (n : Nat) (eps : K) : Option (Files K) := do
  let surf := pts.insertionSort ptLe
  let d ← dims eps n surf
  let dy ← dMinY d surf
  let dx ← dMinX d surf
  let zM ← zMax surf
  let nSt ← nSteps zT zM dx dy
  writeOff d n nSt zT surf

end

end Edge.Cut
