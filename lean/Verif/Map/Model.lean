import Verif.Util.Loop
import Mathlib.Algebra.Field.Basic
import Mathlib.Algebra.Order.Field.Basic
import Mathlib.Tactic.Common
/-!
Shape functions (`src/linalg/Shape.hpp`), mappings between the reference element and the elements
(`src/linalg/Mappings.hpp`), reference elements (`src/constants.hpp`) and the quadrature points of the faces
(`src/dg/QuadratureEval.hpp`).

Simplifications: numbers are those of a field `K` instead of floating point numbers. Arrays `x[dim][ve]` are functions
`Nat → Nat → K`, points are functions `Nat → K`; entries of a point behind the number of dimensions are not written by the
code and are zero here. A failed check or a division by zero is `none`.
-/
namespace Edge.Map
open Edge

/-- Types of the elements (src/constants.hpp:30-36). -/
inductive Ent
  | line | quad | tria | hex | tet
deriving DecidableEq, Repr

namespace Ent

/-- `C_ENT[].N_DIM` (src/constants.hpp:46-59). -/
def nDim : Ent → Nat
  | line => 1 | quad => 2 | tria => 2 | hex => 3 | tet => 3

/-- `C_ENT[].N_VERTICES` (src/constants.hpp:46-59). -/
def nVe : Ent → Nat
  | line => 2 | quad => 4 | tria => 3 | hex => 8 | tet => 4

/-- `C_ENT[].N_FACES` (src/constants.hpp:46-59). -/
def nFa : Ent → Nat
  | line => 2 | quad => 4 | tria => 3 | hex => 6 | tet => 4

/-- `C_ENT[].N_FACE_VERTICES` (src/constants.hpp:46-59). -/
def nFaVe : Ent → Nat
  | line => 1 | quad => 2 | tria => 2 | hex => 4 | tet => 3

/-- `CE_N_FACE_VERTEX_OPTS` (src/constants.hpp:99-103). -/
def nVeOpts : Ent → Nat
  | tet => 3 | _ => 1

end Ent

section
variable {K : Type _} [Field K]

/-- Row of a literal two-dimensional array. -/
def tab (t : List (List Nat)) (d i : Nat) : K := (((t.getD d []).getD i 0 : Nat) : K)

/-- `C_REF_ELEMENT.VE` (src/constants.hpp:595-601), first index dimension, second index vertex. -/
def refVe : Ent → Nat → Nat → K
  | .line => tab [[0,1], [0,0], [0,0]]
  | .quad => tab [[0,1,1,0], [0,0,1,1], [0,0,0,0]]
  | .tria => tab [[0,1,0], [0,0,1], [0,0,0]]
  | .hex => tab [[0,1,1,0,0,1,1,0], [0,0,1,1,0,0,1,1], [0,0,0,0,1,1,1,1]]
  | .tet => tab [[0,1,0,0], [0,0,1,0], [0,0,0,1]]

/-- Entry of a literal three-dimensional array. -/
def tab3 (t : List (List (List Nat))) (d f i : Nat) : K := ((((t.getD d []).getD f []).getD i 0 : Nat) : K)

/-- `C_REF_ELEMENT.FA` (src/constants.hpp:608-642): coordinates of the faces' vertices; dimension, face, vertex. -/
def refFa : Ent → Nat → Nat → Nat → K
  | .line => tab3 [[[0], [1]], [[0], [0]], [[0], [0]]]
  | .quad => tab3 [[[0,1], [1,1], [1,0], [0,0]], [[0,0], [0,1], [1,1], [1,0]], [[0,0], [0,0], [0,0], [0,0]]]
  | .tria => tab3 [[[0,1], [1,0], [0,0]], [[0,0], [0,1], [1,0]], [[0,0], [0,0], [0,0]]]
  | .hex => tab3
      [[[0,0,1,1], [0,1,1,0], [1,1,1,1], [0,0,1,1], [0,0,0,0], [0,1,1,0]],
       [[0,1,1,0], [0,0,0,0], [0,1,1,0], [1,1,1,1], [0,0,1,1], [0,0,1,1]],
       [[0,0,0,0], [0,0,1,1], [0,0,1,1], [0,1,1,0], [0,1,1,0], [1,1,1,1]]]
  | .tet => tab3
      [[[0,0,1], [0,1,0], [0,0,0], [1,0,0]],
       [[0,1,0], [0,0,0], [0,0,1], [0,1,0]],
       [[0,0,0], [0,0,1], [0,1,0], [0,0,1]]]

/-- `C_REF_ELEMENT.FA_VE_CC` (src/constants.hpp:643-656): vertices of the faces. The code has the single row `{0, 1}` for
lines, whose two entries are the vertices of the two faces. -/
def faVeCc : Ent → Nat → List Nat
  | .line, f => [[0], [1]].getD f []
  | .quad, f => [[0,1], [1,2], [2,3], [3,0]].getD f []
  | .tria, f => [[0,1], [1,2], [2,0]].getD f []
  | .hex, f => [[0,3,2,1], [0,1,5,4], [1,2,6,5], [3,7,6,2], [0,4,7,3], [4,5,6,7]].getD f []
  | .tet, f => [[0,2,1], [0,1,3], [0,3,2], [1,2,3]].getD f []

/-- Sum which is computed by a loop. -/
def sumN (n : Nat) (f : Nat → K) : K := (List.range n).foldl (fun a i => a + f i) 0

/-! ### Shape functions -/

/-- `Shape::quad4` (src/linalg/Shape.hpp:101-109), vertex. -/
def shQuad (xi eta : K) : Nat → K
  | 0 => (1 - xi) * (1 - eta)
  | 1 => xi * (1 - eta)
  | 2 => xi * eta
  | 3 => (1 - xi) * eta
  | _ => 0

/-- `Shape::derQuad4` (src/linalg/Shape.hpp:122-135), dimension and vertex. -/
def derQuad (xi eta : K) : Nat → Nat → K
  | 0, 0 => -(1 - eta)
  | 0, 1 => 1 - eta
  | 0, 2 => eta
  | 0, 3 => -eta
  | 1, 0 => -(1 - xi)
  | 1, 1 => -xi
  | 1, 2 => xi
  | 1, 3 => 1 - xi
  | _, _ => 0

/-- `Shape::tria3` (src/linalg/Shape.hpp:161-167). -/
def shTria (xi eta : K) : Nat → K
  | 0 => 1 - xi - eta
  | 1 => xi
  | 2 => eta
  | _ => 0

/-- `Shape::derTria3` (src/linalg/Shape.hpp:179-188). -/
def derTria : Nat → Nat → K
  | 0, 0 => -1
  | 0, 1 => 1
  | 0, 2 => 0
  | 1, 0 => -1
  | 1, 1 => 0
  | 1, 2 => 1
  | _, _ => 0

/-- `Shape::hex8Lin` (src/linalg/Shape.hpp:223-237). -/
def shHex (xi eta zeta : K) : Nat → K
  | 0 => (1 - xi) * (1 - eta) * (1 - zeta)
  | 1 => xi * (1 - eta) * (1 - zeta)
  | 2 => xi * eta * (1 - zeta)
  | 3 => (1 - xi) * eta * (1 - zeta)
  | 4 => (1 - xi) * (1 - eta) * zeta
  | 5 => xi * (1 - eta) * zeta
  | 6 => xi * eta * zeta
  | 7 => (1 - xi) * eta * zeta
  | _ => 0

/-- `Shape::derHex8Lin` (src/linalg/Shape.hpp:252-286). -/
def derHex (xi eta zeta : K) : Nat → Nat → K
  | 0, 0 => -1 * (1 - eta) * (1 - zeta)
  | 0, 1 => 1 * (1 - eta) * (1 - zeta)
  | 0, 2 => 1 * eta * (1 - zeta)
  | 0, 3 => -1 * eta * (1 - zeta)
  | 0, 4 => -1 * (1 - eta) * zeta
  | 0, 5 => 1 * (1 - eta) * zeta
  | 0, 6 => 1 * eta * zeta
  | 0, 7 => -1 * eta * zeta
  | 1, 0 => (1 - xi) * -1 * (1 - zeta)
  | 1, 1 => xi * -1 * (1 - zeta)
  | 1, 2 => xi * 1 * (1 - zeta)
  | 1, 3 => (1 - xi) * 1 * (1 - zeta)
  | 1, 4 => (1 - xi) * -1 * zeta
  | 1, 5 => xi * -1 * zeta
  | 1, 6 => xi * 1 * zeta
  | 1, 7 => (1 - xi) * 1 * zeta
  | 2, 0 => (1 - xi) * (1 - eta) * -1
  | 2, 1 => xi * (1 - eta) * -1
  | 2, 2 => xi * eta * -1
  | 2, 3 => (1 - xi) * eta * -1
  | 2, 4 => (1 - xi) * (1 - eta) * 1
  | 2, 5 => xi * (1 - eta) * 1
  | 2, 6 => xi * eta * 1
  | 2, 7 => (1 - xi) * eta * 1
  | _, _ => 0

/-- `Shape::tet4` (src/linalg/Shape.hpp:327-335). -/
def shTet (xi eta zeta : K) : Nat → K
  | 0 => 1 - xi - eta - zeta
  | 1 => xi
  | 2 => eta
  | 3 => zeta
  | _ => 0

/-- `Shape::derTet4` (src/linalg/Shape.hpp:347-363). -/
def derTet : Nat → Nat → K
  | 0, 0 => -1
  | 0, 1 => 1
  | 0, 2 => 0
  | 0, 3 => 0
  | 1, 0 => -1
  | 1, 1 => 0
  | 1, 2 => 1
  | 1, 3 => 0
  | 2, 0 => -1
  | 2, 1 => 0
  | 2, 2 => 0
  | 2, 3 => 1
  | _, _ => 0

/-- `Shape::derLine` (src/linalg/Shape.hpp:71-75). -/
def derLine : Nat → Nat → K
  | 0, 0 => -1
  | 0, 1 => 1
  | _, _ => 0

/-! ### From the reference element to the element -/

/-- `Mappings::refToPhy` and the functions called by it (src/linalg/Mappings.hpp:242-402). -/
def refToPhy (ty : Ent) (ves : Nat → Nat → K) (xi : Nat → K) (d : Nat) : K :=
  match ty with
  | .line => if d < 1 then (ves 0 1 - ves 0 0) * xi 0 + ves 0 0 else 0
  | .quad => if d < 2 then sumN 4 (fun p => ves d p * shQuad (xi 0) (xi 1) p) else 0
  | .tria => if d < 2 then sumN 3 (fun p => ves d p * shTria (xi 0) (xi 1) p) else 0
  | .hex => if d < 3 then sumN 8 (fun p => ves d p * shHex (xi 0) (xi 1) (xi 2) p) else 0
  | .tet => if d < 3 then sumN 4 (fun p => ves d p * shTet (xi 0) (xi 1) (xi 2) p) else 0

/-- Derivatives of the shape functions used by `evalJac`, which ignores its position (src/linalg/Mappings.hpp:195-215). -/
def derShape : Ent → Nat → Nat → K
  | .line => derLine
  | .quad => derQuad 0 0
  | .tria => derTria
  | .hex => derHex 0 0 0
  | .tet => derTet

/-- `Mappings::evalJac` (src/linalg/Mappings.hpp:188-230), entry in row `d1` and column `d2`. -/
def evalJac (ty : Ent) (ves : Nat → Nat → K) (d1 d2 : Nat) : K :=
  sumN ty.nVe (fun p => ves d2 p * derShape ty d1 p)

/-! ### From the element to the reference element -/

/-- Entries of the matrix in `phyToRefTet4` before the division by the volume (src/linalg/Mappings.hpp:428-504). -/
def tetMat (v : Nat → Nat → K) : Nat → Nat → K
  | 0, 0 => v 0 1 * (v 1 2 * v 2 3 - v 1 3 * v 2 2) + v 0 2 * (v 1 3 * v 2 1 - v 1 1 * v 2 3)
              + v 0 3 * (v 1 1 * v 2 2 - v 1 2 * v 2 1)
  | 1, 0 => v 0 0 * (v 1 3 * v 2 2 - v 1 2 * v 2 3) + v 0 2 * (v 1 0 * v 2 3 - v 1 3 * v 2 0)
              + v 0 3 * (v 1 2 * v 2 0 - v 1 0 * v 2 2)
  | 2, 0 => v 0 0 * (v 1 1 * v 2 3 - v 1 3 * v 2 1) + v 0 1 * (v 1 3 * v 2 0 - v 1 0 * v 2 3)
              + v 0 3 * (v 1 0 * v 2 1 - v 1 1 * v 2 0)
  | 3, 0 => v 0 0 * (v 1 2 * v 2 1 - v 1 1 * v 2 2) + v 0 1 * (v 1 0 * v 2 2 - v 1 2 * v 2 0)
              + v 0 2 * (v 1 1 * v 2 0 - v 1 0 * v 2 1)
  | 0, 1 => (v 1 3 - v 1 1) * (v 2 2 - v 2 1) - (v 1 2 - v 1 1) * (v 2 3 - v 2 1)
  | 0, 2 => (v 0 2 - v 0 1) * (v 2 3 - v 2 1) - (v 0 3 - v 0 1) * (v 2 2 - v 2 1)
  | 0, 3 => (v 0 3 - v 0 1) * (v 1 2 - v 1 1) - (v 0 2 - v 0 1) * (v 1 3 - v 1 1)
  | 1, 1 => (v 1 2 - v 1 0) * (v 2 3 - v 2 2) - (v 1 2 - v 1 3) * (v 2 0 - v 2 2)
  | 1, 2 => (v 0 3 - v 0 2) * (v 2 2 - v 2 0) - (v 0 0 - v 0 2) * (v 2 2 - v 2 3)
  | 1, 3 => (v 0 2 - v 0 0) * (v 1 3 - v 1 2) - (v 0 2 - v 0 3) * (v 1 0 - v 1 2)
  | 2, 1 => (v 1 1 - v 1 3) * (v 2 0 - v 2 3) - (v 1 0 - v 1 3) * (v 2 1 - v 2 3)
  | 2, 2 => (v 0 0 - v 0 3) * (v 2 1 - v 2 3) - (v 0 1 - v 0 3) * (v 2 0 - v 2 3)
  | 2, 3 => (v 0 1 - v 0 3) * (v 1 0 - v 1 3) - (v 0 0 - v 0 3) * (v 1 1 - v 1 3)
  | 3, 1 => (v 1 0 - v 1 2) * (v 2 1 - v 2 0) - (v 1 0 - v 1 1) * (v 2 2 - v 2 0)
  | 3, 2 => (v 0 1 - v 0 0) * (v 2 0 - v 2 2) - (v 0 2 - v 0 0) * (v 2 0 - v 2 1)
  | 3, 3 => (v 0 0 - v 0 2) * (v 1 1 - v 1 0) - (v 0 0 - v 0 1) * (v 1 2 - v 1 0)
  | _, _ => 0

variable [LinearOrder K]

/-- `Mappings::phyToRefTet4` (src/linalg/Mappings.hpp:415-521). -/
def phyToRefTet (v : Nat → Nat → K) (x : Nat → K) : Option (Nat → K) := do
  let vol := tetMat v 0 0 + tetMat v 1 0 + tetMat v 2 0 + tetMat v 3 0
  let _ ← check (decide (vol ≠ 0))
  let div := 1 / vol
  let inv := fun r c => tetMat v r c * div
  return fun d => if d < 3 then inv (d + 1) 0 + inv (d + 1) 1 * x 0 + inv (d + 1) 2 * x 1 + inv (d + 1) 3 * x 2 else 0

/-- `Mappings::phyToRefTria3` (src/linalg/Mappings.hpp:535-563). -/
def phyToRefTria (tol : K) (v : Nat → Nat → K) (x : Nat → K) : Option (Nat → K) := do
  let xi0 := v 0 2 * v 1 0 - v 0 0 * v 1 2 + (x 0 * (v 1 2 - v 1 0) + x 1 * (v 0 0 - v 0 2))
  let xi1 := v 0 0 * v 1 1 - v 0 1 * v 1 0 + (x 0 * (v 1 0 - v 1 1) + x 1 * (v 0 1 - v 0 0))
  let det := (v 0 1 - v 0 0) * (v 1 2 - v 1 0) - (v 0 2 - v 0 0) * (v 1 1 - v 1 0)
  let _ ← check (decide (det > tol))
  return fun d => if d = 0 then xi0 / det else if d = 1 then xi1 / det else 0

/-- `Mappings::phyToRefQuad4r` (src/linalg/Mappings.hpp:572-587). -/
def phyToRefQuad (tol : K) (v : Nat → Nat → K) (x : Nat → K) : Option (Nat → K) := do
  let dx := v 0 1 - v 0 0
  let _ ← check (decide (dx > tol))
  let dy := v 1 3 - v 1 0
  let _ ← check (decide (dy > tol))
  return fun d => if d = 0 then (x 0 - v 0 0) / dx else if d = 1 then (x 1 - v 1 0) / dy else 0

/-- `Mappings::phyToRefHex8r` (src/linalg/Mappings.hpp:598-617). -/
def phyToRefHex (tol : K) (v : Nat → Nat → K) (x : Nat → K) : Option (Nat → K) := do
  let dx := v 0 1 - v 0 0
  let _ ← check (decide (dx > tol))
  let dy := v 1 3 - v 1 0
  let _ ← check (decide (dy > tol))
  let dz := v 2 4 - v 2 0
  let _ ← check (decide (dz > tol))
  return fun d => if d = 0 then (x 0 - v 0 0) / dx else if d = 1 then (x 1 - v 1 0) / dy else
    if d = 2 then (x 2 - v 2 0) / dz else 0

/-- `Mappings::phyToRef` (src/linalg/Mappings.hpp:627-637); aborts for lines. -/
def phyToRef (tol : K) (ty : Ent) (v : Nat → Nat → K) (x : Nat → K) : Option (Nat → K) :=
  match ty with
  | .line => none
  | .quad => phyToRefQuad tol v x
  | .tria => phyToRefTria tol v x
  | .hex => phyToRefHex tol v x
  | .tet => phyToRefTet v x

/-! ### Faces -/

/-- `Mappings::faToVolRef` and the functions called by it (src/linalg/Mappings.hpp:774-908). -/
def faToVolRef (ty : Ent) (fa : Nat) (p : Nat → K) : Option (Nat → K) := do
  let _ ← check (decide (fa < ty.nFa))
  match ty with
  | .line => return fun d => if d < 1 then refFa .line 0 fa 0 else 0
  | .quad => return fun d => if d < 2 then (refFa .quad d fa 1 - refFa .quad d fa 0) * p 0 + refFa .quad d fa 0 else 0
  | .tria => return fun d => if d < 2 then (refFa .tria d fa 1 - refFa .tria d fa 0) * p 0 + refFa .tria d fa 0 else 0
  | .hex => return fun d => if d < 3 then (refFa .hex d fa 1 - refFa .hex d fa 0) * p 0 +
      (refFa .hex d fa 3 - refFa .hex d fa 0) * p 1 + refFa .hex d fa 0 else 0
  | .tet => return fun d => if d < 3 then (refFa .tet d fa 1 - refFa .tet d fa 0) * p 0 +
      (refFa .tet d fa 2 - refFa .tet d fa 0) * p 1 + refFa .tet d fa 0 else 0

/-- `Mappings::faLocToFaNeiTet4` (src/linalg/Mappings.hpp:943-959). -/
def faLocToFaNeiTet (ve : Nat) (p : Nat → K) : Option (Nat → K) :=
  match ve with
  | 0 => some (fun d => if d = 0 then p 1 else if d = 1 then p 0 else 0)
  | 1 => some (fun d => if d = 0 then 1 - p 0 - p 1 else if d = 1 then p 1 else 0)
  | 2 => some (fun d => if d = 0 then p 0 else if d = 1 then 1 - p 0 - p 1 else 0)
  | _ => none

/-- `Mappings::faLocToFaNei` (src/linalg/Mappings.hpp:969-985). -/
def faLocToFaNei (ty : Ent) (ve : Nat) (p : Nat → K) : Option (Nat → K) :=
  if ty.nDim < 3 then some (fun d => if d = 0 then 1 - p 0 else 0)
  else match ty with
    | .hex => some (fun d => if d = 0 then p 1 else if d = 1 then p 0 else 0)
    | .tet => faLocToFaNeiTet ve p
    | _ => none

/-- Volume coordinates of one quadrature point of one face (src/dg/QuadratureEval.hpp:159-186): entries `fa` and
`N_FACES + fa * N_VE_OPTS + ve` of the list of options. -/
def facesQp (ty : Ent) (fa : Nat) (p : Nat → K) (o : List (Option (Nat → K))) : Option (List (Option (Nat → K))) := do
  let loc ← faToVolRef ty fa p
  let o ← wr o fa (some loc)
  forN ty.nVeOpts (fun ve o => do
    let q ← faLocToFaNei ty ve p
    let nei ← faToVolRef ty fa q
    wr o (ty.nFa + fa * ty.nVeOpts + ve) (some nei)) o

/-- `QuadratureEval::faces` for one quadrature point with face coordinates `p` (src/dg/QuadratureEval.hpp:156-187), for all
element types but lines; the loops over quadrature points and faces are exchanged, their iterations write different
entries. -/
def faces (ty : Ent) (p : Nat → K) : Option (List (Option (Nat → K))) :=
  forN ty.nFa (fun fa o => facesQp ty fa p o) (List.replicate ((ty.nVeOpts + 1) * ty.nFa) none)

end
end Edge.Map
