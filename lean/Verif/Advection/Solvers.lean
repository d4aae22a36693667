import Mathlib.Algebra.Order.Field.Basic
import Verif.Util.Loop

/-!
Model of the flux solvers of the advection equation: `common::setupSolvers` in /repo/src/impl/advection/solvers/common.hpp
lines 131-331. `K` is any ordered field (real_base and double: no rounding).
-/
namespace Edge.Advection

/-- Input of `setupSolvers` (common.hpp:133-147). Ids ≥ `nIn + nSe` stand for elements which do not exist
(`std::numeric_limits< std::size_t >::max()` in the code). Simplification: `det` is the determinant of the Jacobian of an
element's mapping, which lines 254-291 derive from the vertices (`evalJac` and `det` are modelled in Verif/Map). -/
structure Mesh (K : Type) where
  tet : Bool             -- ELEMENT == TET4
  order : Nat            -- ORDER
  nd : Nat               -- N_DIM
  nElFa : Nat            -- C_ENT[ELEMENT].N_FACES
  nIn : Nat              -- i_nElsIn
  nSe : Nat              -- i_nElsSe
  nFa : Nat              -- i_nFas
  recvFa : List Nat      -- i_recvFa
  recvEl : List Nat      -- i_recvEl
  faEl : List (Nat × Nat)
  elFa : List (List Nat)
  normal : List (List K) -- i_faChars[].outNormal
  area : List K          -- i_faChars[].area
  periodic : List Bool   -- i_faChars[].spType & PERIODIC
  v : List (List K)      -- i_bgPars
  vRe : List (List K)    -- i_bgParsRe
  det : List K           -- determinants

section
variable {K : Type} [Field K] [LinearOrder K]

/-- Projection of a velocity to a normal (common.hpp:192-198, 204-210, 216-222); 0 is the start of the sum. -/
def speed (nd : Nat) (v n : List K) : Option K :=
  forN nd (fun d s => do
    let a ← rd v d
    let b ← rd n d
    pure (s + a * b)) 0

/-- Search of a face in the faces of an element (common.hpp:170-185): `none` in the result is
`std::numeric_limits< unsigned short >::max()`; finding the face twice fails an EDGE_CHECK. -/
def findLoc (nElFa : Nat) (row : List Nat) (fa : Nat) : Option (Option Nat) :=
  forN nElFa (fun fi loc => do
    let f ← rd row fi
    if f = fa then do
      check loc.isNone
      pure (some fi)
    else pure loc) none

/-- The search of one side of a face (common.hpp:170-185), if the element exists. -/
def sideLoc (m : Mesh K) (ex : Bool) (el fa : Nat) : Option (Option Nat) :=
  if ex then do
    let row ← rd m.elFa el
    findLoc m.nElFa row fa
  else pure none

/-- Speed of the element behind a face of a send element (common.hpp:201-213): the first entry of the communication structure
with the element and its face; `none` in the result is the initial value `std::numeric_limits< TL_T_REAL >::max()`, which
is only compared to 0 (line 257: not less). -/
def recvSpeed (m : Mesh K) (el : Nat) (loc : Option Nat) (n : List K) : Option (Option K) :=
  forN m.recvEl.length (fun co (r : Option K) => do
    if r.isSome then pure r
    else do
      let e ← rd m.recvEl co
      let f ← rd m.recvFa co
      if e = el ∧ some f = loc then do
        let w ← rd m.vRe co
        let s ← speed m.nd w n
        pure (some s)
      else pure r) none

/-- `o_fs[el][k] = g(o_fs[el][k])`. -/
def upd (fs : List (List K)) (el k : Nat) (g : K → K) : Option (List (List K)) := do
  let row ← rd fs el
  let x ← rd row k
  let row ← wr row k (g x)
  wr fs el row

/-- Update of a solver of an element, if the element exists. -/
def updIf (ex : Bool) (fs : List (List K)) (el k : Nat) (g : K → K) : Option (List (List K)) :=
  if ex then upd fs el k g else pure fs

/-- The scaling of the two solvers of one side (common.hpp:293-326): determinant (for tetrahedra and order 1 divided by 6),
area and for tetrahedra a factor of two. The check of line 303 is part of it. The code scales the left and right side
alternately. -/
def scale (m : Mesh K) (ex : Bool) (fs : List (List K)) (el loc : Nat) (area : K) : Option (List (List K)) :=
  if ex then do
    let j ← rd m.det el
    let j := if m.tet ∧ m.order = 1 then j / 6 else j
    check (decide (0 < j))
    let g := fun x => if m.tet then x / j * area * 2 else x / j * area
    let fs ← upd fs el loc g
    upd fs el (m.nElFa + loc) g
  else pure fs

/-- Solvers by the speed of the left element (common.hpp:250-254). Without a left element the speed is `max()`, i.e., positive,
but both flags are false and nothing is written. -/
def fromLeft (m : Mesh K) (exL exR : Bool) (lr : Nat × Nat) (fL fR : Nat) (adv : Option K) (fs : List (List K)) :
    Option (List (List K)) :=
  match adv with
  | some a =>
    if 0 < a then
      (updIf exL fs lr.1 fL (fun _ => -a)).bind (fun fs => updIf exR fs lr.2 (m.nElFa + fR) (fun _ => a))
    else some fs
  | none => some fs

/-- Solvers by the speed of the right element (common.hpp:256-260). -/
def fromRight (m : Mesh K) (exL exR : Bool) (lr : Nat × Nat) (fL fR : Nat) (adv : Option K) (fs : List (List K)) :
    Option (List (List K)) :=
  match adv with
  | some a =>
    if a < 0 then
      (updIf exL fs lr.1 (m.nElFa + fL) (fun _ => -a)).bind (fun fs => updIf exR fs lr.2 fR (fun _ => a))
    else some fs
  | none => some fs

/-- Speed of an element of this rank at a face (common.hpp:190-199, 214-223). -/
def ownSpeed (m : Mesh K) (el : Nat) (n : List K) : Option (Option K) := do
  let w ← rd m.v el
  let s ← speed m.nd w n
  pure (some s)

/-- Speed of the right side of a face (common.hpp:200-223). -/
def rightSpeed (m : Mesh K) (exR : Bool) (lr : Nat × Nat) (locL : Option Nat) (n : List K) : Option (Option K) :=
  if !exR && decide (m.nIn ≤ lr.1) then recvSpeed m lr.1 locL n
  else if exR then ownSpeed m lr.2 n else some none

/-- One iteration of the loop over the faces (common.hpp:158-328). -/
def face (m : Mesh K) (fa : Nat) (fs : List (List K)) : Option (List (List K)) := do
  let lr ← rd m.faEl fa
  let nEls := m.nIn + m.nSe
  let exL := decide (lr.1 < nEls)
  let exR := decide (lr.2 < nEls)
  let locL ← sideLoc m exL lr.1 fa
  let locR ← sideLoc m exR lr.2 fa
  let n ← rd m.normal fa
  let advL ← if exL then ownSpeed m lr.1 n else pure none
  let advR ← rightSpeed m exR lr locL n
  let per ← rd m.periodic fa
  check (!exL || locL.isSome || per)
  check (!exR || locR.isSome || per)
  let exL := exL && locL.isSome
  let exR := exL && locR.isSome          -- line 235: the code uses l_exL here, too
  let fL := locL.getD 0
  let fR := locR.getD 0
  let fs ← fromLeft m exL exR lr fL fR advL fs
  let fs ← fromRight m exL exR lr fL fR advR fs
  let area ← rd m.area fa
  check (decide (0 < area))
  let fs ← scale m exL fs lr.1 fL area
  scale m exR fs lr.2 fR area

/-- `setupSolvers` (common.hpp:150-330): the solvers are zero before the loop over the faces. -/
def setupSolvers (m : Mesh K) : Option (List (List K)) :=
  forN m.nFa (face m) (List.replicate (m.nIn + m.nSe) (List.replicate (2 * m.nElFa) 0))

end
end Edge.Advection
