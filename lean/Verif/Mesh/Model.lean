import Verif.Util.Fold
import Mathlib.Data.List.Sort
import Mathlib.Algebra.Order.Field.Basic
/-!
Model of the mesh of EDGE-V: derivation of faces and adjacency from the elements, sparse types of faces, normalisation
of the order of vertices and faces, face and vertex ids of neighbouring elements.

Conventions. Ids are natural numbers; the value `std::numeric_limits< t_idx >::max()` (no entity, not set) is `none`.
Arrays holding the vertices of entities ([nEns][nEnVes]) are lists of rows, all other arrays are flat as in the code.
`std::sort` with a user-defined order may leave equivalent entries in any order: it is a parameter, of which only
`StdSort` is known. Coordinates are elements of an ordered field: no rounding.
-/
namespace Edge.Mesh
open Edge

/-- What `std::sort` guarantees: a permutation of the input, in which no entry is less than an earlier one. -/
def StdSort {α : Type _} (lt : α → α → Bool) (l out : List α) : Prop :=
  out.Perm l ∧ out.Pairwise (fun a b => lt b a = false)

/-- `std::sort` of ids (the result is unique). -/
def sortNat (l : List Nat) : List Nat := l.insertionSort (· ≤ ·)

/-- Lexicographic order of rows of equal length: comparison of tuples (tools/edge_v/src/mesh/Mesh.cpp:429-431) and
lambda `l_entryLess` (tools/edge_v/src/geom/Generic.cpp:60-71). -/
def lexLt : List Nat → List Nat → Bool
  | a :: as, b :: bs => if a < b then true else if b < a then false else lexLt as bs
  | _, _ => false

/-! ### Faces from elements -/

/-- Face of an element (tools/edge_v/src/mesh/Mesh.cpp:403-410); of the vertices only the used ones are stored: the
unused entries hold the largest value and stay last when sorting. -/
structure Face where
  el : Nat
  fa : Nat
  ves : List Nat
deriving DecidableEq

/-- Order of the faces (tools/edge_v/src/mesh/Mesh.cpp:429-431). -/
def faceLt (f g : Face) : Bool := lexLt f.ves g.ves

/-- Faces of all elements with sorted vertices (tools/edge_v/src/mesh/Mesh.cpp:411-424). -/
def mapFas (nEls nElFas : Nat) (elFaVe : List (List Nat)) : Option (List Face) :=
  (pairs nEls nElFas).mapM fun p => do
    let ves ← rd elFaVe (p.1 * nElFas + p.2)
    return { el := p.1, fa := p.2, ves := sortNat ves }

/-- Number of equal entries of two rows (tools/edge_v/src/mesh/Mesh.cpp:436-441, 518-523, 111-116). -/
def nShared (n : Nat) (a b : List Nat) : Option Nat :=
  forN n (fun v (k : Nat) => do
    let x ← rd a v
    let y ← rd b v
    if x = y then return k + 1 else return k) 0

/-- Number of internal faces (tools/edge_v/src/mesh/Mesh.cpp:434-446). -/
def countInt (nFaVes : Nat) (map : List Face) : Option Nat :=
  forN (map.length - 1) (fun fa (n : Nat) => do
    let a ← rd map fa
    let b ← rd map (fa + 1)
    let k ← nShared nFaVes a.ves b.ves
    if k = nFaVes then return n + 1 else return n) 0

/-- Arrays while assigning faces; entries which are not set are `none`. -/
structure BSt where
  mapId : Nat
  faVe : List (Option (List Nat))
  faEl : List (Option Nat)
  elFa : List (Option Nat)
  elFaEl : List (Option Nat)

/-- Is the current face internal (tools/edge_v/src/mesh/Mesh.cpp:516-525)? -/
def isInt (nFaVes : Nat) (map : List Face) (mapId : Nat) : Option Bool :=
  if mapId < map.length - 1 then do
    let a ← rd map mapId
    let b ← rd map (mapId + 1)
    let k ← nShared nFaVes a.ves b.ves
    return decide (k = nFaVes)
  else some false

/-- Assignment of one face (tools/edge_v/src/mesh/Mesh.cpp:514-549). -/
def faceStep (nElFas nFaVes : Nat) (map : List Face) (fa : Nat) (s : BSt) : Option BSt := do
  let int ← isInt nFaVes map s.mapId
  let a ← rd map s.mapId
  let faVe ← wr s.faVe fa (some a.ves)
  let faEl ← wr s.faEl (fa * 2) (some a.el)
  let elFa ← wr s.elFa (a.el * nElFas + a.fa) (some fa)
  if int then do
    let b ← rd map (s.mapId + 1)
    let faEl ← wr faEl (fa * 2 + 1) (some b.el)
    let elFa ← wr elFa (b.el * nElFas + b.fa) (some fa)
    let elFaEl ← wr s.elFaEl (a.el * nElFas + a.fa) (some b.el)
    let elFaEl ← wr elFaEl (b.el * nElFas + b.fa) (some a.el)
    return { mapId := s.mapId + 2, faVe := faVe, faEl := faEl, elFa := elFa, elFaEl := elFaEl }
  else
    return { mapId := s.mapId + 1, faVe := faVe, faEl := faEl, elFa := elFa, elFaEl := s.elFaEl }

/-- Initial values (tools/edge_v/src/mesh/Mesh.cpp:488-506). -/
def bInit (nEls nElFas nFas : Nat) : BSt :=
  { mapId := 0, faVe := List.replicate nFas none, faEl := List.replicate (nFas * 2) none,
    elFa := List.replicate (nEls * nElFas) none, elFaEl := List.replicate (nEls * nElFas) none }

/-- Connectivity of a mesh. -/
structure Conn where
  nFas : Nat
  faVe : List (List Nat)
  faEl : List (Option Nat)
  elFa : List Nat
  elFaEl : List (Option Nat)

/-- Faces and adjacency of a mesh (tools/edge_v/src/mesh/Mesh.cpp:388-549), followed by the checks that all entries are
set (tools/edge_v/src/mesh/Mesh.cpp:594-607). `srt` is the sorting of the faces. In the code the number of faces is
`l_nFasInt + ( l_mapFas.size() - l_nFasInt*2 )` in wrapping arithmetic, which is the difference below. Simplification:
coordinates and the vertices of the elements are copied without a change and not part of this function. -/
def build (srt : List Face → List Face) (nEls nElFas nFaVes : Nat) (elFaVe : List (List Nat)) : Option Conn := do
  check (decide (0 < nEls))
  let map0 ← mapFas nEls nElFas elFaVe
  let map := srt map0
  let nInt ← countInt nFaVes map
  let nFas := map.length - nInt
  let s ← forN nFas (faceStep nElFas nFaVes map) (bInit nEls nElFas nFas)
  let faVe ← s.faVe.mapM id
  forN nFas (fun fa (_ : Unit) => do
    let e ← rd s.faEl (fa * 2)
    check e.isSome) ()
  let elFa ← s.elFa.mapM id
  return { nFas := nFas, faVe := faVe, faEl := s.faEl, elFa := elFa, elFaEl := s.elFaEl }

/-! ### Sparse types -/

/-- `addSparseTypeEn` (tools/edge_v/src/mesh/Mesh.cpp:92-127): `de` are the vertices of all entities, `sp` those of the
listed ones. After the `break` the remaining iterations do nothing. -/
def addSparse (nEnVes : Nat) (de sp : List (List Nat)) (add : Nat) (spType : List Nat) : Option (List Nat) := do
  let s ← forN de.length (fun i (s : Nat × List Nat) =>
    if sp.length ≤ s.1 then some s
    else do
      let d ← rd de i
      let q ← rd sp s.1
      let k ← nShared nEnVes d q
      if k = nEnVes then do
        let t ← rd s.2 i
        let r ← wr s.2 i (t ||| add)
        return (s.1 + 1, r)
      else return s) (0, spType)
  check (decide (s.1 = sp.length))
  return s.2

/-- Comparison of two rows of an array by their indices (tools/edge_v/src/geom/Generic.cpp:60-71). -/
def entryLess (data : List (List Nat)) (i j : Nat) : Bool :=
  match data[i]?, data[j]? with
  | some a, some b => lexLt a b
  | _, _ => false

/-- `sortLex` (tools/edge_v/src/geom/Generic.cpp:43-90): sorted rows and their former indices. `srt` is the sorting of
the indices. -/
def sortLex (srt : List (List Nat) → List Nat → List Nat) (data : List (List Nat)) :
    Option (List (List Nat) × List Nat) := do
  let sorted := srt data (List.range data.length)
  let rows ← sorted.mapM (fun id => rd data id)
  return (rows, sorted)

/-- Sparse types of the faces by the physical groups, pairs of the id of the group and the vertices of its faces
(tools/edge_v/src/mesh/Mesh.cpp:552-586). -/
def addGroups (srt : List (List Nat) → List Nat → List Nat) (nFaVes : Nat) (faVe : List (List Nat))
    (groups : List (Nat × List (List Nat))) (spType : List Nat) : Option (List Nat) :=
  groups.foldlM (fun sp g => do
    let r ← sortLex srt (g.2.map sortNat)
    addSparse nFaVes faVe r.1 g.1 sp) spType

/-! ### Normalisation of orders -/

/-- Exchange of two entries of an array. -/
def swp {α : Type _} (a : List α) (i j : Nat) : Option (List α) := do
  let x ← rd a i
  let y ← rd a j
  let a ← wr a i y
  wr a j x

/-- `std::sort` of the entries `[base, base+n)`. -/
def sortSlice (a : List Nat) (base n : Nat) : Option (List Nat) :=
  if base + n ≤ a.length then some (a.take base ++ sortNat ((a.drop base).take n) ++ a.drop (base + n)) else none

/-- Is the first id less than the second one, where `none` is the largest value? -/
def optLt : Option Nat → Option Nat → Bool
  | some a, some b => decide (a < b)
  | some _, none => true
  | none, _ => false

/-- `std::sort` of the two elements of a face (tools/edge_v/src/mesh/Mesh.cpp:306). -/
def sortFaEl (faEl : List (Option Nat)) (fa : Nat) : Option (List (Option Nat)) := do
  let a ← rd faEl (fa * 2)
  let b ← rd faEl (fa * 2 + 1)
  if optLt b a then swp faEl (fa * 2) (fa * 2 + 1) else return faEl

/-- Lambda `l_faLess` on the vertices of two faces (tools/edge_v/src/mesh/Mesh.cpp:316-334): aborts if equal. -/
def faLess : List Nat → List Nat → Option Bool
  | a :: as, b :: bs => if a < b then some true else if b < a then some false else faLess as bs
  | _, _ => none

/-- One comparison of the sorting of an element's faces (tools/edge_v/src/mesh/Mesh.cpp:339-356). -/
def faStep (faVe : List (List Nat)) (base f0 f1 : Nat) (s : List Nat × List (Option Nat)) :
    Option (List Nat × List (Option Nat)) := do
  let id0 ← rd s.1 (base + f0)
  let id1 ← rd s.1 (base + f1)
  let r0 ← rd faVe id0
  let r1 ← rd faVe id1
  let less ← faLess r1 r0
  if less then do
    let elFa ← swp s.1 (base + f0) (base + f1)
    let elFaEl ← swp s.2 (base + f0) (base + f1)
    return (elFa, elFaEl)
  else return s

/-- Sorting of an element's faces (tools/edge_v/src/mesh/Mesh.cpp:336-358). -/
def sortFas (nElFas : Nat) (faVe : List (List Nat)) (base : Nat) (s : List Nat × List (Option Nat)) :
    Option (List Nat × List (Option Nat)) :=
  forN nElFas (fun f0 s => forN (nElFas - (f0 + 1)) (fun j s => faStep faVe base f0 (f0 + 1 + j) s) s) s

/-- Point in three dimensions. -/
structure V3 (K : Type _) where
  x : K
  y : K
  z : K
deriving DecidableEq

section
variable {K : Type _} [Field K] [LinearOrder K]

/-- Determinant of the vectors from the first to the second and third point, first two coordinates
(tools/edge_v/src/geom/Tria3.cpp:166-174). -/
def det2 (a b c : V3 K) : K := (b.x - a.x) * (c.y - a.y) - (c.x - a.x) * (b.y - a.y)

/-- Determinant of the vectors from the first to the other points (tools/edge_v/src/geom/Tet4.cpp:85-91). -/
def det3 (a b c d : V3 K) : K :=
  (b.x - a.x) * ((c.y - a.y) * (d.z - a.z) - (d.y - a.y) * (c.z - a.z))
  - (c.x - a.x) * ((b.y - a.y) * (d.z - a.z) - (d.y - a.y) * (b.z - a.z))
  + (d.x - a.x) * ((b.y - a.y) * (c.z - a.z) - (c.y - a.y) * (b.z - a.z))

/-- Vertices of the elements, faces of the elements, neighbours of the elements. -/
structure ElArr where
  elVe : List Nat
  elFa : List Nat
  elFaEl : List (Option Nat)

/-- Exchange of two faces and of the neighbours behind them. -/
def swpFa (s : ElArr) (i j : Nat) : Option ElArr := do
  let elFa ← swp s.elFa i j
  let elFaEl ← swp s.elFaEl i j
  return { s with elFa := elFa, elFaEl := elFaEl }

/-- Coordinates of a vertex of an element (tools/edge_v/src/mesh/Mesh.cpp:75-90). -/
def veCrd (veCrds : List (V3 K)) (elVe : List Nat) (i : Nat) : Option (V3 K) := do
  let ve ← rd elVe i
  rd veCrds ve

/-- `Tria3::normVesFas` of element `el` (tools/edge_v/src/geom/Tria3.cpp:149-202). -/
def normTria (veCrds : List (V3 K)) (el : Nat) (s : ElArr) : Option ElArr := do
  let a ← veCrd veCrds s.elVe (el * 3)
  let b ← veCrd veCrds s.elVe (el * 3 + 1)
  let c ← veCrd veCrds s.elVe (el * 3 + 2)
  let s ← swpFa s (el * 3 + 1) (el * 3 + 2)
  if det2 a b c < 0 then do
    let elVe ← swp s.elVe (el * 3 + 1) (el * 3 + 2)
    swpFa { s with elVe := elVe } (el * 3) (el * 3 + 2)
  else return s

/-- `Tet4::normVesFas` of element `el` (tools/edge_v/src/geom/Tet4.cpp:80-112). -/
def normTet (tol : K) (veCrds : List (V3 K)) (el : Nat) (s : ElArr) : Option ElArr := do
  let a ← veCrd veCrds s.elVe (el * 4)
  let b ← veCrd veCrds s.elVe (el * 4 + 1)
  let c ← veCrd veCrds s.elVe (el * 4 + 2)
  let d ← veCrd veCrds s.elVe (el * 4 + 3)
  check (decide (tol < |det3 a b c d|))
  if det3 a b c d < 0 then do
    let elVe ← swp s.elVe (el * 4 + 2) (el * 4 + 3)
    swpFa { s with elVe := elVe } (el * 4) (el * 4 + 1)
  else return s

/-- Simplicial element types; the code also has rectangular ones, whose normalisation is not modelled. -/
inductive ElTy where
  | tria3
  | tet4
deriving DecidableEq

/-- Number of vertices of an element, which is also the number of its faces
(tools/edge_v/src/constants.h, `CE_N_VES`, `CE_N_FAS`). -/
def ElTy.nVes : ElTy → Nat
  | .tria3 => 3
  | .tet4 => 4

/-- `Geom::normVesFas` (tools/edge_v/src/geom/Geom.cpp:140-173) for simplices. -/
def normVesFas (ty : ElTy) (tol : K) (veCrds : List (V3 K)) (el : Nat) (s : ElArr) : Option ElArr :=
  match ty with
  | .tria3 => normTria veCrds el s
  | .tet4 => normTet tol veCrds el s

/-- First element loop of `normOrder` (tools/edge_v/src/mesh/Mesh.cpp:312-359). -/
def sortEl (n : Nat) (faVe : List (List Nat)) (el : Nat) (s : ElArr) : Option ElArr := do
  let elVe ← sortSlice s.elVe (el * n) n
  let p ← sortFas n faVe (el * n) (s.elFa, s.elFaEl)
  return { elVe := elVe, elFa := p.1, elFaEl := p.2 }

/-- `normOrder` (tools/edge_v/src/mesh/Mesh.cpp:288-375) for simplices. -/
def normOrder (ty : ElTy) (tol : K) (veCrds : List (V3 K)) (nEls : Nat) (c : Conn) (elVe : List Nat) :
    Option (Conn × List Nat) := do
  let faVe := c.faVe.map sortNat
  let faEl ← forN c.nFas (fun fa faEl => sortFaEl faEl fa) c.faEl
  let s ← forN nEls (fun el s => sortEl ty.nVes faVe el s) { elVe := elVe, elFa := c.elFa, elFaEl := c.elFaEl }
  let s ← forN nEls (fun el s => normVesFas ty tol veCrds el s) s
  return ({ nFas := c.nFas, faVe := faVe, faEl := faEl, elFa := s.elFa, elFaEl := s.elFaEl }, s.elVe)

end

/-! ### Ids of neighbours -/

/-- Search of the face of the neighbour behind which the element is (tools/edge_v/src/geom/Generic.cpp:108-114): the
first such face; aborts if there is none. Parameters: number of faces left, next face. -/
def findFa (nElFas : Nat) (elFaEl : List (Option Nat)) (el elAd : Nat) : Nat → Nat → Option Nat
  | 0, _ => none
  | k + 1, ad => do
    let o ← rd elFaEl (elAd * nElFas + ad)
    if o = some el then return ad else findFa nElFas elFaEl el elAd k (ad + 1)

/-- `getFaIdsAd` for one face (tools/edge_v/src/geom/Generic.cpp:92-116). -/
def faIdAd (nElFas : Nat) (elFaEl : List (Option Nat)) (el fa : Nat) : Option Nat := do
  let o ← rd elFaEl (el * nElFas + fa)
  let elAd ← o
  findFa nElFas elFaEl el elAd nElFas 0

end Edge.Mesh
