import Verif.Util.Loop
import Verif.Dist.Model
/-!
Model of the data layouts: `EntityLayout::sizesToLayout`, `Dynamic::flex`, `DataLayout::adj` and the assignment of
points to entities (`SparseEntities::ptToEn`). Integers are unbounded naturals (no overflow of `int_el`).
-/
namespace Edge.Data
open Edge

/-- `t_timeRegion` (src/data/EntityLayout.type:30-33). -/
structure Reg where
  first : Nat
  size : Nat
  deriving DecidableEq, Repr

/-- `t_timeGroup` (src/data/EntityLayout.type:36-57). -/
structure TG where
  nOwn : Nat
  nNotOwn : Nat
  inner : Reg
  send : List Reg
  recv : List Reg
  neRanks : List Nat
  neTgs : List Nat
  deriving DecidableEq, Repr

/-- `t_enLayout` (src/data/EntityLayout.type:60-66). -/
structure Layout where
  nEnts : Nat
  tgs : List TG
  deriving DecidableEq, Repr

/-! ### sizesToLayout -/

/-- Reset of the parameters (src/data/EntityLayout.cpp:30-41); the EDGE_CHECK of line 35 aborts. -/
def stlReset (tgs : List TG) : Option (List TG) :=
  forN tgs.length (fun tg (tgs : List TG) => do
    let g ← rd tgs tg
    check (g.send.length == g.recv.length)
    let (send, recv) ← forN g.send.length (fun nr (s : List Reg × List Reg) => do
      let a ← rd s.1 nr
      let send ← wr s.1 nr { a with first := 0 }
      let b ← rd s.2 nr
      let recv ← wr s.2 nr { b with first := 0 }
      return (send, recv)) (g.send, g.recv)
    wr tgs tg { g with nOwn := 0, nNotOwn := 0, inner := { g.inner with first := 0 }, send := send, recv := recv }) tgs

/-- Inner regions (src/data/EntityLayout.cpp:44-51). -/
def stlInner (tgs : List TG) (off : Nat) : Option (List TG × Nat) :=
  forN tgs.length (fun tg (s : List TG × Nat) => do
    let g ← rd s.1 tg
    let tgs ← wr s.1 tg { g with inner := { g.inner with first := s.2 }, nOwn := g.nOwn + g.inner.size }
    return (tgs, s.2 + g.inner.size)) (tgs, off)

/-- Send regions (src/data/EntityLayout.cpp:53-62). -/
def stlSend (tgs : List TG) (off : Nat) : Option (List TG × Nat) :=
  forN tgs.length (fun tg (s : List TG × Nat) => do
    let g ← rd s.1 tg
    let (send, own, off) ← forN g.send.length (fun nr (t : List Reg × Nat × Nat) => do
      let r ← rd t.1 nr
      let send ← wr t.1 nr { r with first := t.2.2 }
      return (send, t.2.1 + r.size, t.2.2 + r.size)) (g.send, g.nOwn, s.2)
    let tgs ← wr s.1 tg { g with send := send, nOwn := own }
    return (tgs, off)) (tgs, off)

/-- `EntityLayout::sizesToLayout` (src/data/EntityLayout.cpp:27-65). -/
def sizesToLayout (lay : Layout) : Option Layout := do
  let tgs ← stlReset lay.tgs
  let (tgs, off) ← stlInner tgs 0
  let (tgs, off) ← stlSend tgs off
  return { nEnts := off, tgs := tgs }

/-! ### Dynamic::flex -/

/-- The bit test of `flex` (src/data/Dynamic.h:130, 158). -/
def hasTy (sp ty : Nat) : Bool := sp &&& ty == ty

/-- Required memory in items (src/data/Dynamic.h:124-134); the factor `sizeof` of line 135 only scales it. -/
def flexMem (nEn nSp bSize : Nat) (spTypes spSizes enChars : List Nat) : Option Nat :=
  forN nEn (fun en (mem : Nat) =>
    forN nSp (fun st (mem : Nat) => do
      let c ← rd enChars en
      let t ← rd spTypes st
      if hasTy c t then do
        let z ← rd spSizes st
        return mem + z
      else return mem) (mem + bSize)) 0

/-- A pointer into the raw memory: `nullptr` or the offset in items from its base. -/
inductive Ptr where
  | null
  | at (off : Nat)
  deriving DecidableEq, Repr

/-- Pointers of `flex` (src/data/Dynamic.h:144-169): the array of pointers and the final position in the raw memory.
Entries of the freshly allocated array hold no value (`none`) until written. The allocations themselves
(`common::allocate`) are not modelled; an empty raw allocation is `nullptr`, pointers into it are not dereferenced. -/
def flexPtrs (nEn nSp bSize : Nat) (spTypes spSizes enChars : List Nat) : Option (List (Option Ptr) × Nat) := do
  let ptrs := List.replicate ((nSp + 1) * nEn + 1) none
  let (ptrs, raw) ← forN nEn (fun en (s : List (Option Ptr) × Nat) => do
    let ptrs ← wr s.1 en (some (.at s.2))
    return (ptrs, s.2 + bSize)) (ptrs, 0)
  let (ptrs, raw) ← forN nSp (fun st (s : List (Option Ptr) × Nat) =>
    forN nEn (fun en (s : List (Option Ptr) × Nat) => do
      let ptrId := nEn * (st + 1) + en
      let c ← rd enChars en
      let t ← rd spTypes st
      if hasTy c t then do
        let ptrs ← wr s.1 ptrId (some (.at s.2))
        let z ← rd spSizes st
        return (ptrs, s.2 + z)
      else do
        let ptrs ← wr s.1 ptrId (some .null)
        return (ptrs, s.2)) s) (ptrs, raw)
  let ptrs ← wr ptrs ((nSp + 1) * nEn) (some (.at raw))
  return (ptrs, raw)

/-! ### DataLayout::adj -/

/-- State of `adj`: the pointers (`none` is `nullptr`, offsets in items otherwise), the position in the raw memory,
the pointers for sends and receives. -/
structure AdjS where
  ptrs : List (List (Option Nat))
  raw : Nat
  send : List (List Nat)
  recv : List (List Nat)
  deriving DecidableEq, Repr

/-- Inputs of `adj`: adjacencies per entity, adjacent entities (`none`: undefined), the sparse "adjacency"
(outer `none`: `nullptr`). -/
structure AdjIn where
  nAd : Nat
  enAdEn : List (Option Nat)
  enSpEn : Option (List (Option Nat))

/-- The test on sparse types (src/data/DataLayout.hpp:106-108, 134-136, 173-175, 210-212): `some true` if the
adjacency is to be ignored. The right operand of `&&` is read only if the left one holds. -/
def adjIgnore (inp : AdjIn) (en ad : Nat) : Option Bool :=
  match inp.enSpEn with
  | none => some false
  | some sp => do
    let a ← rd sp en
    if a = none then do
      let b ← rd sp ad
      return b.isNone
    else return false

/-- Body of the four loops over a region (src/data/DataLayout.hpp:99-117, 126-149, 165-187, 202-226), which differ in
the test `guard` on the adjacent entity only; `guard` is `none` if one of the EDGE_CHECKs of 215-216 fails. -/
def visitOne (inp : AdjIn) (guard : Nat → Option Bool) (en ad : Nat) (s : AdjS) : Option AdjS := do
  match ← rd inp.enAdEn (en * inp.nAd + ad) with
  | none => return s
  | some enAd =>
    if ← adjIgnore inp en enAd then return s
    else if ← guard enAd then do
      let row ← rd s.ptrs en
      let p ← rd row ad
      check p.isNone
      let row ← wr row ad (some s.raw)
      let ptrs ← wr s.ptrs en row
      return { s with ptrs := ptrs, raw := s.raw + 1 }
    else return s

/-- The loop over a region and the adjacent entities. -/
def visit (inp : AdjIn) (r : Reg) (guard : Nat → Option Bool) (s : AdjS) : Option AdjS :=
  forN r.size (fun i (s : AdjS) =>
    forN inp.nAd (fun ad (s : AdjS) => visitOne inp guard (r.first + i) ad s) s) s

/-- `o_send.back().push_back( v )`. -/
def pushBack (l : List (List Nat)) (v : Nat) : Option (List (List Nat)) :=
  match l.getLast? with
  | none => none
  | some b => some (l.dropLast ++ [b ++ [v]])

/-- The entity belongs to the region. -/
def inReg (r : Reg) (e : Nat) : Bool := decide (r.first ≤ e) && decide (e < r.first + r.size)

/-- Inner entities of the time group (src/data/DataLayout.hpp:91-117). -/
def adjInner (inp : AdjIn) (g : TG) (s : AdjS) : Option AdjS :=
  visit inp g.inner (fun _ => some true) { s with send := s.send ++ [[]], recv := s.recv ++ [[]] }

/-- Send entities: adjacencies to entities outside of the receive region (src/data/DataLayout.hpp:122-150). -/
def adjOther (inp : AdjIn) (g : TG) (s : AdjS) : Option AdjS :=
  forN g.send.length (fun sr (s : AdjS) => do
    let r ← rd g.send sr
    let q ← rd g.recv sr
    visit inp r (fun enAd => some (decide (enAd < q.first) || decide (enAd ≥ q.first + q.size))) s) s

/-- Send entities: adjacencies to entities of the receive region (src/data/DataLayout.hpp:153-191). -/
def adjSend (inp : AdjIn) (g : TG) (s : AdjS) : Option AdjS := do
  let s ← forN g.send.length (fun sr (s : AdjS) => do
    let snd ← pushBack s.send s.raw
    let r ← rd g.send sr
    let q ← rd g.recv sr
    visit inp r (fun enAd => some (decide (enAd ≥ q.first) && decide (enAd < q.first + q.size)))
      { s with send := snd }) s
  let snd ← pushBack s.send s.raw
  return { s with send := snd }

/-- Receive entities: adjacencies to send entities (src/data/DataLayout.hpp:194-230). -/
def adjRecv (inp : AdjIn) (tg : Nat) (g : TG) (s : AdjS) : Option AdjS := do
  let s ← forN g.recv.length (fun rr (s : AdjS) => do
    let rcv ← pushBack s.recv s.raw
    let r ← rd g.recv rr
    visit inp r (fun enAd => do
        check (decide (enAd ≥ g.inner.first + g.inner.size))
        check (decide (tg = 0))
        return decide (enAd < g.inner.first + g.nOwn))
      { s with recv := rcv }) s
  let rcv ← pushBack s.recv s.raw
  return { s with recv := rcv }

/-- `DataLayout::adj` (src/data/DataLayout.hpp:62-232) for initially empty `o_send`, `o_recv`. -/
def adj (inp : AdjIn) (lay : Layout) : Option AdjS :=
  forN lay.tgs.length (fun tg (s : AdjS) => do
    let g ← rd lay.tgs tg
    let s ← adjInner inp g s
    let s ← adjOther inp g s
    let s ← adjSend inp g s
    adjRecv inp tg g s)
    { ptrs := List.replicate lay.nEnts (List.replicate inp.nAd none), raw := 0, send := [], recv := [] }

/-! ### SparseEntities::ptToEn -/

/-- Gather of the vertex coordinates (src/data/SparseEntities.hpp:905-913): `l_tmpVe` of size 24, of which the first
`3*nVe` entries are written. -/
def gather {R : Type _} (nVe : Nat) (enVe : List Nat) (coords : List (List R)) (en : Nat) :
    Option (List (Option R)) := do
  check (decide (nVe ≤ 8))
  forN nVe (fun ve (tmp : List (Option R)) => do
    let veId ← rd enVe (en * nVe + ve)
    forN 3 (fun di (tmp : List (Option R)) => do
      let cs ← rd coords veId
      let x ← rd cs di
      wr tmp (di * nVe + ve) (some x)) tmp) (List.replicate 24 none)

/-- Search over the entities of one rank for one point (src/data/SparseEntities.hpp:886-889, 897-929): entity
(`none`: the undefined marker) and its distance. `dist` is `Geom::closestPoint` followed by `GeomT< 3 >::norm`, for
gathered vertices; `top` is `numeric_limits< TL_T_REAL >::max()`. The OpenMP loops write disjoint entries. -/
def ptToEnLoc {R D : Type _} (lt : D → D → Bool) (top : D) (dist : List (Option R) → List R → D) (nVe : Nat)
    (nEns : Nat) (enVe : List Nat) (coords : List (List R)) (pt : List R) : Option (Option Nat × D) :=
  forN nEns (fun en (s : Option Nat × D) => do
    let tmp ← gather nVe enVe coords en
    let d := dist tmp pt
    if lt d s.2 then return (some en, d) else return s) (none, top)

/-- The mesh of one rank. -/
structure RankMesh (R : Type _) where
  nEns : Nat
  enVe : List Nat
  coords : List (List R)

/-- Invalidation of everything not owned (src/data/SparseEntities.hpp:939-945) on one rank: `own[pt]`. -/
def ptToEnOwn (nPts : Nat) (own : List Nat) (de : List (Option Nat)) : Option (List (Option Nat) × Nat) :=
  forN nPts (fun pt (s : List (Option Nat) × Nat) => do
    let o ← rd own pt
    if o ≠ 1 then do
      let de ← wr s.1 pt none
      return (de, s.2)
    else return (s.1, s.2 + 1)) (de, 0)

/-- `SparseEntities::ptToEn` (src/data/SparseEntities.hpp:869-951), called collectively by all ranks with the same
points: `o_de` and the return value of every rank. -/
def ptToEn {R D : Type _} [DecidableEq D] (lt : D → D → Bool) (top : D) (dist : List (Option R) → List R → D)
    (nVe : Nat) (pts : List (List R)) (ranks : List (RankMesh R)) : Option (List (List (Option Nat) × Nat)) := do
  let loc ← ranks.mapM (fun m => pts.mapM (fun pt => ptToEnLoc lt top dist nVe m.nEns m.enVe m.coords pt))
  let own ← Dist.minAll lt pts.length (loc.map (fun l => l.map (·.2)))
  forN ranks.length (fun r (res : List (List (Option Nat) × Nat)) => do
    let l ← rd loc r
    let o ← own.mapM (fun col => rd col r)
    let x ← ptToEnOwn pts.length o (l.map (·.1))
    return res ++ [x]) []

end Edge.Data
