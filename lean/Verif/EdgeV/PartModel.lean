import Verif.Util.Loop
/-!
Model of the mesh partitioning of EDGE-V: `tools/edge_v/src/mesh/Partition.{h,cpp}` and the reordering in
`tools/edge_v/src/io/Gmsh.cpp`. Ids are unbounded natural numbers; the marker
`numeric_limits< t_idx >::max()` of a missing neighbour is `none`. METIS itself is not modelled: the partition of
the elements is an arbitrary input.
-/
namespace Edge.EdgeV
open Edge

/-- `*a++` on an entry which holds no value (`none`) is undefined. -/
def incr (a : List (Option Nat)) (i : Nat) : Option (List (Option Nat)) := do
  let v ← (← rd a i)
  wr a i (some (v + 1))

/-- `Partition::nPaEls` (tools/edge_v/src/mesh/Partition.cpp:71-88) on an array freshly allocated for `nParts`
partitions (:233): entries hold no value before the initialisation. -/
def nPaEls (nParts : Nat) (elPa : List Nat) : Option (List (Option Nat)) := do
  let nPas ← forN elPa.length (fun el (m : Nat) => do
    let pa ← rd elPa el
    return max m pa) 0
  let nPas := nPas + 1
  let out ← forN nPas (fun pa (out : List (Option Nat)) => wr out pa (some 0)) (List.replicate nParts none)
  forN elPa.length (fun el (out : List (Option Nat)) => do
    let pa ← rd elPa el
    incr out pa) out

/-- Lambda `l_send` of `getElPr` (tools/edge_v/src/mesh/Partition.cpp:106-123), and
`Communication::isComm` (tools/edge_v/src/mesh/Communication.cpp:27-46), which is the same code. -/
def isComm (nElFas : Nat) (elFaEl : List (Option Nat)) (elPa : List Nat) (el : Nat) : Option Bool := do
  let pa ← rd elPa el
  forN nElFas (fun fa (r : Bool) => do
    match ← rd elFaEl (el * nElFas + fa) with
    | none => return r
    | some ad => do
      let paAd ← rd elPa ad
      return r || decide (pa ≠ paAd)) false

/-- `Partition::getElPr` (tools/edge_v/src/mesh/Partition.cpp:91-140); `elTg = none` is the null pointer. The OpenMP
loop writes disjoint entries. -/
def getElPr (nElFas nEls : Nat) (elFaEl : List (Option Nat)) (elPa : List Nat) (elTg : Option (List Nat)) :
    Option (List Nat) := do
  let nTgs ← (match elTg with
    | none => some 0
    | some tgs => forN nEls (fun el (m : Nat) => do
        let tg ← rd tgs el
        return max m tg) 0)
  let nTgs := nTgs + 1
  forN nEls (fun el (out : List Nat) => do
    let pa ← rd elPa el
    let pr := pa * 2 * nTgs
    let send ← isComm nElFas elFaEl elPa el
    let pr := if send then pr + nTgs else pr
    let pr ← (match elTg with
      | none => some pr
      | some tgs => do
        let tg ← rd tgs el
        return pr + tg)
    return out ++ [pr]) []

/-- What `std::sort` guarantees in `Gmsh::reorder` (tools/edge_v/src/io/Gmsh.cpp:386-395): some permutation of the
element ids in which the priorities do not decrease; the order among equal priorities is unspecified. -/
def Reordered (prios perm : List Nat) : Prop :=
  List.Perm perm (List.range prios.length) ∧
  ∀ (i j a b p q : Nat), i < j → perm[i]? = some a → perm[j]? = some b → prios[a]? = some p → prios[b]? = some q → p ≤ q

/-- Ascending insertion; `std::sort` on numbers has a unique result, computed here by insertion sort. -/
def insertAsc (x : Nat) : List Nat → List Nat
  | [] => [x]
  | y :: l => if x ≤ y then x :: y :: l else y :: insertAsc x l

def sortAsc : List Nat → List Nat
  | [] => []
  | x :: l => insertAsc x (sortAsc l)

/-- Body of the face loop of the dual graph (tools/edge_v/src/mesh/Partition.h:121-129). State: `xadj[el+1]` and the
written part of `adjncy` (its length is `l_adId`). The capacity of `adjncy` is `cap`. -/
def dualFace (elFaEl : List (Option Nat)) (nElFas cap el fa : Nat) (s : Nat × List Nat) : Option (Nat × List Nat) := do
  match ← rd elFaEl (el * nElFas + fa) with
  | none => return s
  | some ad => do
    check (decide (s.2.length < cap))
    return (s.1 + 1, s.2 ++ [ad])

/-- `Partition::getDualGraph` (tools/edge_v/src/mesh/Partition.h:106-133): `xadj` and the written part of `adjncy`. -/
def getDualGraph (nElFas nEls : Nat) (elFaEl : List (Option Nat)) : Option (List Nat × List Nat) :=
  forN nEls (fun el (s : List Nat × List Nat) => do
    let lo ← rd s.1 el
    let (hi, adj) ← forN nElFas (fun fa (s : Nat × List Nat) => dualFace elFaEl nElFas (nEls * nElFas) el fa s) (lo, s.2)
    return (s.1 ++ [hi], adj.take lo ++ sortAsc ((adj.drop lo).take (hi - lo)) ++ adj.drop hi)) ([0], [])

/-- `for( l_tg = from; l_tg < to; l_tg++ ) w *= 2` (tools/edge_v/src/mesh/Partition.h:173-175,188-190). -/
def doubled (lo hi w : Nat) : Option Nat := forN (hi - lo) (fun _ (w : Nat) => some (w * 2)) w

/-- Body of the face loop of the weights (tools/edge_v/src/mesh/Partition.h:177-194). State: `l_adId`, edge weights. -/
def wgtFace (elFaEl : List (Option Nat)) (elTg : List Nat) (nElFas tgMax el fa : Nat) (s : Nat × List Nat) :
    Option (Nat × List Nat) := do
  match ← rd elFaEl (el * nElFas + fa) with
  | none => return s
  | some ad => do
    let tgEl ← rd elTg el
    let tgAd ← rd elTg ad
    let w ← rd s.2 s.1
    let w ← doubled (min tgEl tgAd) tgMax w
    let ws ← wr s.2 s.1 w
    return (s.1 + 1, ws)

/-- `Partition::getWeights` (tools/edge_v/src/mesh/Partition.h:150-197): vertex and edge weights. -/
def getWeights (nElFas nEls nAdj : Nat) (elFaEl : List (Option Nat)) (elTg : List Nat) :
    Option (List Nat × List Nat) := do
  let tgMax ← forN nEls (fun el (m : Nat) => do
    let tg ← rd elTg el
    return max m tg) 0
  let (_, vw, aw) ← forN nEls (fun el (s : Nat × List Nat × List Nat) => do
    let tg ← rd elTg el
    let v ← rd s.2.1 el
    let v ← doubled tg tgMax v
    let vw ← wr s.2.1 el v
    let (adId, aw) ← forN nElFas (fun fa (s : Nat × List Nat) => wgtFace elFaEl elTg nElFas tgMax el fa s) (s.1, s.2.2)
    return (adId, vw, aw)) (0, List.replicate nEls 1, List.replicate nAdj 1)
  return (vw, aw)

end Edge.EdgeV
