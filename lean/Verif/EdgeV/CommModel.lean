import Verif.EdgeV.PartModel
/-!
Model of the derivation of communication structures in EDGE-V: `tools/edge_v/src/mesh/Communication.{h,cpp}`.
Ids, partitions and time groups are natural numbers; the missing-neighbour marker is `none`.
-/
namespace Edge.EdgeV
open Edge

/-- `Message` (tools/edge_v/src/mesh/Communication.h:50-63). -/
structure Message where
  pa : Nat
  tg : Nat
  el : List Nat
  fa : List Nat
  elAd : List Nat
  faAd : List Nat
  deriving Repr, DecidableEq

/-- `TimeRegion` (tools/edge_v/src/mesh/Communication.h:66-73); `none` is an element of `recv` which was only
value-initialised by `resize`. -/
structure TimeRegion where
  tg : Nat
  send : List Message
  recv : List (Option Message)
  deriving Repr, DecidableEq

/-- Body of `getPaElComm` (tools/edge_v/src/mesh/Communication.cpp:57-79). State: partition of the current region, first
elements and sizes. -/
def paElCommBody (nElFas : Nat) (elFaEl : List (Option Nat)) (elPa : List Nat) (el : Nat)
    (s : Option Nat × List Nat × List Nat) : Option (Option Nat × List Nat × List Nat) := do
  let comm ← isComm nElFas elFaEl elPa el
  let pa ← rd elPa el
  if s.1 ≠ some pa ∧ comm = true then do
    check (decide (s.1 = none ∨ s.1.map (· + 1) = some pa))
    let first ← wr s.2.1 pa el
    let size ← wr s.2.2 pa 1
    return (some pa, first, size)
  else if s.1 = some pa ∧ comm = true then do
    let n ← rd s.2.2 pa
    let size ← wr s.2.2 pa (n + 1)
    return (s.1, s.2.1, size)
  else return s

/-- `Communication::getPaElComm` (tools/edge_v/src/mesh/Communication.cpp:48-80) on zeroed arrays (:217-222). -/
def getPaElComm (nElFas nEls nPas : Nat) (elFaEl : List (Option Nat)) (elPa : List Nat) :
    Option (List Nat × List Nat) := do
  let s ← forN nEls (fun el (s : Option Nat × List Nat × List Nat) => paElCommBody nElFas elFaEl elPa el s)
    (none, List.replicate nPas 0, List.replicate nPas 0)
  return s.2

/-- Order of `std::pair`. -/
def pairLt (a b : Nat × Nat) : Bool := decide (a.1 < b.1) || (decide (a.1 = b.1) && decide (a.2 < b.2))

/-- `std::set::insert`: the set is its ascending list. -/
def setInsert (x : Nat × Nat) : List (Nat × Nat) → List (Nat × Nat)
  | [] => [x]
  | y :: l => if pairLt x y then x :: y :: l else if x = y then y :: l else y :: setInsert x l

/-- Face loop body of `getPaTgPairs` (tools/edge_v/src/mesh/Communication.cpp:108-121). -/
def paTgFace (nElFas : Nat) (elFaEl : List (Option Nat)) (elPa elTg : List Nat) (pa el fa : Nat)
    (s : List (Nat × Nat)) : Option (List (Nat × Nat)) := do
  match ← rd elFaEl (el * nElFas + fa) with
  | none => return s
  | some ad => do
    let paAd ← rd elPa ad
    let tgAd ← rd elTg ad
    if pa ≠ paAd then return setInsert (paAd, tgAd) s else return s

/-- `Communication::getPaTgPairs` (tools/edge_v/src/mesh/Communication.cpp:82-123). The local copy of the partition is
an `unsigned short` in the code, for which partitions above 65535 abort in the check. -/
def getPaTgPairs (nElFas first size : Nat) (elFaEl : List (Option Nat)) (elPa elTg : List Nat) :
    Option (List (Nat × Nat)) := do
  check (decide (size > 0))
  let pa ← rd elPa first
  let tg ← rd elTg first
  forN size (fun i (s : List (Nat × Nat)) => do
    let p ← rd elPa (first + i)
    check (decide (p = pa))
    let t ← rd elTg (first + i)
    check (decide (t = tg))
    forN nElFas (fun fa (s : List (Nat × Nat)) => paTgFace nElFas elFaEl elPa elTg pa (first + i) fa s) s) []

/-- Search of the face of the neighbour behind which the element is (tools/edge_v/src/mesh/Communication.cpp:171-176):
the last such face. -/
def faceAd (nElFas : Nat) (elFaEl : List (Option Nat)) (el ad : Nat) : Option (Option Nat) :=
  forN nElFas (fun fa (r : Option Nat) => do
    let o ← rd elFaEl (ad * nElFas + fa)
    if o = some el then return some fa else return r) none

/-- Lambda `l_insert` (tools/edge_v/src/mesh/Communication.cpp:155-184): appends to the first message with the given
partition and time group, aborts at the last message if there is none; no effect on an empty list. -/
def insertMsg (nElFas : Nat) (elFaEl : List (Option Nat)) (el fa pa tg : Nat) : List Message → Option (List Message)
  | [] => some []
  | m :: ms =>
    if m.pa = pa ∧ m.tg = tg then do
      let ad ← (← rd elFaEl (el * nElFas + fa))
      let faAd ← (← faceAd nElFas elFaEl el ad)
      return { m with el := m.el ++ [el], fa := m.fa ++ [fa], elAd := m.elAd ++ [ad], faAd := m.faAd ++ [faAd] } :: ms
    else do
      check (decide (ms ≠ []))
      let ms ← insertMsg nElFas elFaEl el fa pa tg ms
      return m :: ms

/-- Face loop body of the assembly of messages (tools/edge_v/src/mesh/Communication.cpp:189-204). -/
def msgFace (nElFas : Nat) (elFaEl : List (Option Nat)) (elPa elTg : List Nat) (paReg el fa : Nat) (s : List Message) :
    Option (List Message) := do
  match ← rd elFaEl (el * nElFas + fa) with
  | none => return s
  | some ad => do
    let paAd ← rd elPa ad
    let tgAd ← rd elTg ad
    if paAd ≠ paReg then insertMsg nElFas elFaEl el fa paAd tgAd s else return s

/-- `Communication::getMsgsSend` (tools/edge_v/src/mesh/Communication.cpp:125-207). -/
def getMsgsSend (nElFas first size : Nat) (elFaEl : List (Option Nat)) (elPa elTg : List Nat) :
    Option (List Message) := do
  let ps ← getPaTgPairs nElFas first size elFaEl elPa elTg
  let paReg ← rd elPa first
  forN size (fun i (s : List Message) =>
    forN nElFas (fun fa (s : List Message) => msgFace nElFas elFaEl elPa elTg paReg (first + i) fa s) s)
    (ps.map (fun p => { pa := p.1, tg := p.2, el := [], fa := [], elAd := [], faAd := [] }))

/-- `o_sizeTg.back()++`; undefined on an empty vector. -/
def incLast : List (Nat × Nat × Nat) → Option (List (Nat × Nat × Nat))
  | [] => none
  | [r] => some [(r.1, r.2.1, r.2.2 + 1)]
  | r :: r' :: l => (incLast (r' :: l)).map (r :: ·)

/-- Lambda `l_getTgs` (tools/edge_v/src/mesh/Communication.cpp:233-258): time group, first element and size of each run
of elements with the same time group. The three vectors are one list of triples; the state holds the last group. -/
def getTgs (first size : Nat) (elTg : List Nat) : Option (List (Nat × Nat × Nat)) := do
  let s ← forN size (fun i (s : Option Nat × List (Nat × Nat × Nat)) => do
    let tg ← rd elTg (first + i)
    if s.1 ≠ some tg then return (some tg, s.2 ++ [(tg, first + i, 1)])
    else do
      let l ← incLast s.2
      return (s.1, l)) (none, [])
  return s.2

/-- Send part of `getStruct` for one partition (tools/edge_v/src/mesh/Communication.cpp:265-291). -/
def sendPart (nElFas first size : Nat) (elFaEl : List (Option Nat)) (elPa elTg : List Nat) :
    Option (List TimeRegion) := do
  let tgs ← getTgs first size elTg
  tgs.mapM (fun r => do
    let ms ← getMsgsSend nElFas r.2.1 r.2.2 elFaEl elPa elTg
    return { tg := r.1, send := ms, recv := [] })

/-- Innermost search of the mirroring (tools/edge_v/src/mesh/Communication.cpp:308-333) in the messages `ss` of the
remote time region, for the message `m` of partition `pa` in time group `tg`: sizes are compared, local and remote
entries are swapped; aborts at the last message if none matches. No effect (`recv` stays unset) on an empty list. -/
def mirrorMsg (pa tg : Nat) (m : Message) : List Message → Option (Option Message)
  | [] => some none
  | s :: ss =>
    if s.tg = tg ∧ s.pa = pa then do
      check (decide (m.el.length = s.el.length))
      check (decide (m.fa.length = s.fa.length))
      return some { pa := m.pa, tg := m.tg, el := s.elAd, fa := s.faAd, elAd := s.el, faAd := s.fa }
    else do
      check (decide (ss ≠ []))
      mirrorMsg pa tg m ss

/-- Search of the remote time region (tools/edge_v/src/mesh/Communication.cpp:306-336): the first one of the group. -/
def mirrorTr (pa tg : Nat) (m : Message) : List TimeRegion → Option (Option Message)
  | [] => some none
  | r :: rs => if r.tg = m.tg then mirrorMsg pa tg m r.send else mirrorTr pa tg m rs

/-- Mirroring of the sends of all partitions (tools/edge_v/src/mesh/Communication.cpp:293-340); it reads send parts only
and writes receive parts only. -/
def recvPart (all : List (List TimeRegion)) (pa : Nat) (trs : List TimeRegion) : Option (List TimeRegion) :=
  trs.mapM (fun r => do
    let recv ← r.send.mapM (fun m => do
      let remote ← rd all m.pa
      mirrorTr pa r.tg m remote)
    return { r with recv := recv })

/-- `Communication::getStruct` (tools/edge_v/src/mesh/Communication.cpp:209-340). -/
def getStruct (nElFas nEls : Nat) (elFaEl : List (Option Nat)) (elPa elTg : List Nat) :
    Option (List (List TimeRegion)) := do
  check (decide (nEls > 0))
  let last ← rd elPa (nEls - 1)
  let nPas := last + 1
  let (first, size) ← getPaElComm nElFas nEls nPas elFaEl elPa
  let sends ← (List.range nPas).mapM (fun pa => do
    let f ← rd first pa
    let n ← rd size pa
    sendPart nElFas f n elFaEl elPa elTg)
  (List.range nPas).mapM (fun pa => do
    let trs ← rd sends pa
    recvPart sends pa trs)

/-- `Communication::setChOff` (tools/edge_v/src/mesh/Communication.cpp:342-352): the entries up to the number of
partitions of the structure. -/
def setChOff (st : List (List TimeRegion)) : Option (List Nat) :=
  forN st.length (fun pa (off : List Nat) => do
    let o ← rd off pa
    let trs ← rd st pa
    let o ← forN trs.length (fun tg (o : Nat) => do
      let r ← rd trs tg
      return o + r.send.length) o
    return off ++ [o]) [0]

/-- The four writes of a channel (tools/edge_v/src/mesh/Communication.cpp:364-368). State: offset, array. -/
def wrChannel (tg : Nat) (s : Nat × List (Option Nat)) (m : Message) : Option (Nat × List (Option Nat)) := do
  let a ← wr s.2 (s.1 + 0) (some tg)
  let a ← wr a (s.1 + 1) (some m.pa)
  let a ← wr a (s.1 + 2) (some m.tg)
  let a ← wr a (s.1 + 3) (some m.el.length)
  return (s.1 + 4, a)

/-- `Communication::setChs` (tools/edge_v/src/mesh/Communication.cpp:354-372) on an array of `cap` entries without
values (:491). -/
def setChs (st : List (List TimeRegion)) (chOff : List Nat) (cap : Nat) : Option (List (Option Nat)) :=
  forN st.length (fun pa (chs : List (Option Nat)) => do
    let trs ← rd st pa
    let o ← rd chOff pa
    let o' ← rd chOff (pa + 1)
    check (decide (o ≤ o'))
    let chs ← wr chs (o * 4 + pa) (some (o' - o))
    let s ← trs.foldlM (fun (s : Nat × List (Option Nat)) r => r.send.foldlM (wrChannel r.tg) s) (o * 4 + pa + 1, chs)
    return s.2) (List.replicate cap none)

/-- Body of `nElsInSe` (tools/edge_v/src/mesh/Communication.cpp:391-406). -/
def inSeBody (nElFas nTgs : Nat) (elFaEl : List (Option Nat)) (elPa elTg : List Nat) (el : Nat)
    (s : List Nat × List Nat) : Option (List Nat × List Nat) := do
  let comm ← isComm nElFas elFaEl elPa el
  let pa ← rd elPa el
  let tg ← rd elTg el
  if comm = false then do
    let n ← rd s.1 (pa * nTgs + tg)
    let a ← wr s.1 (pa * nTgs + tg) (n + 1)
    return (a, s.2)
  else do
    let n ← rd s.2 (pa * nTgs + tg)
    let a ← wr s.2 (pa * nTgs + tg) (n + 1)
    return (s.1, a)

/-- `Communication::nElsInSe` (tools/edge_v/src/mesh/Communication.cpp:374-407): numbers of inner and send elements. -/
def nElsInSe (nElFas nPas nTgs nEls : Nat) (elFaEl : List (Option Nat)) (elPa elTg : List Nat) :
    Option (List Nat × List Nat) :=
  forN nEls (fun el (s : List Nat × List Nat) => inSeBody nElFas nTgs elFaEl elPa elTg el s)
    (List.replicate (nPas * nTgs) 0, List.replicate (nPas * nTgs) 0)

/-- One entry of the four arrays of `setSeReElFa`: send face, send element, receive face, receive element. Subtraction
below zero is undefined here (`none`). -/
def seReEntry (elFirst : Nat) (s r : Message) (en : Nat) : Option (Nat × Nat × Nat × Nat) := do
  let sf ← rd s.fa en
  let se ← rd s.el en
  let rf ← rd r.fa en
  let re ← rd r.el en
  check (decide (elFirst ≤ se))
  check (decide (elFirst ≤ re))
  return (sf, se - elFirst, rf, re - elFirst)

/-- `Communication::setSeReElFa` (tools/edge_v/src/mesh/Communication.cpp:424-448): the entries of each partition. Using
an unset receive message is `none`. -/
def setSeReElFa (nPaEls : List Nat) (st : List (List TimeRegion)) : Option (List (List (Nat × Nat × Nat × Nat))) :=
  (List.range st.length).mapM (fun pa => do
    let trs ← rd st pa
    let es ← trs.mapM (fun r => do
      let ms ← (List.range r.send.length).mapM (fun ms => do
        let s ← rd r.send ms
        let rv ← (← rd r.recv ms)
        (List.range s.fa.length).mapM (fun en => seReEntry ((nPaEls.take pa).sum) s rv en))
      return ms.flatten)
    return es.flatten)

/-- Element partitions from partition sizes (tools/edge_v/src/mesh/Communication.cpp:461-474): the filled part of the
array. Entries beyond the sum of the sizes would have no value, which is `none` here. -/
def elPaOf (nEls : Nat) (nPaEls : List Nat) : Option (List Nat) := do
  let l ← forN nPaEls.length (fun pa (l : List Nat) => do
    let n ← rd nPaEls pa
    check (decide (l.length + n ≤ nEls))
    return l ++ List.replicate n pa) []
  check (decide (l.length = nEls))
  return l

/-- `Communication::setSeReElFaOff` (tools/edge_v/src/mesh/Communication.cpp:409-422). -/
def setSeReElFaOff (st : List (List TimeRegion)) : Option (List Nat) :=
  forN st.length (fun pa (off : List Nat) => do
    let o ← rd off pa
    let trs ← rd st pa
    let o := trs.foldl (fun o r => r.send.foldl (fun o m => o + m.el.length) o) o
    return off ++ [o]) [0]

/-- Members set by the constructor: channel offsets and channels, inner and send elements, offsets of and entries (send
face, send element, receive face, receive element) of the send and receive lists. -/
structure Comm where
  chOff : List Nat
  chs : List (Option Nat)
  nIn : List Nat
  nSe : List Nat
  seReOff : List Nat
  seRe : List (Nat × Nat × Nat × Nat)
  deriving Repr, DecidableEq

/-- Constructor of `Communication` (tools/edge_v/src/mesh/Communication.cpp:450-530). -/
def mkComm (nTgs nElFas nEls : Nat) (elFaEl : List (Option Nat)) (nPaEls elTg : List Nat) : Option Comm := do
  let nPas := nPaEls.length
  check (decide (nPas > 0))
  let elPa ← elPaOf nEls nPaEls
  let st ← getStruct nElFas nEls elFaEl elPa elTg
  let chOff ← setChOff st
  let total ← rd chOff nPas
  let chs ← setChs st chOff (nPas + total * 4)
  let (nIn, nSe) ← nElsInSe nElFas nPas nTgs nEls elFaEl elPa elTg
  let seReOff ← setSeReElFaOff st
  let nSeRe ← rd seReOff nPas
  let seRe ← setSeReElFa nPaEls st
  check (decide (seRe.flatten.length = nSeRe))
  return { chOff := chOff, chs := chs, nIn := nIn, nSe := nSe, seReOff := seReOff, seRe := seRe.flatten }

end Edge.EdgeV
