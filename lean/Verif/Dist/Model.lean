import Verif.Util.Loop
/-!
Model of the distributed memory layer: `Distributed` (src/parallel/Distributed.cpp), `MpiRemix`
(src/parallel/MpiRemix.cpp) and `Gaspi` (src/parallel/Gaspi.cpp).

Simplifications: integers are unbounded (the C++ code uses `unsigned short`, `int` and `std::size_t`); pointers into the
send and receive buffers are offsets from the start of the respective allocation; arrays are lists, an access outside
of an array makes the function return `none`, as does a failing EDGE_CHECK.
-/
namespace Edge.Dist
open Edge

/-- `Distributed::t_msg` (src/parallel/Distributed.h:85-103). -/
structure Msg where
  tgL : Nat
  tgR : Nat
  rank : Nat
  tag : Nat
  size : Nat
  offL : Nat
deriving Repr, DecidableEq, Inhabited

/-- The state set up by `Distributed::init`. `sendPtrs` and `recvPtrs` are the flat arrays `l_sendPtrs`, `l_recvPtrs`:
the entry of pointer set `po`, element `el` and face `fa` is at `po*nEls*nElFas + el*nElFas + fa`; `none` is the null
pointer. -/
structure D where
  nTgs : Nat
  nChs : Nat
  nBuf : Nat
  nSeRe : List Nat
  sendSize : Nat
  recvSize : Nat
  sendMsgs : List Msg
  recvMsgs : List Msg
  sendPtrs : List (Option Nat)
  recvPtrs : List (Option Nat)
deriving Repr, DecidableEq

/-- State of the loop over the channels in `Distributed::init`. -/
structure L where
  sendMsgs : List Msg
  recvMsgs : List Msg
  sendPtrs : List (Option Nat)
  recvPtrs : List (Option Nat)
  offSend : Nat
  offRecv : Nat
  first : Nat
deriving Repr

/-- Loop over the pointer sets of the send side (src/parallel/Distributed.cpp:229-230). -/
def setSend (nPtrs stride idx bufSize off : Nat) (ptrs : List (Option Nat)) : Option (List (Option Nat)) :=
  forN nPtrs (fun po ptrs => wr ptrs (po * stride + idx) (some (po % 2 * bufSize + off))) ptrs

/-- Loop over the pointer sets of the receive side (src/parallel/Distributed.cpp:232-239). -/
def setRecv (nPtrs stride idx bufSize off tg tgAd : Nat) (ptrs : List (Option Nat)) : Option (List (Option Nat)) :=
  forN nPtrs (fun po ptrs =>
    if tg ≥ tgAd then wr ptrs (po * stride + idx) (some (po % 2 * bufSize + off))
    else wr ptrs (po * stride + idx) (some (po / 2 % 2 * bufSize + off))) ptrs

/-- Number of channels (src/parallel/Distributed.cpp:139-142). -/
def nChsOf : List Nat → Nat
  | [] => 0
  | n :: _ => n

/-- `Distributed::init` (src/parallel/Distributed.cpp:121-248). The empty list stands for `i_commStruct == nullptr`.
The counters set by `reset` are part of `Cnt`. -/
def init (nTgs nElFas nEls nByFa : Nat) (cs sendFa sendEl recvFa recvEl : List Nat) (nBuf : Nat) : Option D := do
  check (nBuf == 1 || nBuf == 2)
  let nChs := nChsOf cs
  -- :147-155
  let s ← forN nChs (fun ch (s : Nat × Nat × List Nat) => do
    let tg ← rd cs (1 + ch * 4 + 0)
    let tgAd ← rd cs (1 + ch * 4 + 2)
    let n ← rd cs (1 + ch * 4 + 3)
    return (s.1 + (if tg > tgAd then 2 * n * nByFa else n * nByFa),
            s.2.1 + (if tg < tgAd then 2 * n * nByFa else n * nByFa), s.2.2 ++ [n])) (0, 0, [])
  let sendSize := s.1
  let recvSize := s.2.1
  let nPtrsSend := nBuf
  let nPtrsRecv := if nBuf = 2 then 4 else 1
  let stride := nEls * nElFas
  -- :182-189, null pointers
  let l : L := { sendMsgs := [], recvMsgs := [], sendPtrs := List.replicate (stride * nPtrsSend) none,
                 recvPtrs := List.replicate (stride * nPtrsRecv) none, offSend := 0, offRecv := 0, first := 0 }
  -- :198-245
  let l ← forN nChs (fun ch l => do
    let tg ← rd cs (1 + ch * 4 + 0)
    let raAd ← rd cs (1 + ch * 4 + 1)
    let tgAd ← rd cs (1 + ch * 4 + 2)
    let n ← rd cs (1 + ch * 4 + 3)
    let sm : Msg := { tgL := tg, tgR := tgAd, rank := raAd, tag := tg * nTgs + tgAd,
                      size := if tg > tgAd then n * nByFa * 2 else n * nByFa, offL := l.offSend }
    let rm : Msg := { tgL := tg, tgR := tgAd, rank := raAd, tag := tgAd * nTgs + tg,
                      size := if tg < tgAd then n * nByFa * 2 else n * nByFa, offL := l.offRecv }
    let l := { l with sendMsgs := l.sendMsgs ++ [sm], recvMsgs := l.recvMsgs ++ [rm] }
    let l ← forN n (fun co l => do
      let seFa ← rd sendFa (l.first + co)
      let seEl ← rd sendEl (l.first + co)
      let reFa ← rd recvFa (l.first + co)
      let reEl ← rd recvEl (l.first + co)
      let sp ← setSend nPtrsSend stride (seEl * nElFas + seFa) sendSize l.offSend l.sendPtrs
      let rp ← setRecv nPtrsRecv stride (reEl * nElFas + reFa) recvSize l.offRecv tg tgAd l.recvPtrs
      return { l with sendPtrs := sp, recvPtrs := rp,
                      offSend := l.offSend + (if tg > tgAd then nByFa * 2 else nByFa),
                      offRecv := l.offRecv + (if tg < tgAd then nByFa * 2 else nByFa) }) l
    return { l with first := l.first + n }) l
  return { nTgs := nTgs, nChs := nChs, nBuf := nBuf, nSeRe := s.2.2, sendSize := sendSize, recvSize := recvSize,
           sendMsgs := l.sendMsgs, recvMsgs := l.recvMsgs, sendPtrs := l.sendPtrs, recvPtrs := l.recvPtrs }

/-- `Distributed::checkSendTgLt` and `checkRecvTgLt` (src/parallel/Distributed.cpp:97-119) for a message of the
respective table. -/
def checkTgLt (m : Msg) (lt : Bool) (tg : Nat) : Bool :=
  let isMatch := m.tgL == tg
  if m.tgL < m.tgR then isMatch && lt else isMatch

/-! ### Distributed::min -/

/-- `MPI_Allreduce` with `MPI_MIN` over the contributions of the ranks. -/
def allMin {α : Type _} (lt : α → α → Bool) : List α → Option α
  | [] => none
  | a :: as => some (as.foldl (fun m x => if lt x m then x else m) a)

/-- `numeric_limits< int >::max()`. -/
def intMax : Nat := 2 ^ 31 - 1

/-- `Distributed::min` (src/parallel/Distributed.cpp:257-291) for one value: `vals[r]` is the value of rank `r`, the
result at position `r` is `o_min` on rank `r`. -/
def minOne {α : Type _} [DecidableEq α] (lt : α → α → Bool) (vals : List α) : Option (List Nat) := do
  let g ← allMin lt vals
  let bids := vals.mapIdx (fun r v => if v = g then r else intMax)
  let win ← allMin (fun a b => decide (a < b)) bids
  return vals.mapIdx (fun r _ => if win ≠ r then 0 else 1)

/-- `Distributed::min` for `i_nVals` values: `vals[r]` are the values of rank `r`; the result at position `va` lists
`o_min[va]` of all ranks. The values of all ranks for one index are collected by the reductions. -/
def minAll {α : Type _} [DecidableEq α] (lt : α → α → Bool) (nVals : Nat) (vals : List (List α)) :
    Option (List (List Nat)) :=
  forN nVals (fun va res => do
    let col ← vals.mapM (fun v => rd v va)
    let o ← minOne lt col
    return res ++ [o]) []

/-! ### MpiRemix -/

/-- One direction (sends or receives) of `MpiRemix`: the messages, the requests (`none` is MPI_REQUEST_NULL, otherwise
the number of the request), the test flags; `next` is the number of the next request. -/
structure Side where
  msgs : List Msg
  reqs : List (Option Nat)
  tests : List Nat
  next : Nat
deriving Repr, DecidableEq

/-- The initialisation in `MpiRemix::init` (src/parallel/MpiRemix.cpp:63-69). -/
def Side.init (msgs : List Msg) : Side :=
  { msgs := msgs, reqs := msgs.map (fun _ => none), tests := msgs.map (fun _ => 0), next := 0 }

/-- `MpiRemix::beginSends`, `beginRecvs` (src/parallel/MpiRemix.cpp:72-115). -/
def Side.begin_ (lt : Bool) (tg : Nat) (s : Side) : Option Side :=
  forN s.msgs.length (fun ch s => do
    let m ← rd s.msgs ch
    if checkTgLt m lt tg then do
      let reqs ← wr s.reqs ch (some s.next)
      let tests ← wr s.tests ch 0
      return { s with reqs := reqs, tests := tests, next := s.next + 1 }
    else return s) s

/-- `MPI_Test` and the update of the flag for channel `ch` (src/parallel/MpiRemix.cpp:123-134): `done r` tells whether
request `r` is complete; a test of the null request succeeds. Returns whether the test succeeded. -/
def Side.test (done : Nat → Bool) (ch : Nat) (s : Side) : Option (Bool × Side) := do
  let r ← rd s.reqs ch
  let flag := match r with
    | none => true
    | some r => done r
  if flag then do
    let reqs ← wr s.reqs ch none
    let tests ← wr s.tests ch 1
    return (true, { s with reqs := reqs, tests := tests })
  else return (false, s)

/-- One iteration of the loop in `MpiRemix::comm` (src/parallel/MpiRemix.cpp:119-148): tests send and receive of every
channel; counts the finished ones. -/
def commIter (doneS doneR : Nat → Bool) (nChs : Nat) (s : Side × Side) : Option (Nat × Nat × Side × Side) :=
  forN nChs (fun ch s => do
    let a ← Side.test doneS ch s.2.2.1
    let b ← Side.test doneR ch s.2.2.2
    return (s.1 + (if a.1 then 1 else 0), s.2.1 + (if b.1 then 1 else 0), a.2, b.2)) (0, 0, s.1, s.2)

/-- `MpiRemix::comm` (src/parallel/MpiRemix.cpp:117-153): at most `nIter` iterations, left early if everything is
finished; iteration `it` observes the completions `done it`. -/
def comm (done : Nat → (Nat → Bool) × (Nat → Bool)) (nChs : Nat) : Nat → Nat → Side × Side → Option (Side × Side)
  | 0, _, s => some s
  | nIter + 1, it, s => do
    let r ← commIter (done it).1 (done it).2 nChs s
    if r.1 = nChs ∧ r.2.1 = nChs then return r.2.2 else comm done nChs nIter (it + 1) r.2.2

/-- `MpiRemix::finSends`, `finRecvs` (src/parallel/MpiRemix.cpp:155-181). -/
def Side.fin (lt : Bool) (tg : Nat) (s : Side) : Bool :=
  (s.msgs.zip s.tests).all (fun x => !(checkTgLt x.1 lt tg && x.2 != 1))

/-! ### Gaspi and the double buffers -/

/-- `numeric_limits< std::size_t >::max()`. -/
def sizeMax : Nat := 2 ^ 64 - 1

/-- Update of the counters in `Gaspi::beginSends`, `beginRecvs` (src/parallel/Gaspi.cpp:168-173, :218-223). -/
def incSync (c : Nat) : Nat := if c ≠ sizeMax then c + 1 else 0

/-- `Distributed::sendCommBuffers2` (src/parallel/Distributed.cpp:30-38): local buffer, remote buffer for less-than
relations (`none`: the marker value), remote buffer for greater-equal relations. -/
def sendCommBuffers2 (nSends : Nat) : Nat × Option Nat × Nat :=
  (nSends % 2, if nSends % 2 = 1 then some (nSends / 2 % 2) else none, nSends % 2)

/-- `Distributed::recvCommBuffers2` (src/parallel/Distributed.cpp:40-45): less-than and greater-equal. -/
def recvCommBuffers2 (nRecvs : Nat) : Nat × Nat := (nRecvs / 2 % 2, nRecvs % 2)

/-- Buffer written by the `nSends`-th send of a channel (src/parallel/Gaspi.cpp:175-199) on the remote side. -/
def gaspiRemoteBuf (m : Msg) (nSends : Nat) : Option Nat :=
  let b := sendCommBuffers2 nSends
  if m.tgL < m.tgR then b.2.1 else some b.2.2

/-- Buffer in which `Gaspi::finRecvs` looks for the notification (src/parallel/Gaspi.cpp:249-264). -/
def gaspiLocalBuf (m : Msg) (nRecvs : Nat) : Nat :=
  let b := recvCommBuffers2 nRecvs
  if m.tgL < m.tgR then b.1 else b.2

/-- `Gaspi::finSends` (src/parallel/Gaspi.cpp:235-241): compares the *addresses* of the counter arrays; the values the
arrays hold are passed in but not read. -/
def gaspiFinSends (addrSends addrRecvs : Nat) (_nSends _nRecvs : List Nat) (_lt : Bool) (_tg : Nat) : Bool :=
  decide (addrSends ≤ addrRecvs + 8)

/-- Index of the send pointers used in the local step (src/impl/seismic/steps.inc:26). -/
def sendPtrIdx (nBuf updates : Nat) : Nat := updates % nBuf

/-- Index of the receive pointers used in the neighbouring step (src/impl/seismic/steps.inc:57). -/
def recvPtrIdx (nBuf updates : Nat) : Nat := updates / nBuf % nBuf

/-- Buffer the receive pointers of set `po` point into (src/parallel/Distributed.cpp:232-239). -/
def recvPtrBuf (m : Msg) (po : Nat) : Nat := if m.tgL ≥ m.tgR then po % 2 else po / 2 % 2

end Edge.Dist
