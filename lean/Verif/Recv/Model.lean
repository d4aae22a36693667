import Verif.Util.Loop
import Mathlib.Algebra.Order.Field.Basic
/-!
Model of the receiver output: `src/io/Receivers.cpp`, `src/io/Receivers.h`, `src/io/inc/setup_recv.inc` and the loop of
`src/impl/seismic/solvers/AderDg.hpp:353, 475-494` over the receivers of an element.

Simplifications: floating point numbers are elements of an ordered field `K` (times, values and basis evaluations alike); a file is the
list of the rows written to it (time stamp and values), the header and the formatting of numbers (`Receivers.cpp:182-222, 303-307`) are not
modelled, opening a file always succeeds; names, paths and coordinates of receivers are left out.
-/
namespace Edge.Recv
open Edge

/-- Compile time and class-wide constants: `N_QUANTITIES`, `N_CRUNS`, `N_ELEMENT_MODES`, `m_buffSize`, `m_freq`
(`src/io/Receivers.h:65-73`, `Receivers.cpp:46-49`) and `TOL.TIME` (`src/constants.hpp:295`); `uint` is the number of values of `unsigned int` (`2^32`). -/
structure Cfg (K : Type) where
  nQts : Nat
  nCrs : Nat
  nMds : Nat
  buffSize : Nat
  freq : K
  tol : K
  uint : Nat

/-- A receiver, `src/io/Receivers.h:39-60`; `file` is what has been written to `path` after the header. -/
structure Rcv (K : Type) where
  id : Nat
  nBuff : Nat
  buffer : List K
  buffTime : List K
  time : K
  tg : Nat
  en : Nat
  enTg : Nat
  basis : List K
  file : List (K × List K)

/-- `m_recvs` and `m_spEnToRecv`, `src/io/Receivers.h:61-66`. -/
structure St (K : Type) where
  recvs : List (Rcv K)
  sp : List Nat

section
variable {K : Type} [Field K]

/-- Values of one quantity, `Receivers.cpp:266-279`; the index of the DOFs is that of `[N_QUANTITIES][N_ELEMENT_MODES][N_CRUNS]`. -/
def writeQt (c : Cfg K) (basis dofs : List K) (nBuff qt : Nat) (b : List K) : Option (List K) := do
  let b ← forN c.nCrs (fun cr b => wr b (nBuff * c.nQts * c.nCrs + qt * c.nCrs + cr) 0) b
  forN c.nMds (fun md b => forN c.nCrs (fun cr b => do
    let o ← rd b (nBuff * c.nQts * c.nCrs + qt * c.nCrs + cr)
    let e ← rd basis md
    let d ← rd dofs ((qt * c.nMds + md) * c.nCrs + cr)
    wr b (nBuff * c.nQts * c.nCrs + qt * c.nCrs + cr) (o + e * d)) b) b

/-- Write of a single receiver, `Receivers.cpp:261-286`. -/
def writeRecv (c : Cfg K) (dofs : List K) (r : Rcv K) : Option (Rcv K) := do
  check (decide (r.nBuff < c.buffSize))
  let b ← forN c.nQts (writeQt c r.basis dofs r.nBuff) r.buffer
  let t ← wr r.buffTime r.nBuff r.time
  some { r with buffer := b, buffTime := t, time := r.time + c.freq, nBuff := r.nBuff + 1 }

/-- Loop of `writeRecvAll` over the receivers beginning at the first one of the entity, `Receivers.cpp:259-290`. -/
def writeFrom (c : Cfg K) (en : Nat) (dofs : List K) : List (Rcv K) → Option (List (Rcv K))
  | [] => some []
  | r :: rs =>
    if r.en = en then do
      let r' ← writeRecv c dofs r
      let rs' ← writeFrom c en dofs rs
      some (r' :: rs')
    else some (r :: rs)

/-- `Receivers::writeRecvAll`, `Receivers.cpp:250-290`. -/
def writeRecvAll (c : Cfg K) (s : St K) (spEn : Nat) (dofs : List K) : Option (St K) := do
  let first ← rd s.sp spEn
  let r ← rd s.recvs first
  let l ← writeFrom c r.en dofs (s.recvs.drop first)
  some { s with recvs := s.recvs.take first ++ l }

/-- A line of the output, `Receivers.cpp:301-308`. -/
def row (c : Cfg K) (r : Rcv K) (bu : Nat) : Option (K × List K) := do
  let t ← rd r.buffTime bu
  let v ← (List.range (c.nQts * c.nCrs)).mapM (fun va => rd r.buffer (bu * c.nQts * c.nCrs + va))
  some (t, v)

/-- First half of `flush`: the buffered values are appended to the file, `Receivers.cpp:293-315`. -/
def flushRows (c : Cfg K) (r : Rcv K) : Option (Rcv K) := do
  let l ← (List.range r.nBuff).mapM (row c r)
  some { r with file := r.file ++ l }

/-- Second half of `flush`, `Receivers.cpp:317`. -/
def flushReset (r : Rcv K) : Rcv K := { r with nBuff := 0 }

/-- `Receivers::flush`, `Receivers.cpp:292-318`. -/
def flushOne (c : Cfg K) (r : Rcv K) : Option (Rcv K) := (flushRows c r).map flushReset

/-- `flush( i_re )` on the array of receivers. -/
def flush (c : Cfg K) (s : St K) (i : Nat) : Option (St K) := do
  let r ← rd s.recvs i
  let r' ← flushOne c r
  let l ← wr s.recvs i r'
  some { s with recvs := l }

/-- `Receivers::flushAll`, `Receivers.cpp:320-323`; called by the destructor, `Receivers.h:104`. -/
def flushAll (c : Cfg K) (s : St K) : Option (St K) := forN s.recvs.length (fun i s => flush c s i) s

/-- Body of the loop of `flushIf`, `Receivers.cpp:327`; the difference is one of `unsigned int`. -/
def flushIfOne (c : Cfg K) (th : Nat) (s : St K) (i : Nat) : Option (St K) := do
  let r ← rd s.recvs i
  if (c.buffSize + c.uint - r.nBuff) % c.uint < th then flush c s i else some s

/-- `Receivers::flushIf`, `Receivers.cpp:325-329`. -/
def flushIf (c : Cfg K) (th : Nat) (s : St K) : Option (St K) := forN s.recvs.length (fun i s => flushIfOne c th s i) s

/-! ### Initialisation -/

/-- A new receiver, `Receivers.cpp:109-124, 136-142`: `basis` are the values of the basis functions at its location. -/
def newRcv (c : Cfg K) (t0 : K) (tg en enTg id : Nat) (basis : List K) : Rcv K where
  id := id
  nBuff := 0
  buffer := List.replicate (c.nQts * c.nCrs * c.buffSize) 0
  buffTime := List.replicate c.buffSize 0
  time := t0
  tg := tg
  en := en
  enTg := enTg
  basis := basis
  file := []

/-- Update of `m_spEnToRecv`, `Receivers.cpp:102-106`. -/
def addSp (s : St K) (en : Nat) : List Nat :=
  match s.recvs.getLast? with
  | some r => if r.en < en then s.sp ++ [s.recvs.length] else s.sp
  | none => s.sp ++ [0]

/-- Body of `l_addEn` for a receiver in the element, `Receivers.cpp:81-143`.  The projection to the element, the mapping to reference
coordinates, the check of them and the evaluation of the basis are `eval` (`none`: the check fails). -/
def addRcv (c : Cfg K) (t0 : K) (eval : Nat → Nat → Option (List K)) (tg en enTg re : Nat) (s : St K) : Option (St K) := do
  let b ← eval en re
  some { recvs := s.recvs ++ [newRcv c t0 tg en enTg re b], sp := addSp s en }

/-- `l_addEn`, `Receivers.cpp:66-145`; `deIds[re]` is the element `ptToEn` returns for the receiver, `none` if it is not owned. -/
def addEn (c : Cfg K) (t0 : K) (eval : Nat → Nat → Option (List K)) (deIds : List (Option Nat)) (tg en enTg : Nat) (s : St K) :
    Option (St K) :=
  forN deIds.length (fun re s => do
    let d ← rd deIds re
    if d = some en then addRcv c t0 eval tg en enTg re s else some s) s

/-- One of the loops over time groups, `Receivers.cpp:148-156` and `158-165`; the state carries `l_off`. -/
def addTgs (c : Cfg K) (t0 : K) (eval : Nat → Nat → Option (List K)) (deIds : List (Option Nat)) (n : List Nat) (s : St K × Nat) :
    Option (St K × Nat) :=
  forN n.length (fun tg s => do
    let m ← rd n tg
    let s' ← forN m (fun en s' => addEn c t0 eval deIds tg (en + s.2) en s') s.1
    some (s', s.2 + m)) s

/-- `Receivers::init`, `Receivers.cpp:33-180`, without the creation of files. -/
def init (c : Cfg K) (t0 : K) (eval : Nat → Nat → Option (List K)) (deIds : List (Option Nat)) (nIn nSe : List Nat) : Option (St K) := do
  let s ← addTgs c t0 eval deIds nIn ({ recvs := [], sp := [] }, 0)
  let s ← addTgs c t0 eval deIds nSe s
  some s.1

/-- `Receivers::getEnRecv`, `Receivers.cpp:224-233`. -/
def getEnRecv (s : St K) : Option (List Nat) := s.sp.mapM (fun i => (rd s.recvs i).map Rcv.en)

/-! ### Use by the solver -/

variable [LinearOrder K]

/-- `Receivers::getRecvTimeRel`, `Receivers.cpp:235-248`; the inner `none` is the negative value returned if no output is expected. -/
def getRecvTimeRel (c : Cfg K) (s : St K) (spEn : Nat) (time dt : K) : Option (Option K) := do
  let re ← rd s.sp spEn
  let r ← rd s.recvs re
  if r.time > time - c.tol ∧ r.time < time + dt - c.tol then do
    check (decide (r.time - time > -c.tol))
    some (some |r.time - time|)
  else some none

/-- `while( true )` loop over the output of an element in a time step, `AderDg.hpp:478-492`.  `pred` is the evaluation of the time
prediction.  The first argument bounds the number of iterations of the model; `stepEl` chooses it such that it is never reached. -/
def stepLoop (c : Cfg K) (pred : K → List K) (spEn : Nat) (time dt : K) : Nat → St K → Option (St K)
  | 0, _ => none
  | n + 1, s => do
    match ← getRecvTimeRel c s spEn time dt with
    | none => some s
    | some t => do
      let s' ← writeRecvAll c s spEn (pred t)
      stepLoop c pred spEn time dt n s'

/-- Output of an element in a time step: every iteration adds a row to buffers of `buffSize` rows, an attempt to add more fails. -/
def stepEl (c : Cfg K) (pred : K → List K) (spEn : Nat) (time dt : K) (s : St K) : Option (St K) :=
  stepLoop c pred spEn time dt (c.buffSize + 1) s

/-- Output of the elements `first, …, first+n-1`, `AderDg.hpp:353, 356, 475-494`; `flag` are the `RECEIVER` bits of the sparse types
(`src/io/inc/setup_recv.inc:44-51`), `firstSp` is the number of the first sparse entity. -/
def localRecvs (c : Cfg K) (pred : Nat → K → List K) (flag : Nat → Bool) (time dt : K) (first n firstSp : Nat) (s : St K) :
    Option (St K × Nat) :=
  forN n (fun i s =>
    if flag (first + i) then do
      let s' ← stepEl c (pred (first + i)) s.2 time dt s.1
      some (s', s.2 + 1)
    else some s) (s, firstSp)

end
end Edge.Recv
