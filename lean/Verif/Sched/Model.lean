/-!
Model of the task scheduler of one rank during one synchronisation interval
(`edge::time::Manager::simulate`, seismic settings).

Modelled code:
* `/repo/src/time/Manager.cpp` (`simulate` 198-239, `compute` 95-196, `getTimePredAvailable` 59-73,
  `getTimePredConsumed` 75-89),
* `/repo/src/impl/seismic/inc/time/man_sched.inc` (body of `schedule`, 34-206),
* `/repo/src/time/TimeGroupStatic.{h,cpp}` (the counters; time itself is modelled in `Verif.Time.Model`),
* `/repo/src/parallel/Shared.cpp` (`setStatusAll` 170-193, `setStatusTd` 213-246, `getStatusAll` 248-265,
  `getWrkTd` 125-168),
* `/repo/src/parallel/MpiRemix.cpp` (`beginSends` 72-93, `beginRecvs` 95-115, `comm` 117-153,
  `finSends` 155-167, `finRecvs` 169-181) and `/repo/src/parallel/Distributed.cpp` (97-119).

Threads are actors whose steps interleave arbitrarily.  One `sched` action executes one guarded statement of
`man_sched.inc`; the program order inside `schedule()` is kept by the list `todo`.

Simplifications:
* `getStatusAll`/`setStatusAll` loop over the workers; here each call is one atomic action.  (`FIN` is only left through the
  scheduler itself, and a worker only leaves `RDY`, so reading/writing the workers' entries one after the other
  cannot be distinguished from doing it at once.)
* In the default setting thread 0 is scheduler, communicator and worker 0 in turn; here worker 0 is an independent
  actor, which only adds interleavings.
* Sequential consistency (the code uses `volatile` and `omp flush`).
* The entries of the time-group tables are functions of the group index, only indices `< nTgs` are meaningful.
-/
namespace Edge.Sched

/-- `edge::parallel::Shared::t_status`, `src/parallel/Shared.h:50-55`. -/
inductive Status | RDY | IPR | FIN | WAI
  deriving DecidableEq, Repr

/-- `std::numeric_limits<unsigned short>::max()`. -/
abbrev umax : Nat := 65535

/-- Parameters of an interval.
`nTgs` time groups, `nWrk` workers, `nCh` communication channels;
`N g` is the number of steps group `g` performs (`m_nTsReqFull + m_maxDiv`, `TimeGroupStatic.h:246-248`);
`tgL ch`/`tgR ch` are local and remote time group of the channel (same for its send and receive message,
`src/parallel/Distributed.cpp:205-219`);
`order` lists the work regions `(time group, region)` in the order of `m_wrkRgns` (descending priority,
`src/parallel/Shared.h:178-231`). -/
structure Params where
  nTgs : Nat
  nWrk : Nat
  nCh : Nat
  N : Nat → Nat
  tgL : Nat → Nat
  tgR : Nat → Nat
  order : List (Nat × Nat)

/-- Scheduler-visible state of a time group: the eight entries of `m_cflow` (`src/time/Manager.h`, meaning in
`man_sched.inc:22-33`) and the counters of `TimeGroupStatic` since the last synchronisation:
updates `ts`, time predictions of inner/send elements `tpI`/`tpS`, DOF updates `duI`/`duS`, finished send and
receive rounds `nS`/`nR`. -/
structure TgState where
  c0 : Nat
  c1 : Nat
  c2 : Nat
  c3 : Nat
  c4 : Nat
  c5 : Nat
  c6 : Nat
  c7 : Nat
  ts : Nat
  tpI : Nat
  tpS : Nat
  duI : Nat
  duS : Nat
  nS : Nat
  nR : Nat

/-- Local control of a worker in the loop of `compute` (`src/time/Manager.cpp:101-195`): looking for work, having
obtained region `(g,r)` from `getWrkTd`, or executing it between the two `setStatusTd` calls. -/
inductive Wk | idle | got (g r : Nat) | run (g r : Nat)
  deriving DecidableEq, Repr

/-- The statements of `man_sched.inc`, in the order of the text. -/
inductive Instr
  | initCf (g : Nat)    -- 43-55
  | finLocIn (g : Nat)  -- 58-61
  | finLocSe (g : Nat)  -- 63-66
  | finSrcIn (g : Nat)  -- 68-70
  | finSrcSe (g : Nat)  -- 72-74
  | finNeIn (g : Nat)   -- 76-79
  | finNeSe (g : Nat)   -- 81-84
  | finSend (g : Nat)   -- 86-89
  | finRecv (g : Nat)   -- 91-94
  | zeroCnt             -- 98
  | locSe (g : Nat)     -- 105-110
  | locIn (g : Nat)     -- 113-117
  | send (g : Nat)      -- 120-125
  | srcSe (g : Nat)     -- 128-133
  | srcIn (g : Nat)     -- 136-141
  | neSe (g : Nat)      -- 144-153
  | neIn (g : Nat)      -- 156-166
  | recv (g : Nat)      -- 169-180
  | complete (g : Nat)  -- 183-194
  | count (g : Nat)     -- 197-199
  | check               -- 203-206
  deriving DecidableEq, Repr

/-- First loop of `schedule()` for one group, `man_sched.inc:39-95`. -/
def phase1 (g : Nat) : List Instr :=
  [.initCf g, .finLocIn g, .finLocSe g, .finSrcIn g, .finSrcSe g, .finNeIn g, .finNeSe g, .finSend g, .finRecv g]

/-- Second loop of `schedule()` for one group, `man_sched.inc:101-200`. -/
def phase2 (g : Nat) : List Instr :=
  [.locSe g, .locIn g, .send g, .srcSe g, .srcIn g, .neSe g, .neIn g, .recv g, .complete g, .count g]

/-- One call of `schedule()`. -/
def prog (n : Nat) : List Instr :=
  (List.range n).flatMap phase1 ++ .zeroCnt :: ((List.range n).flatMap phase2 ++ [.check])

/-- Global state of a rank.  `exec g r w` (how often worker `w` has finished its package of region `r` of group `g`)
and `sBegun`/`rBegun` (how often a message was started on a channel) are history variables, not in the code. -/
structure State where
  tg : Nat → TgState
  /-- `m_wrkRgns[..].wrkPkgs[w].status`; region ids `8*g + r`, `r < 6`: 0/1 local, 2/3 source, 4/5 neighbouring
  step of inner/send elements (`src/impl/seismic/setup.inc:337-399`). -/
  st : Nat → Nat → Nat → Status
  wk : Nat → Wk
  exec : Nat → Nat → Nat → Nat
  /-- request differs from `MPI_REQUEST_NULL` -/
  sPend : Nat → Bool
  rPend : Nat → Bool
  /-- `m_sendTests`, `m_recvTests` equal 1 -/
  sTest : Nat → Bool
  rTest : Nat → Bool
  sBegun : Nat → Nat
  rBegun : Nat → Nat
  todo : List Instr
  nFin : Nat
  finished : Bool
  /-- an `EDGE_CHECK` of the shared memory layer failed -/
  abort : Bool

/-- Replaces the entry of one group. -/
def State.setTg (s : State) (g : Nat) (t : TgState) : State :=
  { s with tg := fun h => if h = g then t else s.tg h }

/-- `setStatusAll( RDY, 8*g+r )`, `src/parallel/Shared.cpp:170-193`: checks and sets all workers. -/
def State.setRdy (p : Params) (s : State) (g r : Nat) : State :=
  { s with
    abort := s.abort || (List.range p.nWrk).any (fun w => !(s.st g r w == .FIN || s.st g r w == .WAI))
    st := fun h q w => if h = g ∧ q = r ∧ w < p.nWrk then .RDY else s.st h q w }

/-- `getStatusAll( FIN, 8*g+r )`, `src/parallel/Shared.cpp:248-265`. -/
def State.allFin (p : Params) (s : State) (g r : Nat) : Bool :=
  (List.range p.nWrk).all (fun w => s.st g r w == .FIN)

/-- `checkSendTgLt`/`checkRecvTgLt`, `src/parallel/Distributed.cpp:97-119`. -/
def Params.isMatch (p : Params) (ch : Nat) (lt : Bool) (g : Nat) : Bool :=
  p.tgL ch == g && (if p.tgL ch < p.tgR ch then lt else true)

/-- `MpiRemix::beginSends`, `src/parallel/MpiRemix.cpp:72-93`. -/
def State.beginSends (p : Params) (s : State) (lt : Bool) (g : Nat) : State :=
  { s with
    sPend := fun ch => if ch < p.nCh ∧ p.isMatch ch lt g then true else s.sPend ch
    sTest := fun ch => if ch < p.nCh ∧ p.isMatch ch lt g then false else s.sTest ch
    sBegun := fun ch => if ch < p.nCh ∧ p.isMatch ch lt g then s.sBegun ch + 1 else s.sBegun ch }

/-- `MpiRemix::beginRecvs`, `src/parallel/MpiRemix.cpp:95-115`. -/
def State.beginRecvs (p : Params) (s : State) (lt : Bool) (g : Nat) : State :=
  { s with
    rPend := fun ch => if ch < p.nCh ∧ p.isMatch ch lt g then true else s.rPend ch
    rTest := fun ch => if ch < p.nCh ∧ p.isMatch ch lt g then false else s.rTest ch
    rBegun := fun ch => if ch < p.nCh ∧ p.isMatch ch lt g then s.rBegun ch + 1 else s.rBegun ch }

/-- `MpiRemix::finSends`, `src/parallel/MpiRemix.cpp:155-167`. -/
def State.finSends (p : Params) (s : State) (lt : Bool) (g : Nat) : Bool :=
  (List.range p.nCh).all (fun ch => !(p.isMatch ch lt g) || s.sTest ch)

/-- `MpiRemix::finRecvs`, `src/parallel/MpiRemix.cpp:169-181`. -/
def State.finRecvs (p : Params) (s : State) (lt : Bool) (g : Nat) : Bool :=
  (List.range p.nCh).all (fun ch => !(p.isMatch ch lt g) || s.rTest ch)

/-- `getTimePredAvailable`, `src/time/Manager.cpp:59-73`. -/
def State.available (p : Params) (s : State) (g : Nat) : Bool :=
  (g == 0 ||
    ((s.tg (g-1)).tpI == (s.tg g).tpI * 2 && (s.tg (g-1)).tpS == (s.tg g).tpS * 2)) &&
  (g == p.nTgs - 1 ||
    (decide ((s.tg g).tpI ≤ (s.tg (g+1)).tpI * 2) && decide ((s.tg g).tpS ≤ (s.tg (g+1)).tpS * 2)))

/-- `getTimePredConsumed`, `src/time/Manager.cpp:75-89`. -/
def State.consumed (p : Params) (s : State) (g : Nat) : Bool :=
  (g == 0 ||
    ((s.tg (g-1)).duI == (s.tg g).tpI * 2 && (s.tg (g-1)).duS == (s.tg g).tpS * 2)) &&
  (g == p.nTgs - 1 || (s.tg g).ts % 2 == 0 ||
    ((s.tg g).tpI == (s.tg (g+1)).duI * 2 && (s.tg g).tpS == (s.tg (g+1)).duS * 2))

/-- The effect of one statement of `man_sched.inc` (line numbers at `Instr`).  `m_recvs.flushIf()` in `neIn` is modelled in
`Verif.Recv`. -/
def exec1 (p : Params) (s : State) (i : Instr) : State :=
  match i with
  | .initCf g =>
    let t := s.tg g
    if t.c0 = umax then
      (s.beginRecvs p (t.nR % 2 == 0) g).setTg g
        { t with c0 := 0, c1 := 0, c2 := 0, c3 := 0, c4 := 0, c5 := 0, c6 := 2, c7 := 1 }
    else s
  | .finLocIn g =>
    let t := s.tg g
    if t.c0 = 1 ∧ s.allFin p g 0 then s.setTg g { t with c0 := 2, tpI := t.tpI + 1 } else s
  | .finLocSe g =>
    let t := s.tg g
    if t.c1 = 1 ∧ s.allFin p g 1 then s.setTg g { t with c1 := 2, tpS := t.tpS + 1 } else s
  | .finSrcIn g =>
    let t := s.tg g
    if t.c2 = 1 ∧ s.allFin p g 2 then s.setTg g { t with c2 := 2 } else s
  | .finSrcSe g =>
    let t := s.tg g
    if t.c3 = 1 ∧ s.allFin p g 3 then s.setTg g { t with c3 := 2 } else s
  | .finNeIn g =>
    let t := s.tg g
    if t.c4 = 1 ∧ s.allFin p g 4 then s.setTg g { t with c4 := 2, duI := t.duI + 1 } else s
  | .finNeSe g =>
    let t := s.tg g
    if t.c5 = 1 ∧ s.allFin p g 5 then s.setTg g { t with c5 := 2, duS := t.duS + 1 } else s
  | .finSend g =>
    let t := s.tg g
    if t.c6 = 1 ∧ s.finSends p (t.nS % 2 == 1) g then s.setTg g { t with c6 := 2, nS := t.nS + 1 } else s
  | .finRecv g =>
    let t := s.tg g
    if t.c7 = 1 ∧ s.finRecvs p (t.nR % 2 == 0) g then s.setTg g { t with c7 := 2, nR := t.nR + 1 } else s
  | .zeroCnt => { s with nFin := 0 }
  | .locSe g =>
    let t := s.tg g
    if t.c1 = 0 ∧ t.c6 = 2 then (s.setRdy p g 1).setTg g { t with c1 := 1, c6 := 0 } else s
  | .locIn g =>
    let t := s.tg g
    if t.c0 = 0 then (s.setRdy p g 0).setTg g { t with c0 := 1 } else s
  | .send g =>
    let t := s.tg g
    if t.c1 = 2 ∧ t.c6 = 0 then
      (s.beginSends p (t.nS % 2 == 1) g).setTg g { t with c1 := 3, c6 := 1 }
    else s
  | .srcSe g =>
    let t := s.tg g
    if t.c1 = 3 ∧ t.c3 = 0 then (s.setRdy p g 3).setTg g { t with c1 := 4, c3 := 1 } else s
  | .srcIn g =>
    let t := s.tg g
    if t.c0 = 2 ∧ t.c2 = 0 then (s.setRdy p g 2).setTg g { t with c0 := 4, c2 := 1 } else s
  | .neSe g =>
    let t := s.tg g
    if t.c7 = 2 ∧ t.c0 ≥ 4 ∧ t.c1 ≥ 4 ∧ t.c3 = 2 ∧ t.c5 = 0 ∧ s.available p g then
      (s.setRdy p g 5).setTg g { t with c1 := 5, c3 := 3, c5 := 1, c7 := 0 }
    else s
  | .neIn g =>
    let t := s.tg g
    if t.c0 ≥ 4 ∧ t.c1 ≥ 4 ∧ t.c2 = 2 ∧ t.c4 = 0 ∧ s.available p g then
      (s.setRdy p g 4).setTg g { t with c0 := 5, c2 := 3, c4 := 1 }
    else s
  | .recv g =>
    let t := s.tg g
    if t.c5 = 2 ∧ t.c7 = 0 then
      if t.ts = p.N g - 1 then s.setTg g { t with c7 := 3, c5 := 3 }
      else (s.beginRecvs p (t.nR % 2 == 0) g).setTg g { t with c7 := 1, c5 := 3 }
    else s
  | .complete g =>
    let t := s.tg g
    if t.c4 = 2 ∧ t.c5 = 3 ∧ s.consumed p g then
      if t.ts + 1 = p.N g then s.setTg g { t with ts := t.ts + 1, c4 := 4, c5 := 4 }
      else s.setTg g { t with ts := t.ts + 1, c0 := 0, c1 := 0, c2 := 0, c3 := 0, c4 := 0, c5 := 0 }
    else s
  | .count g =>
    let t := s.tg g
    if t.ts = p.N g ∧ t.c6 ≥ 2 ∧ t.c7 ≥ 2 then { s with nFin := s.nFin + 1 } else s
  | .check => if s.nFin = p.nTgs then { s with finished := true } else s

/-- Actions of the threads. -/
inductive Action
  | sched
  | wrk (w : Nat)
  /-- `MPI_Test` on the send request of a channel; the flag is the network's answer for an active request. -/
  | testSend (ch : Nat) (done : Bool)
  | testRecv (ch : Nat) (done : Bool)
  deriving DecidableEq, Repr

/-- One statement of the scheduling thread; after the last one `schedule()` is called again by the loop in
`simulate` (`src/time/Manager.cpp:227-231`) unless the manager is finished. -/
def stepSched (p : Params) (s : State) : State :=
  match s.todo with
  | [] => if s.finished then s else { s with todo := prog p.nTgs }
  | i :: is => { exec1 p s i with todo := is }

/-- First ready region of a worker in priority order: `getWrkTd`, `src/parallel/Shared.cpp:125-168`. -/
def getWrkTd (p : Params) (s : State) (w : Nat) : Option (Nat × Nat) :=
  p.order.find? (fun gr => s.st gr.1 gr.2 w == .RDY)

/-- One step of worker `w` in `compute`, `src/time/Manager.cpp:101-195`; the checks of
`setStatusTd` (`src/parallel/Shared.cpp:229-241`) raise `abort`. -/
def stepWrk (p : Params) (s : State) (w : Nat) : State :=
  match s.wk w with
  | .idle =>
    if s.finished then s else
    match getWrkTd p s w with
    | none => s
    | some (g, r) => { s with wk := fun v => if v = w then .got g r else s.wk v }
  | .got g r =>
    { s with
      abort := s.abort || !(s.st g r w == .RDY)
      st := fun h q v => if h = g ∧ q = r ∧ v = w then .IPR else s.st h q v
      wk := fun v => if v = w then .run g r else s.wk v }
  | .run g r =>
    { s with
      abort := s.abort || !(s.st g r w == .IPR)
      st := fun h q v => if h = g ∧ q = r ∧ v = w then .FIN else s.st h q v
      exec := fun h q v => if h = g ∧ q = r ∧ v = w then s.exec h q v + 1 else s.exec h q v
      wk := fun v => if v = w then .idle else s.wk v }

/-- `MPI_Test` on a channel's send request in `MpiRemix::comm`, `src/parallel/MpiRemix.cpp:124-135`.  A null request
tests as completed. -/
def stepTestSend (p : Params) (s : State) (ch : Nat) (done : Bool) : State :=
  if ch < p.nCh ∧ (s.sPend ch = false ∨ done = true) then
    { s with
      sPend := fun c => if c = ch then false else s.sPend c
      sTest := fun c => if c = ch then true else s.sTest c }
  else s

/-- `MPI_Test` on a channel's receive request in `MpiRemix::comm`, `src/parallel/MpiRemix.cpp:137-148`. -/
def stepTestRecv (p : Params) (s : State) (ch : Nat) (done : Bool) : State :=
  if ch < p.nCh ∧ (s.rPend ch = false ∨ done = true) then
    { s with
      rPend := fun c => if c = ch then false else s.rPend c
      rTest := fun c => if c = ch then true else s.rTest c }
  else s

/-- One action.  Workers `≥ nWrk` do not exist. -/
def step (p : Params) (s : State) : Action → State
  | .sched => stepSched p s
  | .wrk w => if w < p.nWrk then stepWrk p s w else s
  | .testSend ch b => stepTestSend p s ch b
  | .testRecv ch b => stepTestRecv p s ch b

/-- A group after `setUp` and the reset of the control flow in `simulate`
(`src/time/TimeGroupStatic.cpp:75-79`, `src/time/Manager.cpp:213-218`). -/
def TgState.reset : TgState :=
  { c0 := umax, c1 := umax, c2 := umax, c3 := umax, c4 := umax, c5 := umax, c6 := umax, c7 := umax
    ts := 0, tpI := 0, tpS := 0, duI := 0, duS := 0, nS := 0, nR := 0 }

/-- States in which the parallel region of `simulate` starts (`src/time/Manager.cpp:201-221`).  The test flags of the requests
are left over from the previous interval and arbitrary; no request is active. -/
structure Init (s : State) : Prop where
  tg : ∀ g, s.tg g = TgState.reset
  st : ∀ g r w, s.st g r w = .WAI
  wk : ∀ w, s.wk w = .idle
  exec : ∀ g r w, s.exec g r w = 0
  sPend : ∀ ch, s.sPend ch = false
  rPend : ∀ ch, s.rPend ch = false
  sBegun : ∀ ch, s.sBegun ch = 0
  rBegun : ∀ ch, s.rBegun ch = 0
  todo : s.todo = []
  nFin : s.nFin = 0
  finished : s.finished = false
  abort : s.abort = false

/-- States reachable by any interleaving. -/
inductive Reachable (p : Params) : State → Prop
  | init {s} : Init s → Reachable p s
  | step {s} (a : Action) : Reachable p s → Reachable p (step p s a)

/-- Admissible parameters: at least one group, every group performs at least one step, rate-2 relation between the numbers of
steps (`Edge.Time.C03_twice_as_many`), and the priority list contains exactly the registered regions
(`src/impl/seismic/setup.inc:337-399`). -/
structure Params.WF (p : Params) : Prop where
  pos : 0 < p.nTgs
  one : ∀ g, g < p.nTgs → 0 < p.N g
  two : ∀ g, g + 1 < p.nTgs → p.N g = 2 * p.N (g + 1)
  order : ∀ g r, (g, r) ∈ p.order ↔ g < p.nTgs ∧ r < 6

end Edge.Sched
