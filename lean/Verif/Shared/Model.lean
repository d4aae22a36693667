import Verif.Sparse.Model
/-!
Model of the shared-memory layer: work regions, worker ids, NUMA initialisation (/repo/src/parallel/Shared.{h,cpp}) and
the dynamic load balancing (/repo/src/parallel/LoadBalancing.{h,cpp}).

Simplifications. Measured times are rationals and arbitrary (any list). `double` arithmetic in the distribution by
throughput is modelled exactly up to the final product; its conversion to an integer, including every rounding error
made before, is an arbitrary function `trunc` of the worker and the exact value. Sums of sizes do not wrap (they are at
most nWrks times the largest converted value). OpenMP flushes and barriers are omitted: the functions here are executed
by one thread; their interleaving is the subject of Verif/Sched.
-/
namespace Edge.Shared
open Edge.Sparse

/-- Numerical environment of the load balancing: `m_zeroTime`, `m_maxImbalance`
(src/parallel/LoadBalancing.h:40-43, constructor defaults :128-132), the largest `double`, and the conversion
`double → std::size_t` with rounding (src/parallel/LoadBalancing.cpp:118). -/
structure Arith where
  zeroTime : Rat
  maxImb : Rat
  big : Rat
  trunc : Nat → Rat → Nat

/-- `WrkPkgLb` without the timer (src/parallel/LoadBalancing.h:52-64). -/
structure Pkg where
  first : Nat
  size : Nat
  firstSp : List Nat
deriving Repr, DecidableEq

/-- `WrkRgnLb` without the statistics of the last balancing (src/parallel/LoadBalancing.h:67-91). -/
structure Rgn where
  first : Nat
  size : Nat
  pkgs : List Pkg
  firstSp : List Nat
  spDe : List (List Nat)
deriving Repr, DecidableEq

/-- `while( l_sp < spDe.size() ) { if( spDe[l_sp] < end ) l_sp++; else break; }`
(src/parallel/LoadBalancing.cpp:45-50). -/
def adv (spDe : List Nat) (e sp : Nat) : Nat := go (spDe.drop sp) sp
where
  /-- The loop over the remaining sparse entities. -/
  go : List Nat → Nat → Nat
    | [], sp => sp
    | d :: ds, sp => if d < e then go ds (sp + 1) else sp

/-- `LoadBalancing::resolveSpEn` (src/parallel/LoadBalancing.cpp:31-57). -/
def resolveSpEn (r : Rgn) : Option Rgn :=
  forN r.firstSp.length (fun ty r => do
    let spDe ← rd r.spDe ty
    let f ← rd r.firstSp ty
    let s ← forN r.pkgs.length (fun wp (s : Nat × List Pkg) => do
      let p ← rd s.2 wp
      let fs ← wr p.firstSp ty (f + s.1)
      let pkgs ← wr s.2 wp { p with firstSp := fs }
      return (adv spDe (p.first + p.size) s.1, pkgs)) (0, r.pkgs)
    check (s.1 == spDe.length)
    return { r with pkgs := s.2 }) r

/-- One pass of the removal loop (src/parallel/LoadBalancing.cpp:124-130): sizes and `l_dist`. -/
def shrinkPass (tgt : Nat) : List Nat → Nat → List Nat × Nat
  | [], d => ([], d)
  | s :: ss, d =>
    let p := if s > 0 then (s - 1, d - 1) else (s, d)
    if p.2 = tgt then (p.1 :: ss, p.2)
    else let r := shrinkPass tgt ss p.2; (p.1 :: r.1, r.2)

/-- One pass of the adding loop (src/parallel/LoadBalancing.cpp:135-139). -/
def growPass (tgt : Nat) : List Nat → Nat → List Nat × Nat
  | [], d => ([], d)
  | s :: ss, d =>
    if d + 1 = tgt then ((s + 1) :: ss, d + 1)
    else let r := growPass tgt ss (d + 1); ((s + 1) :: r.1, r.2)

/-- `while( l_dist > size ) …` (src/parallel/LoadBalancing.cpp:123-131), at most `fuel` passes; `none` if more passes
would be needed. -/
def shrink (tgt : Nat) : Nat → List Nat × Nat → Option (List Nat × Nat)
  | fuel, s => if s.2 > tgt then
      match fuel with
      | 0 => none
      | fuel + 1 => shrink tgt fuel (shrinkPass tgt s.1 s.2)
    else some s

/-- `while( l_dist < size ) …` (src/parallel/LoadBalancing.cpp:134-140), at most `fuel` passes. -/
def grow (tgt : Nat) : Nat → List Nat × Nat → Option (List Nat × Nat)
  | fuel, s => if s.2 < tgt then
      match fuel with
      | 0 => none
      | fuel + 1 => grow tgt fuel (growPass tgt s.1 s.2)
    else some s

/-- Quotients `size / elapsed` (src/parallel/LoadBalancing.cpp:103-106); division by zero is `none`. -/
def throughputs : List Nat → List Rat → Option (List Rat)
  | s :: ss, e :: es => do
    check (e ≠ 0)
    let r ← throughputs ss es
    return (s : Rat) / e :: r
  | [], [] => some []
  | _, _ => none

/-- Sizes by relative throughput (src/parallel/LoadBalancing.cpp:110-120), from worker `w` on. -/
def rawSizes (A : Arith) (tot : Rat) (size : Nat) : Nat → List Rat → List Nat
  | _, [] => []
  | w, t :: ts => (if tot = 0 then 0 else A.trunc w (t / tot * (size : Rat))) :: rawSizes A tot size (w + 1) ts

/-- The first entries (src/parallel/LoadBalancing.cpp:143-146) together with the new sizes. -/
def setFirsts : Nat → List Nat → List Pkg → Option (List Pkg)
  | f, s :: ss, p :: ps => do
    let r ← setFirsts (f + s) ss ps
    return { p with first := f, size := s } :: r
  | _, [], [] => some []
  | _, _, _ => none

/-- `LoadBalancing::balanceWrkRgn` (src/parallel/LoadBalancing.cpp:63-154) for measured times `ela` of the workers.
`fuel` bounds the number of passes of the two correction loops (`none` if it does not suffice). -/
def balanceWrkRgn (A : Arith) (fuel : Nat) (ela : List Rat) (r : Rgn) : Option Rgn := do
  check (ela.length == r.pkgs.length)
  check (r.pkgs.length ≠ 0)
  let elaMin := ela.foldl (fun m e => if e < m then e else m) A.big
  let elaMax := ela.foldl (fun m e => if m < e then e else m) (-A.big)
  let elaSum := ela.foldl (· + ·) 0
  let mean := elaSum / (r.pkgs.length : Rat)
  let den := if mean < A.zeroTime then A.zeroTime else mean
  check (den ≠ 0)
  let imbalance := (elaMax - elaMin) / den
  if ¬ (elaMin < A.zeroTime) ∧ imbalance < A.maxImb then return r
  else do
    let ela := if elaMin < A.zeroTime then ela.map (fun _ => (3343 : Rat)) else ela
    let sizes := if elaMin < A.zeroTime then r.pkgs.map (fun _ => 1) else r.pkgs.map (·.size)
    let through ← throughputs sizes ela
    let tot := through.foldl (· + ·) 0
    let raw := rawSizes A tot r.size 0 through
    let s ← shrink r.size fuel (raw, raw.sum)
    let s ← grow r.size fuel s
    let pkgs ← setFirsts r.first s.1 r.pkgs
    let last ← rd pkgs (pkgs.length - 1)
    check (last.first + last.size == r.first + r.size)
    resolveSpEn { r with pkgs := pkgs }

/-- `numeric_limits< std::size_t >::max()`. -/
def sizeMax : Nat := 2 ^ 64 - 1

/-- The region created by `LoadBalancing::regWrkRgn` before the initial balancing
(src/parallel/LoadBalancing.h:166-209). -/
def mkRgn (nWrks first size : Nat) (types chars : List Nat) : Option Rgn := do
  let s ← forN types.length (fun ty (s : List Nat × List (List Nat)) => do
    let t ← rd types ty
    let firstSp ← nSp first t chars
    let nSp ← nSp size t (chars.drop first)
    let link ← linkSpDe size t (chars.drop first) (List.replicate nSp 0)
    return (s.1 ++ [firstSp], s.2 ++ [link.map (· + first)])) ([], [])
  return { first := first, size := size, firstSp := s.1, spDe := s.2,
           pkgs := List.replicate nWrks { first := sizeMax, size := sizeMax,
                                          firstSp := List.replicate types.length 0 } }

/-- `std::vector::insert` at a position. -/
def insertAt {α : Type _} (l : List α) (pos : Nat) (a : α) : List α := l.take pos ++ a :: l.drop pos

/-- `Shared::t_status` (src/parallel/Shared.h:50-55). -/
inductive Status
  | RDY | IPR | FIN | WAI
deriving DecidableEq, Repr

/-- `Shared::WrkRgn` (src/parallel/Shared.h:68-86). -/
structure WrkRgn where
  id : Nat
  step : Nat
  tg : Nat
  prio : Int
  status : List Status
deriving Repr, DecidableEq

/-- `Shared` with its `LoadBalancing` member (src/parallel/Shared.h:42-92). -/
structure Sh where
  nWrks : Nat
  wrkOff : Int
  rgns : List WrkRgn
  lb : List Rgn
deriving Repr, DecidableEq

/-- `Shared::init` (src/parallel/Shared.cpp:32-79) for `nThreads` OpenMP threads. -/
def init (separate : Bool) (nThreads : Nat) : Option Sh := do
  let nWrks := if separate ∧ nThreads > 1 then nThreads - 1 else nThreads
  check (nWrks > 0)
  return { nWrks := nWrks, wrkOff := if nWrks = nThreads then 0 else -1, rgns := [], lb := [] }

/-- `Shared::worker` (src/parallel/Shared.h:107-109). -/
def Sh.worker (s : Sh) (thread : Nat) : Int := (thread : Int) + s.wrkOff

/-- `Shared::isWrk` (src/parallel/Shared.cpp:104-106). -/
def Sh.isWrk (s : Sh) (thread : Nat) : Bool := s.worker thread ≥ 0

/-- Position of a new region: the first one with a smaller priority, the end if there is none
(src/parallel/Shared.h:206-213). -/
def findPos (prio : Int) : List WrkRgn → Nat
  | [] => 0
  | r :: rs => if r.prio < prio then 0 else findPos prio rs + 1

/-- `Shared::regWrkRgn` (src/parallel/Shared.h:178-231) and `LoadBalancing::regWrkRgn`
(src/parallel/LoadBalancing.h:159-216): the timers of the new region are zero when it is balanced initially. -/
def Sh.regWrkRgn (A : Arith) (fuel : Nat) (s : Sh) (tg step id first size : Nat) (prio : Int)
    (types chars : List Nat) : Option Sh := do
  let r : WrkRgn := { id := id, step := step, tg := tg, prio := prio, status := List.replicate s.nWrks .WAI }
  let pos := findPos prio s.rgns
  let lr ← mkRgn s.nWrks first size types chars
  check (pos ≤ s.lb.length)
  let lr ← balanceWrkRgn A fuel (List.replicate s.nWrks 0) lr
  return { s with rgns := insertAt s.rgns pos r, lb := insertAt s.lb pos lr }

/-- `LoadBalancing::balance` (src/parallel/LoadBalancing.cpp:156-159): every region with its measured times. -/
def Sh.balance (A : Arith) (fuel : Nat) (s : Sh) (ela : List (List Rat)) : Option Sh := do
  let lb ← forN s.lb.length (fun rg lb => do
    let r ← rd lb rg
    let e ← rd ela rg
    let r ← balanceWrkRgn A fuel e r
    wr lb rg r) s.lb
  return { s with lb := lb }

/-- Result of a successful `getWrkTd`. -/
structure Wrk where
  tg : Nat
  step : Nat
  id : Nat
  first : Nat
  size : Nat
  firstSp : List Nat
deriving Repr, DecidableEq

/-- The scan in `getWrkTd` from region `rg` on (src/parallel/Shared.cpp:142-164) with
`LoadBalancing::getWrkTd` (src/parallel/LoadBalancing.h:229-242). -/
def scan (w : Nat) : List WrkRgn → List Rgn → Option (Option Wrk)
  | [], _ => some none
  | r :: rs, lb => do
    let st ← rd r.status w
    if st = .RDY then do
      let l ← rd lb 0
      let p ← rd l.pkgs w
      return some { tg := r.tg, step := r.step, id := r.id, first := p.first, size := p.size, firstSp := p.firstSp }
    else scan w rs (lb.drop 1)

/-- `Shared::getWrkTd` called by `thread` (src/parallel/Shared.cpp:125-168): `some none` is the return value `false`. -/
def Sh.getWrkTd (s : Sh) (thread : Nat) : Option (Option Wrk) := do
  check (s.worker thread ≥ 0)
  scan (s.worker thread).toNat s.rgns s.lb

/-- `Shared::getWrkRgn` (src/parallel/Shared.cpp:116-123): position of the first region with the id; the EDGE_CHECK
fails if the last region does not match, and an empty table yields 0. -/
def findRgn (id : Nat) : List WrkRgn → Option Nat
  | [] => some 0
  | [r] => if r.id = id then some 0 else none
  | r :: rs => if r.id = id then some 0 else (findRgn id rs).map (· + 1)

/-- `Shared::setStatusAll` (src/parallel/Shared.cpp:170-193). -/
def Sh.setStatusAll (s : Sh) (st : Status) (id : Nat) : Option Sh := do
  let rg ← findRgn id s.rgns
  let r ← rd s.rgns rg
  check (r.status.length == s.nWrks)
  check (st = .RDY)
  check (r.status.all (fun x => x = .FIN ∨ x = .WAI))
  let rgns ← wr s.rgns rg { r with status := r.status.map (fun _ => st) }
  return { s with rgns := rgns }

/-- `Shared::resetStatus` (src/parallel/Shared.cpp:195-211). -/
def Sh.resetStatus (s : Sh) (st : Status) : Sh :=
  { s with rgns := s.rgns.map (fun r => { r with status := r.status.map (fun _ => st) }) }

/-- `Shared::setStatusTd` called by `thread` (src/parallel/Shared.cpp:213-246), without the timers. -/
def Sh.setStatusTd (s : Sh) (thread : Nat) (st : Status) (id : Nat) : Option Sh := do
  check (s.worker thread ≥ 0)
  let w := (s.worker thread).toNat
  let rg ← findRgn id s.rgns
  let r ← rd s.rgns rg
  let old ← rd r.status w
  check ((st = .IPR ∧ old = .RDY) ∨ (st = .FIN ∧ old = .IPR))
  let stat ← wr r.status w st
  let rgns ← wr s.rgns rg { r with status := stat }
  return { s with rgns := rgns }

/-- `Shared::getStatusAll` (src/parallel/Shared.cpp:248-265). -/
def Sh.getStatusAll (s : Sh) (st : Status) (id : Nat) : Option Bool := do
  let rg ← findRgn id s.rgns
  let r ← rd s.rgns rg
  return r.status.all (· = st)

/-- Block of worker `w` in `Shared::numaInit` (src/parallel/Shared.h:321-331): start and number of entries. -/
def numaBlock (nWrks n w : Nat) : Option (Nat × Nat) := do
  check (nWrks ≠ 0)
  let split := n / nWrks
  let rem := n % nWrks
  let start := split * w + if rem > 0 then min rem w else 0
  let cnt := if w < rem then split + 1 else split
  return (start, cnt)

/-- `Shared::numaInit` of a flat array at offset `off`, executed by the given worker
(src/parallel/Shared.h:308-346): zeroes the worker's block. -/
def numaInit (nWrks n off w : Nat) (arr : List Int) : Option (List Int) := do
  let b ← numaBlock nWrks n w
  forN b.2 (fun en arr => wr arr (off + b.1 + en) 0) arr

/-- One of the two loops over the time groups in the second `numaInit` (src/parallel/Shared.h:371-380, :382-391). -/
def numaGroups (nWrks nTgs nVas w : Nat) (nEns : List Nat) (s : Nat × List Int) : Option (Nat × List Int) :=
  forN nTgs (fun tg s => do
    let n ← rd nEns tg
    let arr ← numaInit nWrks (n * nVas) s.1 w s.2
    return (s.1 + n * nVas, arr)) s

/-- `Shared::numaInit` for time groups, executed by the given worker (src/parallel/Shared.h:363-392). -/
def numaInitTgs (nWrks nTgs nVas w : Nat) (nIn nSe : List Nat) (arr : List Int) : Option (List Int) := do
  let s ← numaGroups nWrks nTgs nVas w nIn (0, arr)
  let s ← numaGroups nWrks nTgs nVas w nSe s
  return s.2

end Edge.Shared
