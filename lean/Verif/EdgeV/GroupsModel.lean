import Verif.Util.Loop
/-!
Model of the derivation of time steps and time groups in EDGE-V: `tools/edge_v/src/time/{Cfl,Groups}.cpp`.
`double` is idealised by exact rationals; `big` stands for `numeric_limits< double >::max()`.
-/
namespace Edge.EdgeV
open Edge

/-! ### CFL time steps -/

/-- Wave speed of an element (tools/edge_v/src/time/Cfl.cpp:95-110): that of the element, or the mean over its
vertices; `speed` is `getMaxSpeed`. `none` if the EDGE_V_CHECK_GT fails. -/
def elSpeed (nElVes : Nat) (elVe : List Nat) (velModEl : Bool) (speed : Nat → Rat) (el : Nat) : Option Rat := do
  let c ← (if velModEl then some (speed el)
    else do
      let sum ← forN nElVes (fun ve (c : Rat) => do
        let veId ← rd elVe (el * nElVes + ve)
        return c + speed veId) 0
      return sum / nElVes)
  check (decide (c > 0))
  return c

/-- `Cfl::setTimeSteps` (tools/edge_v/src/time/Cfl.cpp:76-129): smallest absolute time step and relative time steps.
The OpenMP reduction is a minimum over all elements. -/
def setTimeSteps (nEls nElVes : Nat) (elVe : List Nat) (inDia : List Rat) (velModEl : Bool) (speed : Nat → Rat)
    (big : Rat) : Option (Rat × List Rat) := do
  let (absMin, ts) ← forN nEls (fun el (s : Rat × List Rat) => do
    let c ← elSpeed nElVes elVe velModEl speed el
    let d ← rd inDia el
    let t := d / c
    return (min s.1 t, s.2 ++ [t])) (big, [])
  check (decide (absMin > 0))
  let minInv := 1 / absMin
  return (absMin, ts.map (· * minInv))

/-! ### Groups -/

/-- Search of the group of an element (tools/edge_v/src/time/Groups.cpp:93-98); `some` marks the break. -/
def findTg (nGroups : Nat) (tsGroups : List Rat) (ts : Rat) : Option (Option Nat) :=
  forN nGroups (fun tg (r : Option Nat) =>
    if r.isSome then some r
    else do
      let g ← rd tsGroups (tg + 1)
      if ts < g then return some tg else return none) none

/-- `Groups::setElTg` (tools/edge_v/src/time/Groups.cpp:84-100); entries of the freshly allocated output hold no value
(`none`) until written. The OpenMP loop writes disjoint entries. -/
def setElTg (nEls nGroups : Nat) (tsGroups tsCfl : List Rat) : Option (List (Option Nat)) :=
  forN nEls (fun el (out : List (Option Nat)) => do
    let ts ← rd tsCfl el
    let r ← findTg nGroups tsGroups ts
    if r.isSome then wr out el r else return out) (List.replicate nEls none)

/-- Body of the loop over faces of the normalisation (tools/edge_v/src/time/Groups.cpp:62-73): `tgEl` was read before
the loop. State: groups, number of changes. -/
def normFace (elFaEl : List (Option Nat)) (nElFas el tgEl fa : Nat) (s : List Nat × Nat) : Option (List Nat × Nat) := do
  match ← rd elFaEl (el * nElFas + fa) with
  | none => return s
  | some ad => do
    let tgAd ← rd s.1 ad
    if tgEl > tgAd + 1 then do
      let tgs ← wr s.1 el (tgAd + 1)
      return (tgs, s.2 + 1)
    else return s

/-- One sweep over all elements (tools/edge_v/src/time/Groups.cpp:56-75). -/
def normSweep (elFaEl : List (Option Nat)) (nElFas nEls : Nat) (tgs : List Nat) : Option (List Nat × Nat) :=
  forN nEls (fun el (s : List Nat × Nat) => do
    let tgEl ← rd s.1 el
    forN nElFas (fun fa (s : List Nat × Nat) => normFace elFaEl nElFas el tgEl fa s) s) (tgs, 0)

/-- `Groups::normalizeElTgs` (tools/edge_v/src/time/Groups.cpp:47-81) with at most `fuel` sweeps: groups and number of
changes. `none` also if the sweeps do not suffice; `C30_terminates` shows that enough always exist. -/
def normalize (elFaEl : List (Option Nat)) (nElFas nEls : Nat) : Nat → List Nat → Nat → Option (List Nat × Nat)
  | 0, _, _ => none
  | fuel + 1, tgs, all => do
    let (tgs, it) ← normSweep elFaEl nElFas nEls tgs
    if it = 0 then return (tgs, all) else normalize elFaEl nElFas nEls fuel tgs (all + it)

/-- `Groups::nGroupEls` (tools/edge_v/src/time/Groups.cpp:102-114). -/
def nGroupEls (first nEls nGroups : Nat) (elTg : List Nat) : Option (List Nat) := do
  forN nEls (fun i (out : List Nat) => do
    let tg ← rd elTg (first + i)
    let n ← rd out tg
    wr out tg (n + 1)) (List.replicate nGroups 0)

/-- `Groups::getLoads` (tools/edge_v/src/time/Groups.cpp:27-45): global, grouped and per-element loads; a division by
zero is `none`. -/
def getLoads (nEls : Nat) (tsCfl tsGroups : List Rat) (elTg : List Nat) : Option (Rat × Rat × Rat) :=
  forN nEls (fun el (s : Rat × Rat × Rat) => do
    let tg ← rd elTg el
    let g ← rd tsGroups tg
    let t ← rd tsCfl el
    check (decide (g ≠ 0))
    check (decide (t ≠ 0))
    return (s.1, s.2.1 + 1 / g, s.2.2 + 1 / t)) ((nEls : Rat), 0, 0)

/-- Time step intervals (tools/edge_v/src/time/Groups.cpp:124-141), `none` if one of the checks fails. -/
def intervals (rates : List Rat) (funDt big : Rat) : Option (List Rat) := do
  forN rates.length (fun ra (_ : Unit) => do
    let r ← rd rates ra
    check (decide (r > 1))
    check (decide (r ≤ 2))) ()
  check (decide (funDt > 0))
  check (decide (funDt ≤ 1))
  let is := List.replicate (rates.length + 2) 0
  let is ← wr is 0 funDt
  let is ← wr is (rates.length + 1) big
  forN rates.length (fun ra (is : List Rat) => do
    let a ← rd is ra
    let r ← rd rates ra
    wr is (ra + 1) (a * r)) is

/-- Result of the constructor. -/
structure Groups where
  intervals : List Rat
  elTg : List Nat
  nGroupEls : List Nat
  gts : Rat
  loadGroups : Rat
  loadNorm : Rat
  loadEl : Rat
  deriving Repr

/-- Constructor of `Groups` (tools/edge_v/src/time/Groups.cpp:117-182) with at most `fuel` sweeps in the
normalisation; using an unset group is `none`. -/
def mkGroups (nElFas nEls : Nat) (elFaEl : List (Option Nat)) (rates : List Rat) (funDt big : Rat) (ts : List Rat)
    (fuel : Nat) : Option Groups := do
  let is ← intervals rates funDt big
  let nGroups := rates.length + 1
  let tg0 ← setElTg nEls nGroups is ts
  let tg0 ← tg0.mapM id
  let l0 ← getLoads nEls ts is tg0
  let (tgs, _) ← normalize elFaEl nElFas nEls fuel tg0 0
  let ns ← nGroupEls 0 nEls nGroups tgs
  let l1 ← getLoads nEls ts is tgs
  return { intervals := is, elTg := tgs, nGroupEls := ns, gts := l1.1, loadGroups := l0.2.1, loadNorm := l1.2.1,
           loadEl := l1.2.2 }

end Edge.EdgeV
