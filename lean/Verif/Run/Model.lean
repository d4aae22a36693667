import Verif.Util.Loop
import Mathlib.Data.Rat.Floor
/-!
Model of the outer loop of a run: the settings read by `src/io/Config.cpp` and the loop over synchronisation points of
`src/main.cpp`. `double` is idealised by `ℚ` (no rounding). `tol` is `TOL.TIME` (src/constants.hpp:289-309).
-/
namespace Edge.Run
open Edge

/-- `m_endTime`, `m_waveFieldInt`, `m_syncMaxInt` (src/io/Config.h:212-227). -/
structure Config where
  endTime : ℚ
  wfInt : ℚ
  syncMax : ℚ
deriving DecidableEq

/-- Settings of the time loop (src/io/Config.cpp:304, 312-318, 380-389). `wf`: interval of the wave field output, if requested;
`sync`: maximum interval of synchronisation points, if given; `big`: the default of the intervals (src/io/Config.h:224). -/
def config (tol big endTime : ℚ) (wf sync : Option ℚ) : Option Config := do
  let wfInt := wf.getD big
  check (decide (wfInt > tol))
  let syncMax := match sync with
    | some s => s
    | none => min (5 / 100 * endTime) wfInt
  check (decide (syncMax > tol))
  return ⟨endTime, wfInt, syncMax⟩

/-- Variables of the loop: simulated time, interval to the next synchronisation point, number of written wave fields (not counting
the setup), `WaveField::m_writeStep`. `steps`: arguments of the calls of `Manager::simulate` so far; `files`: number in the name
of each written file with the simulated time at which it was written (src/io/WaveField.cpp:96-113; the argument of `write` is
not used there). -/
structure St where
  sim : ℚ
  sync : ℚ
  wf : ℕ
  file : ℕ
  steps : List ℚ
  files : List (ℕ × ℚ)

/-- `WaveField::write` (src/io/WaveField.cpp:96-113): the file's number, then the increment. -/
def St.write (s : St) : St := { s with file := s.file + 1, files := s.files ++ [(s.file, s.sim)] }

/-- Before the loop (src/main.cpp:313-338). -/
def start (tol : ℚ) (c : Config) : St :=
  let sync := min c.wfInt c.syncMax
  let sync := if |sync| < tol then c.endTime else sync
  let s : St := { sim := 0, sync := sync, wf := 0, file := 0, steps := [], files := [] }
  if c.wfInt < c.endTime then s.write else s

/-- Body of the loop (src/main.cpp:361-396). -/
def step (tol : ℚ) (c : Config) (s : St) : St :=
  let stepTime := max 0 (c.endTime - s.sim)
  let stepTime := min stepTime s.sync
  let s := { s with steps := s.steps ++ [stepTime], sim := s.sim + stepTime }
  let s := if s.sim + tol > (s.wf + 1) * c.wfInt then { s.write with wf := s.wf + 1 } else s
  let sync := (s.wf + 1) * c.wfInt - s.sim
  let sync := min sync c.syncMax
  let sync := min sync (c.endTime - s.sim)
  { s with sync := if sync < tol then c.endTime else sync }

/-- The loop (src/main.cpp:360-397) with at most `fuel` iterations; `none`: not finished. -/
def loop (tol : ℚ) (c : Config) : ℕ → St → Option St
  | 0, s => if c.endTime - s.sim > tol then none else some s
  | fuel + 1, s => if c.endTime - s.sim > tol then loop tol c fuel (step tol c s) else some s

end Edge.Run
