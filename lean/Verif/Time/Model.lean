import Mathlib.Data.Rat.Floor
/-!
Model of `edge::time::TimeGroupStatic` (`/repo/src/time/TimeGroupStatic.{h,cpp}`).

`double` is idealised by `ℚ` (no rounding); `std::size_t` counters by `ℕ`; the two `unsigned short` members
`m_funMul`, `m_maxDiv` keep their wrap-around at `2^16`.
-/
namespace Edge.Time

/-- `i_n` times `x *= 2` on an `unsigned short` starting at 1
(loops in `src/time/TimeGroupStatic.cpp:48-56`). -/
def doubleShort : ℕ → ℕ
  | 0 => 1
  | n + 1 => (2 * doubleShort n) % 2 ^ 16

/-- Members of `TimeGroupStatic` (`src/time/TimeGroupStatic.h:40-104`).  The counters of time predictions,
DOF updates, sends and receives are part of the scheduler model (`Verif.Sched.Model`), the pointers to the
DOFs and message buffers are not modelled. -/
structure Group where
  funMul : ℕ
  maxDiv : ℕ
  nTsSync : ℕ
  nTsPer : ℕ
  nTsReqFull : ℕ
  covSimTime : ℚ
  dt : ℚ
  dtFull : ℚ
  dtSync : ℚ

/-- Constructor, `src/time/TimeGroupStatic.cpp:36-67`.  `std::numeric_limits<double>::max()` (the "not set"
marker of the time steps) is the parameter `big`. -/
def Group.mk' (big : ℚ) (nTgs tgId : ℕ) : Group :=
  { funMul := doubleShort tgId
    maxDiv := doubleShort (nTgs - (tgId + 1))
    nTsSync := 0, nTsPer := 0, nTsReqFull := 0, covSimTime := 0
    dt := big, dtFull := big, dtSync := big }

/-- `setDt`, `src/time/TimeGroupStatic.cpp:94-101`. -/
def Group.setDt (g : Group) : Group :=
  if g.nTsSync < g.nTsReqFull then { g with dt := g.dtFull } else { g with dt := g.dtSync }

/-- `setUp`, `src/time/TimeGroupStatic.cpp:69-92`.  The conversion of a non-negative `double` to `size_t` is
`Nat.floor`.  (For `l_dtMax = 0`, only possible after the wrap of `m_funMul`, the C++ division is undefined;
theorems carry the guard `nTgs ≤ 16`, under which `l_dtMax > 0`.) -/
def Group.setUp (g : Group) (dtFun time : ℚ) : Group :=
  let dtMax : ℚ := dtFun * ((g.funMul * g.maxDiv : ℕ) : ℚ)
  let nUpdatesMaxFull : ℕ := ⌊time / dtMax⌋₊
  let dtSync : ℚ := (time - nUpdatesMaxFull * dtMax) / (g.maxDiv : ℚ)
  Group.setDt
    { g with
      dtFull := dtFun * (g.funMul : ℚ)
      nTsSync := 0
      nTsReqFull := nUpdatesMaxFull * g.maxDiv
      dtSync := max 0 dtSync }

/-- `updateTsInfo`, `src/time/TimeGroupStatic.cpp:103-111`. -/
def Group.updateTsInfo (g : Group) : Group :=
  Group.setDt
    { g with nTsSync := g.nTsSync + 1, nTsPer := g.nTsPer + 1, covSimTime := g.covSimTime + g.dt }

/-- `finished`, `src/time/TimeGroupStatic.h:246-248`. -/
def Group.finished (g : Group) : Bool := g.nTsSync == g.nTsReqFull + g.maxDiv

/-- `lastTimeStep`, `src/time/TimeGroupStatic.h:237-239`. -/
def Group.lastTimeStep (g : Group) : Bool := g.nTsSync == g.nTsReqFull + g.maxDiv - 1

/-- The state of a group after `n` completed steps (`n` calls of `updateTsInfo` by the scheduler,
`src/impl/seismic/inc/time/man_sched.inc:182`). -/
def Group.after (g : Group) : ℕ → Group
  | 0 => g
  | n + 1 => (g.after n).updateTsInfo

end Edge.Time
