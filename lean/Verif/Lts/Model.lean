import Verif.Util.Loop
/-!
Model of the derivation of the elements' local time stepping types in `src/mesh/EdgeV.cpp`, with the constants of
`src/dg/const_ader.inc`. Element ids, faces and time groups are natural numbers; the marker of a missing neighbour is `none`.
Sparse types are 64-bit words.
-/
namespace Edge.Lts
open Edge

/-- `int_spType` (src/constants.hpp:369): `long long`, the library's 64 bits. -/
abbrev Word := BitVec 64

/-- `C_LTS_EL` (src/dg/const_ader.inc:46-55) in the order `EL_INT_EQ`, `EL_INT_LT`, `EL_INT_GT`. -/
def ltsEl : List Word := [4294967296#64, 8589934592#64, 17179869184#64]

/-- `C_LTS_AD` (src/dg/const_ader.inc:64-131): one row per face in the order `AD_EQ`, `AD_LT`, `AD_GT`. -/
def ltsAd : List (List Word) := [
  [68719476736#64, 137438953472#64, 274877906944#64],
  [549755813888#64, 1099511627776#64, 2199023255552#64],
  [4398046511104#64, 8796093022208#64, 17592186044416#64],
  [35184372088832#64, 70368744177664#64, 140737488355328#64],
  [281474976710656#64, 562949953421312#64, 1125899906842624#64],
  [2251799813685248#64, 4503599627370496#64, 9007199254740992#64]]

/-- `(spType & type) == type`, the test of the solvers (src/impl/seismic/solvers/AderDg.hpp:384, 413, 425, 433, 622, 635, 679). -/
def has (w c : Word) : Bool := (w &&& c) == c

/-- One of the two searches of the lambda `l_getTg` (src/mesh/EdgeV.cpp:76-81 and 84-89). State: first element of the group,
and the group which was returned. -/
def findTg (nTgs : Nat) (sizes : List Nat) (el : Nat) (s : Nat × Option Nat) : Option (Nat × Option Nat) :=
  forN nTgs (fun tg s => match s.2 with
    | some _ => some s
    | none => do
      let n ← rd sizes tg
      if s.1 ≤ el ∧ el < s.1 + n then return (s.1, some tg) else return (s.1 + n, none)) s

/-- Lambda `l_getTg` (src/mesh/EdgeV.cpp:72-94): time group of an element; aborts if there is none. -/
def getTg (nTgs : Nat) (nIn nSe : List Nat) (el : Nat) : Option Nat := do
  let s ← findTg nTgs nIn el (0, none)
  let s ← findTg nTgs nSe el s
  s.2

/-- Parameters of the communication: `i_sendFa`, `i_sendEl`, `i_commStruct`. -/
structure Comm where
  fa : List Nat
  el : List Nat
  cs : List Nat

/-- Search in the faces of a channel (src/mesh/EdgeV.cpp:111-116). `tgAd` is converted to `unsigned short`. -/
def findCo (c : Comm) (el fa first n tgAd : Nat) (r : Option Nat) : Option (Option Nat) :=
  forN n (fun i r => match r with
    | some _ => some r
    | none => do
      let f ← rd c.fa (first + i)
      if fa = f then do
        let e ← rd c.el (first + i)
        if el = e then return some (tgAd % 65536) else return none
      else return none) r

/-- A channel in the lambda `l_getTgComm` (src/mesh/EdgeV.cpp:107-118). State: first face of the channel, result. -/
def commStep (c : Comm) (el fa ch : Nat) (s : Nat × Option Nat) : Option (Nat × Option Nat) :=
  match s.2 with
  | some _ => some s
  | none => do
    let tgAd ← rd c.cs (1 + ch * 4 + 2)
    let n ← rd c.cs (1 + ch * 4 + 3)
    let r ← findCo c el fa s.1 n tgAd none
    return (s.1 + n, r)

/-- Lambda `l_getTgComm` (src/mesh/EdgeV.cpp:97-121): time group of the element at a face of another rank; `none` is the
marker 65535. `none` for `comm` is the null pointer. -/
def getTgComm (comm : Option Comm) (el fa : Nat) : Option (Option Nat) :=
  match comm with
  | none => some none
  | some c => do
    let nChs ← rd c.cs 0
    let s ← forN nChs (commStep c el fa) (0, none)
    return match s.2 with
      | some 65535 => none
      | r => r

/-- Time group of the element at a face (src/mesh/EdgeV.cpp:133-149). -/
def getTgAd (nElFas nTgs : Nat) (elFaEl : List (Option Nat)) (nIn nSe : List Nat) (comm : Option Comm) (tg el fa : Nat) :
    Option Nat := do
  match ← rd elFaEl (el * nElFas + fa) with
  | some ad => getTg nTgs nIn nSe ad
  | none => do
    let r ← getTgComm comm el fa
    return r.getD tg

/-- Relations of an element: its word, and whether there was an equal, less-than, greater-than relation. -/
structure Rel where
  w : Word
  eq : Bool
  lt : Bool
  gt : Bool

/-- Relation with the element at a face (src/mesh/EdgeV.cpp:151-166). -/
def setRel (ad : List (List Word)) (tg tgAd fa : Nat) (s : Rel) : Option Rel := do
  let row ← rd ad fa
  if tg = tgAd then do
    let b ← rd row 0
    return { s with w := s.w ||| b, eq := true }
  else if tg < tgAd then do
    check (decide (tg + 1 = tgAd))
    let b ← rd row 1
    return { s with w := s.w ||| b, lt := true }
  else do
    check (decide (tg = tgAd + 1))
    let b ← rd row 2
    return { s with w := s.w ||| b, gt := true }

/-- An element of the static `EdgeV::setLtsTypes` (src/mesh/EdgeV.cpp:124-179). -/
def setEl (nElFas nTgs : Nat) (elFaEl : List (Option Nat)) (nIn nSe : List Nat) (comm : Option Comm) (els : List Word)
    (ad : List (List Word)) (el : Nat) (w : Word) : Option Word := do
  let tg ← getTg nTgs nIn nSe el
  let s ← forN nElFas (fun fa s => do
    let tgAd ← getTgAd nElFas nTgs elFaEl nIn nSe comm tg el fa
    setRel ad tg tgAd fa s) { w := w, eq := false, lt := false, gt := false }
  let e ← rd els 0
  let l ← rd els 1
  let g ← rd els 2
  let w := if s.eq then s.w ||| e else s.w
  let w := if s.lt then w ||| l else w
  return if s.gt then w ||| g else w

/-- The static `EdgeV::setLtsTypes` (src/mesh/EdgeV.cpp:55-180). -/
def setLts (nEls nElFas nTgs : Nat) (elFaEl : List (Option Nat)) (nIn nSe : List Nat) (comm : Option Comm) (els : List Word)
    (ad : List (List Word)) (ws : List Word) : Option (List Word) :=
  forN nEls (fun el ws => do
    let w ← rd ws el
    let w ← setEl nElFas nTgs elFaEl nIn nSe comm els ad el w
    wr ws el w) ws

/-- `EdgeV::setLtsTypes` (src/mesh/EdgeV.cpp:336-382): bits are or-ed to the existing sparse types of the elements. -/
def setLtsTypes (nEls nElFas nTgs : Nat) (elFaEl : List (Option Nat)) (nIn nSe : List Nat) (comm : Option Comm)
    (spTypes : List Word) : Option (List Word) := do
  let ws ← setLts nEls nElFas nTgs elFaEl nIn nSe comm ltsEl ltsAd (List.replicate nEls 0#64)
  forN nEls (fun el sp => do
    let a ← rd sp el
    let b ← rd ws el
    wr sp el (a ||| b)) spTypes

/-- `EdgeV::setSpTypes` (src/mesh/EdgeV.cpp:384-416) for one kind of entities: the mesh's types are `int`s, the conversion to
`long long` extends the sign. -/
def setSpTypes (n : Nat) (mesh : List (BitVec 32)) (spTypes : List Word) : Option (List Word) :=
  forN n (fun en sp => do
    let a ← rd sp en
    let b ← rd mesh en
    wr sp en (a ||| b.signExtend 64)) spTypes

end Edge.Lts
