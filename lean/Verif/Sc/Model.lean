import Verif.Util.Scatter
import Mathlib.Algebra.Order.Field.Basic
/-!
Model of the sub-cell limiter's building blocks: admissibility detection (`src/sc/Detections.hpp`), extrema and replacement kernels
(`src/sc/Kernels.hpp`), buffer labels (`src/sc/Steering.hpp`), search of sub-cells and grids of faces (`src/sc/SubGrid.hpp`).

`Limiter::aPost` itself aborts at this commit ("missing implementation of DG rollback", Limiter.hpp:429), it is not modelled.

Floating point numbers are elements of a linearly ordered field.  Arrays `[2][nQts][nCrs]` of extrema are lists with one pair
(minimum, maximum) per entry `qt*nCrs + cr`; all other arrays are flat.
-/
namespace Edge.Sc
open Edge

variable {K : Type} [Field K] [LinearOrder K]

/-- Extrema: `[0][qt][cr]` and `[1][qt][cr]` are the components of entry `qt*nCrs + cr`. -/
abbrev Ext (K : Type) := List (K × K)

/-- `std::min`/`std::max` of one adjacent element into the reduced extrema (Detections.hpp:95-100, 159-164). -/
def reduceEl (nQts nCrs : Nat) (ad red : Ext K) : Option (Ext K) :=
  forN nQts (fun qt red => forN nCrs (fun cr red => do
    let r ← rd red (qt * nCrs + cr)
    let a ← rd ad (qt * nCrs + cr)
    wr red (qt * nCrs + cr) (min r.1 a.1, max r.2 a.2)) red) red

/-- Copies the extrema of the element itself (Detections.hpp:83-91, 146-151). -/
def initRed (nQts nCrs : Nat) (cur : Ext K) : Option (Ext K) :=
  forN nQts (fun qt red => forN nCrs (fun cr red => do
    let c ← rd cur (qt * nCrs + cr)
    wr red (qt * nCrs + cr) c) red) (List.replicate (nQts * nCrs) (0, 0))

/-- `l_delta` (Detections.hpp:104-110, 169-175). -/
def delta (eps eps0 : K) (r : K × K) : K := max eps0 (eps * (r.2 - r.1))

/-- The check of the discrete maximum principle (Detections.hpp:113-120, 178-185). -/
def checkDmp (eps eps0 : K) (nQts nCrs : Nat) (red can : Ext K) (adm : List Bool) : Option (List Bool) :=
  forN nQts (fun qt adm => forN nCrs (fun cr adm => do
    let r ← rd red (qt * nCrs + cr)
    let c ← rd can (qt * nCrs + cr)
    if r.1 - delta eps eps0 r > c.1 ∨ c.2 > r.2 + delta eps eps0 r then wr adm cr false else some adm) adm) adm

/-- `dmpVe` (Detections.hpp:73-122); `nb` are the `i_nElVeEl` entries of `i_elVeEl`. -/
def dmpVe (eps eps0 : K) (nQts nCrs : Nat) (cur : Ext K) (ad : List (Ext K)) (can : Ext K) (nb : List Nat) : Option (List Bool) := do
  let red ← initRed nQts nCrs cur
  let red ← forN nb.length (fun ne red => do
    let id ← rd nb ne
    let a ← rd ad id
    reduceEl nQts nCrs a red) red
  checkDmp eps eps0 nQts nCrs red can (List.replicate nCrs true)

/-- One face of `dmpFa` (Detections.hpp:154-166); `max` is the largest value of the index type. -/
def reduceFa (maxId : Nat) (nQts nCrs : Nat) (ad : List (Ext K)) (id : Nat) (red : Ext K) : Option (Ext K) :=
  if id ≠ maxId then (rd ad id).bind (fun a => reduceEl nQts nCrs a red) else some red

/-- `dmpFa` (Detections.hpp:137-186); `elFaEl` has one entry per face. -/
def dmpFa (maxId : Nat) (eps eps0 : K) (nFas nQts nCrs : Nat) (cur : Ext K) (ad : List (Ext K)) (can : Ext K) (elFaEl : List Nat) :
    Option (List Bool) := do
  let red ← initRed nQts nCrs cur
  let red ← forN nFas (fun fa red => do
    let id ← rd elFaEl fa
    reduceFa maxId nQts nCrs ad id red) red
  checkDmp eps eps0 nQts nCrs red can (List.replicate nCrs true)

/-- `scExtrema` (Kernels.hpp:311-333); `big` is the largest finite number, `dofs` is `[nQts][nScs][nCrs]`. -/
def scExtrema (big : K) (nQts nScs nCrs : Nat) (dofs : List K) : Option (Ext K) :=
  forN nScs (fun sc ext => forN nQts (fun qt ext => forN nCrs (fun cr ext => do
    let e ← rd ext (qt * nCrs + cr)
    let d ← rd dofs ((qt * nScs + sc) * nCrs + cr)
    wr ext (qt * nCrs + cr) (min e.1 d, max e.2 d)) ext) ext) (List.replicate (nQts * nCrs) (big, -big))

/-- The replacement of `scatterReplace` and `scatterReplaceFa` (Kernels.hpp:149-158, 196-207): `scs` sub-cells or sub-faces, `o` the
projected solution, `st` the stored one. -/
def replaceSc (nQts scs nCrs : Nat) (st : List K) (adm : List Bool) (o : List K) : Option (List K) :=
  forN nQts (fun qt o => forN scs (fun sc o => forN nCrs (fun cr o => do
    let a ← rd adm cr
    let s ← rd st ((qt * scs + sc) * nCrs + cr)
    let p ← rd o ((qt * scs + sc) * nCrs + cr)
    wr o ((qt * scs + sc) * nCrs + cr) (if a = false then s else p)) o) o) o

/-- One face of `gatherSurfDofs` (Kernels.hpp:245-281) with storage; `faSfSc` is the row of the face, `scDgAd` the row of the vertex
combination. -/
def gatherFa (nQts nScs nSfs nCrs : Nat) (scDofs : List K) (faSfSc scDgAd : List Nat) (adm : List Bool) (o : List K) :
    Option (List K) :=
  forN nQts (fun qt o => forN nSfs (fun sf o => do
    let sfRe ← rd scDgAd sf
    let sc ← rd faSfSc sfRe
    forN nCrs (fun cr o => do
      let a ← rd adm cr
      let s ← rd scDofs ((qt * nScs + sc) * nCrs + cr)
      let p ← rd o ((qt * nSfs + sf) * nCrs + cr)
      wr o ((qt * nSfs + sf) * nCrs + cr) (if a = false then s else p)) o) o) o

/-- `getAdmIds` (Steering.hpp:49-64). -/
def getAdmIds (nTs : Nat) : List Nat := if nTs % 2 = 0 then [0, 1, 2, 3] else [2, 3, 0, 1]

/-- `getExtIds` (Steering.hpp:76-81) and `getDofsIds` (Steering.hpp:93-98). -/
def getExtIds (nTs : Nat) : List Nat := [nTs % 2, (nTs + 1) % 2]

/-- The reordering of pointers in `resetAdm`, `resetDofs`, `resetExt` (Steering.hpp:114-128, 151-163, 182-194). -/
def resetPtrs {α : Type} (ids : List Nat) (ptrs : List α) : Option (List α) :=
  forN ids.length (fun am o => do
    let i ← rd ids am
    let p ← rd ptrs i
    wr o am p) ptrs

/-- `resetLimSync` (Steering.hpp:206-221); `cnt` is `[nLi][nCrs]`. -/
def resetLimSync (maxId nCrs first size : Nat) (lpLi : List Nat) (cnt : List Nat) : Option (List Nat) :=
  forN size (fun l cnt => do
    let li ← rd lpLi (first + l)
    if li ≠ maxId then forN nCrs (fun cr cnt => wr cnt (li * nCrs + cr) 0) cnt else some cnt) cnt

end Edge.Sc
