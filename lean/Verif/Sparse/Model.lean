import Verif.Util.Loop
/-!
Model of the sparse entities: /repo/src/data/SparseEntities.hpp.

Entity characteristics are modelled by their only used member `.spType`, an unsigned bit mask; ids are natural
numbers and `mx` is `std::numeric_limits< TL_T_LID >::max()`. Counters are bounded by the lengths of arrays, hence
do not wrap. Arrays are lists with bounds-checked accesses (`none` = undefined behaviour).
-/
namespace Edge.Sparse

/-- `(chars.spType & spType) == spType`, the membership test used throughout
(src/data/SparseEntities.hpp:90, :124, :133, :176, :189, :222, :273, :377, :427, …). -/
def hasTy (c ty : Nat) : Bool := (c &&& ty) == ty

/-- `SparseEntities::nSp` (src/data/SparseEntities.hpp:83-93). -/
def nSp (nEn ty : Nat) (chars : List Nat) : Option Nat :=
  forN nEn (fun en n => do
    let c ← rd chars en
    return if hasTy c ty then n + 1 else n) 0

/-- Loop body over the time groups in `denseToSparse` (src/data/SparseEntities.hpp:120-128 and :130-137): sets the
output entry of the group to the number of sparse elements in `[first, first+nElsDe[tg])` and advances `first`.
State: `first` and the output array. -/
def dtsGroup (ty : Nat) (chars nElsDe : List Nat) (tg : Nat) (s : Nat × List Nat) : Option (Nat × List Nat) := do
  let n ← rd nElsDe tg
  let o ← wr s.2 tg 0
  let o ← forN n (fun el o => do
    let c ← rd chars (s.1 + el)
    if hasTy c ty then do
      let v ← rd o tg
      wr o tg (v + 1)
    else return o) o
  return (s.1 + n, o)

/-- `SparseEntities::denseToSparse` (src/data/SparseEntities.hpp:111-138). Returns the inner and send outputs. -/
def denseToSparse (nTgs ty : Nat) (chars nElsInDe nElsSeDe oIn oSe : List Nat) :
    Option (List Nat × List Nat) := do
  let (first, oIn) ← forN nTgs (dtsGroup ty chars nElsInDe) (0, oIn)
  let (_, oSe) ← forN nTgs (dtsGroup ty chars nElsSeDe) (first, oSe)
  return (oIn, oSe)

/-- State of `subRgnsSpId`: `l_first`, `l_en` and the two output arrays. -/
structure SubSt where
  first : Nat
  en : Nat
  oFirst : List Nat
  oSize : List Nat

/-- `SparseEntities::subRgnsSpId` (src/data/SparseEntities.hpp:165-196). The inner `for( ; l_en < l_up; l_en++ )`
(:187-192) runs `l_up - l_en = i_subRgnSizes[l_sr]` times. -/
def subRgnsSpId (rgnFirst nSub : Nat) (sizes : List Nat) (ty : Nat) (chars oFirst oSize : List Nat) :
    Option (List Nat × List Nat) := do
  let first ← forN rgnFirst (fun en f => do
    let c ← rd chars en
    return if hasTy c ty then f + 1 else f) 0
  let s ← forN nSub (fun sr (s : SubSt) => do
    let oFirst ← wr s.oFirst sr s.first
    let sz ← rd sizes sr
    let oSize ← wr s.oSize sr 0
    forN sz (fun _ (t : SubSt) => do
      let c ← rd chars t.en
      if hasTy c ty then do
        let v ← rd t.oSize sr
        let oSize ← wr t.oSize sr (v + 1)
        return { t with first := t.first + 1, en := t.en + 1, oSize := oSize }
      else return { t with en := t.en + 1 }) { s with oFirst := oFirst, oSize := oSize })
    { first := first, en := rgnFirst, oFirst := oFirst, oSize := oSize }
  return (s.oFirst, s.oSize)

/-- `SparseEntities::inherit` (src/data/SparseEntities.hpp:215-228). -/
def inherit (nEn tyIn tyOut : Nat) (chars : List Nat) : Option (List Nat) :=
  forN nEn (fun en chars => do
    let c ← rd chars en
    if hasTy c tyIn then wr chars en (c ||| tyOut) else return chars) chars

/-- `SparseEntities::propAdj`, flat adjacency (src/data/SparseEntities.hpp:259-289). The unused running maximum
`l_nEn1` is omitted. The two characteristics arrays are different arrays (no aliasing). -/
def propAdj (mx nEn0 nPer : Nat) (en0En1 : List Nat) (tyIn tyOut : Nat) (chars0 chars1 : List Nat) :
    Option (List Nat) :=
  forN nEn0 (fun en chars1 => do
    let c ← rd chars0 en
    if hasTy c tyIn then
      forN nPer (fun ae chars1 => do
        let aeId ← rd en0En1 (en * nPer + ae)
        if aeId ≠ mx then do
          let d ← rd chars1 aeId
          wr chars1 aeId (d ||| tyOut)
        else return chars1) chars1
    else return chars1) chars1

/-- `SparseEntities::propAdj`, dynamic adjacency (src/data/SparseEntities.hpp:308-337). The pointer array with ghost
entry is a list of rows, `i_en0En1[l_en+1]-i_en0En1[l_en]` being the row's length. The counter `l_ae` is an
`unsigned short`: the loop does not end for rows with more than 65535 entries (`none`). -/
def propAdjDyn (mx nEn0 : Nat) (en0En1 : List (List Nat)) (tyIn tyOut : Nat) (chars0 chars1 : List Nat) :
    Option (List Nat) :=
  forN nEn0 (fun en chars1 => do
    let c ← rd chars0 en
    if hasTy c tyIn then do
      let row ← rd en0En1 en
      check (row.length ≤ 65535)
      forN row.length (fun ae chars1 => do
        let aeId ← rd row ae
        if aeId ≠ mx then do
          let d ← rd chars1 aeId
          wr chars1 aeId (d ||| tyOut)
        else return chars1) chars1
    else return chars1) chars1

/-- `SparseEntities::linkSpDe` (src/data/SparseEntities.hpp:366-383). State: `l_sp` and the output. -/
def linkSpDe (nDe ty : Nat) (chars o : List Nat) : Option (List Nat) := do
  let s ← forN nDe (fun de (s : Nat × List Nat) => do
    let c ← rd chars de
    if hasTy c ty then do
      let o ← wr s.2 s.1 de
      return (s.1 + 1, o)
    else return s) (0, o)
  return s.2

/-- `SparseEntities::linkSpSp` (src/data/SparseEntities.hpp:413-439). State: `l_sp0`, `l_sp1`, output. -/
def linkSpSp (mx nDe ty0 ty1 : Nat) (chars o : List Nat) : Option (List Nat) := do
  let s ← forN nDe (fun de (s : Nat × Nat × List Nat) => do
    let c ← rd chars de
    let s ← (if hasTy c ty0 then do
        let o ← wr s.2.2 s.1 (if hasTy c ty1 then s.2.1 else mx)
        return (s.1 + 1, s.2.1, o)
      else return s)
    return if hasTy c ty1 then (s.1, s.2.1 + 1, s.2.2) else s) (0, 0, o)
  return s.2.2

/-- Largest defined adjacent id (src/data/SparseEntities.hpp:495-504, :624-635). -/
def maxAdj (mx nEn nAdj : Nat) (enEn : List Nat) : Option Nat :=
  forN nEn (fun de m =>
    forN nAdj (fun ae m => do
      let aeId ← rd enEn (de * nAdj + ae)
      return if aeId = mx then m else max m aeId) m) 0

/-- Lookup from dense to sparse ids of the adjacent entities (src/data/SparseEntities.hpp:510-520, :641-651,
:808-819). -/
def deToSp (mx n ty : Nat) (chars : List Nat) : Option (List Nat) := do
  let s ← forN n (fun de (s : Nat × List Nat) => do
    let c ← rd chars de
    if hasTy c ty then do
      let l ← wr s.2 de s.1
      return (s.1 + 1, l)
    else do
      let l ← wr s.2 de mx
      return (s.1, l)) (0, List.replicate n 0)
  return s.2

/-- `SparseEntities::linkSpAdjSst` (src/data/SparseEntities.hpp:484-552). -/
def linkSpAdjSst (mx nEn nAdj : Nat) (enEn : List Nat) (ty : Nat) (charsAdj o : List Nat) :
    Option (List Nat) :=
  if nEn = 0 then some o else do
  check (nAdj > 0)
  let m ← maxAdj mx nEn nAdj enEn
  let look ← deToSp mx (m + 1) ty charsAdj
  let s ← forN nEn (fun de (s : Nat × List Nat) => do
    let sp ← forN nAdj (fun ae sp => do
      let aeId ← rd enEn (de * nAdj + ae)
      if aeId = mx then return sp
      else do
        let c ← rd charsAdj aeId
        return if hasTy c ty then true else sp) false
    if sp then do
      let o ← forN nAdj (fun ae o => do
        let aeId ← rd enEn (de * nAdj + ae)
        if aeId = mx then return o
        else do
          let c ← rd charsAdj aeId
          if hasTy c ty then do
            let v ← rd look aeId
            wr o (s.1 * nAdj + ae) v
          else wr o (s.1 * nAdj + ae) mx) s.2
      return (s.1 + 1, o)
    else return s) (0, o)
  return s.2

/-- `SparseEntities::linkSpAdjDst`, flat adjacency (src/data/SparseEntities.hpp:612-677). -/
def linkSpAdjDst (mx nEn nAdj : Nat) (enEn : List Nat) (tyFrom tyTo : Nat) (charsFrom charsTo o : List Nat) :
    Option (List Nat) :=
  if nEn = 0 then some o else do
  check (nAdj > 0)
  let m ← maxAdj mx nEn nAdj enEn
  let look ← deToSp mx (m + 1) tyTo charsTo
  let s ← forN nEn (fun de (s : Nat × List Nat) => do
    let c ← rd charsFrom de
    if hasTy c tyFrom then do
      let o ← forN nAdj (fun ae o => do
        let aeId ← rd enEn (de * nAdj + ae)
        if aeId = mx then wr o (s.1 * nAdj + ae) mx
        else do
          let c ← rd charsTo aeId
          if hasTy c tyTo then do
            let v ← rd look aeId
            wr o (s.1 * nAdj + ae) v
          else wr o (s.1 * nAdj + ae) mx) s.2
      return (s.1 + 1, o)
    else return s) (0, o)
  return s.2

/-- `SparseEntities::nLinkSpAdjDst` (src/data/SparseEntities.hpp:723-757). Rows as in `propAdjDyn`.
Returns `(o_nSpLinkRaw, o_nSpLinkPtr)`. -/
def nLinkSpAdjDst (mx nEn : Nat) (enEn : List (List Nat)) (tyFrom tyTo : Nat) (charsFrom charsTo : List Nat) :
    Option (Nat × Nat) :=
  forN nEn (fun de (s : Nat × Nat) => do
    let c ← rd charsFrom de
    if hasTy c tyFrom then do
      let row ← rd enEn de
      check (row.length ≤ 65535)
      let raw ← forN row.length (fun ae raw => do
        let aeId ← rd row ae
        check (aeId ≠ mx)
        let c ← rd charsTo aeId
        return if hasTy c tyTo then raw + 1 else raw) s.1
      return (raw, s.2 + 1)
    else return s) (0, 0)

/-- State of the dynamic `linkSpAdjDst`: `l_spId`, `l_raw` (as offset from `o_spLinkRaw`), raw output and pointer
output (as offsets from `o_spLinkRaw`). -/
structure DynSt where
  spId : Nat
  raw : Nat
  oRaw : List Nat
  oPtr : List Nat

/-- `SparseEntities::linkSpAdjDst`, dynamic adjacency (src/data/SparseEntities.hpp:780-846). Pointers into
`o_spLinkRaw` are modelled by offsets. -/
def linkSpAdjDstDyn (mx nEn : Nat) (enEn : List (List Nat)) (tyFrom tyTo : Nat) (charsFrom charsTo : List Nat)
    (oRaw oPtr : List Nat) : Option (List Nat × List Nat) := do
  let oPtr ← wr oPtr 0 0
  let m ← forN nEn (fun de m => do
    let row ← rd enEn de
    check (row.length ≤ 65535)
    forN row.length (fun ae m => do
      let aeId ← rd row ae
      return max m aeId) m) 0
  let look ← deToSp mx (m + 1) tyTo charsTo
  let s ← forN nEn (fun de (s : DynSt) => do
    let c ← rd charsFrom de
    if hasTy c tyFrom then do
      let oPtr ← wr s.oPtr s.spId s.raw
      let row ← rd enEn de
      let t ← forN row.length (fun ae (t : DynSt) => do
        let aeId ← rd row ae
        let c ← rd charsTo aeId
        if hasTy c tyTo then do
          let v ← rd look aeId
          let oRaw ← wr t.oRaw t.raw v
          return { t with oRaw := oRaw, raw := t.raw + 1 }
        else return t) { s with oPtr := oPtr }
      return { t with spId := t.spId + 1 }
    else return s) { spId := 0, raw := 0, oRaw := oRaw, oPtr := oPtr }
  let oPtr ← wr s.oPtr s.spId s.raw
  return (s.oRaw, oPtr)

end Edge.Sparse
