import Verif.Sources.Series
/-!
Model of the point sources (`src/impl/seismic/setups/PointSources.hpp`), property C45. One fused run: the code treats the runs
independently, except for the set of source elements, which is the union over all runs and an input here.
-/
namespace Edge.Sources

/-- `PointSources::getAcDu` (src/impl/seismic/setups/PointSources.hpp:139-156): ids and elements of the sources which are in
an element. `unset` is the largest id. -/
def getAcDu (unset : Nat) (psEl : List Nat) : Option (List Nat × List Nat) :=
  forN psEl.length (fun ps o => do
    let el ← rd psEl ps
    if el ≠ unset then some (o.1 ++ [ps], o.2 ++ [el]) else some o) ([], [])

/-- The first `std::sort` of `PointSources::getSrcPerms` (src/impl/seismic/setups/PointSources.hpp:167-186): a permutation of
the sources which orders their elements. `std::sort` is not stable: every such permutation is a possible result. -/
structure IsSrcPerm (els per : List Nat) : Prop where
  perm : per.Perm (List.range els.length)
  sorted : ∀ (i j a b x y : Nat), i ≤ j → per[i]? = some a → per[j]? = some b → els[a]? = some x → els[b]? = some y → x ≤ y

/-- Application of the permutation in `PointSources::init` (src/impl/seismic/setups/PointSources.hpp:836-842). -/
def permute (per xs : List Nat) : Option (List Nat) := per.mapM (rd xs)

/-- The loop over the sources of an element in `PointSources::elSpPs` (src/impl/seismic/setups/PointSources.hpp:352-360). The
list is the part of `i_srcElP` which starts at the current source. -/
def advance (el : Nat) : List Nat → Nat → Option Nat
  | [], n => some n
  | s :: rest, n => do
    check (decide (el ≤ s))
    if s = el then advance el rest (n + 1) else some n

/-- `PointSources::elSpPs` (src/impl/seismic/setups/PointSources.hpp:309-372). `none` entries are not initialized. -/
def elSpPs (nEl : Nat) (isSrc limited : Nat → Bool) (srcElP : List Nat) : Option (List (Option Nat)) := do
  let nElSrc ← forN nEl (fun el n =>
    if isSrc el then do
      check (!limited el)
      some (n + 1)
    else some n) 0
  let m : List (Option Nat) := List.replicate (nElSrc + 1) none
  let m ← wr m 0 (some 0)
  let (m, _, ptSrc) ← forN nEl (fun el (o : List (Option Nat) × Nat × Nat) =>
    if isSrc el then do
      let m ← wr o.1 o.2.1 (some o.2.2)
      let ptSrc ← advance el (srcElP.drop o.2.2) o.2.2
      some (m, o.2.1 + 1, ptSrc)
    else some o) (m, 0, 0)
  wr m nElSrc (some ptSrc)

/-- The data sets of a source file, indexed by the sources: onset time and sampling distance, scalings of the quantities,
offsets into the samples, samples. -/
structure Raw where
  tPars : List (ℝ × ℝ)
  scas : List (Nat → ℝ)
  tPtrs : List Nat
  tSrs : List ℝ

/-- Time series data of the active sources (src/impl/seismic/setups/PointSources.hpp:80-105). -/
structure Ps where
  el : List Nat
  times : List ℝ
  dts : List ℝ
  bEvals : List (Nat → ℝ)
  scas : List (Nat → ℝ)
  tsPtrs : List Nat
  tss : List (Option ℝ)

/-- Offsets of the time series in `PointSources::initTsData` (src/impl/seismic/setups/PointSources.hpp:688-694). The
difference of the unsigned offsets has no outcome if they decrease. -/
def initPtrs (tPtrs : List Nat) (srcIdsP : List Nat) : Option (List Nat) :=
  forN srcIdsP.length (fun pt ptrs => do
    let id ← rd srcIdsP pt
    let p ← rd ptrs pt
    let a ← rd tPtrs id
    let b ← rd tPtrs (id + 1)
    check (decide (a ≤ b))
    some (ptrs ++ [p + (b - a)])) [0]

/-- The copy of the samples in `PointSources::initTsData` (src/impl/seismic/setups/PointSources.hpp:696-727). -/
noncomputable def initTss (raw : Raw) (tsPtrs srcIdsP : List Nat) : Option (List (Option ℝ)) := do
  let n ← rd tsPtrs srcIdsP.length
  forN srcIdsP.length (fun pt tss => do
    let id ← rd srcIdsP pt
    let off ← rd tsPtrs pt
    let offRaw ← rd raw.tPtrs id
    let next ← rd tsPtrs (pt + 1)
    forN (next - off) (fun sa tss => do
      let v ← rd raw.tSrs (offRaw + sa)
      wr tss (off + sa) (some v)) tss) (List.replicate n none)

/-- `PointSources::initTsData` and the result of `initBasisEvals` (src/impl/seismic/setups/PointSources.hpp:389-767). `basis`
is the scaled basis of a source in an element. -/
noncomputable def initTsData (raw : Raw) (basis : Nat → Nat → Nat → ℝ) (srcElsP srcIdsP : List Nat) : Option Ps := do
  check (decide (raw.scas.length = raw.tPars.length ∧ raw.tPtrs.length = raw.tPars.length + 1))
  let tPars ← srcIdsP.mapM (rd raw.tPars)
  let scas ← srcIdsP.mapM (rd raw.scas)
  let tsPtrs ← initPtrs raw.tPtrs srcIdsP
  let tss ← initTss raw tsPtrs srcIdsP
  some ⟨srcElsP, tPars.map Prod.fst, tPars.map Prod.snd, (srcIdsP.zip srcElsP).map (fun p => basis p.1 p.2), scas, tsPtrs, tss⟩

/-- `PointSources::init` of a run (src/impl/seismic/setups/PointSources.hpp:791-876), after the elements of the sources are
known: mapping and data. -/
noncomputable def init (raw : Raw) (basis : Nat → Nat → Nat → ℝ) (nEl : Nat) (isSrc limited : Nat → Bool)
    (ids els per : List Nat) : Option (List (Option Nat) × Ps) := do
  let idsP ← permute per ids
  let elsP ← permute per els
  let m ← elSpPs nEl isSrc limited elsP
  let ps ← initTsData raw basis elsP idsP
  some (m, ps)

/-- The samples a pointer and a size refer to. -/
def samples (tss : List (Option ℝ)) (off n : Nat) : Option (List ℝ) :=
  (List.range n).mapM (fun i => (rd tss (off + i)).join)

/-- Degrees of freedom: element, quantity, mode. -/
abbrev Dofs := Nat → Nat → Nat → ℝ

/-- A source in `PointSources::apply` (src/impl/seismic/setups/PointSources.hpp:902-928). -/
noncomputable def applyPs (tol : ℝ) (d : Ps) (t1 t2 : ℝ) (ps : Nat) (dofs : Dofs) : Option Dofs := do
  let first ← rd d.tsPtrs ps
  let next ← rd d.tsPtrs (ps + 1)
  let dt ← rd d.dts ps
  let time ← rd d.times ps
  let vals ← samples d.tss first (next - first)
  let int ← integrate tol dt time vals t1 t2 0
  let elDe ← rd d.el ps
  let sca ← rd d.scas ps
  let b ← rd d.bEvals ps
  some (fun el qt md => if el = elDe then dofs el qt md + int * sca qt * b md else dofs el qt md)

/-- `PointSources::apply` (src/impl/seismic/setups/PointSources.hpp:887-931). -/
noncomputable def apply (tol : ℝ) (m : List (Option Nat)) (d : Ps) (first size : Nat) (t1 t2 : ℝ) (dofs : Dofs) : Option Dofs :=
  forN size (fun i dofs => do
    let a ← (rd m (first + i)).join
    let b ← (rd m (first + i + 1)).join
    forN (b - a) (fun j dofs => applyPs tol d t1 t2 (a + j) dofs) dofs) dofs

end Edge.Sources
