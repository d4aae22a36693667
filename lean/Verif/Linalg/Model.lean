import Verif.Util.Loop
import Mathlib.Algebra.Order.Field.Basic
/-!
Model of `src/linalg/Matrix.h`: determinants, inverses, dense kernels and sparse formats. Floating point numbers are
idealised by an arbitrary ordered field.
-/
namespace Edge.Linalg
open Edge

variable {K : Type} [Field K] [LinearOrder K]

/-! ### Determinants and inverses -/

/-- `det` of a 2x2 matrix (src/linalg/Matrix.h:108-110). -/
def det2 (m : Fin 2 → Fin 2 → K) : K := m 0 0 * m 1 1 - m 0 1 * m 1 0

/-- `det` of a 3x3 matrix (src/linalg/Matrix.h:119-123). -/
def det3 (m : Fin 3 → Fin 3 → K) : K :=
  m 0 0 * (m 1 1 * m 2 2 - m 1 2 * m 2 1)
    - m 0 1 * (m 1 0 * m 2 2 - m 1 2 * m 2 0)
    + m 0 2 * (m 1 0 * m 2 1 - m 1 1 * m 2 0)

/-- The minor of the expansion (src/linalg/Matrix.h:137-151): the first three columns of the rows other than `ex`, in
order: row `r` of the minor is row `r`, or `r + 1` from the expanded row on. -/
def minor3 (m : Fin 4 → Fin 4 → K) (ex : Nat) (r c : Fin 3) : K :=
  if r.val < ex then m (Fin.castSucc r) (Fin.castSucc c) else m (Fin.succ r) (Fin.castSucc c)

/-- `det` of a 4x4 matrix (src/linalg/Matrix.h:132-160): expansion of the last column. -/
def det4 (m : Fin 4 → Fin 4 → K) : K :=
  (List.finRange 4).foldl (fun d ex =>
    if ex.val % 2 = 0 then d - m ex 3 * det3 (minor3 m ex.val) else d + m ex 3 * det3 (minor3 m ex.val)) 0

/-- `inv` of a 2x2 matrix (src/linalg/Matrix.h:189-204); `tol` is `TOL.LINALG`. -/
def inv2 (tol : K) (m : Fin 2 → Fin 2 → K) : Option (Fin 2 → Fin 2 → K) := do
  let d := det2 m
  check (decide (|d| > tol))
  let o : Fin 2 → Fin 2 → K := fun r c =>
    match r, c with
    | 0, 0 => m 1 1
    | 0, 1 => - m 0 1
    | 1, 0 => - m 1 0
    | 1, 1 => m 0 0
  return fun r c => o r c / d

/-- `inv` of a 3x3 matrix (src/linalg/Matrix.h:213-237). -/
def inv3 (tol : K) (m : Fin 3 → Fin 3 → K) : Option (Fin 3 → Fin 3 → K) := do
  let d := det3 m
  check (decide (|d| > tol))
  let o : Fin 3 → Fin 3 → K := fun r c =>
    match r, c with
    | 0, 0 => m 1 1 * m 2 2 - m 1 2 * m 2 1
    | 0, 1 => m 0 2 * m 2 1 - m 0 1 * m 2 2
    | 0, 2 => m 0 1 * m 1 2 - m 0 2 * m 1 1
    | 1, 0 => m 1 2 * m 2 0 - m 1 0 * m 2 2
    | 1, 1 => m 0 0 * m 2 2 - m 0 2 * m 2 0
    | 1, 2 => m 0 2 * m 1 0 - m 0 0 * m 1 2
    | 2, 0 => m 1 0 * m 2 1 - m 1 1 * m 2 0
    | 2, 1 => m 0 1 * m 2 0 - m 0 0 * m 2 1
    | 2, 2 => m 0 0 * m 1 1 - m 0 1 * m 1 0
  return fun r c => o r c / d

/-! ### Dense kernels -/

/-- `matMulB0` (src/linalg/Matrix.h:254-274). -/
def matMulB0 (m n k : Nat) (a b c : List K) : Option (List K) := do
  let c ← forN m (fun i c => forN n (fun j (c : List K) => wr c (i * n + j) 0) c) c
  forN k (fun l c => forN m (fun i c => forN n (fun j (c : List K) => do
    let x ← rd c (i * n + j)
    let u ← rd a (i * k + l)
    let v ← rd b (l * n + j)
    wr c (i * n + j) (x + u * v)) c) c) c

/-- Initialisation of the result in the fused kernels (src/linalg/Matrix.h:310-316, 362-368). -/
def fusedInit (r m n ldC : Nat) (beta : K) (c : List K) : Option (List K) :=
  forN m (fun i c => forN n (fun j c => forN r (fun q (c : List K) => do
    let x ← rd c (i * ldC * r + j * r + q)
    wr c (i * ldC * r + j * r + q) (if beta ≠ 0 then x * beta else 0)) c) c) c

/-- `matMulFusedAC` (src/linalg/Matrix.h:296-326). -/
def matMulFusedAC (r m n k ldA ldB ldC : Nat) (alpha beta : K) (a b c : List K) : Option (List K) := do
  let c ← fusedInit r m n ldC beta c
  forN k (fun l c => forN m (fun i c => forN n (fun j c => forN r (fun q (c : List K) => do
    let x ← rd c (i * ldC * r + j * r + q)
    let u ← rd a (i * ldA * r + l * r + q)
    let v ← rd b (l * ldB + j)
    wr c (i * ldC * r + j * r + q) (x + alpha * u * v)) c) c) c) c

/-- `matMulFusedBC` (src/linalg/Matrix.h:348-378). -/
def matMulFusedBC (r m n k ldA ldB ldC : Nat) (alpha beta : K) (a b c : List K) : Option (List K) := do
  let c ← fusedInit r m n ldC beta c
  forN k (fun l c => forN m (fun i c => forN n (fun j c => forN r (fun q (c : List K) => do
    let x ← rd c (i * ldC * r + j * r + q)
    let u ← rd a (i * ldA + l)
    let v ← rd b (l * ldB * r + j * r + q)
    wr c (i * ldC * r + j * r + q) (x + alpha * u * v)) c) c) c) c

/-- `transposeDense` (src/linalg/Matrix.h:386-399). -/
def transposeDense (n : Nat) (a : List K) : Option (List K) :=
  forN n (fun ro a => forN (n - (ro + 1)) (fun i (a : List K) => do
    let co := ro + 1 + i
    let t ← rd a (ro * n + co)
    let u ← rd a (co * n + ro)
    let a ← wr a (ro * n + co) u
    wr a (co * n + ro) t) a) a

/-! ### Sparse formats -/

/-- Entry of a matrix in coordinate format; the three vectors of `t_matCrd` (src/linalg/Matrix.h:48-57) always grow
together and are modelled as one list. -/
structure Entry (K : Type) where
  ro : Nat
  co : Nat
  nz : K
  deriving DecidableEq, Repr

/-- `denseToCrd` (src/linalg/Matrix.h:611-633). -/
def denseToCrd (nRows nCols : Nat) (a : List K) (tol : K) : Option (List (Entry K)) :=
  forN nRows (fun ro o => forN nCols (fun co (o : List (Entry K)) => do
    let x ← rd a (ro * nCols + co)
    if |x| > tol then return o ++ [⟨ro, co, x⟩] else return o) o) []

/-- `getNnzCrd` (src/linalg/Matrix.h:585-598). -/
def getNnzCrd (nRows nCols : Nat) (crd : List (Entry K)) : Nat :=
  crd.foldl (fun n e => if e.ro < nRows ∧ e.co < nCols then n + 1 else n) 0

/-- `std::vector::resize` on a vector with content `l`: existing entries are kept, new ones are zero. -/
def resize {α : Type} (z : α) (l : List α) (n : Nat) : List α := l.take n ++ List.replicate (n - l.length) z

/-- Matrix in CSR- or CSC-format (src/linalg/Matrix.h:60-97): values, pointers, indices. -/
structure Comp (K : Type) where
  val : List K
  ptr : List Nat
  idx : List Nat
  deriving DecidableEq, Repr

/-- Innermost loop of the conversions (src/linalg/Matrix.h:659-668, 701-710): entries at (ro, co) are appended behind
the `el` entries written so far; `ix` selects the stored index. -/
def scanNz (ix : Entry K → Nat) (crd : List (Entry K)) (ro co : Nat) (s : Nat × List K × List Nat) :
    Option (Nat × List K × List Nat) :=
  crd.foldlM (fun (s : Nat × List K × List Nat) e =>
    if ro = e.ro ∧ co = e.co then do
      let val ← wr s.2.1 s.1 e.nz
      let idx ← wr s.2.2 s.1 (ix e)
      return (s.1 + 1, val, idx)
    else return s) s

/-- `crdToCsr` (src/linalg/Matrix.h:643-675); `old` is the previous content of the output. -/
def crdToCsr (subRows subCols : Nat) (crd : List (Entry K)) (old : Comp K) : Option (Comp K) := do
  let nnz := getNnzCrd subRows subCols crd
  let val := resize 0 old.val nnz
  let ptr := resize 0 old.ptr (subRows + 1)
  let idx := resize 0 old.idx nnz
  let (_, val, ptr, idx) ← forN subRows (fun ro (s : Nat × List K × List Nat × List Nat) => do
    let ptr ← wr s.2.2.1 ro s.1
    let (el, val, idx) ← forN subCols (fun co (s : Nat × List K × List Nat) => scanNz (fun e => e.co) crd ro co s)
      (s.1, s.2.1, s.2.2.2)
    return (el, val, ptr, idx)) (0, val, ptr, idx)
  let ptr ← wr ptr subRows nnz
  return { val := val, ptr := ptr, idx := idx }

/-- `crdToCsc` (src/linalg/Matrix.h:685-718). -/
def crdToCsc (subRows subCols : Nat) (crd : List (Entry K)) (old : Comp K) : Option (Comp K) := do
  let nnz := getNnzCrd subRows subCols crd
  let val := resize 0 old.val nnz
  let ptr := resize 0 old.ptr (subCols + 1)
  let idx := resize 0 old.idx nnz
  let (_, val, ptr, idx) ← forN subCols (fun co (s : Nat × List K × List Nat × List Nat) => do
    let ptr ← wr s.2.2.1 co s.1
    let (el, val, idx) ← forN subRows (fun ro (s : Nat × List K × List Nat) => scanNz (fun e => e.ro) crd ro co s)
      (s.1, s.2.1, s.2.2.2)
    return (el, val, ptr, idx)) (0, val, ptr, idx)
  let ptr ← wr ptr subCols nnz
  return { val := val, ptr := ptr, idx := idx }

/-- `transposeCrd` (src/linalg/Matrix.h:407-434). -/
def transposeCrd (crd : List (Entry K)) : List (Entry K) :=
  let nRowsOld := crd.foldl (fun m e => max m e.ro) 0
  let nColsOld := crd.foldl (fun m e => max m e.co) 0
  (List.range (nColsOld + 1)).flatMap (fun r => (List.range (nRowsOld + 1)).flatMap (fun c =>
    (crd.filter (fun e => e.ro = c ∧ e.co = r)).map (fun e => ⟨r, c, e.nz⟩)))

/-- `denseToCsr` (src/linalg/Matrix.h:875-896); `none` for a sub-matrix size is the default argument. -/
def denseToCsr (nRows nCols : Nat) (a : List K) (tol : K) (subRows subCols : Option Nat) (old : Comp K) :
    Option (Comp K) := do
  let crd ← denseToCrd nRows nCols a tol
  crdToCsr (subRows.getD nRows) (subCols.getD nCols) crd old

/-- Four entries `fill[j*nRows + i + 0..3]`. -/
def rd4 (fill : List Nat) (p : Nat) : Option (Nat × Nat × Nat × Nat) := do
  let a ← rd fill p
  let b ← rd fill (p + 1)
  let c ← rd fill (p + 2)
  let d ← rd fill (p + 3)
  return (a, b, c, d)

/-- The four writes of 10 (src/linalg/Matrix.h:792-795 and alike). -/
def wr4 (fill : List Nat) (p : Nat) : Option (List Nat) := do
  let f ← wr fill p 10
  let f ← wr f (p + 1) 10
  let f ← wr f (p + 2) 10
  wr f (p + 3) 10

/-- First pass over the rows (src/linalg/Matrix.h:781-815) from row `i` on; at most `fuel - 1` rows, which
suffices for `fuel = nRows + 1` (`C53_fill` shows that the result is never `none`). `lo` and `hi` are the
bounds of the column loops, `l_nProcessed` and `l_nLimit - l_nProcessed`. -/
def pass1 (nRows lo hi : Nat) : Nat → Nat → List Nat → Option (List Nat)
  | 0, _, _ => none
  | fuel + 1, i, f =>
    if i < nRows then
      if i + 3 ≥ nRows then pass1 nRows lo hi fuel (i + 1) f
      else do
        let (found, f) ← forN (hi - lo) (fun j (s : Bool × List Nat) => do
          let (a, b, c, d) ← rd4 s.2 ((lo + j) * nRows + i)
          if a = 1 ∧ b = 1 ∧ c = 1 ∧ d = 1 then do
            let f ← wr4 s.2 ((lo + j) * nRows + i)
            return (true, f)
          else return s) (false, f)
        if found then do
          let f ← forN (hi - lo) (fun j (f : List Nat) => do
            let (a, b, c, d) ← rd4 f ((lo + j) * nRows + i)
            if a + b + c + d = 3 then wr4 f ((lo + j) * nRows + i) else return f) f
          pass1 nRows lo hi fuel (i + 4) f
        else pass1 nRows lo hi fuel (i + 1) f
    else some f

/-- Second pass (src/linalg/Matrix.h:817-847). -/
def pass2 (nRows lo hi : Nat) : Nat → Nat → List Nat → Option (List Nat)
  | 0, _, _ => none
  | fuel + 1, i, f =>
    if i < nRows then
      if i + 3 ≥ nRows then pass2 nRows lo hi fuel (i + 1) f
      else do
        let found ← forN (hi - lo) (fun j (s : Bool) => do
          let a ← rd f ((lo + j) * nRows + i)
          return s || decide (a = 10)) false
        if found then pass2 nRows lo hi fuel (i + 4) f
        else do
          let (found, f) ← forN (hi - lo) (fun j (s : Bool × List Nat) => do
            let (a, b, c, d) ← rd4 s.2 ((lo + j) * nRows + i)
            if a + b + c + d = 3 then do
              let f ← wr4 s.2 ((lo + j) * nRows + i)
              return (true, f)
            else return s) (false, f)
          pass2 nRows lo hi fuel (if found then i + 4 else i + 1) f
    else some f

/-- Loop over the chunks of columns (src/linalg/Matrix.h:778-851), fewer than `fuel` chunks; `l_nLimit - l_nProcessed` is a
subtraction of unsigned numbers, below zero it is `none` here. -/
def chunks (nRows maxCols chunk : Nat) : Nat → Nat → Nat → List Nat → Option (List Nat)
  | 0, _, _, _ => none
  | fuel + 1, done, limit, f =>
    if done < maxCols then do
      check (decide (done ≤ limit))
      let f ← pass1 nRows done (limit - done) (nRows + 1) 0 f
      let f ← pass2 nRows done (limit - done) (nRows + 1) 0 f
      chunks nRows maxCols chunk fuel (done + chunk) (min (done + chunk + chunk) maxCols) f
    else some f

/-- `fillInQfma` (src/linalg/Matrix.h:730-859); `big` is `numeric_limits< TL_T_REAL >::max()`, `out` the previous content
of the output. -/
def fillInQfma (nRows nCols : Nat) (mat out : List K) (tol big : K) : Option (List K) := do
  let fill ← forN nCols (fun j f => forN nRows (fun i (f : List Nat) => do
    let x ← rd mat (i * nCols + j)
    wr f (j * nRows + i) (if |x| > tol then 1 else 0)) f) (List.replicate (nRows * nCols) 0)
  let maxCols ← forN nCols (fun j c => forN nRows (fun i (c : Nat) => do
    let v ← rd fill (j * nRows + i)
    return if v > 0 then j + 1 else c) c) 0
  let nChunks := if maxCols % 28 = 0 then maxCols / 28 else maxCols / 28 + 1
  if nChunks = 0 then return out
  else do
    let chunk := if maxCols % nChunks = 0 then maxCols / nChunks else maxCols / nChunks + 1
    let fill ← chunks nRows maxCols chunk (maxCols + 1) 0 chunk fill
    forN nCols (fun j o => forN nRows (fun i (o : List K) => do
      let x ← rd mat (i * nCols + j)
      let o ← wr o (i * nCols + j) x
      let v ← rd fill (j * nRows + i)
      if v > 0 ∧ |x| < tol then wr o (i * nCols + j) big else return o) o) out

/-- `denseToCsc` (src/linalg/Matrix.h:913-958); `qfma` is the requested fill-in. -/
def denseToCsc (nRows nCols : Nat) (a : List K) (tol big : K) (subRows subCols : Option Nat) (qfma : Bool)
    (old : Comp K) : Option (Comp K) := do
  check (decide (nRows * nCols ≤ a.length))
  let tmp := a.take (nRows * nCols)
  let tmp ← (if qfma then fillInQfma nRows nCols a tmp tol big else some tmp)
  let crd ← denseToCrd nRows nCols tmp tol
  let csc ← crdToCsc (subRows.getD nRows) (subCols.getD nCols) crd old
  let val ← forN csc.val.length (fun nz (v : List K) => do
    let x ← rd v nz
    if x = big then do
      check qfma
      wr v nz 0
    else return v) csc.val
  return { csc with val := val }

/-- `getBlockNz` (src/linalg/Matrix.h:541-577); `none` is the unset bound (the largest `unsigned int`). -/
def getBlockNz (crd : List (Entry K)) (r0 r1 c0 c1 : Option Nat) : Option (Nat × Nat × Nat × Nat) :=
  crd.foldl (fun (o : Option (Nat × Nat × Nat × Nat)) e =>
    if r0.all (· ≤ e.ro) ∧ r1.all (e.ro ≤ ·) ∧ c0.all (· ≤ e.co) ∧ c1.all (e.co ≤ ·) then
      match o with
      | none => some (e.ro, e.ro, e.co, e.co)
      | some (a, b, c, d) => some (if a > e.ro then e.ro else a, if b < e.ro then e.ro else b,
          if c > e.co then e.co else c, if d < e.co then e.co else d)
    else o) none

end Edge.Linalg
