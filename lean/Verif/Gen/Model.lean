import Verif.Proj.Table
import Mathlib.Algebra.MvPolynomial.PDeriv
import Mathlib.LinearAlgebra.Matrix.NonsingularInverse
/-!
The generator of the matrices of the discontinuous Galerkin solvers (tools/edge_pre), and the functions which copy the generated
stiffness matrices for the kernels.

Functions of sympy are modelled by what they compute: `jacobi` and `legendre` by the explicit formula, `diff` by the formal derivative
of polynomials, `integrate` by the iterated integral, `inv` by the inverse of matrices. `simplify` and `cancel` return the polynomial
with the values of the formula, see `C93_basis`. Simplifications: rounding of the written numbers and the
inexact integration of long expressions (tools/edge_pre/edge_pre/int/Scalar.py:72-77) are not modelled.
-/
namespace Edge.Gen
open Edge Edge.Map Edge.Quad Edge.Basis Edge.Proj MvPolynomial

/-! ### Basis functions -/

section
variable {K : Type} [Field K]

/-- `sympy.jacobi(n, a, 0, t)`; `sympy.legendre(n, t)` is `jacobi n 0 t`. -/
def jacobi (n a : Nat) (t : K) : K :=
  ∑ s ∈ Finset.range (n + 1), (((n + a).choose (n - s) * n.choose s : Nat) : K) * ((t - 1) / 2) ^ s * ((t + 1) / 2) ^ (n - s)

/-- Functions of the bases before simplification (tools/edge_pre/edge_pre/dg/basis: Line.py:34-47, Quad.py:36-49, Tria.py:36-71, Hex.py:36-51,
Tet.py:31-76), as functions of the coordinates in the reference element. -/
def formula : Ent → Idx → K → K → K → K
  | .line, i, x, _, _ => jacobi i.1 0 (2 * x - 1)
  | .quad, i, x, y, _ => jacobi i.1 0 (2 * x - 1) * jacobi i.2.1 0 (2 * y - 1)
  | .hex, i, x, y, z => jacobi i.1 0 (2 * x - 1) * jacobi i.2.1 0 (2 * y - 1) * jacobi i.2.2 0 (2 * z - 1)
  | .tria, i, x, y, _ =>
    let xi1 := 2 * x - 1
    let xi2 := 2 * y - 1
    let eta1 := 2 * (1 + xi1) / (1 - xi2) - 1
    let eta2 := xi2
    let psiA := jacobi i.1 0 eta1
    let psiB := ((1 - eta2) / 2) ^ i.1 * jacobi i.2.1 (2 * i.1 + 1) eta2
    psiA * psiB
  | .tet, i, x, y, z =>
    let xi1 := 2 * x - 1
    let xi2 := 2 * y - 1
    let xi3 := 2 * z - 1
    let eta1 := 2 * (1 + xi1) / (-xi2 - xi3) - 1
    let eta2 := 2 * (1 + xi2) / (1 - xi3) - 1
    let eta3 := xi3
    let psiA := jacobi i.1 0 eta1
    let psiB := ((1 - eta2) / 2) ^ i.1 * jacobi i.2.1 (2 * i.1 + 1) eta2
    let psiC := ((1 - eta3) / 2) ^ (i.1 + i.2.1) * jacobi i.2.2 (2 * i.1 + 2 * i.2.1 + 2) eta3
    psiA * psiB * psiC

end

/-- Order of the functions of a basis of order `o`, which has polynomial degree `o - 1`: the loops of `gen` (same files). -/
def genIdx : Ent → Nat → List Idx
  | .line, o => (List.range o).map (fun de => (de, 0, 0))
  | .quad, o => (List.range o).flatMap (fun d2 => (List.range o).map (fun d1 => (d1, d2, 0)))
  | .hex, o => (List.range o).flatMap (fun d3 => (List.range o).flatMap (fun d2 => (List.range o).map (fun d1 => (d1, d2, d3))))
  | .tria, o => (List.range o).flatMap (fun de => (List.range (de + 1)).flatMap (fun p =>
      ((List.range (de + 1)).filter (fun q => p + q == de)).map (fun q => (p, q, 0))))
  | .tet, o => (List.range o).flatMap (fun de => (List.range (de + 1)).flatMap (fun p1 => (List.range (de + 1)).flatMap (fun p2 =>
      ((List.range (de + 1)).filter (fun p3 => p1 + p2 + p3 == de)).map (fun p3 => (p1, p2, p3)))))

/-- `gen` (tools/edge_pre/edge_pre/dg/basis): simplified functions. -/
noncomputable def gen (e : Ent) (o : Nat) : List (MvPolynomial (Fin 3) ℝ) := (genIdx e o).map (P e)

/-- Function of the basis. -/
noncomputable def bf (e : Ent) (o i : Nat) : MvPolynomial (Fin 3) ℝ := (gen e o).getD i 0

/-! ### Matrices -/

/-- `Matrices.mass` (tools/edge_pre/edge_pre/int/Matrices.py:92-102) for the element: `refInt` are the integrals over the intervals of `intEl`
(tools/edge_pre/edge_pre/types: Line.py:55-56, Quad.py:58-60, Tria.py:57-59, Hex.py:65-68, Tet.py:57-64). -/
noncomputable def massM (e : Ent) (o : Nat) : Matrix (Fin (nModes e o)) (Fin (nModes e o)) ℝ :=
  Matrix.of fun ro co => refInt e (val (bf e o ro * bf e o co))

/-- `Matrices.stiff` (tools/edge_pre/edge_pre/int/Matrices.py:113-135): column vector of the basis times row vector of the derivatives. -/
noncomputable def stiff (e : Ent) (o : Nat) (di : Fin 3) : Matrix (Fin (nModes e o)) (Fin (nModes e o)) ℝ :=
  Matrix.of fun ro co => refInt e (val (bf e o ro * pderiv di (bf e o co)))

/-- Stiffness matrices of the time kernel (tools/edge_pre/edge_pre.py:508-511). -/
noncomputable def stiffT (e : Ent) (o : Nat) (di : Fin 3) : Matrix (Fin (nModes e o)) (Fin (nModes e o)) ℝ :=
  (stiff e o di).transpose * (massM e o)⁻¹

/-- Stiffness matrices of the volume kernel (tools/edge_pre/edge_pre.py:513-516). -/
noncomputable def stiffV (e : Ent) (o : Nat) (di : Fin 3) : Matrix (Fin (nModes e o)) (Fin (nModes e o)) ℝ :=
  stiff e o di * (massM e o)⁻¹

/-- `ArrStr.float2d` (tools/edge_pre/edge_pre/io/ArrStr.py:30-41): order of the written numbers. -/
def float2d {n m : Nat} (M : Matrix (Fin n) (Fin m) ℝ) : List ℝ :=
  (List.finRange n).flatMap (fun d1 => (List.finRange m).map (fun d2 => M d1 d2))

/-- `ArrStr.float3d` (tools/edge_pre/edge_pre/io/ArrStr.py:90-105): order of the written numbers. -/
def float3d {n m : Nat} (l : List (Matrix (Fin n) (Fin m) ℝ)) : List ℝ := l.flatMap float2d

/-- The symbols of an element, one per dimension. -/
def syms (e : Ent) : List (Fin 3) := (List.finRange 3).filter (fun d => d.val < e.nDim)

/-- Written mass matrix (tools/edge_pre/edge_pre.py:541-543), `pre::dg::g_massRaw`. -/
noncomputable def massRaw (e : Ent) (o : Nat) : List ℝ := float2d (massM e o)

/-- Written stiffness matrices (tools/edge_pre/edge_pre.py:545-552), `pre::dg::g_stiffVRaw` and `pre::dg::g_stiffTRaw`. -/
noncomputable def stiffVRaw (e : Ent) (o : Nat) : List ℝ := float3d ((syms e).map (stiffV e o))
noncomputable def stiffTRaw (e : Ent) (o : Nat) : List ℝ := float3d ((syms e).map (stiffT e o))

/-! ### Copies for the kernels -/

section
variable {K : Type} [Field K]

/-- `Basis::getStiffMm1Dense` (src/dg/Basis.h:344-364). -/
def getStiffMm1Dense (rawV rawT : List K) (e : Ent) (nModes : Nat) (tStiff : Bool) : Option (List K) :=
  if tStiff = false then do
    check (decide (rawV.length = nModes * nModes * e.nDim))
    forN rawV.length (fun va o => do
      let v ← rd rawV va
      wr o va v) (List.replicate (nModes * nModes * e.nDim) 0)
  else do
    check (decide (rawT.length = nModes * nModes * e.nDim))
    forN rawT.length (fun va o => do
      let v ← rd rawT va
      wr o va v) (List.replicate (nModes * nModes * e.nDim) 0)

/-- `TimePred::storeStiffTDense` (src/dg/TimePred.hpp:70-98, 111-128) for a derivative: the pointers of all derivatives are the same. A
pointer is the array from its first element on. -/
def storeStiffTDense (rawV rawT : List K) (e : Ent) (n : Nat) : Option (List (List K)) := do
  let st ← getStiffMm1Dense rawV rawT e n true
  let r ← forN e.nDim (fun di s => forN n (fun m0 s => forN n (fun m1 (s : List K × Nat) => do
    let v ← rd st (di * n * n + m0 * n + m1)
    let r ← wr s.1 s.2 (-v)
    some (r, s.2 + 1)) s) s) (List.replicate (e.nDim * n * n) 0, 0)
  some ((List.range e.nDim).map (fun di => r.1.drop (di * n * n)))

/-- `VolInt::storeStiffDense` (src/dg/VolInt.hpp:64-90, 102-119). -/
def storeStiffDense (rawV rawT : List K) (e : Ent) (n : Nat) : Option (List (List K)) := do
  let st ← getStiffMm1Dense rawV rawT e n false
  let r ← forN e.nDim (fun di s => forN n (fun m0 s => forN n (fun m1 (s : List K × Nat) => do
    let v ← rd st (di * n * n + m0 * n + m1)
    let r ← wr s.1 s.2 v
    some (r, s.2 + 1)) s) s) (List.replicate (e.nDim * n * n) 0, 0)
  some ((List.range e.nDim).map (fun di => r.1.drop (di * n * n)))

end
end Edge.Gen
