import Verif.Gen.Model
import Mathlib.Algebra.MvPolynomial.Monad
/-!
The generated flux matrices of the discontinuous Galerkin solvers (tools/edge_pre), and the functions which copy them for the surface kernels.
Conventions and simplifications are those of `Verif.Gen.Model`. Line elements, whose faces are points, are not modelled.
-/
namespace Edge.Flux
open Edge Edge.Map Edge.Quad Edge.Basis Edge.Proj Edge.Gen MvPolynomial

/-- `C_ENT[].TYPE_FACES` (src/constants.hpp:46-59), the type whose basis is `l_basisFa` (tools/edge_pre/edge_pre.py:185, 270, 355, 432). Lines are not
modelled. -/
def faTy : Ent → Ent
  | .line => .line | .quad => .line | .tria => .line | .hex => .quad | .tet => .tria

section
variable {R : Type} [CommRing R]

/-- `faToEl` (tools/edge_pre/edge_pre/types: Quad.py:81-88, Tria.py:80-86, Hex.py:90-100, Tet.py:88-97): coordinates of the element, one tuple per
face. Missing coordinates are zero. -/
def faToEl (e : Ent) (c1 c2 : R) : List (Fin 3 → R) :=
  match e with
  | .line => []
  | .quad => [![c1, 0, 0], ![1, c1, 0], ![1 - c1, 1, 0], ![0, 1 - c1, 0]]
  | .tria => [![c1, 0, 0], ![1 - c1, c1, 0], ![0, 1 - c1, 0]]
  | .hex => [![c2, c1, 0], ![c1, 0, c2], ![1, c1, c2], ![c2, 1, c1], ![0, c2, c1], ![c1, c2, 1]]
  | .tet => [![c2, c1, 0], ![c1, 0, c2], ![0, c2, c1], ![1 - c1 - c2, c1, c2]]

/-- `faToFa` (tools/edge_pre/edge_pre/types: Quad.py:68-73, Tria.py:67-72, Hex.py:76-82, Tet.py:72-80): coordinates of the face seen from the
adjacent element, one tuple per orientation. -/
def faToFa (e : Ent) (c1 c2 : R) : List (Fin 3 → R) :=
  match e with
  | .line => []
  | .quad => [![1 - c1, 0, 0]]
  | .tria => [![1 - c1, 0, 0]]
  | .hex => [![c2, c1, 0]]
  | .tet => [![c2, c1, 0], ![1 - c1 - c2, c2, 0], ![c1, 1 - c1 - c2, 0]]

end

/-- Replacement of the symbols by expressions. -/
noncomputable def subs (g : Fin 3 → MvPolynomial (Fin 3) ℝ) (f : MvPolynomial (Fin 3) ℝ) : MvPolynomial (Fin 3) ℝ := bind₁ g f

/-- `Matrices.flux` (tools/edge_pre/edge_pre/int/Matrices.py:185-213), projections before the multiplication with the inverse mass matrix: rows are the
functions of the element, columns those of the face. -/
noncomputable def projInt (e : Ent) (o : Nat) (g : Fin 3 → MvPolynomial (Fin 3) ℝ) : Matrix (Fin (nModes e o)) (Fin (nModes (faTy e) o)) ℝ :=
  Matrix.of fun ro co => refInt (faTy e) (val (bf (faTy e) o co * subs g (bf e o ro)))

/-- `Matrices.flux`, first result (tools/edge_pre/edge_pre/int/Matrices.py:215-220). -/
noncomputable def proj (e : Ent) (o : Nat) : List (Matrix (Fin (nModes e o)) (Fin (nModes (faTy e) o)) ℝ) :=
  (faToEl e (X 0) (X 1)).map (fun g => projInt e o g * (massM (faTy e) o)⁻¹)

/-- `Matrices.flux`, third result (tools/edge_pre/edge_pre/int/Matrices.py:222-248). -/
noncomputable def ori (e : Ent) (o : Nat) : List (Matrix (Fin (nModes (faTy e) o)) (Fin (nModes (faTy e) o)) ℝ) :=
  (faToFa e (X 0) (X 1)).map (fun g => Matrix.of fun ro co => refInt (faTy e) (val (subs g (bf (faTy e) o ro) * bf (faTy e) o co)))

/-- Local flux matrices (tools/edge_pre/edge_pre.py:527-528). -/
noncomputable def fluxL (e : Ent) (o : Nat) : List (Matrix (Fin (nModes e o)) (Fin (nModes (faTy e) o)) ℝ) :=
  (proj e o).map (fun m => m * massM (faTy e) o)

/-- Flux matrices of the neighbours (tools/edge_pre/edge_pre.py:530-535): the orientations are the slow index. -/
noncomputable def fluxN (e : Ent) (o : Nat) : List (Matrix (Fin (nModes e o)) (Fin (nModes (faTy e) o)) ℝ) :=
  (ori e o).flatMap (fun v => (proj e o).map (fun m => m * v))

/-- Transposed flux matrices (tools/edge_pre/edge_pre.py:537-538). -/
noncomputable def fluxT (e : Ent) (o : Nat) : List (Matrix (Fin (nModes (faTy e) o)) (Fin (nModes e o)) ℝ) :=
  (proj e o).map (fun m => m.transpose * (massM e o)⁻¹)

/-- Written flux matrices (tools/edge_pre/edge_pre.py:554-565), `pre::dg::g_fluxLRaw`, `g_fluxNRaw` and `g_fluxTRaw`. -/
noncomputable def fluxLRaw (e : Ent) (o : Nat) : List ℝ := float3d (fluxL e o)
noncomputable def fluxNRaw (e : Ent) (o : Nat) : List ℝ := float3d (fluxN e o)
noncomputable def fluxTRaw (e : Ent) (o : Nat) : List ℝ := float3d (fluxT e o)

/-- `CE_N_FLUXN_MATRICES` (src/constants.hpp:178-184). -/
def nFluxN : Ent → Nat
  | .line => 2 | .quad => 4 | .tria => 3 | .hex => 6 | .tet => 12

section
variable {K : Type} [Field K]

/-- `Basis::getFluxDense` (src/dg/Basis.h:375-401). -/
def getFluxDense (rawL rawN rawT : List K) (e : Ent) (nEl nFa : Nat) : Option (List K × List K × List K) := do
  check (decide (rawL.length = e.nFa * nEl * nFa))
  check (decide (rawN.length = nFluxN e * nEl * nFa))
  check (decide (rawT.length = e.nFa * nEl * nFa))
  let l ← forN rawL.length (fun va o => do
    let v ← rd rawL va
    wr o va v) (List.replicate (e.nFa * nEl * nFa) 0)
  let n ← forN rawN.length (fun va o => do
    let v ← rd rawN va
    wr o va v) (List.replicate (nFluxN e * nEl * nFa) 0)
  let t ← forN rawT.length (fun va o => do
    let v ← rd rawT va
    wr o va v) (List.replicate (e.nFa * nEl * nFa) 0)
  some (l, n, t)

/-- One of the three loops of `SurfInt::storeFluxDense` (src/dg/SurfInt.hpp:101-112, 115-126, 129-140): `k` matrices with `n` rows and `m`
columns, whose pointers are stored from position `off` on. The state are the memory, the next entry `l_en` and the pointers, which are
positions in the memory. -/
def storeMats (src : List K) (k n m off : Nat) (s : List K × Nat × List Nat) : Option (List K × Nat × List Nat) :=
  forN k (fun fa s => do
    let p ← wr s.2.2 (off + fa) s.2.1
    forN n (fun m0 s => forN m (fun m1 s => do
      let v ← rd src (fa * (n * m) + m0 * m + m1)
      let r ← wr s.1 s.2.1 v
      some (r, s.2.1 + 1, s.2.2)) s) (s.1, s.2.1, p)) s

/-- `SurfInt::storeFluxDense` (src/dg/SurfInt.hpp:75-141, 154-178): the matrices of the pointers `o_fIntLN` and `o_fIntT`. A pointer is the memory from
its entry on. -/
def storeFluxDense (rawL rawN rawT : List K) (e : Ent) (nEl nFa : Nat) : Option (List (List K) × List (List K)) := do
  let (l, n, t) ← getFluxDense rawL rawN rawT e nEl nFa
  let mem := List.replicate (e.nFa * nEl * nFa + nFluxN e * nEl * nFa + e.nFa * nFa * nEl) (0 : K)
  let (mem, en, pLN) ← storeMats l e.nFa nEl nFa 0 (mem, 0, List.replicate (e.nFa + nFluxN e) 0)
  let (mem, en, pLN) ← storeMats n (nFluxN e) nEl nFa e.nFa (mem, en, pLN)
  let (mem, _, pT) ← storeMats t e.nFa nFa nEl 0 (mem, en, List.replicate e.nFa 0)
  some (pLN.map (fun p => mem.drop p), pT.map (fun p => mem.drop p))

end
end Edge.Flux
