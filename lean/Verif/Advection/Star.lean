import Verif.Map.Model
import Verif.Linalg.Model

/-!
Model of the star matrices of the advection equation (/repo/src/impl/advection/solvers/AderDg.hpp lines 144-178).
-/
namespace Edge.Advection
open Edge Edge.Map

variable {K : Type} [Field K] [LinearOrder K]

/-- `setupStarM` for an element, 2D (AderDg.hpp:152-177): `tol` is the limit for the determinant in the inversion, `a` and `b` are
the velocities. -/
def starM2 (tol : K) (ves : Nat → Nat → K) (a b : K) : Option (List K) := do
  let jacInv ← Linalg.inv2 tol (fun i j : Fin 2 => evalJac .tria ves i j)
  return (List.finRange 2).map (fun di => a * jacInv 0 di + b * jacInv 1 di)

/-- `setupStarM` for an element, 3D (AderDg.hpp:152-177). -/
def starM3 (tol : K) (ves : Nat → Nat → K) (a b c : K) : Option (List K) := do
  let jacInv ← Linalg.inv3 tol (fun i j : Fin 3 => evalJac .tet ves i j)
  return (List.finRange 3).map (fun di => a * jacInv 0 di + b * jacInv 1 di + c * jacInv 2 di)

end Edge.Advection
