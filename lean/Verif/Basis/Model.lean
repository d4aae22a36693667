import Verif.Basis.GenLine
import Verif.Basis.GenTria
import Verif.Basis.GenTet
import Verif.Basis.GenTetDer1
import Verif.Basis.GenTetDer2
import Verif.Basis.GenTetDer3
import Verif.Map.Model
/-!
Evaluation of the basis functions (`src/dg/Basis.cpp`).

Simplifications: numbers are those of a field `K` instead of floating point numbers. A failed assertion on the number of the
function, a division by zero (also that by an order of zero) is `none`.
-/
namespace Edge.Basis
open Edge Edge.Map

variable {K : Type} [Field K] [DecidableEq K]

/-- Value of the function `b` of a list; `none` if the assertion at the beginning of the generated files fails. -/
def evalList (l : List Ex) (b : Nat) (xi1 xi2 xi3 : K) : Option K := do
  let e ← l[b]?
  e.eval xi1 xi2 xi3

/-- `evalBasisLine` (src/dg/Basis.cpp:233-237, src/dg/generated/basis_line.inc). -/
def evalBasisLine (b : Nat) (xi : K) : Option K := evalList lineVal b xi 0 0

/-- `evalBasisDerLine` (src/dg/Basis.cpp:239-243, src/dg/generated/basis_line_der.inc). -/
def evalBasisDerLine (b : Nat) (xi : K) : Option K := evalList lineDer b xi 0 0

/-- Factor of the direction `d` (the branches of src/dg/Basis.cpp:259-271 and 343-362). -/
def evalDim (der d : Int) (b : Nat) (xi : K) : Option K := if der = d then evalBasisDerLine b xi else evalBasisLine b xi

/-- `evalBasisQuad` (src/dg/Basis.cpp:245-274). -/
def evalBasisQuad (b : Nat) (xi eta : K) (der : Int) (order : Nat) : Option K := do
  check (order ≠ 0)
  let v0 ← evalDim der 0 (b % order) xi
  let v1 ← evalDim der 1 (b / order) eta
  return v0 * v1

/-- `evalBasisTria` (src/dg/Basis.cpp:276-297, src/dg/generated/basis_tria*.inc). -/
def evalBasisTria (b : Nat) (xi1 xi2 : K) (der : Int) : Option K :=
  if der = 0 then evalList triaDer1 b xi1 xi2 0
  else if der = 1 then evalList triaDer2 b xi1 xi2 0
  else evalList triaVal b xi1 xi2 0

/-- `evalBasisTet` (src/dg/Basis.cpp:299-325, src/dg/generated/basis_tet*.inc). -/
def evalBasisTet (b : Nat) (xi1 xi2 xi3 : K) (der : Int) : Option K :=
  if der = 0 then evalList tetDer1 b xi1 xi2 xi3
  else if der = 1 then evalList tetDer2 b xi1 xi2 xi3
  else if der = 2 then evalList tetDer3 b xi1 xi2 xi3
  else evalList tetVal b xi1 xi2 xi3

/-- `evalBasisHex` (src/dg/Basis.cpp:327-365). -/
def evalBasisHex (b : Nat) (xi eta zeta : K) (der : Int) (order : Nat) : Option K := do
  check (order ≠ 0)
  let v0 ← evalDim der 0 (b % order) xi
  let v1 ← evalDim der 1 (b % (order * order) / order) eta
  let v2 ← evalDim der 2 (b / (order * order)) zeta
  return v0 * v1 * v2

/-- `evalBasis` (src/dg/Basis.cpp:367-419; the variant of 421-471 takes the coordinates from an array). -/
def evalBasis (b : Nat) (e : Ent) (xi eta zeta : K) (der : Int) (order : Nat) : Option K :=
  match e with
  | .line => if der ≠ 1 then evalBasisLine b xi else evalBasisDerLine b xi
  | .quad => evalBasisQuad b xi eta der order
  | .tria => evalBasisTria b xi eta der
  | .hex => evalBasisHex b xi eta zeta der order
  | .tet => evalBasisTet b xi eta zeta der

end Edge.Basis
