import Lean.Elab.Term
import Mathlib.Algebra.Field.Basic
/-!
Arithmetic expressions of the generated basis functions (src/dg/generated/*.inc).

The expressions are kept as syntax, in the code's form. Their values are those in a field; a division by zero is `none`.
-/
namespace Edge.Basis

/-- Expressions in the reference coordinates. Powers are those of `std::pow` with a literal exponent. -/
inductive Ex where
  | num (n : Nat)
  | x
  | y
  | z
  | neg (a : Ex)
  | add (a b : Ex)
  | sub (a b : Ex)
  | mul (a b : Ex)
  | div (a b : Ex)
  | pow (a : Ex) (n : Nat)

/-- Value of an expression; `none` if it divides by zero. -/
def Ex.eval {K : Type} [Field K] [DecidableEq K] (x y z : K) : Ex → Option K
  | .num n => some n
  | .x => some x
  | .y => some y
  | .z => some z
  | .neg a => do let a ← a.eval x y z; return -a
  | .add a b => do let a ← a.eval x y z; let b ← b.eval x y z; return a + b
  | .sub a b => do let a ← a.eval x y z; let b ← b.eval x y z; return a - b
  | .mul a b => do let a ← a.eval x y z; let b ← b.eval x y z; return a * b
  | .div a b => do let a ← a.eval x y z; let b ← b.eval x y z; if b = 0 then none else return a / b
  | .pow a n => do let a ← a.eval x y z; return a ^ n

/-! ### Notation: the text of the code's expressions -/

declare_syntax_cat bex
syntax num : bex
syntax ident : bex
syntax "(" bex ")" : bex
syntax "std::pow(" bex ", " num ")" : bex
syntax:75 "-" bex:75 : bex
syntax:70 bex:70 "*" bex:71 : bex
syntax:70 bex:70 "/" bex:71 : bex
syntax:65 bex:65 " + " bex:66 : bex
syntax:65 bex:65 " - " bex:66 : bex

open Lean Elab in
/-- Translation of the notation to expressions. -/
partial def toEx (s : TSyntax `bex) : Except String Lean.Expr :=
  match s with
  | `(bex| $n:num) => return mkApp (mkConst ``Ex.num) (mkNatLit n.getNat)
  | `(bex| $i:ident) =>
    match i.getId with
    | `xi | `xi_1 => return mkConst ``Ex.x
    | `xi_2 => return mkConst ``Ex.y
    | `xi_3 => return mkConst ``Ex.z
    | n => throw s!"unknown variable {n}"
  | `(bex| ($a)) => toEx a
  | `(bex| std::pow($a, $n)) => do return mkApp2 (mkConst ``Ex.pow) (← toEx a) (mkNatLit n.getNat)
  | `(bex| -$a) => do return mkApp (mkConst ``Ex.neg) (← toEx a)
  | `(bex| $a * $b) => do return mkApp2 (mkConst ``Ex.mul) (← toEx a) (← toEx b)
  | `(bex| $a / $b) => do return mkApp2 (mkConst ``Ex.div) (← toEx a) (← toEx b)
  | `(bex| $a + $b) => do return mkApp2 (mkConst ``Ex.add) (← toEx a) (← toEx b)
  | `(bex| $a - $b) => do return mkApp2 (mkConst ``Ex.sub) (← toEx a) (← toEx b)
  | _ => throw "unknown expression"

syntax bexLine := num " => " bex ";"

/-- `exs%` is the list of the given expressions; the numbers must be 0, 1, 2, … -/
syntax "exs%" "{" bexLine* "}" : term

open Lean Elab in
elab_rules : term
  | `(exs% { $ls* }) => do
    let ty := mkConst ``Ex
    let mut es : Array Lean.Expr := #[]
    for l in ls do
      let `(bexLine| $n => $e ;) := l | throwUnsupportedSyntax
      unless n.getNat == es.size do throwError "expected number {es.size}"
      match toEx e with
      | .ok e => es := es.push e
      | .error m => throwError m
    return es.foldr (fun e l => mkApp3 (mkConst ``List.cons [Level.zero]) ty e l) (mkApp (mkConst ``List.nil [Level.zero]) ty)

end Edge.Basis
