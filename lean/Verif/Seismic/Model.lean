import Verif.Linalg.Model
import Verif.Seismic.Generated
/-!
Model of the elastic setup functions: `src/impl/seismic/setups/{Elasticity,ViscoElasticity}.cpp`, the Jacobians of
`src/impl/seismic/common.hpp` and the solvers of `src/impl/seismic/solvers/InternalBoundary.hpp`. `double` is idealised
by exact real numbers; a division by zero, which yields NaN or infinity in C++, is the outcome `none`.
-/
namespace Edge.Seismic
open Matrix Edge Edge.Linalg

/-! ### Wave speeds and Jacobians -/

/-- `common::getVelP` (src/impl/seismic/common.hpp:48-56). -/
noncomputable def getVelP (rho lam mu : ℝ) : ℝ := Real.sqrt ((lam + 2 * mu) / rho)

/-- `common::getVelS` (src/impl/seismic/common.hpp:66-73). -/
noncomputable def getVelS (rho mu : ℝ) : ℝ := Real.sqrt (mu / rho)

section
variable {K : Type} [Field K]

/-- `common::getJac2D` (src/impl/seismic/common.hpp:144-186). -/
def jac2 (rho lam mu : K) : Fin 2 → Matrix (Fin 5) (Fin 5) K := ![
  !![0, 0, 0, -lam - 2 * mu, 0;
     0, 0, 0, -lam, 0;
     0, 0, 0, 0, -mu;
     -1 / rho, 0, 0, 0, 0;
     0, 0, -1 / rho, 0, 0],
  !![0, 0, 0, 0, -lam;
     0, 0, 0, 0, -lam - 2 * mu;
     0, 0, 0, -mu, 0;
     0, 0, -1 / rho, 0, 0;
     0, -1 / rho, 0, 0, 0]]

/-- `common::getJac3D` (src/impl/seismic/common.hpp:198-279). -/
def jac3 (rho lam mu : K) : Fin 3 → Matrix (Fin 9) (Fin 9) K := ![
  !![0, 0, 0, 0, 0, 0, -lam - 2 * mu, 0, 0;
     0, 0, 0, 0, 0, 0, -lam, 0, 0;
     0, 0, 0, 0, 0, 0, -lam, 0, 0;
     0, 0, 0, 0, 0, 0, 0, -mu, 0;
     0, 0, 0, 0, 0, 0, 0, 0, 0;
     0, 0, 0, 0, 0, 0, 0, 0, -mu;
     -1 / rho, 0, 0, 0, 0, 0, 0, 0, 0;
     0, 0, 0, -1 / rho, 0, 0, 0, 0, 0;
     0, 0, 0, 0, 0, -1 / rho, 0, 0, 0],
  !![0, 0, 0, 0, 0, 0, 0, -lam, 0;
     0, 0, 0, 0, 0, 0, 0, -lam - 2 * mu, 0;
     0, 0, 0, 0, 0, 0, 0, -lam, 0;
     0, 0, 0, 0, 0, 0, -mu, 0, 0;
     0, 0, 0, 0, 0, 0, 0, 0, -mu;
     0, 0, 0, 0, 0, 0, 0, 0, 0;
     0, 0, 0, -1 / rho, 0, 0, 0, 0, 0;
     0, -1 / rho, 0, 0, 0, 0, 0, 0, 0;
     0, 0, 0, 0, -1 / rho, 0, 0, 0, 0],
  !![0, 0, 0, 0, 0, 0, 0, 0, -lam;
     0, 0, 0, 0, 0, 0, 0, 0, -lam;
     0, 0, 0, 0, 0, 0, 0, 0, -lam - 2 * mu;
     0, 0, 0, 0, 0, 0, 0, 0, 0;
     0, 0, 0, 0, 0, 0, 0, -mu, 0;
     0, 0, 0, 0, 0, 0, -mu, 0, 0;
     0, 0, 0, 0, 0, -1 / rho, 0, 0, 0;
     0, 0, 0, 0, -1 / rho, 0, 0, 0, 0;
     0, 0, -1 / rho, 0, 0, 0, 0, 0, 0]]

/-- `Elasticity::star`, 2D dense (src/impl/seismic/setups/Elasticity.cpp:86-134): after the reset to zero every listed
entry receives one addition (each entry occurs once for each direction `l_di`). -/
def star2 (rho lam mu : K) (jacInv : Fin 2 → Fin 2 → K) (di : Fin 2) : Matrix (Fin 5) (Fin 5) K :=
  let a := jacInv 0 di
  let b := jacInv 1 di
  !![0, 0, 0, 0 + (-lam - 2 * mu) * a, 0 + (-lam) * b;
     0, 0, 0, 0 + (-lam) * a, 0 + (-lam - 2 * mu) * b;
     0, 0, 0, 0 + (-mu) * b, 0 + (-mu) * a;
     0 + (-1 / rho) * a, 0, 0 + (-1 / rho) * b, 0, 0;
     0, 0 + (-1 / rho) * b, 0 + (-1 / rho) * a, 0, 0]

/-- `Elasticity::star`, 2D sparse (src/impl/seismic/setups/Elasticity.cpp:136-165): rows and columns of the stored
entries. -/
def starPos2 : List (Fin 5 × Fin 5) :=
  [(0, 3), (0, 4), (1, 3), (1, 4), (2, 3), (2, 4), (3, 0), (3, 2), (4, 1), (4, 2)]

def starSparse2 (rho lam mu : K) (jacInv : Fin 2 → Fin 2 → K) (di : Fin 2) : List K :=
  starPos2.map (fun p => star2 rho lam mu jacInv di p.1 p.2)

/-- `Elasticity::star`, 3D dense (src/impl/seismic/setups/Elasticity.cpp:167-252). -/
def star3 (rho lam mu : K) (jacInv : Fin 3 → Fin 3 → K) (di : Fin 3) : Matrix (Fin 9) (Fin 9) K :=
  let a := jacInv 0 di
  let b := jacInv 1 di
  let c := jacInv 2 di
  !![0, 0, 0, 0, 0, 0, 0 + (-lam - 2 * mu) * a, 0 + (-lam) * b, 0 + (-lam) * c;
     0, 0, 0, 0, 0, 0, 0 + (-lam) * a, 0 + (-lam - 2 * mu) * b, 0 + (-lam) * c;
     0, 0, 0, 0, 0, 0, 0 + (-lam) * a, 0 + (-lam) * b, 0 + (-lam - 2 * mu) * c;
     0, 0, 0, 0, 0, 0, 0 + (-mu) * b, 0 + (-mu) * a, 0;
     0, 0, 0, 0, 0, 0, 0, 0 + (-mu) * c, 0 + (-mu) * b;
     0, 0, 0, 0, 0, 0, 0 + (-mu) * c, 0, 0 + (-mu) * a;
     0 + (-1 / rho) * a, 0, 0, 0 + (-1 / rho) * b, 0, 0 + (-1 / rho) * c, 0, 0, 0;
     0, 0 + (-1 / rho) * b, 0, 0 + (-1 / rho) * a, 0 + (-1 / rho) * c, 0, 0, 0, 0;
     0, 0, 0 + (-1 / rho) * c, 0, 0 + (-1 / rho) * b, 0 + (-1 / rho) * a, 0, 0, 0]

/-- `Elasticity::star`, 3D sparse (src/impl/seismic/setups/Elasticity.cpp:254-301). -/
def starPos3 : List (Fin 9 × Fin 9) :=
  [(0, 6), (0, 7), (0, 8), (1, 6), (1, 7), (1, 8), (2, 6), (2, 7), (2, 8), (3, 6), (3, 7), (4, 7), (4, 8), (5, 6),
   (5, 8), (6, 0), (6, 3), (6, 5), (7, 1), (7, 3), (7, 4), (8, 2), (8, 4), (8, 5)]

def starSparse3 (rho lam mu : K) (jacInv : Fin 3 → Fin 3 → K) (di : Fin 3) : List K :=
  starPos3.map (fun p => star3 rho lam mu jacInv di p.1 p.2)
end

/-! ### Flux solvers -/

open Classical in
/-- Fails if a density or one of the two denominators of the elastic solvers vanishes (0/0 or x/0 in C++). -/
noncomputable def elasticDen (rhoL rhoR lamL lamR muL muR : ℝ) : Option Unit := do
  check (decide (rhoL ≠ 0))
  check (decide (rhoR ≠ 0))
  check (decide ((lamR + 2 * muR) * Real.sqrt ((lamL + 2 * muL) / rhoL) +
    (lamL + 2 * muL) * Real.sqrt ((lamR + 2 * muR) / rhoR) ≠ 0))
  check (decide (muR * Real.sqrt (muL / rhoL) + muL * Real.sqrt (muR / rhoR) ≠ 0))

open Classical in
/-- The same for the acoustic solvers. -/
noncomputable def acousticDen (rhoL rhoR lamL lamR : ℝ) : Option Unit := do
  check (decide (rhoL ≠ 0))
  check (decide (rhoR ≠ 0))
  check (decide (lamR * Real.sqrt (lamL / rhoL) + lamL * Real.sqrt (lamR / rhoR) ≠ 0))

open Classical in
/-- `Elasticity::setupFlMid`, 2D (src/impl/seismic/setups/Elasticity.cpp:30-46). -/
noncomputable def setupFlMid2 (rhoL rhoR lamL lamR muL muR : ℝ) : Option (Matrix (Fin 5) (Fin 5) ℝ) :=
  if muL > 0 ∧ muR > 0 then do
    elasticDen rhoL rhoR lamL lamR muL muR
    return flMidElastic2 rhoL rhoR lamL lamR muL muR
  else if muL = 0 ∧ muR = 0 then do
    acousticDen rhoL rhoR lamL lamR
    return flMidAcoustic2 rhoL rhoR lamL lamR muL muR
  else none

open Classical in
/-- `Elasticity::setupFrMid`, 2D (src/impl/seismic/setups/Elasticity.cpp:48-64). -/
noncomputable def setupFrMid2 (rhoL rhoR lamL lamR muL muR : ℝ) : Option (Matrix (Fin 5) (Fin 5) ℝ) :=
  if muL > 0 ∧ muR > 0 then do
    elasticDen rhoL rhoR lamL lamR muL muR
    return frMidElastic2 rhoL rhoR lamL lamR muL muR
  else if muL = 0 ∧ muR = 0 then do
    acousticDen rhoL rhoR lamL lamR
    return frMidAcoustic2 rhoL rhoR lamL lamR muL muR
  else none

/-- `Elasticity::setupFlMid`, 3D (src/impl/seismic/setups/Elasticity.cpp:66-74). -/
noncomputable def setupFlMid3 (rhoL rhoR lamL lamR muL muR : ℝ) : Option (Matrix (Fin 9) (Fin 9) ℝ) := do
  elasticDen rhoL rhoR lamL lamR muL muR
  return flMid3raw rhoL rhoR lamL lamR muL muR

/-- `Elasticity::setupFrMid`, 3D (src/impl/seismic/setups/Elasticity.cpp:76-84). -/
noncomputable def setupFrMid3 (rhoL rhoR lamL lamR muL muR : ℝ) : Option (Matrix (Fin 9) (Fin 9) ℝ) := do
  elasticDen rhoL rhoR lamL lamR muL muR
  return frMid3raw rhoL rhoR lamL lamR muL muR

/-- Row-major storage of a matrix in a C++ array. -/
def flat {K : Type} {m n : Nat} (a : Matrix (Fin m) (Fin n) K) : List K :=
  List.ofFn (fun p : Fin (m * n) => a p.divNat p.modNat)

/-- Mirroring of the free surface (src/impl/seismic/setups/Elasticity.cpp:356-363, 426-434): the given columns of all
`m` rows are multiplied with -1. -/
noncomputable def mirror (m n : Nat) (cols : List Nat) (a : List ℝ) : Option (List ℝ) :=
  forN m (fun ro (a : List ℝ) => cols.foldlM (fun (a : List ℝ) co => do
    let x ← rd a (ro * n + co)
    wr a (ro * n + co) (x * -1)) a) a

/-- Common part of the functions `fs` (src/impl/seismic/setups/Elasticity.cpp:334-369, 404-440; identical in
ViscoElasticity.cpp:473-506, 536-570 with `m` rows and `n` columns): `t` is `m`x`m`, the middle parts are
`m`x`n`, `tm1` is `n`x`n`. `junk` is the content of the uninitialised arrays. -/
noncomputable def fsApply (m n : Nat) (cols : List Nat) (fl fr t tm1 junk : List ℝ) (freeSurface : Bool) :
    Option (List ℝ × List ℝ) := do
  let tmpL ← matMulB0 m n m t fl junk
  let tmpR ← matMulB0 m n m t fr junk
  let fsL ← matMulB0 m n n tmpL tm1 junk
  let tmpR ← (if freeSurface then mirror m n cols tmpR else some tmpR)
  let fsR ← matMulB0 m n n tmpR tm1 junk
  return (fsL, fsR)

/-- `Elasticity::fs`, 2D (src/impl/seismic/setups/Elasticity.cpp:302-370). -/
noncomputable def fs2 (rhoL rhoR lamL lamR muL muR : ℝ) (t tm1 : Matrix (Fin 5) (Fin 5) ℝ) (junk : List ℝ)
    (freeSurface : Bool) : Option (List ℝ × List ℝ) := do
  let fl ← setupFlMid2 rhoL rhoR lamL lamR muL muR
  let fr ← setupFrMid2 rhoL rhoR lamL lamR muL muR
  fsApply 5 5 [0, 2] (flat fl) (flat fr) (flat t) (flat tm1) junk freeSurface

/-- `Elasticity::fs`, 3D (src/impl/seismic/setups/Elasticity.cpp:372-441). -/
noncomputable def fs3 (rhoL rhoR lamL lamR muL muR : ℝ) (t tm1 : Matrix (Fin 9) (Fin 9) ℝ) (junk : List ℝ)
    (freeSurface : Bool) : Option (List ℝ × List ℝ) := do
  let fl ← setupFlMid3 rhoL rhoR lamL lamR muL muR
  let fr ← setupFrMid3 rhoL rhoR lamL lamR muL muR
  fsApply 9 9 [0, 3, 5] (flat fl) (flat fr) (flat t) (flat tm1) junk freeSurface

/-! ### Viscoelastic flux solvers -/

open Classical in
/-- Fails if a denominator of the viscoelastic solvers vanishes or an assertion of `getVelP`, `getVelS` fails. -/
noncomputable def viscoDen (rhoL rhoR lamL lamR muL muR : ℝ) : Option Unit := do
  elasticDen rhoL rhoR lamL lamR muL muR
  check (decide ((lamL + 2 * muL) / rhoL > 0))
  check (decide ((lamR + 2 * muR) / rhoR > 0))
  check (decide (muL / rhoL > 0))
  check (decide (muR / rhoR > 0))
  check (decide (lamL + 2 * muL + rhoR * getVelP rhoL lamL muL * getVelP rhoR lamR muR ≠ 0))

/-- `ViscoElasticity::fsMid`, 2D (src/impl/seismic/setups/ViscoElasticity.cpp:318-374). -/
noncomputable def viscoMid2 (rhoL rhoR lamL lamR muL muR : ℝ) :
    Option (Matrix (Fin 3) (Fin 5) ℝ × Matrix (Fin 3) (Fin 5) ℝ) := do
  viscoDen rhoL rhoR lamL lamR muL muR
  let cpL := getVelP rhoL lamL muL
  let cpR := getVelP rhoR lamR muR
  let csL := getVelS rhoL muL
  let csR := getVelS rhoR muR
  return (
    !![cpL / (lamL + 2 * muL + rhoR * cpL * cpR), 0, 0, -(lamL + 2 * muL) / (lamL + 2 * muL + rhoR * cpL * cpR), 0;
       0, 0, 0, 0, 0;
       0, 0, csL * csR / (2 * muL * csR + 2 * muR * csL), 0, -muL * csR / (2 * muL * csR + 2 * muR * csL)],
    !![-cpL / (lamL + 2 * muL + rhoR * cpL * cpR), 0, 0,
         -cpL * (lamR + 2 * muR) / (cpR * (lamL + 2 * muL + rhoR * cpL * cpR)), 0;
       0, 0, 0, 0, 0;
       0, 0, -csL * csR / (2 * muL * csR + 2 * muR * csL), 0, -muR * csL / (2 * muL * csR + 2 * muR * csL)])

/-- `ViscoElasticity::fsMid`, 3D (src/impl/seismic/setups/ViscoElasticity.cpp:376-444). -/
noncomputable def viscoMid3 (rhoL rhoR lamL lamR muL muR : ℝ) :
    Option (Matrix (Fin 6) (Fin 9) ℝ × Matrix (Fin 6) (Fin 9) ℝ) := do
  viscoDen rhoL rhoR lamL lamR muL muR
  let cpL := getVelP rhoL lamL muL
  let cpR := getVelP rhoR lamR muR
  let csL := getVelS rhoL muL
  let csR := getVelS rhoR muR
  let dp := lamL * cpR + lamR * cpL + 2 * muL * cpR + 2 * muR * cpL
  let ds := 2 * muL * csR + 2 * muR * csL
  return (
    !![cpL * cpR / dp, 0, 0, 0, 0, 0, -cpR * (lamL + 2 * muL) / dp, 0, 0;
       0, 0, 0, 0, 0, 0, 0, 0, 0;
       0, 0, 0, 0, 0, 0, 0, 0, 0;
       0, 0, 0, csL * csR / ds, 0, 0, 0, -muL * csR / ds, 0;
       0, 0, 0, 0, 0, 0, 0, 0, 0;
       0, 0, 0, 0, 0, csL * csR / ds, 0, 0, -muL * csR / ds],
    !![-cpL * cpR / dp, 0, 0, 0, 0, 0, -cpL * (lamR + 2 * muR) / dp, 0, 0;
       0, 0, 0, 0, 0, 0, 0, 0, 0;
       0, 0, 0, 0, 0, 0, 0, 0, 0;
       0, 0, 0, -csL * csR / ds, 0, 0, 0, -muR * csL / ds, 0;
       0, 0, 0, 0, 0, 0, 0, 0, 0;
       0, 0, 0, 0, 0, -csL * csR / ds, 0, 0, -muR * csL / ds])

/-- `ViscoElasticity::fs`, 2D (src/impl/seismic/setups/ViscoElasticity.cpp:446-507). -/
noncomputable def viscoFs2 (rhoL rhoR lamL lamR muL muR : ℝ) (tA : Matrix (Fin 3) (Fin 3) ℝ)
    (tm1 : Matrix (Fin 5) (Fin 5) ℝ) (junk : List ℝ) (freeSurface : Bool) : Option (List ℝ × List ℝ) := do
  let mid ← viscoMid2 rhoL rhoR lamL lamR muL muR
  fsApply 3 5 [0, 2] (flat mid.1) (flat mid.2) (flat tA) (flat tm1) junk freeSurface

/-- `ViscoElasticity::fs`, 3D (src/impl/seismic/setups/ViscoElasticity.cpp:509-571). -/
noncomputable def viscoFs3 (rhoL rhoR lamL lamR muL muR : ℝ) (tA : Matrix (Fin 6) (Fin 6) ℝ)
    (tm1 : Matrix (Fin 9) (Fin 9) ℝ) (junk : List ℝ) (freeSurface : Bool) : Option (List ℝ × List ℝ) := do
  let mid ← viscoMid3 rhoL rhoR lamL lamR muL muR
  fsApply 6 9 [0, 3, 5] (flat mid.1) (flat mid.2) (flat tA) (flat tm1) junk freeSurface

/-! ### Flux solvers of a face -/

/-- Flux solvers of one side of a face as stored: elastic for the own and the neighboring DOFs, and, if there are
relaxation mechanisms, anelastic ones. -/
structure FaceFs where
  el : List ℝ
  er : List ℝ
  an : Option (List ℝ × List ℝ)

/-- `AderDgInit::setUpFs`, 2D (src/impl/seismic/solvers/AderDgInit.hpp:193-261). `visco`: the pointers of the anelastic
solvers are not null. `jE`, `jA`: contents of the uninitialised arrays. The copies of the loops 227-231 and 256-259 are
the returned lists. -/
noncomputable def setUpFs2 (rhoL rhoR lamL lamR muL muR nx ny : ℝ) (visco : Bool) (jE jA : List ℝ)
    (freeSurface : Bool) : Option FaceFs := do
  let tE := trafo2 nx ny
  let tA : Matrix (Fin 3) (Fin 3) ℝ := Matrix.of (fun q0 q1 => tE (q0.castLE (by omega)) (q1.castLE (by omega)))
  let tm1 := trafoInv2 nx ny
  let e ← fs2 rhoL rhoR lamL lamR muL muR tE tm1 jE freeSurface
  if visco then do
    let a ← viscoFs2 rhoL rhoR lamL lamR muL muR tA tm1 jA freeSurface
    return ⟨e.1, e.2, some a⟩
  else return ⟨e.1, e.2, none⟩

/-- `AderDgInit::setUpFs`, 3D (src/impl/seismic/solvers/AderDgInit.hpp:288-369). -/
noncomputable def setUpFs3 (rhoL rhoR lamL lamR muL muR nx ny nz sx sy sz tx ty tz : ℝ) (visco : Bool) (jE jA : List ℝ)
    (freeSurface : Bool) : Option FaceFs := do
  let tE := trafo3 nx ny nz sx sy sz tx ty tz
  let tA : Matrix (Fin 6) (Fin 6) ℝ := Matrix.of (fun q0 q1 => tE (q0.castLE (by omega)) (q1.castLE (by omega)))
  let tm1 := trafoInv3 nx ny nz sx sy sz tx ty tz
  let e ← fs3 rhoL rhoR lamL lamR muL muR tE tm1 jE freeSurface
  if visco then do
    let a ← viscoFs3 rhoL rhoR lamL lamR muL muR tA tm1 jA freeSurface
    return ⟨e.1, e.2, some a⟩
  else return ⟨e.1, e.2, none⟩

end Edge.Seismic
