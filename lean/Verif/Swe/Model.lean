import Verif.Util.Loop
import Mathlib.Analysis.SpecialFunctions.Pow.Real
/-!
Model of the shallow water solver: `src/impl/swe/solvers/{Fwave,FiniteVolume}.hpp`. Real numbers instead of floating
point numbers; the square root of a negative number and a division by zero (NaN, infinity in C++) are the outcome `none`.
All loops over the fused simulations are independent; one simulation is modelled.
-/
namespace Edge.Swe
open Edge

/-! ### Fwave.hpp -/

/-- Default of the gravity constant (src/impl/swe/solvers/Fwave.hpp:64, 201). -/
noncomputable def gDef : ℝ := 9.80665

open Classical in
/-- `Fwave::evs` (src/impl/swe/solvers/Fwave.hpp:58-94). -/
noncomputable def evs (hL hR uL uR g : ℝ) : Option (ℝ × ℝ) := do
  check (decide (g * hL ≥ 0))
  check (decide (g * hR ≥ 0))
  check (decide (hL ≥ 0))
  check (decide (hR ≥ 0))
  let charL := uL - Real.sqrt (g * hL)
  let charR := uR + Real.sqrt (g * hR)
  let hSqrtL := Real.sqrt hL
  let hSqrtR := Real.sqrt hR
  let hRoe := 0.5 * (hL + hR)
  check (decide (hSqrtL + hSqrtR ≠ 0))
  let uRoe := (hSqrtL * uL + hSqrtR * uR) / (hSqrtL + hSqrtR)
  check (decide (g * hRoe ≥ 0))
  let ghSqrtRoe := Real.sqrt (g * hRoe)
  let roeL := uRoe - ghSqrtRoe
  let roeR := uRoe + ghSqrtRoe
  return (min charL roeL, max charR roeR)

open Classical in
/-- `Fwave::waveStrengths` (src/impl/swe/solvers/Fwave.hpp:105-130). -/
noncomputable def waveStrengths (fJump lam : ℝ × ℝ) : Option (ℝ × ℝ) := do
  check (decide (lam.2 - lam.1 ≠ 0))
  let adMbc := 1 / (lam.2 - lam.1)
  let iR00 := adMbc * lam.2
  let iR01 := -adMbc
  let iR10 := -adMbc * lam.1
  let iR11 := adMbc
  return (iR00 * fJump.1 + iR01 * fJump.2, iR10 * fJump.1 + iR11 * fJump.2)

open Classical in
/-- `Fwave::nus` (src/impl/swe/solvers/Fwave.hpp:142-175): left and right net-updates. -/
noncomputable def nus (lam beta : ℝ × ℝ) : (ℝ × ℝ) × (ℝ × ℝ) :=
  let s : (ℝ × ℝ) × (ℝ × ℝ) := ((0, 0), (0, 0))
  let s := if lam.1 < 0 then ((s.1.1 + beta.1, s.1.2 + beta.1 * lam.1), s.2)
           else (s.1, (s.2.1 + beta.1, s.2.2 + beta.1 * lam.1))
  if lam.2 > 0 then (s.1, (s.2.1 + beta.2, s.2.2 + beta.2 * lam.2))
  else ((s.1.1 + beta.2, s.1.2 + beta.2 * lam.2), s.2)

open Classical in
/-- `Fwave::nusN` (src/impl/swe/solvers/Fwave.hpp:193-246). The gravity is not passed on to `evs` (lines 223-225). -/
noncomputable def nusN (hL hR huL huR bL bR g : ℝ) : Option ((ℝ × ℝ) × (ℝ × ℝ)) := do
  check (decide (hL ≠ 0))
  check (decide (hR ≠ 0))
  let uL := huL / hL
  let uR := huR / hR
  let lam ← evs hL hR uL uR gDef
  let fJump0 := huR - huL
  let fJump1 := huR * uR + 0.5 * g * hR * hR
  let fJump1 := fJump1 - (huL * uL + 0.5 * g * hL * hL)
  let fJump1 := fJump1 + 0.5 * g * (hR + hL) * (bR - bL)
  let beta ← waveStrengths (fJump0, fJump1) lam
  return nus lam beta

/-! ### FiniteVolume.hpp -/

/-- Sparse types of the faces (src/impl/swe/const.inc:41-42). -/
def REFLECTING : Nat := 101
def OUTFLOW : Nat := 105

/-- The parts of the mesh used by the solver: `faEl` (the second entry is `none` if it is the invalid id), `elFa`, normal,
area and sparse type of the faces, volume of the elements. Out of bounds ids are excluded by the types. -/
structure Mesh (nEl nFa nAd d : Nat) where
  faEl : Fin nFa → Fin nEl × Option (Fin nEl)
  elFa : Fin nEl → Fin nAd → Fin nFa
  normal : Fin nFa → Fin d → ℝ
  area : Fin nFa → ℝ
  spType : Fin nFa → Nat
  vol : Fin nEl → ℝ

/-- Degrees of freedom of an element: water height and momentum. -/
structure Dofs (d : Nat) where
  h : ℝ
  hu : Fin d → ℝ

variable {nEl nFa nAd d : Nat}

/-- Momentum in direction of a normal (src/impl/swe/solvers/FiniteVolume.hpp:134-138). -/
noncomputable def huN (n : Fin d → ℝ) (q : Dofs d) : ℝ := ∑ di, n di * q.hu di

/-- One side of a face: height, normal momentum, bathymetry. -/
structure Side where
  h : ℝ
  hu : ℝ
  b : ℝ

/-- `FiniteVolume::qtsLr` (src/impl/swe/solvers/FiniteVolume.hpp:109-163). -/
noncomputable def qtsLr (spType : Nat) (elsAd : Fin nEl × Option (Fin nEl)) (n : Fin d → ℝ) (dofs : Fin nEl → Dofs d)
    (bath : Fin nEl → ℝ) : Option (Side × Side) := do
  let l : Side := ⟨(dofs elsAd.1).h, huN n (dofs elsAd.1), bath elsAd.1⟩
  if spType &&& OUTFLOW = OUTFLOW then return (l, l)
  else if spType &&& REFLECTING = REFLECTING then return (l, ⟨l.h, -l.hu, l.b⟩)
  else do
    let r ← elsAd.2
    return (l, ⟨(dofs r).h, huN n (dofs r), bath r⟩)

open Classical in
/-- Body of the loop of `FiniteVolume::nusN` for one face (src/impl/swe/solvers/FiniteVolume.hpp:231-309). -/
noncomputable def faceNus (m : Mesh nEl nFa nAd d) (dofs : Fin nEl → Dofs d) (bath : Fin nEl → ℝ) (fa : Fin nFa) :
    Option ((ℝ × ℝ) × (ℝ × ℝ)) := do
  let (l, r) ← qtsLr (m.spType fa) (m.faEl fa) (m.normal fa) dofs bath
  let sol : Option (Side × Side) :=
    if l.b < 0 ∧ r.b < 0 then some (l, r)
    else if r.b < 0 then some (⟨r.h, -r.hu, r.b⟩, r)
    else if l.b < 0 then some (l, ⟨l.h, -l.hu, l.b⟩)
    else none
  match sol with
  | none => return ((0, 0), (0, 0))
  | some (sl, sr) => do
    let s ← nusN sl.h sr.h sl.hu sr.hu sl.b sr.b gDef
    let s := if l.b ≥ 0 then ((0, 0), s.2) else s
    let s := if r.b ≥ 0 then (s.1, (0, 0)) else s
    return s

open Classical in
/-- Body of the loop of `FiniteVolume::update` for one element (src/impl/swe/solvers/FiniteVolume.hpp:344-378). -/
noncomputable def updateEl (m : Mesh nEl nFa nAd d) (dT : ℝ) (ns : Fin nFa → (ℝ × ℝ) × (ℝ × ℝ)) (el : Fin nEl)
    (q : Dofs d) : Dofs d :=
  let sca := dT * (1 / m.vol el)
  (List.finRange nAd).foldl (fun q ad =>
    let fa := m.elFa el ad
    let scaFa := sca * m.area fa
    let s := if (m.faEl fa).1 ≠ el then (ns fa).2 else (ns fa).1
    ⟨q.h - scaFa * s.1, fun di => q.hu di - scaFa * m.normal fa di * s.2⟩) q

open Classical in
/-- Runs a loop body whose iterations are independent for all `i`; fails if one of them fails. -/
noncomputable def forAll {A : Type} {n : Nat} (f : Fin n → Option A) : Option (Fin n → A) :=
  if h : ∀ i, (f i).isSome then some (fun i => (f i).get (h i)) else none

open Classical in
/-- A time step: `nusN` for all faces followed by `update` of all elements
(src/impl/swe/inc/time/tgs_steps.inc, man_sched.inc: the elements are updated after all faces are done). -/
noncomputable def step (m : Mesh nEl nFa nAd d) (dT : ℝ) (bath : Fin nEl → ℝ) (dofs : Fin nEl → Dofs d) :
    Option (Fin nEl → Dofs d) := do
  let ns ← forAll (faceNus m dofs bath)
  check (decide (∀ el, m.vol el ≠ 0))
  return fun el => updateEl m dT ns el (dofs el)

end Edge.Swe
