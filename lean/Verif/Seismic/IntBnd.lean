import Verif.Seismic.RotMat
import Verif.Seismic.Flux
import Verif.Seismic.Friction
/-!
Model of the internal boundary solvers (`src/impl/seismic/solvers/InternalBoundary.hpp`) and of the setup of the slip
weakening law (`src/impl/seismic/setups/RuptureInit.hpp`) over the real numbers. One face, one sub-face and one fused run:
the code treats faces, sub-faces and runs independently.
-/
namespace Edge.Seismic
open Matrix Classical

/-- Solvers of a face: transformation to the fault-aligned frame, jump to the middle state, flux left and right
(`o_solversSp[4]`). -/
structure Ib (k : Nat) where
  tm1 : Matrix (Fin k) (Fin k) ℝ
  jump : Matrix (Fin k) (Fin k) ℝ
  fluxL : Matrix (Fin k) (Fin k) ℝ
  fluxR : Matrix (Fin k) (Fin k) ℝ

/-- Is the normal of the face in the preferred direction
(src/impl/seismic/solvers/InternalBoundary.hpp:524-531 in 2D, 781-789 in 3D). -/
noncomputable def ibPref {k : Nat} (tol : ℝ) (bnd : Option (Fin k → ℝ)) (n : Fin k → ℝ) : Option Bool :=
  match bnd with
  | none => some true
  | some b => do
    check (decide (|b ⬝ᵥ n| > tol))
    some (decide (b ⬝ᵥ n > 0))

/-- Scaling of a flux solver (src/impl/seismic/solvers/InternalBoundary.hpp:589-594 in 2D, 903-908 in 3D). -/
noncomputable def ibSca (area vol nSfs nScs : ℝ) (pref : Bool) : Option ℝ := do
  check (decide (nSfs ≠ 0 ∧ nScs ≠ 0 ∧ vol ≠ 0))
  let sca := area / nSfs
  let sca := sca / (vol / nScs)
  some (if pref then sca else -sca)

/-- Setup of a face in 2D (src/impl/seismic/solvers/InternalBoundary.hpp:509-605), both elements present. The denominators
in the jump solvers are the ones of the flux solvers. -/
noncomputable def ibInit2 (tol : ℝ) (bnd : Option (Fin 2 → ℝ)) (l r : Material) (n : Fin 2 → ℝ)
    (area volL volR nSfs nScs : ℝ) : Option (Ib 5) := do
  let pref ← ibPref tol bnd n
  let dir := if pref then n else -n
  elasticDen l.rho r.rho l.lam r.lam l.mu r.mu
  let jump := if pref then msJumpL2 l.rho r.rho l.lam r.lam l.mu r.mu
    else -msJumpR2 r.rho l.rho r.lam l.lam r.mu l.mu
  let scaL ← ibSca area volL nSfs nScs pref
  let scaR ← ibSca area volR nSfs nScs pref
  some ⟨trafoInv2 (dir 0) (dir 1), jump, scaL • msFlux2 (dir 0) (dir 1) l.rho l.lam l.mu,
    scaR • msFlux2 (dir 0) (dir 1) r.rho r.lam r.mu⟩

/-- Frame of a face in 3D (src/impl/seismic/solvers/InternalBoundary.hpp:754-824). -/
noncomputable def ibFrame3 (tol : ℝ) (bnd : Option ((Fin 3 → ℝ) × (Fin 3 → ℝ) × (Fin 3 → ℝ))) (n t0 t1 : Fin 3 → ℝ) :
    Option (Bool × (Fin 3 → ℝ) × (Fin 3 → ℝ) × (Fin 3 → ℝ)) :=
  match bnd with
  | none => some (true, n, t0, t1)
  | some (b0, b1, b2) => do
    check (decide (|norm3 b0 - 1| < tol))
    check (decide (|norm3 b1 - 1| < tol))
    check (decide (|norm3 b2 - 1| < tol))
    let pref ← ibPref tol (some b0) n
    let dir := if pref then n else -n
    let rm ← rotMat tol b0 dir
    let s := rm *ᵥ b1
    let t := rm *ᵥ b2
    check (decide (|sprod3 dir s| < tol))
    check (decide (|sprod3 dir t| < tol))
    check (decide (|sprod3 s t| < tol))
    check (decide (|norm3 dir - 1| < tol))
    check (decide (|norm3 s - 1| < tol))
    check (decide (|norm3 t - 1| < tol))
    some (pref, dir, s, t)

/-- Setup of a face in 3D (src/impl/seismic/solvers/InternalBoundary.hpp:754-919), both elements present. -/
noncomputable def ibInit3 (tol : ℝ) (bnd : Option ((Fin 3 → ℝ) × (Fin 3 → ℝ) × (Fin 3 → ℝ))) (l r : Material)
    (n t0 t1 : Fin 3 → ℝ) (area volL volR nSfs nScs : ℝ) : Option (Ib 9) := do
  let (pref, d, s, t) ← ibFrame3 tol bnd n t0 t1
  check (decide ((frame3 (d 0) (d 1) (d 2) (s 0) (s 1) (s 2) (t 0) (t 1) (t 2)).det ≠ 0))
  elasticDen l.rho r.rho l.lam r.lam l.mu r.mu
  let jump := if pref then msJumpL3 l.rho r.rho l.lam r.lam l.mu r.mu
    else -msJumpR3 r.rho l.rho r.lam l.lam r.mu l.mu
  let scaL ← ibSca area volL nSfs nScs pref
  let scaR ← ibSca area volR nSfs nScs pref
  some ⟨trafoInv3 (d 0) (d 1) (d 2) (s 0) (s 1) (s 2) (t 0) (t 1) (t 2), jump,
    scaL • msFlux3 (d 0) (d 1) (d 2) (s 0) (s 1) (s 2) (t 0) (t 1) (t 2) l.rho l.lam l.mu,
    scaR • msFlux3 (d 0) (d 1) (d 2) (s 0) (s 1) (s 2) (t 0) (t 1) (t 2) r.rho r.lam r.mu⟩

/-- `InternalBoundary::netUpdates` (src/impl/seismic/solvers/InternalBoundary.hpp:188-285): net-updates of the left and the
right element; `pert` is the solver perturbing the middle state. -/
def netUpdates {k : Nat} {O : Type} (s : Ib k) (dt : ℝ) (pert : (Fin k → ℝ) → (Fin k → ℝ) × (Fin k → ℝ) × O)
    (qL qR : Fin k → ℝ) : (Fin k → ℝ) × (Fin k → ℝ) × O :=
  let a := s.tm1 *ᵥ qL
  let b := s.tm1 *ᵥ qR
  let jump := fun i => b i - a i
  let ms := a + s.jump *ᵥ jump
  let p := pert ms
  (s.fluxL *ᵥ (fun i => -p.1 i * dt), s.fluxR *ᵥ (fun i => p.2.1 i * dt), p.2.2)

/-- Per-run parameters of the law (src/impl/seismic/setups/RuptureInit.hpp:173-180). -/
noncomputable def lswGlobal (tol : ℝ) (p : Fin 3 → ℝ) : Option (ℝ × ℝ × ℝ) := do
  check (decide (p 0 > tol))
  check (decide (p 1 > tol))
  check (decide (p 2 > tol))
  some (p 0, p 1, 1 / p 2)

/-- Face-local parameters of the law (src/impl/seismic/setups/RuptureInit.hpp:194-206): is the left side the minus side,
shear wave speed over shear modulus of the minus and of the plus side. -/
noncomputable def lswFace {k : Nat} (tol : ℝ) (b n : Fin k → ℝ) (l r : Material) : Option (Bool × ℝ × ℝ) := do
  let sProd := b ⬝ᵥ n
  check (decide (|sProd| > tol))
  let lEqM := decide (sProd < 0)
  check (decide (l.mu * l.rho ≠ 0 ∧ r.mu * r.rho ≠ 0))
  let csL := Real.sqrt (1 / (l.mu * l.rho))
  let csR := Real.sqrt (1 / (r.mu * r.rho))
  some (lEqM, if lEqM then csL else csR, if lEqM then csR else csL)

/-- Initial stress and friction data of a sub-face in 2D (src/impl/seismic/setups/RuptureInit.hpp:252-293): `big` is the
largest floating point number, `fault` the data-based input (normal stress, cohesion, shear stress), `doms` the domains
(does it contain the face, normal stress, shear stress) in their order. -/
noncomputable def lswInit2 (big mus : ℝ) (fault : Option (ℝ × ℝ × ℝ)) (doms : List (Bool × ℝ × ℝ)) : Sf2 :=
  let sf : Sf2 := ⟨big, 0, big, big, 0⟩
  let sf := match fault with
    | none => sf
    | some (sn, co, ss) => { sf with sn0 := sn, co0 := co, ss0 := ss }
  match doms.find? (fun x => x.1) with
  | none => sf
  | some (_, sn, ss) => { sf with sn0 := sn, ss0 := ss, muf := mus }

/-- The same in 3D. -/
noncomputable def lswInit3 (big mus : ℝ) (fault : Option (ℝ × ℝ × (ℝ × ℝ))) (doms : List (Bool × ℝ × (ℝ × ℝ))) : Sf3 :=
  let sf : Sf3 := ⟨big, 0, (big, big), big, (0, 0)⟩
  let sf := match fault with
    | none => sf
    | some (sn, co, ss) => { sf with sn0 := sn, co0 := co, ss0 := ss }
  match doms.find? (fun x => x.1) with
  | none => sf
  | some (_, sn, ss) => { sf with sn0 := sn, ss0 := ss, muf := mus }

end Edge.Seismic
