import Verif.Util.Loop
import Verif.Map.Inside
import Verif.Seismic.Flux
/-!
Model of the set-up of all flux solvers of a mesh: `AderDgInit::initFs` (src/impl/seismic/solvers/AderDgInit.hpp:394-665).
Real numbers. `std::numeric_limits::max()`, which stands for missing elements, missing ids and values not set yet, is `none`.
-/
namespace Edge.Fs
open Edge Edge.Seismic

/-- Characteristics of a face (`t_faceChars`, src/data/EntityLayout.type / constants): the bits of the sparse type which the function tests are given as booleans. -/
structure FaChars where
  n : Fin 3 → ℝ
  s : Fin 3 → ℝ
  t : Fin 3 → ℝ
  area : ℝ
  periodic : Bool
  outflow : Bool
  freeSurface : Bool

/-- Arguments of `initFs` (src/impl/seismic/solvers/AderDgInit.hpp:396-411). `recv`: pairs of `i_recvEl` and `i_recvFa`. `elFa` and `elVe` are stored row by row. -/
structure In where
  ty : Map.Ent
  nElsIn : Nat
  nElsSe : Nat
  nFas : Nat
  recv : List (Nat × Nat)
  faEl : List (Option Nat × Option Nat)
  elVe : List Nat
  elFa : List Nat
  veCrds : List (Fin 3 → ℝ)
  faChars : List FaChars
  bgPars : List Material
  bgParsRe : List Material

/-- Number of elements (AderDgInit.hpp:414). -/
def In.nEls (I : In) : Nat := I.nElsIn + I.nElsSe

/-- Local id of the face in the element (AderDgInit.hpp:452-466); `some none` if the element does not exist or does not have the face. -/
def findFa (I : In) (el : Option Nat) (fa : Nat) : Option (Option Nat) :=
  match el with
  | none => some none
  | some el => forN I.ty.nFa (fun fi r => do
      if (← rd I.elFa (el * I.ty.nFa + fi)) = fa then do
        check r.isNone
        return some fi
      else return r) none

/-- `mesh::common::getElVeCrds` (src/mesh/common.hpp:78-90): dimensions × vertices. -/
noncomputable def getElVeCrds (I : In) (el : Nat) : Option (Nat → Nat → ℝ) := do
  let l ← (List.range I.ty.nVe).mapM (fun ve => do rd I.veCrds (← rd I.elVe (el * I.ty.nVe + ve)))
  return fun d v => if h : d < 3 then (l.getD v 0) ⟨d, h⟩ else 0

/-- Determinant of the Jacobian (AderDgInit.hpp:606-613). -/
noncomputable def elDet (I : In) (el : Nat) : Option ℝ := do return Map.jDet I.ty (← getElVeCrds I el)

/-- Search for the material of the element in another partition (AderDgInit.hpp:497-505). -/
def findRe (I : In) (el fId : Nat) : Option Material := do
  let co ← (List.range I.recv.length).find? (fun co => I.recv[co]? = some (el, fId))
  rd I.bgParsRe co

/-- Scaling of the solvers of one side of a face (AderDgInit.hpp:632-663). -/
noncomputable def scale (c : ℝ) (f : FaceFs) : FaceFs :=
  ⟨f.el.map (· * c), f.er.map (· * c), f.an.map (fun a => (a.1.map (· * c), a.2.map (· * c)))⟩

/-- Scaling in memory: the solver has to be set. -/
noncomputable def scaleAt (fs : List (Option FaceFs)) (p : Nat) (c : ℝ) : Option (List (Option FaceFs)) := do
  let f ← (← rd fs p)
  wr fs p (some (scale c f))

/-- Scalar (AderDgInit.hpp:621-630), with the checks of determinant and area (AderDgInit.hpp:615-618). -/
noncomputable def scalar (I : In) (ch : FaChars) (el : Nat) : Option ℝ := do
  let det ← elDet I el
  check (0 < det)
  check (0 < ch.area)
  let sca := -ch.area / det
  return if I.ty = .tet then sca * 2 else sca

/-- Material of the right element (AderDgInit.hpp:488-512); aborts if there is none. -/
def matR (I : In) (ch : FaChars) (l : Nat) (elR fIdL : Option Nat) (mL : Material) : Option Material :=
  match elR with
  | some r => rd I.bgPars r
  | none =>
    if ch.outflow || ch.freeSurface then some mL
    else if I.nElsIn ≤ l then findRe I l (fIdL.getD 65535)
    else none

/-- Computation and scaling of the solvers of one face (AderDgInit.hpp:514-664); `setUp`: `setUpFs` of 2D or 3D. The elements without face ids are disabled, and
with the left element also the right one (AderDgInit.hpp:515-516). -/
noncomputable def solve (I : In) (setUp : Material → Material → (Fin 3 → ℝ) → (Fin 3 → ℝ) → (Fin 3 → ℝ) → Bool → Option FaceFs)
    (ch : FaChars) (l : Nat) (elR fIdL fIdR : Option Nat) (mL mR : Material) (fs : List (Option FaceFs)) : Option (List (Option FaceFs)) :=
  match fIdL, elR, fIdR with
  | none, _, _ => do
    check (0 < ch.area)
    return fs
  | some fl, some r, some fr => do
    let fs ← wr fs (l * I.ty.nFa + fl) (some (← setUp mL mR ch.n ch.s ch.t ch.freeSurface))
    check (!ch.freeSurface)
    let fs ← wr fs (r * I.ty.nFa + fr) (some (← setUp mR mL (-ch.n) ch.s ch.t false))
    let fs ← scaleAt fs (l * I.ty.nFa + fl) (← scalar I ch l)
    scaleAt fs (r * I.ty.nFa + fr) (← scalar I ch r)
  | some fl, _, _ => do
    let fs ← wr fs (l * I.ty.nFa + fl) (some (← setUp mL mR ch.n ch.s ch.t ch.freeSurface))
    scaleAt fs (l * I.ty.nFa + fl) (← scalar I ch l)

/-- Solvers of one face (AderDgInit.hpp:441-664). -/
noncomputable def initFace (I : In) (setUp : Material → Material → (Fin 3 → ℝ) → (Fin 3 → ℝ) → (Fin 3 → ℝ) → Bool → Option FaceFs)
    (fa : Nat) (fs : List (Option FaceFs)) : Option (List (Option FaceFs)) := do
  let els ← rd I.faEl fa
  let ch ← rd I.faChars fa
  let fIdL ← findFa I els.1 fa
  let fIdR ← findFa I els.2 fa
  check (els.1.isNone || fIdL.isSome || ch.periodic)
  check (els.2.isNone || fIdR.isSome || ch.periodic)
  let l ← els.1
  let mL ← rd I.bgPars l
  let mR ← matR I ch l els.2 fIdL mL
  solve I setUp ch l els.2 fIdL fIdR mL mR fs

/-- `AderDgInit::initFs` (AderDgInit.hpp:394-665). The threads work on the faces in the order `ord`. -/
noncomputable def initFs (I : In) (setUp : Material → Material → (Fin 3 → ℝ) → (Fin 3 → ℝ) → (Fin 3 → ℝ) → Bool → Option FaceFs)
    (ord : List Nat) : Option (List (Option FaceFs)) :=
  ord.foldlM (fun fs fa => initFace I setUp fa fs) (List.replicate (I.nEls * I.ty.nFa) none)

/-! ### Specification -/

/-- Mesh and materials the solver can be initialised with. -/
structure Ok (I : In) : Prop where
  faEl_len : I.faEl.length = I.nFas
  faChars_len : I.faChars.length = I.nFas
  bgPars_len : I.bgPars.length = I.nEls
  bgParsRe_len : I.bgParsRe.length = I.recv.length
  elFa_len : I.elFa.length = I.nEls * I.ty.nFa
  /-- The faces of an element are different. -/
  uniq : ∀ el < I.nEls, ∀ i < I.ty.nFa, ∀ j < I.ty.nFa, I.elFa[el * I.ty.nFa + i]? = I.elFa[el * I.ty.nFa + j]? → i = j
  /-- The first element of each face exists and has the face. -/
  left : ∀ f < I.nFas, ∃ l o i, I.faEl[f]? = some (some l, o) ∧ l < I.nEls ∧ i < I.ty.nFa ∧ I.elFa[l * I.ty.nFa + i]? = some f
  /-- The second element, if there is one, is another element, and it has the face, except at periodic boundaries. -/
  right : ∀ f < I.nFas, ∀ l r, I.faEl[f]? = some (l, some r) → r < I.nEls ∧ l ≠ some r ∧
    ((∃ i < I.ty.nFa, I.elFa[r * I.ty.nFa + i]? = some f) ∨ ∃ ch, I.faChars[f]? = some ch ∧ ch.periodic = true)
  /-- The elements of a face are the ones next to it. -/
  owner : ∀ el < I.nEls, ∀ i < I.ty.nFa, ∃ f < I.nFas, I.elFa[el * I.ty.nFa + i]? = some f ∧
    ∃ l r, I.faEl[f]? = some (l, r) ∧ (l = some el ∨ r = some el)
  /-- The free surface is a boundary. -/
  free : ∀ (f : Nat) l r ch, I.faEl[f]? = some (l, r) → I.faChars[f]? = some ch → ch.freeSurface = true → r = none
  /-- Faces with one element have boundary conditions, or belong to an element which sends and receives at this face. -/
  bnd : ∀ (f : Nat) l ch, I.faEl[f]? = some (some l, none) → I.faChars[f]? = some ch → ch.outflow = false → ch.freeSurface = false →
    I.nElsIn ≤ l ∧ ∀ i < I.ty.nFa, I.elFa[l * I.ty.nFa + i]? = some f → (l, i) ∈ I.recv
  /-- The elements have positive volume. -/
  det : ∀ el < I.nEls, ∃ d, elDet I el = some d ∧ 0 < d
  area : ∀ ch ∈ I.faChars, 0 < ch.area

/-- Material behind face `i` of element `el`: of the other element in this partition, the own one at boundaries, and the received one if the other element
belongs to another partition. -/
def Behind (I : In) (el i : Nat) (m : Material) : Prop :=
  ∃ (f l : Nat) (r : Option Nat) (ch : FaChars), I.elFa[el * I.ty.nFa + i]? = some f ∧ I.faEl[f]? = some (some l, r) ∧ I.faChars[f]? = some ch ∧
    ((l = el ∧ ∃ r', r = some r' ∧ I.bgPars[r']? = some m) ∨ (l ≠ el ∧ I.bgPars[l]? = some m) ∨
     (l = el ∧ r = none ∧ (ch.outflow = true ∨ ch.freeSurface = true) ∧ I.bgPars[el]? = some m) ∨
     (l = el ∧ r = none ∧ ch.outflow = false ∧ ch.freeSurface = false ∧
       ∃ co : Nat, I.recv[co]? = some (el, i) ∧ (∀ co' < co, I.recv[co']? ≠ some (el, i)) ∧ I.bgParsRe[co]? = some m))

/-- Solver of face `i` of element `el`: set up with the element's material, the one behind the face and the normal pointing out of the element, and scaled
with minus the ratio of the face's area and the determinant of the element's map (for tetrahedrons: twice the area, the area of the reference face is a half). -/
def Slot (I : In) (setUp : Material → Material → (Fin 3 → ℝ) → (Fin 3 → ℝ) → (Fin 3 → ℝ) → Bool → Option FaceFs) (el i : Nat) (x : FaceFs) : Prop :=
  ∃ (f l : Nat) (r : Option Nat) (ch : FaChars) (m m' : Material) (d : ℝ) (F : FaceFs), I.elFa[el * I.ty.nFa + i]? = some f ∧ I.faEl[f]? = some (some l, r) ∧ I.faChars[f]? = some ch ∧
    I.bgPars[el]? = some m ∧ Behind I el i m' ∧ elDet I el = some d ∧
    setUp m m' (if l = el then ch.n else -ch.n) ch.s ch.t ch.freeSurface = some F ∧
    x = scale (-(if I.ty = .tet then 2 else 1) * ch.area / d) F

end Edge.Fs
