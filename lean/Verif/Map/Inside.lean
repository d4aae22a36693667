import Verif.Map.Faces
import Verif.Mesh.Final
/-!
Position of points relative to elements, projection to boxes and the location of receivers: C89.
-/
namespace Edge.Map
open Edge

section
variable {K : Type} [Field K] [LinearOrder K]

/-! ### Model -/

/-- Smallest coordinate of the vertices (src/linalg/Geom.hpp:652-661, 737-751). The initial value, the largest number of the
type, is modelled by the first vertex. -/
def boxMin (n : Nat) (c : Nat → K) : K := (List.range n).foldl (fun a v => min a (c v)) (c 0)

/-- Largest coordinate of the vertices (src/linalg/Geom.hpp:652-661, 737-751). -/
def boxMax (n : Nat) (c : Nat → K) : K := (List.range n).foldl (fun a v => max a (c v)) (c 0)

/-- Vectors from the point to the first two or three vertices of a face (src/linalg/Geom.hpp:681-687): dimension, vertex. -/
def directed (ty : Ent) (ves : Nat → Nat → K) (pt : Nat → K) (fa d k : Nat) : K :=
  ves d ((faVeCc ty fa).getD k 0) - pt d

/-- Determinant of the directed vectors (src/linalg/Geom.hpp:689-696). -/
def faDet (ty : Ent) (ves : Nat → Nat → K) (pt : Nat → K) (fa : Nat) : K :=
  if min 3 ty.nFaVe = 2 then Linalg.det2 (fun i j : Fin 2 => directed ty ves pt fa i j)
  else Linalg.det3 (fun i j : Fin 3 => directed ty ves pt fa i j)

/-- Flags `l_inside`, `l_outside` and `l_face` after the faces (src/linalg/Geom.hpp:666-700). -/
def flags (tol : K) (ty : Ent) (ves : Nat → Nat → K) (pt : Nat → K) : Bool × Bool × Bool :=
  match ty with
  | .line => (decide (pt 0 > ves 0 0 + tol) && decide (pt 0 < ves 0 1 - tol), false,
      decide (|pt 0 - ves 0 0| < tol) || decide (|pt 0 - ves 0 1| < tol))
  | ty => (List.range ty.nFa).foldl (fun s fa =>
      let det := faDet ty ves pt fa
      (s.1 && decide (det > tol), s.2.1 || decide (det < -tol), s.2.2 || decide (|det| < tol))) (true, false, false)

/-- `Geom::inside` (src/linalg/Geom.hpp:629-710). -/
def inside (tol : K) (ty : Ent) (ves : Nat → Nat → K) (pt : Nat → K) : Option Nat :=
  if (List.range ty.nDim).any (fun d => decide (boxMin ty.nVe (ves d) > pt d + tol) ||
      decide (boxMax ty.nVe (ves d) < pt d - tol)) then some 0
  else do
    let f := flags tol ty ves pt
    let _ ← check (!(f.1 && f.2.2))
    return if f.2.2 && !f.2.1 then 2 else if f.1 then 1 else 0

/-- `Geom::closestPoint` for lines, rectangles and cuboids (src/linalg/Geom.hpp:721-757). Triangles and tetrahedra, whose
projection is done by a library, are not modelled. -/
def closestBox (ty : Ent) (ves : Nat → Nat → K) (pt : Nat → K) (d : Nat) : K :=
  if d < ty.nDim then max (min (pt d) (boxMax ty.nVe (ves d))) (boxMin ty.nVe (ves d)) else pt d

/-- Location of a receiver or a point source in the reference element (src/io/Receivers.cpp:100-136,
src/impl/seismic/setups/PointSources.hpp:453-470): projection, mapping and the check of the coordinates. -/
def locate (tol : K) (ty : Ent) (ves : Nat → Nat → K) (proj : (Nat → K) → Nat → K) (pt : Nat → K) : Option (Nat → K) := do
  let xi ← phyToRef tol ty ves (proj pt)
  let _ ← forN ty.nDim (fun d _ => do
    let _ ← check (decide (xi d > -tol))
    check (decide (xi d < 1 + tol))) ()
  return xi

/-! ### Specification -/

/-- Distance of a reference point to a face of the reference element, in units of the distance of the opposite vertex or
face. -/
def lam (ty : Ent) (xi : Nat → K) (fa : Nat) : K :=
  match ty, fa with
  | .quad, 0 => xi 1 | .quad, 1 => 1 - xi 0 | .quad, 2 => 1 - xi 1 | .quad, _ => xi 0
  | .tria, 0 => xi 1 | .tria, 1 => 1 - xi 0 - xi 1 | .tria, _ => xi 0
  | .hex, 0 => xi 2 | .hex, 1 => xi 1 | .hex, 2 => 1 - xi 0 | .hex, 3 => 1 - xi 1 | .hex, 4 => xi 0 | .hex, _ => 1 - xi 2
  | .tet, 0 => xi 2 | .tet, 1 => xi 1 | .tet, 2 => xi 0 | .tet, _ => 1 - xi 0 - xi 1 - xi 2
  | .line, 0 => xi 0 | .line, _ => 1 - xi 0

/-- Points of the element: images of the reference element's points. -/
def InElem (ty : Ent) (ves : Nat → Nat → K) (pt : Nat → K) : Prop :=
  ∃ xi : Nat → K, (∀ d < ty.nDim, refToPhy ty ves xi d = pt d) ∧ ∀ fa < ty.nFa, 0 ≤ lam ty xi fa

/-- Points in the interior of the element. -/
def InInterior (ty : Ent) (ves : Nat → Nat → K) (pt : Nat → K) : Prop :=
  ∃ xi : Nat → K, (∀ d < ty.nDim, refToPhy ty ves xi d = pt d) ∧ ∀ fa < ty.nFa, 0 < lam ty xi fa

/-- Determinant of the Jacobian. -/
def jDet (ty : Ent) (ves : Nat → Nat → K) : K :=
  match ty with
  | .line => evalJac .line ves 0 0
  | .quad => Linalg.det2 (fun i j : Fin 2 => evalJac .quad ves i j)
  | .tria => Linalg.det2 (fun i j : Fin 2 => evalJac .tria ves i j)
  | .hex => Linalg.det3 (fun i j : Fin 3 => evalJac .hex ves i j)
  | .tet => Linalg.det3 (fun i j : Fin 3 => evalJac .tet ves i j)

/-! ### Determinants of the faces -/

theorem fin0 : ((0 : Fin 3) : Nat) = 0 := rfl
theorem fin1 : ((1 : Fin 3) : Nat) = 1 := rfl
theorem fin2 : ((2 : Fin 3) : Nat) = 2 := rfl
theorem hexNe : (min 3 4 = 2) = False := by decide

theorem jDet_hex (ves : Nat → Nat → K) : jDet .hex ves =
    Linalg.det3 (fun i j : Fin 3 => ves j ([1, 3, 4].getD i.val 0) - ves j 0) := by
  simp [jDet, Linalg.det3, evalJac, derShape, derHex, sumN_succ, sumN_zero, Ent.nVe]; ring

theorem faDet_lam {ty : Ent} (hl : ty ≠ .line) {ves : Nat → Nat → K} (ha : IsAffine ty ves) {xi pt : Nat → K}
    (hx : ∀ d < ty.nDim, refToPhy ty ves xi d = pt d) {fa : Nat} (hfa : fa < ty.nFa) :
    faDet ty ves pt fa = lam ty xi fa * jDet ty ves := by
  cases ty <;> simp only [Ent.nFa, Ent.nDim] at hfa hx
  · exact absurd rfl hl
  · have a0 := ha 0 (by decide)
    have a1 := ha 1 (by decide)
    have x0 := hx 0 (by decide)
    have x1 := hx 1 (by decide)
    simp [refToPhy, sumN_succ, sumN_zero, shQuad, a0, a1] at x0 x1
    interval_cases fa <;>
      simp [faDet, Ent.nFaVe, Linalg.det2, directed, faVeCc, ← x0, ← x1, lam, jDet, evalJac, derShape, derQuad, sumN_succ,
        sumN_zero, Ent.nVe, a0, a1] <;> ring
  · have x0 := hx 0 (by decide)
    have x1 := hx 1 (by decide)
    simp [refToPhy, sumN_succ, sumN_zero, shTria] at x0 x1
    interval_cases fa <;>
      simp [faDet, Ent.nFaVe, Linalg.det2, directed, faVeCc, ← x0, ← x1, lam, jDet, evalJac, derShape, derTria, sumN_succ,
        sumN_zero, Ent.nVe] <;> ring
  · have hp : ∀ d < 3, pt d = ves d 0 + xi 0 * (ves d 1 - ves d 0) + xi 1 * (ves d 3 - ves d 0) + xi 2 * (ves d 4 - ves d 0) := by
      intro d hd
      obtain ⟨b2, b5, b7, b6⟩ := ha d hd
      rw [← hx d hd]
      simp [refToPhy, sumN_succ, sumN_zero, shHex, hd, b2, b5, b7, b6]; ring
    have hj := jDet_hex ves
    rw [hj]
    obtain ⟨a02, a05, a07, a06⟩ := ha 0 (by decide)
    obtain ⟨a12, a15, a17, a16⟩ := ha 1 (by decide)
    obtain ⟨a22, a25, a27, a26⟩ := ha 2 (by decide)
    have p0 := hp 0 (by decide)
    have p1 := hp 1 (by decide)
    have p2 := hp 2 (by decide)
    clear hp hx ha hj
    interval_cases fa <;>
      simp only [faDet, Ent.nFaVe, Linalg.det3, directed, faVeCc, p0, p1, p2, lam, List.getD_cons_zero, List.getD_cons_succ,
        a02, a05, a07, a06, a12, a15, a17, a16, a22, a25, a27, a26, fin0, fin1, fin2, hexNe, if_false] <;> ring
  · have x0 := hx 0 (by decide)
    have x1 := hx 1 (by decide)
    have x2 := hx 2 (by decide)
    simp [refToPhy, sumN_succ, sumN_zero, shTet] at x0 x1 x2
    interval_cases fa <;>
      simp [faDet, Ent.nFaVe, Linalg.det3, directed, faVeCc, ← x0, ← x1, ← x2, lam, jDet, evalJac, derShape, derTet, sumN_succ,
        sumN_zero, Ent.nVe] <;> ring

/-! ### Boxes -/

theorem foldMin {n : Nat} {c : Nat → K} {a : K} :
    (∀ v < n, (List.range n).foldl (fun a v => min a (c v)) a ≤ c v) ∧ (List.range n).foldl (fun a v => min a (c v)) a ≤ a ∧
      ((List.range n).foldl (fun a v => min a (c v)) a = a ∨ ∃ v < n, (List.range n).foldl (fun a v => min a (c v)) a = c v) := by
  induction n with
  | zero => simp
  | succ n ih =>
    obtain ⟨h1, h2, h3⟩ := ih
    simp only [List.range_succ, List.foldl_append, List.foldl_cons, List.foldl_nil]
    refine ⟨fun v hv => ?_, (min_le_left _ _).trans h2, ?_⟩
    · rcases Nat.lt_succ_iff_lt_or_eq.1 hv with h | rfl
      · exact (min_le_left _ _).trans (h1 v h)
      · exact min_le_right _ _
    · rcases le_total ((List.range n).foldl (fun a v => min a (c v)) a) (c n) with h | h
      · rw [min_eq_left h]
        rcases h3 with h3 | ⟨v, hv, h3⟩
        · exact Or.inl h3
        · exact Or.inr ⟨v, by omega, h3⟩
      · rw [min_eq_right h]; exact Or.inr ⟨n, by omega, rfl⟩

theorem foldMax {n : Nat} {c : Nat → K} {a : K} :
    (∀ v < n, c v ≤ (List.range n).foldl (fun a v => max a (c v)) a) ∧ a ≤ (List.range n).foldl (fun a v => max a (c v)) a ∧
      ((List.range n).foldl (fun a v => max a (c v)) a = a ∨ ∃ v < n, (List.range n).foldl (fun a v => max a (c v)) a = c v) := by
  induction n with
  | zero => simp
  | succ n ih =>
    obtain ⟨h1, h2, h3⟩ := ih
    simp only [List.range_succ, List.foldl_append, List.foldl_cons, List.foldl_nil]
    refine ⟨fun v hv => ?_, h2.trans (le_max_left _ _), ?_⟩
    · rcases Nat.lt_succ_iff_lt_or_eq.1 hv with h | rfl
      · exact (h1 v h).trans (le_max_left _ _)
      · exact le_max_right _ _
    · rcases le_total (c n) ((List.range n).foldl (fun a v => max a (c v)) a) with h | h
      · rw [max_eq_left h]
        rcases h3 with h3 | ⟨v, hv, h3⟩
        · exact Or.inl h3
        · exact Or.inr ⟨v, by omega, h3⟩
      · rw [max_eq_right h]; exact Or.inr ⟨n, by omega, rfl⟩

theorem boxMin_spec {n : Nat} {c : Nat → K} (hn : 0 < n) : (∀ v < n, boxMin n c ≤ c v) ∧ ∃ v < n, boxMin n c = c v := by
  obtain ⟨h1, -, h3⟩ := foldMin (n := n) (c := c) (a := c 0)
  exact ⟨h1, h3.elim (fun h => ⟨0, hn, h⟩) id⟩

theorem boxMax_spec {n : Nat} {c : Nat → K} (hn : 0 < n) : (∀ v < n, c v ≤ boxMax n c) ∧ ∃ v < n, boxMax n c = c v := by
  obtain ⟨h1, -, h3⟩ := foldMax (n := n) (c := c) (a := c 0)
  exact ⟨h1, h3.elim (fun h => ⟨0, hn, h⟩) id⟩

theorem Ent.nVe_pos (ty : Ent) : 0 < ty.nVe := by cases ty <;> decide

variable [IsStrictOrderedRing K]

/-- Points of the element are in the surrounding box. -/
theorem elem_box {ty : Ent} {ves : Nat → Nat → K} {pt : Nat → K} (h : InElem ty ves pt) {d : Nat} (hd : d < ty.nDim)
    {lo hi : K} (hlo : ∀ v < ty.nVe, lo ≤ ves d v) (hhi : ∀ v < ty.nVe, ves d v ≤ hi) : lo ≤ pt d ∧ pt d ≤ hi := by
  obtain ⟨xi, hx, hl⟩ := h
  have key : ∀ (n : Nat) (w : Nat → K), (∀ v < n, 0 ≤ w v) → n ≤ ty.nVe →
      lo * sumN n w ≤ sumN n (fun v => ves d v * w v) ∧ sumN n (fun v => ves d v * w v) ≤ hi * sumN n w := by
    intro n w hw hn
    induction n with
    | zero => simp [sumN_zero]
    | succ n ih =>
      obtain ⟨i1, i2⟩ := ih (fun v hv => hw v (by omega)) (by omega)
      simp only [sumN_succ, mul_add]
      exact ⟨add_le_add i1 (mul_le_mul_of_nonneg_right (hlo n (by omega)) (hw n (by omega))),
        add_le_add i2 (mul_le_mul_of_nonneg_right (hhi n (by omega)) (hw n (by omega)))⟩
  rw [← hx d hd]
  have l := hl
  cases ty <;> simp only [Ent.nFa, Ent.nDim, Ent.nVe] at *
  · have l0 := hl 0 (by decide)
    have l1 := hl 1 (by decide)
    simp only [lam] at l0 l1
    have h0 := hlo 0 (by decide); have h1 := hlo 1 (by decide)
    have g0 := hhi 0 (by decide); have g1 := hhi 1 (by decide)
    have hd0 : d = 0 := by omega
    subst hd0
    simp only [refToPhy, Nat.lt_one_iff, if_true]
    constructor
    · have := add_nonneg (mul_nonneg (sub_nonneg.2 h0) l1) (mul_nonneg (sub_nonneg.2 h1) l0)
      linarith
    · have := add_nonneg (mul_nonneg (sub_nonneg.2 g0) l1) (mul_nonneg (sub_nonneg.2 g1) l0)
      linarith
  · have l0 := hl 0 (by decide); have l1 := hl 1 (by decide); have l2 := hl 2 (by decide); have l3 := hl 3 (by decide)
    simp only [lam] at l0 l1 l2 l3
    have := key 4 (shQuad (xi 0) (xi 1)) (by
      intro v hv; interval_cases v <;> simp only [shQuad] <;> apply mul_nonneg <;> assumption) le_rfl
    have hs : sumN 4 (shQuad (xi 0) (xi 1)) = 1 := by simp [sumN_succ, sumN_zero, shQuad]; ring
    rw [hs, mul_one, mul_one] at this
    simpa [refToPhy, hd] using this
  · have l0 := hl 0 (by decide); have l1 := hl 1 (by decide); have l2 := hl 2 (by decide)
    simp only [lam] at l0 l1 l2
    have := key 3 (shTria (xi 0) (xi 1)) (by
      intro v hv; interval_cases v <;> simp only [shTria] <;> assumption) le_rfl
    have hs : sumN 3 (shTria (xi 0) (xi 1)) = 1 := by simp [sumN_succ, sumN_zero, shTria]; try ring
    rw [hs, mul_one, mul_one] at this
    simpa [refToPhy, hd] using this
  · have l0 := hl 0 (by decide); have l1 := hl 1 (by decide); have l2 := hl 2 (by decide); have l3 := hl 3 (by decide)
    have l4 := hl 4 (by decide); have l5 := hl 5 (by decide)
    simp only [lam] at l0 l1 l2 l3 l4 l5
    have := key 8 (shHex (xi 0) (xi 1) (xi 2)) (by
      intro v hv; interval_cases v <;> simp only [shHex] <;> apply mul_nonneg <;> first | assumption |
        (apply mul_nonneg <;> assumption)) le_rfl
    have hs : sumN 8 (shHex (xi 0) (xi 1) (xi 2)) = 1 := by simp [sumN_succ, sumN_zero, shHex]; ring
    rw [hs, mul_one, mul_one] at this
    simpa [refToPhy, hd] using this
  · have l0 := hl 0 (by decide); have l1 := hl 1 (by decide); have l2 := hl 2 (by decide); have l3 := hl 3 (by decide)
    simp only [lam] at l0 l1 l2 l3
    have := key 4 (shTet (xi 0) (xi 1) (xi 2)) (by
      intro v hv; interval_cases v <;> simp only [shTet] <;> assumption) le_rfl
    have hs : sumN 4 (shTet (xi 0) (xi 1) (xi 2)) = 1 := by simp [sumN_succ, sumN_zero, shTet]; try ring
    rw [hs, mul_one, mul_one] at this
    simpa [refToPhy, hd] using this

/-! ### Inside -/

theorem flags_fold {n : Nat} (tol : K) (f : Nat → K) :
    let r := (List.range n).foldl (fun (s : Bool × Bool × Bool) fa =>
      (s.1 && decide (f fa > tol), s.2.1 || decide (f fa < -tol), s.2.2 || decide (|f fa| < tol))) (true, false, false)
    (r.1 = true ↔ ∀ fa < n, tol < f fa) ∧ (r.2.1 = true ↔ ∃ fa < n, f fa < -tol) ∧ (r.2.2 = true ↔ ∃ fa < n, |f fa| < tol) := by
  induction n with
  | zero => simp
  | succ n ih =>
    obtain ⟨i1, i2, i3⟩ := ih
    simp only [List.range_succ, List.foldl_append, List.foldl_cons, List.foldl_nil, Bool.and_eq_true, Bool.or_eq_true, i1, i2, i3,
      decide_eq_true_eq, gt_iff_lt]
    refine ⟨?_, ?_, ?_⟩
    · exact ⟨fun h fa hfa => (Nat.lt_succ_iff_lt_or_eq.1 hfa).elim (h.1 fa) (fun e => e ▸ h.2),
        fun h => ⟨fun fa hfa => h fa (by omega), h n (by omega)⟩⟩
    all_goals
      constructor
      · rintro (⟨fa, h1, h2⟩ | h)
        · exact ⟨fa, by omega, h2⟩
        · exact ⟨n, by omega, h⟩
      · rintro ⟨fa, h1, h2⟩
        rcases Nat.lt_succ_iff_lt_or_eq.1 h1 with h | rfl
        · exact Or.inl ⟨fa, h, h2⟩
        · exact Or.inr h2

/-- The point is in the surrounding box, up to the tolerance. -/
def InBox (tol : K) (ty : Ent) (ves : Nat → Nat → K) (pt : Nat → K) : Prop :=
  ∀ d < ty.nDim, (∃ v < ty.nVe, ves d v ≤ pt d + tol) ∧ ∃ v < ty.nVe, pt d - tol ≤ ves d v

theorem box_any (tol : K) (ty : Ent) (ves : Nat → Nat → K) (pt : Nat → K) :
    ((List.range ty.nDim).any (fun d => decide (boxMin ty.nVe (ves d) > pt d + tol) ||
      decide (boxMax ty.nVe (ves d) < pt d - tol)) = true) ↔ ¬ InBox tol ty ves pt := by
  simp only [List.any_eq_true, List.mem_range, Bool.or_eq_true, decide_eq_true_eq, InBox, not_forall]
  constructor
  · rintro ⟨d, hd, h⟩
    refine ⟨d, hd, fun ⟨⟨v, hv, h1⟩, ⟨w, hw, h2⟩⟩ => ?_⟩
    rcases h with h | h
    · exact absurd ((boxMin_spec (c := ves d) ty.nVe_pos).1 v hv) (not_le.2 (lt_of_le_of_lt h1 h))
    · exact absurd ((boxMax_spec (c := ves d) ty.nVe_pos).1 w hw) (not_le.2 (lt_of_lt_of_le h h2))
  · rintro ⟨d, hd, h⟩
    refine ⟨d, hd, ?_⟩
    by_contra hc
    rw [not_or] at hc
    replace hc := And.intro (not_lt.1 hc.1) (not_lt.1 hc.2)
    obtain ⟨v, hv, e1⟩ := (boxMin_spec (c := ves d) ty.nVe_pos).2
    obtain ⟨w, hw, e2⟩ := (boxMax_spec (c := ves d) ty.nVe_pos).2
    exact h ⟨⟨v, hv, e1 ▸ hc.1⟩, ⟨w, hw, e2 ▸ hc.2⟩⟩

theorem flags_spec {tol : K} {ty : Ent} {ves : Nat → Nat → K} (ha : IsAffine ty ves) (hj : 0 < jDet ty ves)
    {xi pt : Nat → K} (hx : ∀ d < ty.nDim, refToPhy ty ves xi d = pt d) (hb : InBox tol ty ves pt) :
    ((flags tol ty ves pt).1 = true ↔ ∀ fa < ty.nFa, tol < lam ty xi fa * jDet ty ves) ∧
      ((flags tol ty ves pt).2.1 = true ↔ ∃ fa < ty.nFa, lam ty xi fa * jDet ty ves < -tol) ∧
      ((flags tol ty ves pt).2.2 = true ↔ ∃ fa < ty.nFa, |lam ty xi fa * jDet ty ves| < tol) := by
  by_cases hl : ty = .line
  · subst hl
    have hj' : jDet .line ves = ves 0 1 - ves 0 0 := by
      simp [jDet, evalJac, derShape, derLine, sumN_succ, sumN_zero, Ent.nVe]; ring
    have hp : pt 0 = (ves 0 1 - ves 0 0) * xi 0 + ves 0 0 := by rw [← hx 0 (by decide)]; simp [refToPhy]
    obtain ⟨⟨v, hv, b1⟩, ⟨w, hw, b2⟩⟩ := hb 0 (by decide)
    simp only [Ent.nVe] at hv hw
    rw [hj'] at hj ⊢
    have c1 : ves 0 0 ≤ pt 0 + tol := by interval_cases v <;> linarith
    have c2 : pt 0 - tol ≤ ves 0 1 := by interval_cases w <;> linarith
    have e0 : lam .line xi 0 * (ves 0 1 - ves 0 0) = pt 0 - ves 0 0 := by rw [hp]; simp only [lam]; ring
    have e1 : lam .line xi 1 * (ves 0 1 - ves 0 0) = ves 0 1 - pt 0 := by rw [hp]; simp only [lam]; ring
    have two : ∀ P : Nat → Prop, (∀ fa < 2, P fa) ↔ P 0 ∧ P 1 := fun P =>
      ⟨fun h => ⟨h 0 (by decide), h 1 (by decide)⟩, fun h fa hfa => by interval_cases fa; exacts [h.1, h.2]⟩
    have two' : ∀ P : Nat → Prop, (∃ fa < 2, P fa) ↔ P 0 ∨ P 1 := fun P =>
      ⟨fun ⟨fa, hfa, h⟩ => by interval_cases fa; exacts [Or.inl h, Or.inr h], fun h => h.elim (fun h => ⟨0, by decide, h⟩)
        (fun h => ⟨1, by decide, h⟩)⟩
    simp only [flags, Ent.nFa, gt_iff_lt, two, two', e0, e1, Bool.and_eq_true, Bool.or_eq_true, decide_eq_true_eq]
    refine ⟨?_, ?_, ?_⟩
    · constructor
      · rintro ⟨h1, h2⟩; exact ⟨by linarith, by linarith⟩
      · rintro ⟨h1, h2⟩; exact ⟨by linarith, by linarith⟩
    · constructor
      · intro h; cases h
      · rintro (h | h) <;> linarith
    · rw [abs_sub_comm (ves 0 1)]
  · have h0 : flags tol ty ves pt = (List.range ty.nFa).foldl (fun s fa =>
      (s.1 && decide (faDet ty ves pt fa > tol), s.2.1 || decide (faDet ty ves pt fa < -tol),
        s.2.2 || decide (|faDet ty ves pt fa| < tol))) (true, false, false) := by
      cases ty <;> first | exact absurd rfl hl | rfl
    obtain ⟨i1, i2, i3⟩ := flags_fold (n := ty.nFa) tol (faDet ty ves pt)
    rw [h0]
    have e := fun fa hfa => faDet_lam hl ha hx (fa := fa) hfa
    refine ⟨i1.trans ?_, i2.trans ?_, i3.trans ?_⟩
    · exact forall₂_congr (fun fa hfa => by rw [e fa hfa])
    · exact exists_congr (fun fa => and_congr_right (fun hfa => by rw [e fa hfa]))
    · exact exists_congr (fun fa => and_congr_right (fun hfa => by rw [e fa hfa]))

/-- C89: `inside` always returns a result; which one depends only on the box and the scaled distances to the faces. -/
theorem C89_inside {tol : K} {ty : Ent} {ves : Nat → Nat → K} (ha : IsAffine ty ves) (hj : 0 < jDet ty ves)
    {xi pt : Nat → K} (hx : ∀ d < ty.nDim, refToPhy ty ves xi d = pt d) :
    ∃ r, inside tol ty ves pt = some r ∧
      (r = 1 ↔ InBox tol ty ves pt ∧ ∀ fa < ty.nFa, tol < lam ty xi fa * jDet ty ves) ∧
      (r = 2 ↔ InBox tol ty ves pt ∧ (∃ fa < ty.nFa, |lam ty xi fa * jDet ty ves| < tol) ∧
        ∀ fa < ty.nFa, -tol ≤ lam ty xi fa * jDet ty ves) ∧ r ≤ 2 := by
  by_cases hb : InBox tol ty ves pt
  · have hc : ¬ ((List.range ty.nDim).any (fun d => decide (boxMin ty.nVe (ves d) > pt d + tol) ||
        decide (boxMax ty.nVe (ves d) < pt d - tol)) = true) := by rw [box_any]; exact not_not.2 hb
    have hexcl : (∀ fa < ty.nFa, tol < lam ty xi fa * jDet ty ves) → ¬ ∃ fa < ty.nFa, |lam ty xi fa * jDet ty ves| < tol := by
      rintro h ⟨fa, hfa, h2⟩
      exact absurd (lt_of_lt_of_le (h fa hfa) (le_abs_self _)) (not_lt.2 h2.le)
    have hout : (¬ ∃ fa < ty.nFa, lam ty xi fa * jDet ty ves < -tol) ↔ ∀ fa < ty.nFa, -tol ≤ lam ty xi fa * jDet ty ves := by
      simp only [not_exists, not_and, not_lt]
    obtain ⟨f1, f2, f3⟩ := flags_spec ha hj hx hb
    rw [← f1, ← f3] at hexcl
    rw [← f2] at hout
    rw [← f1, ← f3, ← hout]
    simp only [inside]
    rw [if_neg hc]
    generalize flags tol ty ves pt = r at *
    obtain ⟨a, b, c⟩ := r
    revert hexcl
    cases a <;> cases b <;> cases c <;> simp [check, hb]
  · have hc := (box_any tol ty ves pt).2 hb
    exact ⟨0, by simp only [inside]; rw [if_pos hc], by simp [hb], by simp [hb], by omega⟩

/-- C89: points at which `inside` reports the interior are in the interior of the element. -/
theorem C89_one {tol : K} (ht : 0 ≤ tol) {ty : Ent} {ves : Nat → Nat → K} (ha : IsAffine ty ves) (hj : 0 < jDet ty ves)
    {xi pt : Nat → K} (hx : ∀ d < ty.nDim, refToPhy ty ves xi d = pt d) (h : inside tol ty ves pt = some 1) :
    InInterior ty ves pt := by
  obtain ⟨r, hr, h1, -⟩ := C89_inside (tol := tol) ha hj hx
  rw [h] at hr
  have := (h1.1 (Option.some.inj hr).symm).2
  exact ⟨xi, hx, fun fa hfa => pos_of_mul_pos_left (lt_of_le_of_lt ht (this fa hfa)) hj.le⟩

/-- C89: points at which `inside` reports a face are up to the tolerance in the element and on one of its faces, where the
tolerance is relative to the determinant. -/
theorem C89_two {tol : K} {ty : Ent} {ves : Nat → Nat → K} (ha : IsAffine ty ves) (hj : 0 < jDet ty ves)
    {xi pt : Nat → K} (hx : ∀ d < ty.nDim, refToPhy ty ves xi d = pt d) (h : inside tol ty ves pt = some 2) :
    (∃ fa < ty.nFa, |lam ty xi fa| < tol / jDet ty ves) ∧ ∀ fa < ty.nFa, -(tol / jDet ty ves) ≤ lam ty xi fa := by
  obtain ⟨r, hr, -, h2, -⟩ := C89_inside (tol := tol) ha hj hx
  rw [h] at hr
  obtain ⟨-, ⟨fa, hfa, a⟩, b⟩ := h2.1 (Option.some.inj hr).symm
  refine ⟨⟨fa, hfa, ?_⟩, fun fa hfa => ?_⟩
  · rw [lt_div_iff₀ hj]; rwa [abs_mul, abs_of_pos hj] at a
  · rw [← neg_div, div_le_iff₀ hj]; exact b fa hfa

theorem InElem.inBox {tol : K} (ht : 0 ≤ tol) {ty : Ent} {ves : Nat → Nat → K} {pt : Nat → K} (h : InElem ty ves pt) :
    InBox tol ty ves pt := by
  intro d hd
  obtain ⟨b1, v, hv, e1⟩ := boxMin_spec (c := ves d) ty.nVe_pos
  obtain ⟨b2, w, hw, e2⟩ := boxMax_spec (c := ves d) ty.nVe_pos
  obtain ⟨c1, c2⟩ := elem_box h hd b1 b2
  exact ⟨⟨v, hv, by linarith⟩, ⟨w, hw, by linarith⟩⟩

/-- C89: a point of the element whose distance to every face exceeds the tolerance is reported as interior. -/
theorem C89_interior {tol : K} (ht : 0 ≤ tol) {ty : Ent} {ves : Nat → Nat → K} (ha : IsAffine ty ves) (hj : 0 < jDet ty ves)
    {xi pt : Nat → K} (hx : ∀ d < ty.nDim, refToPhy ty ves xi d = pt d)
    (h : ∀ fa < ty.nFa, tol / jDet ty ves < lam ty xi fa) : inside tol ty ves pt = some 1 := by
  obtain ⟨r, hr, h1, -⟩ := C89_inside (tol := tol) ha hj hx
  have hb : InBox tol ty ves pt :=
    InElem.inBox ht ⟨xi, hx, fun fa hfa => (div_nonneg ht hj.le).trans (h fa hfa).le⟩
  rw [hr, h1.2 ⟨hb, fun fa hfa => (div_lt_iff₀ hj).1 (h fa hfa)⟩]

/-- C89: a point of the element which is close to a face is reported as being on a face. -/
theorem C89_boundary {tol : K} (ht : 0 ≤ tol) {ty : Ent} {ves : Nat → Nat → K} (ha : IsAffine ty ves) (hj : 0 < jDet ty ves)
    {xi pt : Nat → K} (hx : ∀ d < ty.nDim, refToPhy ty ves xi d = pt d) (h : ∀ fa < ty.nFa, 0 ≤ lam ty xi fa)
    (hf : ∃ fa < ty.nFa, lam ty xi fa < tol / jDet ty ves) : inside tol ty ves pt = some 2 := by
  obtain ⟨r, hr, -, h2, -⟩ := C89_inside (tol := tol) ha hj hx
  have p := fun fa hfa => mul_nonneg (h fa hfa) hj.le
  obtain ⟨fa, hfa, hl⟩ := hf
  rw [hr, h2.2 ⟨InElem.inBox ht ⟨xi, hx, h⟩, ⟨fa, hfa, ?_⟩, fun fa hfa => ?_⟩]
  · rw [abs_of_nonneg (p fa hfa)]; exact (lt_div_iff₀ hj).1 hl
  · linarith [p fa hfa]

/-- C89 (partial): points of the element are reported as outside only if the determinant of a face equals the tolerance.
That they are never reported as outside is false, `C89_outside_refuted`. -/
theorem C89_outside_partial {tol : K} (ht : 0 ≤ tol) {ty : Ent} {ves : Nat → Nat → K} (ha : IsAffine ty ves)
    (hj : 0 < jDet ty ves) {xi pt : Nat → K} (hx : ∀ d < ty.nDim, refToPhy ty ves xi d = pt d)
    (h : ∀ fa < ty.nFa, 0 ≤ lam ty xi fa) (hi : inside tol ty ves pt = some 0) :
    ∃ fa < ty.nFa, lam ty xi fa = tol / jDet ty ves := by
  by_contra hc
  by_cases h1 : ∀ fa < ty.nFa, tol / jDet ty ves < lam ty xi fa
  · rw [C89_interior ht ha hj hx h1] at hi; cases hi
  · apply absurd hi
    rw [C89_boundary ht ha hj hx h]
    · intro h; cases h
    · simp only [not_forall, not_lt] at h1
      obtain ⟨fa, hfa, h1⟩ := h1
      exact ⟨fa, hfa, lt_of_le_of_ne h1 (fun e => hc ⟨fa, hfa, e⟩)⟩

/-- C89: an interior point whose determinant with respect to a face equals the tolerance is reported as outside. -/
theorem C89_outside_refuted : ∃ pt : Nat → Rat, InInterior .tria (refVe .tria) pt ∧
    inside (1 / 1000000) .tria (refVe .tria) pt = some 0 := by
  refine ⟨fun d => if d = 0 then 1 / 1000000 else 1 / 4, ⟨fun d => if d = 0 then 1 / 1000000 else 1 / 4, ?_, ?_⟩, ?_⟩
  · intro d hd; simp only [Ent.nDim] at hd
    interval_cases d <;> norm_num [refToPhy, sumN_succ, sumN_zero, shTria, refVe, tab]
  · intro fa hfa; simp only [Ent.nFa] at hfa
    interval_cases fa <;> norm_num [lam]
  · have hj : jDet .tria (refVe .tria : Nat → Nat → Rat) = 1 := by
      simp only [jDet]; rw [C88_detTria]; norm_num [Mesh.det2, pt3, refVe, tab]
    obtain ⟨r, hr, h1, h2, h3⟩ := C89_inside (tol := (1 / 1000000 : Rat)) (ty := .tria) (ves := refVe .tria)
      (xi := fun d => if d = 0 then 1 / 1000000 else 1 / 4) (pt := fun d => if d = 0 then 1 / 1000000 else 1 / 4) trivial
      (by rw [hj]; norm_num) (by
        intro d hd; simp only [Ent.nDim] at hd
        interval_cases d <;> norm_num [refToPhy, sumN_succ, sumN_zero, shTria, refVe, tab])
    have n1 : r ≠ 1 := fun e => by
      have := (h1.1 e).2 2 (by decide)
      rw [hj] at this; norm_num [lam] at this
    have n2 : r ≠ 2 := fun e => by
      obtain ⟨-, ⟨fa, hfa, h⟩, -⟩ := h2.1 e
      simp only [Ent.nFa] at hfa
      rw [hj] at h
      interval_cases fa <;> norm_num [lam, abs_of_pos] at h
    rw [hr, show r = 0 by omega]

/-- C89: the elements of which the maps to the reference element exist satisfy the requirements of `inside`. -/
theorem Regular.affine {tol : K} (ht : 0 ≤ tol) {ty : Ent} {ves : Nat → Nat → K} (h : Regular tol ty ves)
    (hp : ty = .tet → 0 < Mesh.det3 (pt3 ves 0) (pt3 ves 1) (pt3 ves 2) (pt3 ves 3)) :
    IsAffine ty ves ∧ 0 < jDet ty ves := by
  cases ty <;> simp only [Regular] at h
  · refine ⟨h.1.affine, ?_⟩
    simp only [jDet]
    rw [C88_detQuad ves h.1]
    exact mul_pos (lt_of_le_of_lt ht h.2.1) (lt_of_le_of_lt ht h.2.2)
  · refine ⟨trivial, ?_⟩
    simp only [jDet]
    rw [C88_detTria]; exact lt_of_le_of_lt ht h
  · refine ⟨h.1.affine, ?_⟩
    simp only [jDet]
    rw [C88_detHex ves h.1]
    exact mul_pos (mul_pos (lt_of_le_of_lt ht h.2.1) (lt_of_le_of_lt ht h.2.2.1)) (lt_of_le_of_lt ht h.2.2.2)
  · refine ⟨trivial, ?_⟩
    simp only [jDet]
    rw [C88_detTet]; exact hp rfl

/-- C89 composed with EDGE-V's normalisation (C40): every tetrahedron of a normalised mesh satisfies the requirements of the
map to the reference element and of `inside`. -/
theorem C89_meshTet {tol : K} (ht : 0 ≤ tol) {veCrds : List (Mesh.V3 K)} {nEls : Nat} {c c' : Mesh.Conn} {elVe elVe' : List Nat}
    (hi : Mesh.NormIn 4 nEls c elVe) (h : Mesh.normOrder .tet4 tol veCrds nEls c elVe = some (c', elVe')) {el : Nat}
    (hel : el < nEls) :
    let ves := tetVes (fun v => veCrds.getD v ⟨0, 0, 0⟩) (Mesh.slice 4 elVe' el)
    Regular tol .tet ves ∧ IsAffine .tet ves ∧ tol < jDet .tet ves := by
  obtain ⟨v0, v1, v2, v3, f0, f1, f2, f3, p0, p1, p2, p3, hs, -, c0, c1, c2, c3, hd, -⟩ := Mesh.C40_tet ht hi h el hel
  have e : ∀ k v p, [v0, v1, v2, v3].getD k 0 = v → veCrds[v]? = some p →
      pt3 (tetVes (fun v => veCrds.getD v ⟨0, 0, 0⟩) [v0, v1, v2, v3]) k = p := by
    intro k v p hk hp
    have : veCrds.getD v ⟨0, 0, 0⟩ = p := by rw [List.getD_eq_getElem?_getD, hp]; rfl
    simp only [pt3, tetVes, hk, this]; rfl
  have hdet : jDet .tet (tetVes (fun v => veCrds.getD v ⟨0, 0, 0⟩) [v0, v1, v2, v3]) = Mesh.det3 p0 p1 p2 p3 := by
    simp only [jDet]
    rw [C88_detTet, e 0 v0 p0 rfl c0, e 1 v1 p1 rfl c1, e 2 v2 p2 rfl c2, e 3 v3 p3 rfl c3]
  intro ves
  have hv : ves = tetVes (fun v => veCrds.getD v ⟨0, 0, 0⟩) [v0, v1, v2, v3] := by simp only [ves, hs]
  rw [hv]
  refine ⟨?_, trivial, hdet ▸ hd⟩
  show Mesh.det3 _ _ _ _ ≠ 0
  rw [← C88_detTet]
  exact (show jDet .tet _ ≠ 0 by rw [hdet]; exact (lt_of_le_of_lt ht hd).ne')

/-! ### Projection to rectangles and cuboids -/

theorem quad_elem {tol : K} (ht : 0 ≤ tol) {ves : Nat → Nat → K} (hr : Regular tol .quad ves) (pt : Nat → K) :
    InElem .quad ves pt ↔ ∀ d < 2, boxMin 4 (ves d) ≤ pt d ∧ pt d ≤ boxMax 4 (ves d) := by
  constructor
  · intro h d hd
    exact elem_box h hd (boxMin_spec (by decide)).1 (boxMax_spec (by decide)).1
  · intro h
    obtain ⟨xi, -, hx, -⟩ := C88_inverse ht hr pt
    obtain ⟨ha, h1, h2⟩ := hr
    refine ⟨xi, hx, ?_⟩
    have aff := ha.affine
    have f : ∀ d v w, d < 2 → v < 4 → w < 4 → (refVe .quad d v : K) = refVe .quad d w → ves d v = ves d w :=
      fun d v w hd hv hw he => ha d hd v hv w hw he
    have p0 : ves 0 0 ≤ pt 0 ∧ pt 0 ≤ ves 0 1 := by
      obtain ⟨v, hv, e⟩ := (boxMin_spec (n := 4) (c := ves 0) (by decide)).2
      obtain ⟨w, hw, e'⟩ := (boxMax_spec (n := 4) (c := ves 0) (by decide)).2
      obtain ⟨b1, b2⟩ := h 0 (by decide)
      rw [e] at b1; rw [e'] at b2
      have e2 := f 0 2 1 (by decide) (by decide) (by decide) (by simp [refVe, tab])
      have e3 := f 0 3 0 (by decide) (by decide) (by decide) (by simp [refVe, tab])
      constructor
      · interval_cases v <;> linarith
      · interval_cases w <;> linarith
    have p1 : ves 1 0 ≤ pt 1 ∧ pt 1 ≤ ves 1 3 := by
      obtain ⟨v, hv, e⟩ := (boxMin_spec (n := 4) (c := ves 1) (by decide)).2
      obtain ⟨w, hw, e'⟩ := (boxMax_spec (n := 4) (c := ves 1) (by decide)).2
      obtain ⟨b1, b2⟩ := h 1 (by decide)
      rw [e] at b1; rw [e'] at b2
      have e2 := f 1 2 3 (by decide) (by decide) (by decide) (by simp [refVe, tab])
      have e3 := f 1 1 0 (by decide) (by decide) (by decide) (by simp [refVe, tab])
      constructor
      · interval_cases v <;> linarith
      · interval_cases w <;> linarith
    have x0 : ves 0 0 + xi 0 * (ves 0 1 - ves 0 0) = pt 0 := by
      rw [← hx 0 (by decide)]
      have e2 := f 0 2 1 (by decide) (by decide) (by decide) (by simp [refVe, tab])
      have e3 := f 0 3 0 (by decide) (by decide) (by decide) (by simp [refVe, tab])
      simp [refToPhy, sumN_succ, sumN_zero, shQuad, e2, e3]; ring
    have x1 : ves 1 0 + xi 1 * (ves 1 3 - ves 1 0) = pt 1 := by
      rw [← hx 1 (by decide)]
      have e2 := f 1 2 3 (by decide) (by decide) (by decide) (by simp [refVe, tab])
      have e3 := f 1 1 0 (by decide) (by decide) (by decide) (by simp [refVe, tab])
      simp [refToPhy, sumN_succ, sumN_zero, shQuad, e2, e3]; ring
    have s0 := lt_of_le_of_lt ht h1
    have s1 := lt_of_le_of_lt ht h2
    have q0 : 0 ≤ xi 0 := nonneg_of_mul_nonneg_left (by linarith : 0 ≤ xi 0 * (ves 0 1 - ves 0 0)) s0
    have q0' : 0 ≤ 1 - xi 0 := nonneg_of_mul_nonneg_left (by linarith : 0 ≤ (1 - xi 0) * (ves 0 1 - ves 0 0)) s0
    have q1 : 0 ≤ xi 1 := nonneg_of_mul_nonneg_left (by linarith : 0 ≤ xi 1 * (ves 1 3 - ves 1 0)) s1
    have q1' : 0 ≤ 1 - xi 1 := nonneg_of_mul_nonneg_left (by linarith : 0 ≤ (1 - xi 1) * (ves 1 3 - ves 1 0)) s1
    intro fa hfa; simp only [Ent.nFa] at hfa
    interval_cases fa <;> simp only [lam] <;> assumption

theorem hex_elem {tol : K} (ht : 0 ≤ tol) {ves : Nat → Nat → K} (hr : Regular tol .hex ves) (pt : Nat → K) :
    InElem .hex ves pt ↔ ∀ d < 3, boxMin 8 (ves d) ≤ pt d ∧ pt d ≤ boxMax 8 (ves d) := by
  constructor
  · intro h d hd
    exact elem_box h hd (boxMin_spec (by decide)).1 (boxMax_spec (by decide)).1
  · intro h
    obtain ⟨xi, -, hx, -⟩ := C88_inverse ht hr pt
    obtain ⟨ha, h1, h2, h3⟩ := hr
    refine ⟨xi, hx, ?_⟩
    have f : ∀ d v w, d < 3 → v < 8 → w < 8 → (refVe .hex d v : K) = refVe .hex d w → ves d v = ves d w :=
      fun d v w hd hv hw he => ha d hd v hv w hw he
    have s0 := lt_of_le_of_lt ht h1
    have s1 := lt_of_le_of_lt ht h2
    have s2 := lt_of_le_of_lt ht h3
    have key : ∀ d hi, d < 3 → hi < 8 → 0 < ves d hi - ves d 0 → (∀ v < 8, ves d v = ves d 0 ∨ ves d v = ves d hi) →
        ves d 0 + xi d * (ves d hi - ves d 0) = pt d → 0 ≤ xi d ∧ 0 ≤ 1 - xi d := by
      intro d hi hd hhi hs hv hx
      obtain ⟨v, hvv, e⟩ := (boxMin_spec (n := 8) (c := ves d) (by decide)).2
      obtain ⟨w, hw, e'⟩ := (boxMax_spec (n := 8) (c := ves d) (by decide)).2
      obtain ⟨b1, b2⟩ := h d hd
      rw [e] at b1; rw [e'] at b2
      have a1 : ves d 0 ≤ pt d := by rcases hv v hvv with h | h <;> linarith
      have a2 : pt d ≤ ves d hi := by rcases hv w hw with h | h <;> linarith
      exact ⟨nonneg_of_mul_nonneg_left (by linarith : 0 ≤ xi d * (ves d hi - ves d 0)) hs,
        nonneg_of_mul_nonneg_left (by linarith : 0 ≤ (1 - xi d) * (ves d hi - ves d 0)) hs⟩
    obtain ⟨q0, q0'⟩ : 0 ≤ xi 0 ∧ 0 ≤ 1 - xi 0 := by
      have e2 := f 0 2 1 (by decide) (by decide) (by decide) (by simp [refVe, tab])
      have e3 := f 0 3 0 (by decide) (by decide) (by decide) (by simp [refVe, tab])
      have e4 := f 0 4 0 (by decide) (by decide) (by decide) (by simp [refVe, tab])
      have e5 := f 0 5 1 (by decide) (by decide) (by decide) (by simp [refVe, tab])
      have e6 := f 0 6 1 (by decide) (by decide) (by decide) (by simp [refVe, tab])
      have e7 := f 0 7 0 (by decide) (by decide) (by decide) (by simp [refVe, tab])
      refine key 0 1 (by decide) (by decide) s0 (fun v hv => ?_) ?_
      · interval_cases v <;> simp [e2, e3, e4, e5, e6, e7]
      · rw [← hx 0 (by decide)]; simp [refToPhy, sumN_succ, sumN_zero, shHex, e2, e3, e4, e5, e6, e7]; ring
    obtain ⟨q1, q1'⟩ : 0 ≤ xi 1 ∧ 0 ≤ 1 - xi 1 := by
      have e2 := f 1 2 3 (by decide) (by decide) (by decide) (by simp [refVe, tab])
      have e3 := f 1 1 0 (by decide) (by decide) (by decide) (by simp [refVe, tab])
      have e4 := f 1 4 0 (by decide) (by decide) (by decide) (by simp [refVe, tab])
      have e5 := f 1 5 0 (by decide) (by decide) (by decide) (by simp [refVe, tab])
      have e6 := f 1 6 3 (by decide) (by decide) (by decide) (by simp [refVe, tab])
      have e7 := f 1 7 3 (by decide) (by decide) (by decide) (by simp [refVe, tab])
      refine key 1 3 (by decide) (by decide) s1 (fun v hv => ?_) ?_
      · interval_cases v <;> simp [e2, e3, e4, e5, e6, e7]
      · rw [← hx 1 (by decide)]; simp [refToPhy, sumN_succ, sumN_zero, shHex, e2, e3, e4, e5, e6, e7]; ring
    obtain ⟨q2, q2'⟩ : 0 ≤ xi 2 ∧ 0 ≤ 1 - xi 2 := by
      have e2 := f 2 2 0 (by decide) (by decide) (by decide) (by simp [refVe, tab])
      have e3 := f 2 1 0 (by decide) (by decide) (by decide) (by simp [refVe, tab])
      have e4 := f 2 3 0 (by decide) (by decide) (by decide) (by simp [refVe, tab])
      have e5 := f 2 5 4 (by decide) (by decide) (by decide) (by simp [refVe, tab])
      have e6 := f 2 6 4 (by decide) (by decide) (by decide) (by simp [refVe, tab])
      have e7 := f 2 7 4 (by decide) (by decide) (by decide) (by simp [refVe, tab])
      refine key 2 4 (by decide) (by decide) s2 (fun v hv => ?_) ?_
      · interval_cases v <;> simp [e2, e3, e4, e5, e6, e7]
      · rw [← hx 2 (by decide)]; simp [refToPhy, sumN_succ, sumN_zero, shHex, e2, e3, e4, e5, e6, e7]; ring
    intro fa hfa; simp only [Ent.nFa] at hfa
    interval_cases fa <;> simp only [lam] <;> assumption

/-- C89: for rectangles and cuboids the result of `closestPoint` is a point of the element, no point of the element is closer
in any of the coordinates, and points of the element are kept. -/
theorem C89_closest {tol : K} (ht : 0 ≤ tol) {ty : Ent} (hty : ty = .quad ∨ ty = .hex) {ves : Nat → Nat → K}
    (hr : Regular tol ty ves) (pt : Nat → K) :
    InElem ty ves (closestBox ty ves pt) ∧
      (∀ z, InElem ty ves z → ∀ d < ty.nDim, |pt d - closestBox ty ves pt d| ≤ |pt d - z d|) ∧
      (InElem ty ves pt → closestBox ty ves pt = pt) := by
  have key : ∀ q, InElem ty ves q ↔ ∀ d < ty.nDim, boxMin ty.nVe (ves d) ≤ q d ∧ q d ≤ boxMax ty.nVe (ves d) := by
    intro q
    rcases hty with rfl | rfl
    · exact quad_elem ht hr q
    · exact hex_elem ht hr q
  have hle : ∀ d, boxMin ty.nVe (ves d) ≤ boxMax ty.nVe (ves d) := fun d =>
    ((boxMin_spec ty.nVe_pos).1 0 ty.nVe_pos).trans ((boxMax_spec ty.nVe_pos).1 0 ty.nVe_pos)
  refine ⟨(key _).2 (fun d hd => ?_), fun z hz d hd => ?_, fun h => funext (fun d => ?_)⟩
  · simp only [closestBox, if_pos hd]
    exact ⟨le_max_right _ _, max_le (min_le_right _ _) (hle d)⟩
  · obtain ⟨z1, z2⟩ := (key z).1 hz d hd
    simp only [closestBox, if_pos hd]
    rcases le_total (pt d) (boxMax ty.nVe (ves d)) with h1 | h1
    · rw [min_eq_left h1]
      rcases le_total (pt d) (boxMin ty.nVe (ves d)) with h2 | h2
      · rw [max_eq_right h2, abs_sub_comm, abs_of_nonneg (by linarith), abs_sub_comm (pt d), abs_of_nonneg (by linarith)]
        linarith
      · rw [max_eq_left h2, sub_self, abs_zero]; exact abs_nonneg _
    · rw [min_eq_right h1, max_eq_left (hle d), abs_of_nonneg (by linarith), abs_of_nonneg (by linarith)]
      linarith
  · simp only [closestBox]
    split
    · next hd =>
      obtain ⟨h1, h2⟩ := (key pt).1 h d hd
      rw [min_eq_left h2, max_eq_left h1]
    · rfl

/-! ### Location of receivers and point sources -/

theorem forN_unit {n : Nat} {body : Nat → Unit → Option Unit} (h : ∀ d < n, body d () = some ()) : forN n body () = some () := by
  induction n with
  | zero => rfl
  | succ n ih => rw [forN_succ, ih (fun d hd => h d (by omega))]; exact h n (by omega)

/-- C89: if the projection returns a point of the element, the location succeeds and returns the reference point of the
projected point, whose coordinates are in the unit interval. -/
theorem C89_locate {tol : K} (ht : 0 < tol) {ty : Ent} {ves : Nat → Nat → K} (hr : Regular tol ty ves)
    {proj : (Nat → K) → Nat → K} {pt : Nat → K} (hp : InElem ty ves (proj pt)) :
    ∃ xi, locate tol ty ves proj pt = some xi ∧ (∀ d < ty.nDim, refToPhy ty ves xi d = proj pt d) ∧
      (∀ fa < ty.nFa, 0 ≤ lam ty xi fa) ∧ ∀ d < ty.nDim, 0 ≤ xi d ∧ xi d ≤ 1 := by
  obtain ⟨xi, hxi, hx, hu⟩ := C88_inverse ht.le hr (proj pt)
  obtain ⟨xi', hx', hl'⟩ := hp
  have he := hu xi' hx'
  have hl : ∀ fa < ty.nFa, 0 ≤ lam ty xi fa := by
    intro fa hfa
    have := hl' fa hfa
    cases ty <;> simp only [Ent.nFa, Ent.nDim] at hfa he <;> interval_cases fa <;> simp only [lam] at this ⊢ <;>
      first
        | (rwa [he 0 (by decide), he 1 (by decide), he 2 (by decide)] at this)
        | (rwa [he 0 (by decide), he 1 (by decide)] at this)
        | (rwa [he 0 (by decide)] at this)
        | (rwa [he 1 (by decide)] at this)
        | (rwa [he 2 (by decide)] at this)
  have h01 : ∀ d < ty.nDim, 0 ≤ xi d ∧ xi d ≤ 1 := by
    intro d hd
    cases ty <;> simp only [Ent.nDim, Ent.nFa] at hd hl
    · have := hl 0 (by decide); have := hl 1 (by decide); simp only [lam] at *
      interval_cases d; constructor <;> linarith
    · have := hl 0 (by decide); have := hl 1 (by decide); have := hl 2 (by decide); have := hl 3 (by decide); simp only [lam] at *
      interval_cases d <;> constructor <;> linarith
    · have := hl 0 (by decide); have := hl 1 (by decide); have := hl 2 (by decide); simp only [lam] at *
      interval_cases d <;> constructor <;> linarith
    · have := hl 0 (by decide); have := hl 1 (by decide); have := hl 2 (by decide); have := hl 3 (by decide)
      have := hl 4 (by decide); have := hl 5 (by decide); simp only [lam] at *
      interval_cases d <;> constructor <;> linarith
    · have := hl 0 (by decide); have := hl 1 (by decide); have := hl 2 (by decide); have := hl 3 (by decide); simp only [lam] at *
      interval_cases d <;> constructor <;> linarith
  refine ⟨xi, ?_, hx, hl, h01⟩
  simp only [locate, hxi, Option.bind_eq_bind, Option.bind_some]
  rw [forN_unit]
  · rfl
  · intro d hd
    obtain ⟨a, b⟩ := h01 d hd
    have a' : xi d > -tol := by linarith
    have b' : xi d < 1 + tol := by linarith
    simp [check, a', b']

/-- C89: for rectangles and cuboids every point is located; points of the element are located at their reference point. -/
theorem C89_locate_box {tol : K} (ht : 0 < tol) {ty : Ent} (hty : ty = .quad ∨ ty = .hex) {ves : Nat → Nat → K}
    (hr : Regular tol ty ves) (pt : Nat → K) :
    ∃ xi, locate tol ty ves (closestBox ty ves) pt = some xi ∧ (∀ d < ty.nDim, 0 ≤ xi d ∧ xi d ≤ 1) ∧
      (∀ d < ty.nDim, refToPhy ty ves xi d = closestBox ty ves pt d) ∧
      (InElem ty ves pt → ∀ d < ty.nDim, refToPhy ty ves xi d = pt d) := by
  obtain ⟨h1, -, h3⟩ := C89_closest ht.le hty hr pt
  obtain ⟨xi, hl, hx, -, h01⟩ := C89_locate ht hr h1
  exact ⟨xi, hl, h01, hx, fun h d hd => by rw [hx d hd, h3 h]⟩

/-- C89: the check of the coordinates does not detect points outside of tetrahedra: with a projection which keeps the point,
a point outside of the element is located. -/
theorem C89_check_refuted : ∃ pt xi : Nat → Rat, locate (1 / 1000000) .tet (refVe .tet) id pt = some xi ∧
    ¬ InElem .tet (refVe .tet) pt := by
  have hr : Regular (1 / 1000000) .tet (refVe .tet : Nat → Nat → Rat) := by
    show Mesh.det3 _ _ _ _ ≠ 0; norm_num [Mesh.det3, pt3, refVe, tab]
  obtain ⟨xi, h1, -, h2⟩ := C88_inverse (by norm_num) hr (fun _ => 9 / 10)
  have h9 := h2 (fun _ => 9 / 10) (fun d hd => by
    simp only [Ent.nDim] at hd
    interval_cases d <;> norm_num [refToPhy, sumN_succ, sumN_zero, shTet, refVe, tab])
  refine ⟨fun _ => 9 / 10, xi, ?_, ?_⟩
  · simp only [locate, id, h1, Option.bind_eq_bind, Option.bind_some]
    rw [forN_unit]
    · rfl
    · intro d hd
      rw [← h9 d hd]; norm_num [check]
  · rintro ⟨xi, hx, hl⟩
    have l3 := hl 3 (by decide)
    have x0 := hx 0 (by decide); have x1 := hx 1 (by decide); have x2 := hx 2 (by decide)
    simp [refToPhy, sumN_succ, sumN_zero, shTet, refVe, tab] at x0 x1 x2
    simp only [lam] at l3
    linarith

/-! ### Examples -/

example : IsAffine .tet exTet ∧ 0 < jDet .tet exTet :=
  Regular.affine (tol := 1 / 1000000) (by norm_num) (by
    show Mesh.det3 _ _ _ _ ≠ 0; norm_num [Mesh.det3, pt3, exTet]) (fun _ => by norm_num [Mesh.det3, pt3, exTet])

/-- A point of the tetrahedron. -/
example : inside (1 / 1000000) .tet exTet (fun d => refToPhy .tet exTet (fun _ => 1 / 4) d) = some 1 := by
  have hj : jDet .tet exTet = 24 := by
    simp only [jDet]
    rw [C88_detTet]; norm_num [Mesh.det3, pt3, exTet]
  refine C89_interior (ty := .tet) (ves := exTet) (xi := fun _ => 1 / 4) (by norm_num) trivial (by rw [hj]; norm_num) (fun _ _ => rfl) ?_
  intro fa hfa; simp only [Ent.nFa] at hfa
  rw [hj]
  interval_cases fa <;> norm_num [lam]

end
end Edge.Map
