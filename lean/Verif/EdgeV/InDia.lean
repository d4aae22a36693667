import Mathlib.Analysis.SpecialFunctions.Pow.Real
import Mathlib.Algebra.Order.Chebyshev
import Mathlib.LinearAlgebra.Matrix.Determinant.Basic
import Mathlib.LinearAlgebra.Matrix.Notation
import Mathlib.Tactic.FinCases
import Mathlib.Tactic.FieldSimp
import Mathlib.Tactic.Positivity
import Mathlib.Tactic.Linarith
import Mathlib.Tactic.LinearCombination

/-!
C117: in-diameters of triangles and tetrahedrons. Model of `edge_v::geom::Tria3::{area,inDiameter}` and `edge_v::geom::Tet4::{volume,inDiameter}`. Real numbers replace floating point numbers.
-/

namespace Edge.EdgeV.InDia

/-! ### Model -/

/-- `Eigen::Vector3d::norm`. -/
noncomputable def norm3 (a : Fin 3 → ℝ) : ℝ := Real.sqrt (a 0 * a 0 + a 1 * a 1 + a 2 * a 2)

/-- `Eigen::Vector3d::cross`. -/
def cross (a b : Fin 3 → ℝ) : Fin 3 → ℝ := ![a 1 * b 2 - a 2 * b 1, a 2 * b 0 - a 0 * b 2, a 0 * b 1 - a 1 * b 0]

/-- `Tria3::area` (tools/edge_v/src/geom/Tria3.cpp:28-47). -/
noncomputable def triaArea (v : Fin 3 → Fin 3 → ℝ) : ℝ := norm3 (cross (fun i => v 1 i - v 0 i) (fun i => v 2 i - v 0 i)) / 2

open Classical in
/-- `Tria3::inDiameter` (tools/edge_v/src/geom/Tria3.cpp:122-147). -/
noncomputable def triaInDia (v : Fin 3 → Fin 3 → ℝ) : Option ℝ :=
  if v 0 2 = 0 ∧ v 1 2 = 0 ∧ v 2 2 = 0 then
    let len0 := norm3 fun i => v 0 i - v 1 i
    let len1 := norm3 fun i => v 1 i - v 2 i
    let len2 := norm3 fun i => v 2 i - v 0 i
    some (4 * triaArea v / (len0 + len1 + len2))
  else none

/-- `Tet4::volume` (tools/edge_v/src/geom/Tet4.cpp:31-47). -/
noncomputable def tetVolume (v : Fin 4 → Fin 3 → ℝ) : ℝ :=
  |Matrix.det (Matrix.of fun (ve di : Fin 4) => if h : di.val < 3 then v ve ⟨di.val, h⟩ else 1)| / 6

/-- `l_faNorm` (tools/edge_v/src/geom/Tet4.cpp:57-60). -/
noncomputable def faNorm (a b c : Fin 3 → ℝ) : ℝ := norm3 (cross (fun i => b i - a i) (fun i => c i - a i))

/-- `Tet4::inDiameter` (tools/edge_v/src/geom/Tet4.cpp:49-79). -/
noncomputable def tetInDia (v : Fin 4 → Fin 3 → ℝ) : ℝ :=
  let div := faNorm (v 0) (v 1) (v 2)
  let div := div + faNorm (v 0) (v 1) (v 3)
  let div := div + faNorm (v 0) (v 2) (v 3)
  let div := div + faNorm (v 1) (v 2) (v 3)
  12 * tetVolume v / div

/-- Body of the innermost loop of `Quad4r::distMax` and `Hex8r::distMax` (tools/edge_v/src/geom/Quad4r.cpp:34-36, Hex8r.cpp:34-36). -/
noncomputable def distStep {n d : Nat} (v : Fin n → Fin d → ℝ) (v0 v1 : Fin n) (o : Fin d → ℝ) (di : Fin d) : Fin d → ℝ :=
  Function.update o di (max (o di) |v v0 di - v v1 di|)

open Classical in
/-- `Quad4r::distMax` (tools/edge_v/src/geom/Quad4r.cpp:28-42; `n = 4`, `d = 2`) and `Hex8r::distMax` (tools/edge_v/src/geom/Hex8r.cpp:28-43; `n = 8`, `d = 3`). The third coordinate of the quads is not read by the code and left out. `none`: a check failed. -/
noncomputable def distMax {n d : Nat} (v : Fin n → Fin d → ℝ) : Option (Fin d → ℝ) :=
  let o := (List.finRange n).foldl (fun o v0 => (List.finRange n).foldl (fun o v1 => (List.finRange d).foldl (distStep v v0 v1) o) o) (fun _ => 0)
  if ∀ di, o di ≠ 0 then some o else none

/-- `Quad4r::inDiameter` (tools/edge_v/src/geom/Quad4r.cpp:70-77). -/
noncomputable def quadInDia (v : Fin 4 → Fin 2 → ℝ) : Option ℝ := do
  let m ← distMax v
  some (min (m 0) (m 1))

/-- `Hex8r::inDiameter` (tools/edge_v/src/geom/Hex8r.cpp:54-62). -/
noncomputable def hexInDia (v : Fin 8 → Fin 3 → ℝ) : Option ℝ := do
  let m ← distMax v
  let dia := min (m 0) (m 1)
  some (min dia (m 2))

/-- `Hex8r::volume` (tools/edge_v/src/geom/Hex8r.cpp:45-52). -/
noncomputable def hexVolume (v : Fin 8 → Fin 3 → ℝ) : Option ℝ := do
  let m ← distMax v
  some (m 0 * m 1 * m 2)

/-! ### Specification -/

/-- The points of the simplex with vertices `v`. -/
def InSimplex {n d : Nat} (v : Fin n → Fin d → ℝ) (p : Fin d → ℝ) : Prop := ∃ w : Fin n → ℝ, (∀ f, 0 ≤ w f) ∧ ∑ f, w f = 1 ∧ ∀ i, p i = ∑ f, w f * v f i

/-- The points of the box with the corners `lo` and `hi`. -/
def InBox {d : Nat} (lo hi : Fin d → ℝ) (p : Fin d → ℝ) : Prop := ∀ i, lo i ≤ p i ∧ p i ≤ hi i

/-- `v` are the vertices of the box: every coordinate is that of one of the sides and all sides have vertices. The order of the vertices is arbitrary. -/
structure BoxVes {n d : Nat} (v : Fin n → Fin d → ℝ) (lo hi : Fin d → ℝ) : Prop where
  lt : ∀ i, lo i < hi i
  side : ∀ ve i, v ve i = lo i ∨ v ve i = hi i
  hasLo : ∀ i, ∃ ve, v ve i = lo i
  hasHi : ∀ i, ∃ ve, v ve i = hi i

/-- The ball with centre `c` and diameter `a` is a part of the region `S`. -/
def BallIn {d : Nat} (S : (Fin d → ℝ) → Prop) (c : Fin d → ℝ) (a : ℝ) : Prop := ∀ p : Fin d → ℝ, Real.sqrt (∑ i, (p i - c i) ^ 2) ≤ a / 2 → S p

/-- `a` is the diameter of the largest ball in the region `S`. -/
def InDiameter {d : Nat} (S : (Fin d → ℝ) → Prop) (a : ℝ) : Prop := (∃ c, BallIn S c a) ∧ ∀ c a', 0 ≤ a' → BallIn S c a' → a' ≤ a

/-! ### Proofs -/

/-- Barycentric coordinates `g f · p + b f`. -/
structure Bary {n d : Nat} (v : Fin n → Fin d → ℝ) (g : Fin n → Fin d → ℝ) (b : Fin n → ℝ) : Prop where
  kron : ∀ f h, ∑ i, g f i * v h i + b f = if f = h then 1 else 0
  sum : ∀ p : Fin d → ℝ, ∑ f, (∑ i, g f i * p i + b f) = 1
  repr : ∀ (p : Fin d → ℝ) i, p i = ∑ f, (∑ i, g f i * p i + b f) * v f i

theorem Bary.aff {n d : Nat} {v : Fin n → Fin d → ℝ} {g : Fin n → Fin d → ℝ} {b : Fin n → ℝ} (h : Bary v g b) {w : Fin n → ℝ} (hw : ∑ f, w f = 1) {p : Fin d → ℝ}
    (hp : ∀ i, p i = ∑ f, w f * v f i) (f : Fin n) : ∑ i, g f i * p i + b f = w f := by
  have e1 : ∑ i, g f i * p i = ∑ h, w h * ∑ i, g f i * v h i := by
    simp only [hp, Finset.mul_sum]
    rw [Finset.sum_comm]
    exact Finset.sum_congr rfl fun _ _ => Finset.sum_congr rfl fun _ _ => by ring
  have e2 : b f = ∑ h, w h * b f := by rw [← Finset.sum_mul, hw, one_mul]
  calc ∑ i, g f i * p i + b f = ∑ h', w h' * (∑ i, g f i * v h' i + b f) := by
        rw [e1]; conv_lhs => rw [e2]
        rw [← Finset.sum_add_distrib]
        exact Finset.sum_congr rfl fun _ _ => by ring
    _ = w f := by simp [h.kron]

/-- The largest ball in a simplex with barycentric coordinates. -/
theorem Bary.inDia {n d : Nat} {v : Fin n → Fin d → ℝ} {g : Fin n → Fin d → ℝ} {b : Fin n → ℝ} (h : Bary v g b) (hG : 0 < ∑ f, Real.sqrt (∑ i, g f i ^ 2)) :
    InDiameter (InSimplex v) (2 / ∑ f, Real.sqrt (∑ i, g f i ^ 2)) := by
  set S := ∑ f, Real.sqrt (∑ i, g f i ^ 2) with hS
  have move : ∀ f (p c : Fin d → ℝ), ∑ i, g f i * p i + b f = (∑ i, g f i * c i + b f) + ∑ i, g f i * (p i - c i) := by
    intro f p c
    simp only [mul_sub, Finset.sum_sub_distrib]; ring
  constructor
  · have hw1 : ∑ f, Real.sqrt (∑ i, g f i ^ 2) / S = 1 := by
      simp only [div_eq_mul_inv]
      rw [← Finset.sum_mul, ← hS, mul_inv_cancel₀ hG.ne']
    refine ⟨fun i => ∑ f, Real.sqrt (∑ i, g f i ^ 2) / S * v f i, fun p hp => ⟨fun f => ∑ i, g f i * p i + b f, fun f => ?_, h.sum p, h.repr p⟩⟩
    show 0 ≤ ∑ i, g f i * p i + b f
    rw [move f p (fun i => ∑ f, Real.sqrt (∑ i, g f i ^ 2) / S * v f i), h.aff hw1 (fun i => rfl) f]
    have cs := Real.abs_le_sqrt (Finset.sum_mul_sq_le_sq_mul_sq Finset.univ (g f) (fun i => p i - ∑ f, Real.sqrt (∑ i, g f i ^ 2) / S * v f i))
    rw [Real.sqrt_mul (Finset.sum_nonneg fun _ _ => sq_nonneg _)] at cs
    have hp' : Real.sqrt (∑ i, (p i - ∑ f, Real.sqrt (∑ i, g f i ^ 2) / S * v f i) ^ 2) ≤ 1 / S := by
      refine hp.trans (le_of_eq ?_); field_simp
    have h2 := mul_le_mul_of_nonneg_left hp' (Real.sqrt_nonneg (∑ i, g f i ^ 2))
    have h3 := neg_abs_le (∑ i, g f i * (p i - ∑ f, Real.sqrt (∑ i, g f i ^ 2) / S * v f i))
    have h4 : Real.sqrt (∑ i, g f i ^ 2) * (1 / S) = Real.sqrt (∑ i, g f i ^ 2) / S := by ring
    linarith
  · intro c a ha hb
    have hc : ∀ f, a / 2 * Real.sqrt (∑ i, g f i ^ 2) ≤ ∑ i, g f i * c i + b f := by
      intro f
      set G := Real.sqrt (∑ i, g f i ^ 2) with hGf
      have hGG : G ^ 2 = ∑ i, g f i ^ 2 := Real.sq_sqrt (Finset.sum_nonneg fun _ _ => sq_nonneg _)
      have hG0 : 0 ≤ G := Real.sqrt_nonneg _
      rcases hG0.lt_or_eq with hp | hz
      · have hd : Real.sqrt (∑ i, (c i - a / 2 / G * g f i - c i) ^ 2) ≤ a / 2 := by
          have : ∑ i, (c i - a / 2 / G * g f i - c i) ^ 2 = (a / 2) ^ 2 := by
            have : ∑ i, (c i - a / 2 / G * g f i - c i) ^ 2 = (a / 2 / G) ^ 2 * ∑ i, g f i ^ 2 := by
              rw [Finset.mul_sum]; exact Finset.sum_congr rfl fun _ _ => by ring
            rw [this, ← hGG]; field_simp
          rw [this, Real.sqrt_sq (by linarith)]
        obtain ⟨w, w0, w1, wp⟩ := hb (fun i => c i - a / 2 / G * g f i) hd
        have e := h.aff w1 wp f
        rw [move f _ c] at e
        have e2 : ∑ i, g f i * (c i - a / 2 / G * g f i - c i) = -(a / 2 * G) := by
          have : ∑ i, g f i * (c i - a / 2 / G * g f i - c i) = -(a / 2 / G) * ∑ i, g f i ^ 2 := by
            rw [Finset.mul_sum]; exact Finset.sum_congr rfl fun _ _ => by ring
          rw [this, ← hGG]; field_simp
        rw [e2] at e
        linarith [w0 f]
      · obtain ⟨w, w0, w1, wp⟩ := hb c (by simp; linarith)
        rw [h.aff w1 wp f, ← hz, mul_zero]
        exact w0 f
    have := Finset.sum_le_sum fun f (_ : f ∈ Finset.univ) => hc f
    rw [h.sum, ← Finset.mul_sum, ← hS] at this
    rw [le_div_iff₀ hG]
    linarith

/-- Six times the signed volume. -/
def det3 (a b c : Fin 3 → ℝ) : ℝ := a 0 * (b 1 * c 2 - b 2 * c 1) - a 1 * (b 0 * c 2 - b 2 * c 0) + a 2 * (b 0 * c 1 - b 1 * c 0)

/-- Gradients of the barycentric coordinates of a tetrahedron. -/
noncomputable def gTet (v : Fin 4 → Fin 3 → ℝ) (D : ℝ) : Fin 4 → Fin 3 → ℝ :=
  ![fun i => -(cross (fun i => v 2 i - v 1 i) (fun i => v 3 i - v 1 i) i) / D, fun i => cross (fun i => v 2 i - v 0 i) (fun i => v 3 i - v 0 i) i / D,
    fun i => -(cross (fun i => v 1 i - v 0 i) (fun i => v 3 i - v 0 i) i) / D, fun i => cross (fun i => v 1 i - v 0 i) (fun i => v 2 i - v 0 i) i / D]

theorem tet_bary {v : Fin 4 → Fin 3 → ℝ} {D : ℝ} (hD : D = det3 (fun i => v 1 i - v 0 i) (fun i => v 2 i - v 0 i) (fun i => v 3 i - v 0 i)) (h0 : D ≠ 0) :
    Bary v (gTet v D) (fun f => if f = 0 then 1 - ∑ i, gTet v D 0 i * v 0 i else -∑ i, gTet v D f i * v 0 i) := by
  simp only [det3] at hD
  refine ⟨?_, ?_, ?_⟩
  · intro f h
    fin_cases f <;> fin_cases h <;> simp [gTet, cross, Fin.sum_univ_three] <;> field_simp <;> (rw [hD]; ring)
  · intro p
    simp [gTet, cross, Fin.sum_univ_three, Fin.sum_univ_four]
    field_simp
    ring
  · intro p i
    fin_cases i <;> simp [gTet, cross, Fin.sum_univ_three, Fin.sum_univ_four] <;> field_simp <;> rw [hD] <;> ring

theorem norm_div (a : Fin 3 → ℝ) (s D : ℝ) (hs : s = 1 ∨ s = -1) : Real.sqrt (∑ i, (s * a i / D) ^ 2) = norm3 a / |D| := by
  have : ∑ i, (s * a i / D) ^ 2 = (a 0 * a 0 + a 1 * a 1 + a 2 * a 2) / D ^ 2 := by
    rw [Fin.sum_univ_three]
    rcases hs with rfl | rfl <;> ring
  rw [this, Real.sqrt_div (by nlinarith [mul_self_nonneg (a 0), mul_self_nonneg (a 1), mul_self_nonneg (a 2)]), Real.sqrt_sq_eq_abs]
  rfl

theorem tetVolume_eq (v : Fin 4 → Fin 3 → ℝ) : tetVolume v = |det3 (fun i => v 1 i - v 0 i) (fun i => v 2 i - v 0 i) (fun i => v 3 i - v 0 i)| / 6 := by
  unfold tetVolume
  congr 1
  rw [← abs_neg]
  congr 1
  simp [Matrix.det_succ_row_zero, Fin.sum_univ_succ, det3, Fin.succAbove]
  ring

theorem norm3_nonneg (a : Fin 3 → ℝ) : 0 ≤ norm3 a := Real.sqrt_nonneg _

/-- C117: the in-diameter of a tetrahedron which is not flat is the diameter of the largest ball in it, for every order of its vertices. -/
theorem C117_tet {v : Fin 4 → Fin 3 → ℝ} (h : tetVolume v ≠ 0) : InDiameter (InSimplex v) (tetInDia v) := by
  set D := det3 (fun i => v 1 i - v 0 i) (fun i => v 2 i - v 0 i) (fun i => v 3 i - v 0 i) with hD
  have hV := tetVolume_eq v
  rw [← hD] at hV
  have h0 : D ≠ 0 := by intro h0; apply h; rw [hV, h0]; simp
  have hDp : 0 < |D| := abs_pos.mpr h0
  have hb := tet_bary hD h0
  have hs : ∑ f, Real.sqrt (∑ i, gTet v D f i ^ 2) = (faNorm (v 0) (v 1) (v 2) + faNorm (v 0) (v 1) (v 3) + faNorm (v 0) (v 2) (v 3) + faNorm (v 1) (v 2) (v 3)) / |D| := by
    have e0 := norm_div (cross (fun i => v 2 i - v 1 i) (fun i => v 3 i - v 1 i)) (-1) D (.inr rfl)
    have e1 := norm_div (cross (fun i => v 2 i - v 0 i) (fun i => v 3 i - v 0 i)) 1 D (.inl rfl)
    have e2 := norm_div (cross (fun i => v 1 i - v 0 i) (fun i => v 3 i - v 0 i)) (-1) D (.inr rfl)
    have e3 := norm_div (cross (fun i => v 1 i - v 0 i) (fun i => v 2 i - v 0 i)) 1 D (.inl rfl)
    simp only [neg_one_mul, one_mul] at e0 e1 e2 e3
    rw [Fin.sum_univ_four]
    simp only [gTet, Matrix.cons_val]
    rw [e0, e1, e2, e3]
    unfold faNorm
    ring
  have hpos : 0 < ∑ f, Real.sqrt (∑ i, gTet v D f i ^ 2) := by
    refine lt_of_le_of_ne (Finset.sum_nonneg fun _ _ => Real.sqrt_nonneg _) fun hz => ?_
    have hall := (Finset.sum_eq_zero_iff_of_nonneg fun _ _ => Real.sqrt_nonneg _).mp hz.symm
    have h1 := (Real.sqrt_eq_zero (Finset.sum_nonneg fun _ _ => sq_nonneg _)).mp (hall 1 (Finset.mem_univ _))
    have h2 : ∀ i, gTet v D 1 i = 0 := fun i => by
      have := (Finset.sum_eq_zero_iff_of_nonneg fun _ _ => sq_nonneg _).mp h1 i (Finset.mem_univ _)
      exact pow_eq_zero_iff two_ne_zero |>.mp this
    have k1 := hb.kron 1 1
    have k2 := hb.kron 1 0
    simp [h2] at k1
  have := hb.inDia hpos
  rw [hs] at this
  convert this using 1
  unfold tetInDia
  rw [hV]
  simp only
  rw [div_div_eq_mul_div]
  congr 1
  ring

/-- Gradients of the barycentric coordinates of a triangle. -/
noncomputable def gTri (v : Fin 3 → Fin 3 → ℝ) (D : ℝ) : Fin 3 → Fin 2 → ℝ :=
  ![![(v 1 1 - v 2 1) / D, (v 2 0 - v 1 0) / D], ![(v 2 1 - v 0 1) / D, (v 0 0 - v 2 0) / D], ![(v 0 1 - v 1 1) / D, (v 1 0 - v 0 0) / D]]

theorem tri_bary {v : Fin 3 → Fin 3 → ℝ} {D : ℝ} (hD : D = (v 1 0 - v 0 0) * (v 2 1 - v 0 1) - (v 1 1 - v 0 1) * (v 2 0 - v 0 0)) (h0 : D ≠ 0) :
    Bary (fun f => ![v f 0, v f 1]) (gTri v D) (![(v 1 0 * v 2 1 - v 2 0 * v 1 1) / D, (v 2 0 * v 0 1 - v 0 0 * v 2 1) / D, (v 0 0 * v 1 1 - v 1 0 * v 0 1) / D]) := by
  refine ⟨?_, ?_, ?_⟩
  · intro f h
    fin_cases f <;> fin_cases h <;> simp [gTri, Fin.sum_univ_two] <;> field_simp <;> (rw [hD]; ring)
  · intro p
    simp [gTri, Fin.sum_univ_two, Fin.sum_univ_three]
    field_simp
    rw [hD]
    ring
  · intro p i
    fin_cases i <;> simp [gTri, Fin.sum_univ_two, Fin.sum_univ_three] <;> field_simp <;> rw [hD] <;> ring

/-- C117: the in-diameter of a triangle which is not flat is the diameter of the largest circle in it, for every order of its vertices. -/
theorem C117_tria {v : Fin 3 → Fin 3 → ℝ} {a : ℝ} (ha : triaInDia v = some a) (h : triaArea v ≠ 0) : InDiameter (InSimplex fun f => ![v f 0, v f 1]) a := by
  unfold triaInDia at ha
  split_ifs at ha with hz
  obtain ⟨z0, z1, z2⟩ := hz
  set D := (v 1 0 - v 0 0) * (v 2 1 - v 0 1) - (v 1 1 - v 0 1) * (v 2 0 - v 0 0) with hD
  have hA : triaArea v = |D| / 2 := by
    unfold triaArea norm3 cross
    rw [← Real.sqrt_sq_eq_abs, hD]
    congr 2
    simp [z0, z1, z2]
    ring
  have h0 : D ≠ 0 := by intro h0; apply h; rw [hA, h0]; simp
  have hDp : 0 < |D| := abs_pos.mpr h0
  have hb := tri_bary hD h0
  have len : ∀ x y : ℝ, Real.sqrt ((x / D) ^ 2 + (y / D) ^ 2) = Real.sqrt (x * x + y * y) / |D| := by
    intro x y
    rw [show (x / D) ^ 2 + (y / D) ^ 2 = (x * x + y * y) / D ^ 2 by rw [div_pow, div_pow, ← add_div, sq x, sq y], Real.sqrt_div (by nlinarith [mul_self_nonneg x, mul_self_nonneg y]), Real.sqrt_sq_eq_abs]
  have hs : ∑ f, Real.sqrt (∑ i, gTri v D f i ^ 2) = ((norm3 fun i => v 0 i - v 1 i) + (norm3 fun i => v 1 i - v 2 i) + norm3 fun i => v 2 i - v 0 i) / |D| := by
    rw [Fin.sum_univ_three]
    simp only [gTri, Fin.sum_univ_two, Matrix.cons_val, len]
    simp only [norm3, z0, z1, z2]
    have e : ∀ x y x' y' : ℝ, x * x + y * y = x' * x' + y' * y' → Real.sqrt (x * x + y * y) = Real.sqrt (x' * x' + y' * y' + (0 - 0) * (0 - 0)) := by
      intro x y x' y' h; rw [h]; simp
    rw [e (v 1 1 - v 2 1) (v 2 0 - v 1 0) (v 1 0 - v 2 0) (v 1 1 - v 2 1) (by ring), e (v 2 1 - v 0 1) (v 0 0 - v 2 0) (v 2 0 - v 0 0) (v 2 1 - v 0 1) (by ring),
      e (v 0 1 - v 1 1) (v 1 0 - v 0 0) (v 0 0 - v 1 0) (v 0 1 - v 1 1) (by ring)]
    ring
  have hpos : 0 < ∑ f, Real.sqrt (∑ i, gTri v D f i ^ 2) := by
    refine lt_of_le_of_ne (Finset.sum_nonneg fun _ _ => Real.sqrt_nonneg _) fun hz => ?_
    have hall := (Finset.sum_eq_zero_iff_of_nonneg fun _ _ => Real.sqrt_nonneg _).mp hz.symm
    have h1 := (Real.sqrt_eq_zero (Finset.sum_nonneg fun _ _ => sq_nonneg _)).mp (hall 1 (Finset.mem_univ _))
    have h2 : ∀ i, gTri v D 1 i = 0 := fun i => by
      have := (Finset.sum_eq_zero_iff_of_nonneg fun _ _ => sq_nonneg _).mp h1 i (Finset.mem_univ _)
      exact pow_eq_zero_iff two_ne_zero |>.mp this
    have k1 := hb.kron 1 1
    have k2 := hb.kron 1 0
    simp only [h2, zero_mul, Finset.sum_const_zero, zero_add] at k1 k2
    rw [k1] at k2
    simp at k2
  have := hb.inDia hpos
  rw [hs] at this
  cases ha
  convert this using 1
  rw [hA, div_div_eq_mul_div]
  congr 1
  ring

theorem foldl_le {α d : Type} (f : (d → ℝ) → α → d → ℝ) (B : d → ℝ) (hf : ∀ s x, (∀ i, s i ≤ B i) → ∀ i, f s x i ≤ B i) (l : List α) : ∀ s, (∀ i, s i ≤ B i) → ∀ i, l.foldl f s i ≤ B i := by
  induction l with
  | nil => intro s hs; exact hs
  | cons x l ih => intro s hs; exact ih _ (hf s x hs)

theorem foldl_mono {α d : Type} (f : (d → ℝ) → α → d → ℝ) (hf : ∀ s x i, s i ≤ f s x i) (l : List α) : ∀ s i, s i ≤ l.foldl f s i := by
  induction l with
  | nil => intro s i; exact le_refl _
  | cons x l ih => intro s i; exact (hf s x i).trans (ih _ i)

theorem foldl_hit {α d : Type} (f : (d → ℝ) → α → d → ℝ) (hf : ∀ s x i, s i ≤ f s x i) {x : α} {i : d} {y : ℝ} (hy : ∀ s, y ≤ f s x i) (l : List α) : x ∈ l → ∀ s, y ≤ l.foldl f s i := by
  induction l with
  | nil => intro h; cases h
  | cons a l ih =>
    intro h s
    rcases List.mem_cons.mp h with rfl | h
    · exact (hy s).trans (foldl_mono f hf l _ i)
    · exact ih h _

/-- The extents of the box. -/
theorem distMax_box {n d : Nat} {v : Fin n → Fin d → ℝ} {lo hi : Fin d → ℝ} (h : BoxVes v lo hi) : distMax v = some fun i => hi i - lo i := by
  have st : ∀ v0 v1 (s : Fin d → ℝ) di i, s i ≤ distStep v v0 v1 s di i := by
    intro v0 v1 s di i
    unfold distStep
    by_cases e : i = di
    · subst e; simp
    · simp [e]
  have m1 := fun v0 v1 => foldl_mono _ (st v0 v1) (List.finRange d)
  have m2 := fun v0 => foldl_mono _ (fun s v1 => m1 v0 v1 s) (List.finRange n)
  have key : (List.finRange n).foldl (fun o v0 => (List.finRange n).foldl (fun o v1 => (List.finRange d).foldl (distStep v v0 v1) o) o) (fun _ => 0) = fun i => hi i - lo i := by
    funext i
    apply le_antisymm
    · refine foldl_le _ (fun i => hi i - lo i) (fun s v0 hs => foldl_le _ _ (fun s v1 hs => foldl_le _ _ (fun s di hs i => ?_) _ s hs) _ s hs) _ _ (fun i => ?_) i
      · unfold distStep
        by_cases e : i = di
        · subst e
          simp only [Function.update_self]
          refine max_le (hs i) (abs_le.mpr ?_)
          have := h.lt i
          rcases h.side v0 i with e0 | e0 <;> rcases h.side v1 i with e1 | e1 <;> rw [e0, e1] <;> constructor <;> linarith
        · simp only [Function.update_of_ne e]; exact hs i
      · show 0 ≤ hi i - lo i
        linarith [h.lt i]
    · obtain ⟨a, ha⟩ := h.hasHi i
      obtain ⟨b, hb⟩ := h.hasLo i
      refine foldl_hit _ (fun s v0 => m2 v0 s) (x := a) (fun s => ?_) _ (List.mem_finRange a) _
      refine foldl_hit _ (fun s v1 => m1 a v1 s) (x := b) (fun s => ?_) _ (List.mem_finRange b) _
      refine foldl_hit _ (st a b) (x := i) (fun s => ?_) _ (List.mem_finRange i) _
      unfold distStep
      rw [Function.update_self, ha, hb]
      exact (le_abs_self _).trans (le_max_right _ _)
  unfold distMax
  simp only [key]
  rw [if_pos]
  intro di
  have := h.lt di
  exact ne_of_gt (by linarith)

theorem box_inDia {d : Nat} {lo hi : Fin d → ℝ} {a : ℝ} (ha : ∀ i, a ≤ hi i - lo i) (hm : ∃ i, a = hi i - lo i) : InDiameter (InBox lo hi) a := by
  constructor
  · refine ⟨fun i => (lo i + hi i) / 2, fun p hp i => ?_⟩
    have h1 : |p i - (lo i + hi i) / 2| ≤ a / 2 := by
      refine (Real.abs_le_sqrt ?_).trans hp
      exact Finset.single_le_sum (f := fun i => (p i - (lo i + hi i) / 2) ^ 2) (fun _ _ => sq_nonneg _) (Finset.mem_univ i)
    have h2 := abs_le.mp h1
    have := ha i
    constructor <;> linarith [h2.1, h2.2]
  · intro c b hb hin
    obtain ⟨i, hi'⟩ := hm
    have go : ∀ s : ℝ, s = 1 ∨ s = -1 → InBox lo hi (Function.update c i (c i + s * (b / 2))) := by
      intro s hs
      apply hin
      have : ∑ j, (Function.update c i (c i + s * (b / 2)) j - c j) ^ 2 = (b / 2) ^ 2 := by
        rw [Finset.sum_eq_single i]
        · rw [Function.update_self]; rcases hs with rfl | rfl <;> ring
        · intro j _ hj; rw [Function.update_of_ne hj]; ring
        · intro h; exact absurd (Finset.mem_univ i) h
      rw [this, Real.sqrt_sq (by linarith)]
    have h1 := (go 1 (.inl rfl) i).2
    have h2 := (go (-1) (.inr rfl) i).1
    rw [Function.update_self] at h1 h2
    linarith

/-- C117: the in-diameter of a rectangle is the diameter of the largest circle in it. -/
theorem C117_quad {v : Fin 4 → Fin 2 → ℝ} {lo hi : Fin 2 → ℝ} (h : BoxVes v lo hi) : ∃ a, quadInDia v = some a ∧ InDiameter (InBox lo hi) a := by
  refine ⟨min (hi 0 - lo 0) (hi 1 - lo 1), by simp [quadInDia, distMax_box h], box_inDia ?_ ?_⟩
  · intro i
    fin_cases i
    · exact min_le_left _ _
    · exact min_le_right _ _
  · rcases min_choice (hi 0 - lo 0) (hi 1 - lo 1) with e | e
    · exact ⟨0, e⟩
    · exact ⟨1, e⟩

/-- C117: the in-diameter of a hexahedron is the diameter of the largest ball in it, and its volume is the product of the lengths of its sides. -/
theorem C117_hex {v : Fin 8 → Fin 3 → ℝ} {lo hi : Fin 3 → ℝ} (h : BoxVes v lo hi) :
    (∃ a, hexInDia v = some a ∧ InDiameter (InBox lo hi) a) ∧ hexVolume v = some (∏ i, (hi i - lo i)) := by
  refine ⟨⟨min (min (hi 0 - lo 0) (hi 1 - lo 1)) (hi 2 - lo 2), by simp [hexInDia, distMax_box h], box_inDia ?_ ?_⟩, ?_⟩
  · intro i
    fin_cases i
    · exact (min_le_left _ _).trans (min_le_left _ _)
    · exact (min_le_left _ _).trans (min_le_right _ _)
    · exact min_le_right _ _
  · rcases min_choice (min (hi 0 - lo 0) (hi 1 - lo 1)) (hi 2 - lo 2) with e | e
    · rcases min_choice (hi 0 - lo 0) (hi 1 - lo 1) with e' | e'
      · exact ⟨0, e.trans e'⟩
      · exact ⟨1, e.trans e'⟩
    · exact ⟨2, e⟩
  · simp [hexVolume, distMax_box h, Fin.prod_univ_three]

/-- A rectangle with sides of length 2 and 3. -/
example : BoxVes (![![0, 0], ![2, 0], ![2, 3], ![0, 3]] : Fin 4 → Fin 2 → ℝ) ![0, 0] ![2, 3] := by
  refine ⟨?_, ?_, ?_, ?_⟩
  · intro i; fin_cases i <;> simp
  · intro ve i; fin_cases ve <;> fin_cases i <;> simp
  · intro i; fin_cases i
    · exact ⟨0, by simp⟩
    · exact ⟨0, by simp⟩
  · intro i; fin_cases i
    · exact ⟨2, by simp⟩
    · exact ⟨2, by simp⟩

/-- A cube. -/
example : BoxVes (![![0, 0, 0], ![1, 0, 0], ![1, 1, 0], ![0, 1, 0], ![0, 0, 1], ![1, 0, 1], ![1, 1, 1], ![0, 1, 1]] : Fin 8 → Fin 3 → ℝ) ![0, 0, 0] ![1, 1, 1] := by
  refine ⟨?_, ?_, ?_, ?_⟩
  · intro i; fin_cases i <;> simp
  · intro ve i; fin_cases ve <;> fin_cases i <;> simp
  · intro i; exact ⟨0, by fin_cases i <;> simp⟩
  · intro i; exact ⟨6, by fin_cases i <;> simp⟩

/-- The triangle with vertices (0,0), (3,0) and (0,4) has in-diameter 2. -/
example : InDiameter (InSimplex fun f => ![(![![0, 0, 0], ![3, 0, 0], ![0, 4, 0]] : Fin 3 → Fin 3 → ℝ) f 0, (![![0, 0, 0], ![3, 0, 0], ![0, 4, 0]] : Fin 3 → Fin 3 → ℝ) f 1]) 2 := by
  have s5 : Real.sqrt 25 = 5 := by rw [show (25 : ℝ) = 5 * 5 by norm_num, Real.sqrt_mul_self (by norm_num)]
  have s3 : Real.sqrt 9 = 3 := by rw [show (9 : ℝ) = 3 * 3 by norm_num, Real.sqrt_mul_self (by norm_num)]
  have s4 : Real.sqrt 16 = 4 := by rw [show (16 : ℝ) = 4 * 4 by norm_num, Real.sqrt_mul_self (by norm_num)]
  have s12 : Real.sqrt 144 = 12 := by rw [show (144 : ℝ) = 12 * 12 by norm_num, Real.sqrt_mul_self (by norm_num)]
  have hA : triaArea ![![0, 0, 0], ![3, 0, 0], ![0, 4, 0]] = 6 := by
    simp only [triaArea, norm3, cross, Matrix.cons_val]
    norm_num [s12]
  refine C117_tria ?_ (by rw [hA]; norm_num)
  unfold triaInDia
  rw [hA]
  simp only [norm3, Matrix.cons_val]
  norm_num [s3, s4, s5]

/-- The reference tetrahedron. -/
example : InDiameter (InSimplex (![![0, 0, 0], ![1, 0, 0], ![0, 1, 0], ![0, 0, 1]] : Fin 4 → Fin 3 → ℝ)) (tetInDia ![![0, 0, 0], ![1, 0, 0], ![0, 1, 0], ![0, 0, 1]]) :=
  C117_tet (by rw [tetVolume_eq]; simp only [det3, Matrix.cons_val]; norm_num)

end Edge.EdgeV.InDia
