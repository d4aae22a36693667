import Verif.Seismic.RotMat
import Verif.Seismic.Flux
import Verif.Map.Inside
import Verif.Flux.Gauss
/-!
Geometry of the faces in EDGE-V: areas, normals and tangents (C95).
Real numbers instead of floating point numbers. Points are vectors with three entries; Eigen's operations are those of vectors.
-/
namespace Edge.Face
open Edge Edge.Map Edge.Seismic

/-! ### Model -/

/-- `Line::length` (tools/edge_v/src/geom/Line.cpp:27-37). -/
noncomputable def lineLen (v0 v1 : Fin 3 → ℝ) : ℝ :=
  Real.sqrt ((v1 0 - v0 0) * (v1 0 - v0 0) + (v1 1 - v0 1) * (v1 1 - v0 1) + (v1 2 - v0 2) * (v1 2 - v0 2))

/-- `Eigen::Vector2d::normalize`: a zero vector is left as it is. -/
noncomputable def normalize2 (d : Fin 2 → ℝ) : Fin 2 → ℝ :=
  if 0 < d 0 * d 0 + d 1 * d 1 then fun i => d i / Real.sqrt (d 0 * d 0 + d 1 * d 1) else d

/-- `Line::normal` (tools/edge_v/src/geom/Line.cpp:39-88). -/
noncomputable def lineNormal (v0 v1 nPt : Fin 3 → ℝ) : Fin 3 → ℝ :=
  let d := normalize2 ![v1 0 - v0 0, v1 1 - v0 1]
  let n : Fin 2 → ℝ := ![-d 1, d 0]
  let dp := n 0 * (nPt 0 - v0 0) + n 1 * (nPt 1 - v0 1)
  let n : Fin 2 → ℝ := if dp > 0 then fun i => n i * -1 else n
  ![n 0, n 1, 0]

/-- `Tria3::area` (tools/edge_v/src/geom/Tria3.cpp:30-48). -/
noncomputable def triaArea (v0 v1 v2 : Fin 3 → ℝ) : ℝ := norm3 (cross3 (v1 - v0) (v2 - v0)) / 2

/-- `Eigen::Vector3d::normalize`: a zero vector is left as it is. -/
noncomputable def normalizeE (d : Fin 3 → ℝ) : Fin 3 → ℝ := if 0 < sprod3 d d then fun i => d i / norm3 d else d

/-- `Tria3::tangents` (tools/edge_v/src/geom/Tria3.cpp:50-104), `Quad4r::tangents` (Quad4r.cpp:53-60). -/
noncomputable def triaTangents (v0 v1 v2 nPt : Fin 3 → ℝ) : (Fin 3 → ℝ) × (Fin 3 → ℝ) :=
  let d0 := v1 - v0
  let d1 := v2 - v0
  let alpha := -sprod3 d0 d1 / sprod3 d0 d0
  let n0 := d1 + alpha • d0
  let d0 := normalizeE d0
  let n0 := normalizeE n0
  let n1 := cross3 d0 n0
  if sprod3 n1 (nPt - v0) > 0 then (n0, d0) else (d0, n0)

/-- `Tria3::normal` (tools/edge_v/src/geom/Tria3.cpp:106-125), `Quad4r::normal` (Quad4r.cpp:62-69). -/
noncomputable def triaNormal (v0 v1 v2 nPt : Fin 3 → ℝ) : Fin 3 → ℝ :=
  let ts := triaTangents v0 v1 v2 nPt
  cross3 ts.1 ts.2

/-! ### Lines -/

/-- Orthogonal vector of the line's direction. -/
def perp (v0 v1 : Fin 3 → ℝ) : Fin 3 → ℝ := ![-(v1 1 - v0 1), v1 0 - v0 0, 0]

theorem lineLen_sq (v0 v1 : Fin 3 → ℝ) (hz : v0 2 = v1 2) : lineLen v0 v1 = Real.sqrt ((v1 0 - v0 0) * (v1 0 - v0 0) + (v1 1 - v0 1) * (v1 1 - v0 1)) := by
  rw [lineLen, hz]; simp

theorem line_pos {v0 v1 nPt : Fin 3 → ℝ} (h : sprod3 (perp v0 v1) (nPt - v0) ≠ 0) :
    0 < (v1 0 - v0 0) * (v1 0 - v0 0) + (v1 1 - v0 1) * (v1 1 - v0 1) := by
  rcases lt_or_eq_of_le (add_nonneg (mul_self_nonneg (v1 0 - v0 0)) (mul_self_nonneg (v1 1 - v0 1))) with h' | h'
  · exact h'
  · exfalso; apply h
    have a : v1 0 - v0 0 = 0 := by nlinarith [mul_self_nonneg (v1 0 - v0 0), mul_self_nonneg (v1 1 - v0 1)]
    have b : v1 1 - v0 1 = 0 := by nlinarith [mul_self_nonneg (v1 0 - v0 0), mul_self_nonneg (v1 1 - v0 1)]
    simp [sprod3, perp, a, b]

/-- Length times normal. -/
theorem line_scaled {v0 v1 nPt : Fin 3 → ℝ} (hz : v0 2 = v1 2) (h : sprod3 (perp v0 v1) (nPt - v0) ≠ 0) :
    0 < lineLen v0 v1 ∧ ∀ d, lineLen v0 v1 * lineNormal v0 v1 nPt d = (if 0 < sprod3 (perp v0 v1) (nPt - v0) then -1 else 1) * perp v0 v1 d := by
  have hp := line_pos h
  have hL : 0 < lineLen v0 v1 := by rw [lineLen_sq _ _ hz]; exact Real.sqrt_pos.2 hp
  refine ⟨hL, ?_⟩
  have hs := lineLen_sq v0 v1 hz
  have hn : normalize2 ![v1 0 - v0 0, v1 1 - v0 1] = fun i => (![v1 0 - v0 0, v1 1 - v0 1] : Fin 2 → ℝ) i / lineLen v0 v1 := by
    rw [normalize2, hs]; exact if_pos hp
  have hd : -(v1 1 - v0 1) / lineLen v0 v1 * (nPt 0 - v0 0) + (v1 0 - v0 0) / lineLen v0 v1 * (nPt 1 - v0 1) = sprod3 (perp v0 v1) (nPt - v0) / lineLen v0 v1 := by
    simp [sprod3, perp]; field_simp
  have hiff : (-((v1 1 - v0 1) / lineLen v0 v1) * (nPt 0 - v0 0) + (v1 0 - v0 0) / lineLen v0 v1 * (nPt 1 - v0 1) > 0) ↔ 0 < sprod3 (perp v0 v1) (nPt - v0) := by
    rw [← neg_div, hd]; exact div_pos_iff_of_pos_right hL
  intro d
  simp only [lineNormal, hn, Matrix.cons_val_zero, Matrix.cons_val_one, hiff]
  split <;> fin_cases d <;> simp [perp] <;> field_simp <;> ring

/-- C95: the normal of a line in the plane is a unit vector, orthogonal to the line, and points away from the given point. -/
theorem C95_line {v0 v1 nPt : Fin 3 → ℝ} (hz : v0 2 = v1 2) (h : sprod3 (perp v0 v1) (nPt - v0) ≠ 0) :
    sprod3 (lineNormal v0 v1 nPt) (lineNormal v0 v1 nPt) = 1 ∧ lineNormal v0 v1 nPt 2 = 0 ∧
    sprod3 (lineNormal v0 v1 nPt) (v1 - v0) = 0 ∧ sprod3 (lineNormal v0 v1 nPt) (nPt - v0) < 0 := by
  obtain ⟨hL, hn⟩ := line_scaled hz h
  have hsq : lineLen v0 v1 ^ 2 = (v1 0 - v0 0) * (v1 0 - v0 0) + (v1 1 - v0 1) * (v1 1 - v0 1) := by
    rw [lineLen_sq _ _ hz]; exact Real.sq_sqrt (line_pos h).le
  obtain ⟨s, hs, hs2⟩ : ∃ s : ℝ, s * s = 1 ∧ (if 0 < sprod3 (perp v0 v1) (nPt - v0) then (-1 : ℝ) else 1) = s := by
    split
    · exact ⟨-1, by norm_num, rfl⟩
    · exact ⟨1, by norm_num, rfl⟩
  rw [hs2] at hn
  have e0 : lineNormal v0 v1 nPt 0 = s * -(v1 1 - v0 1) / lineLen v0 v1 := by rw [eq_div_iff hL.ne']; have := hn 0; simp [perp] at this; linarith
  have e1 : lineNormal v0 v1 nPt 1 = s * (v1 0 - v0 0) / lineLen v0 v1 := by rw [eq_div_iff hL.ne']; have := hn 1; simp [perp] at this; linarith
  have e2 : lineNormal v0 v1 nPt 2 = 0 := rfl
  refine ⟨?_, rfl, ?_, ?_⟩
  · rw [sprod3, e0, e1, e2]; field_simp; rw [hsq]; linear_combination ((v1 1 - v0 1) ^ 2 + (v1 0 - v0 0) ^ 2) * hs
  · rw [sprod3, e0, e1, e2]; simp; field_simp; ring
  · have : sprod3 (lineNormal v0 v1 nPt) (nPt - v0) = s * sprod3 (perp v0 v1) (nPt - v0) / lineLen v0 v1 := by
      rw [sprod3, e0, e1, e2, sprod3]; simp [perp]; field_simp
    rw [this, ← hs2]
    refine div_neg_of_neg_of_pos ?_ hL
    split
    · linarith
    · rename_i h'; rcases lt_or_gt_of_ne h with h'' | h''
      · linarith
      · exact absurd h'' h'

/-! ### Triangles -/

theorem sprod3_pos {d : Fin 3 → ℝ} (h : d ≠ 0) : 0 < sprod3 d d := by
  rcases lt_or_eq_of_le (add_nonneg (add_nonneg (mul_self_nonneg (d 0)) (mul_self_nonneg (d 1))) (mul_self_nonneg (d 2))) with h' | h'
  · exact h'
  · exfalso; apply h
    funext i
    fin_cases i <;> simp <;> nlinarith [mul_self_nonneg (d 0), mul_self_nonneg (d 1), mul_self_nonneg (d 2)]

theorem norm3_sq (d : Fin 3 → ℝ) : norm3 d ^ 2 = sprod3 d d :=
  Real.sq_sqrt (add_nonneg (add_nonneg (mul_self_nonneg (d 0)) (mul_self_nonneg (d 1))) (mul_self_nonneg (d 2)))

/-- Both edges and their orthogonal parts. -/
theorem tria_frame {v0 v1 v2 : Fin 3 → ℝ} (h : cross3 (v1 - v0) (v2 - v0) ≠ 0) :
    ∃ a b : Fin 3 → ℝ, normalizeE (v1 - v0) = a ∧
      normalizeE ((v2 - v0) + (-sprod3 (v1 - v0) (v2 - v0) / sprod3 (v1 - v0) (v1 - v0)) • (v1 - v0)) = b ∧
      sprod3 a a = 1 ∧ sprod3 b b = 1 ∧ sprod3 a b = 0 ∧
      ∀ i, norm3 (cross3 (v1 - v0) (v2 - v0)) * cross3 a b i = cross3 (v1 - v0) (v2 - v0) i := by
  obtain ⟨d, hd⟩ : ∃ d, d = v1 - v0 := ⟨_, rfl⟩
  obtain ⟨e, he⟩ : ∃ e, e = v2 - v0 := ⟨_, rfl⟩
  rw [← hd, ← he] at h ⊢
  have hd0 : d ≠ 0 := by rintro rfl; apply h; funext i; fin_cases i <;> simp [cross3]
  have hdp := sprod3_pos hd0
  obtain ⟨n, hn⟩ : ∃ n, n = e + (-sprod3 d e / sprod3 d d) • d := ⟨_, rfl⟩
  have hc : cross3 d n = cross3 d e := by
    rw [hn]; funext i; fin_cases i <;> simp [cross3] <;> ring
  have hn0 : n ≠ 0 := by
    intro h'; apply h; rw [← hc, h']; funext i; fin_cases i <;> simp [cross3]
  have hnp := sprod3_pos hn0
  have hdn : sprod3 d n = 0 := by
    have : sprod3 d n = sprod3 d e + (-sprod3 d e / sprod3 d d) * sprod3 d d := by rw [hn]; simp [sprod3]; ring
    rw [this]; field_simp; ring
  have hnd : 0 < norm3 d := Real.sqrt_pos.2 hdp
  have hnn : 0 < norm3 n := Real.sqrt_pos.2 hnp
  have hnc : norm3 (cross3 d e) = norm3 d * norm3 n := by
    rw [← hc, norm3, norm3, norm3, ← Real.sqrt_mul hdp.le]
    congr 1
    have : sprod3 d d * sprod3 n n = sprod3 (cross3 d n) (cross3 d n) + sprod3 d n ^ 2 := by simp [sprod3, cross3]; ring
    rw [this, hdn]; ring
  rw [← hn]
  refine ⟨fun i => d i / norm3 d, fun i => n i / norm3 n, by rw [normalizeE, if_pos hdp], by rw [normalizeE, if_pos hnp], ?_, ?_, ?_, ?_⟩
  · have := norm3_sq d; simp only [sprod3] at this ⊢; field_simp; linarith
  · have := norm3_sq n; simp only [sprod3] at this ⊢; field_simp; linarith
  · simp only [sprod3] at hdn ⊢; field_simp; linarith
  · intro i
    rw [hnc, ← hc]
    fin_cases i <;> simp [cross3] <;> field_simp

theorem cross_swap (a b : Fin 3 → ℝ) (i : Fin 3) : cross3 b a i = -cross3 a b i := by
  fin_cases i <;> simp [cross3] <;> ring

/-- Twice the area times the normal. -/
theorem tria_scaled {v0 v1 v2 nPt : Fin 3 → ℝ} (h : sprod3 (cross3 (v1 - v0) (v2 - v0)) (nPt - v0) ≠ 0) :
    0 < triaArea v0 v1 v2 ∧ ∀ d, 2 * triaArea v0 v1 v2 * triaNormal v0 v1 v2 nPt d =
      (if 0 < sprod3 (cross3 (v1 - v0) (v2 - v0)) (nPt - v0) then -1 else 1) * cross3 (v1 - v0) (v2 - v0) d := by
  have hc : cross3 (v1 - v0) (v2 - v0) ≠ 0 := by intro h'; apply h; rw [h']; simp [sprod3]
  obtain ⟨a, b, h1, h2, -, -, -, h6⟩ := tria_frame hc
  have hN : 0 < norm3 (cross3 (v1 - v0) (v2 - v0)) := Real.sqrt_pos.2 (sprod3_pos hc)
  refine ⟨by rw [triaArea]; linarith, fun d => ?_⟩
  have hs : norm3 (cross3 (v1 - v0) (v2 - v0)) * sprod3 (cross3 a b) (nPt - v0) = sprod3 (cross3 (v1 - v0) (v2 - v0)) (nPt - v0) := by
    rw [sprod3, sprod3, ← h6 0, ← h6 1, ← h6 2]; ring
  have hiff : sprod3 (cross3 a b) (nPt - v0) > 0 ↔ 0 < sprod3 (cross3 (v1 - v0) (v2 - v0)) (nPt - v0) := by
    rw [← hs]; exact (mul_pos_iff_of_pos_left hN).symm
  simp only [triaNormal, triaTangents, h1, h2, hiff]
  rw [triaArea, show 2 * (norm3 (cross3 (v1 - v0) (v2 - v0)) / 2) = norm3 (cross3 (v1 - v0) (v2 - v0)) by ring]
  split
  · simp only; rw [cross_swap, ← h6 d]; ring
  · simp only; rw [← h6 d]; ring

/-- C95: normal and tangents of a triangle are an orthonormal right-handed system; the normal is orthogonal to the triangle and points away from
the given point. -/
theorem C95_tria {v0 v1 v2 nPt : Fin 3 → ℝ} (h : sprod3 (cross3 (v1 - v0) (v2 - v0)) (nPt - v0) ≠ 0) :
    Orthonormal3 (triaNormal v0 v1 v2 nPt) (triaTangents v0 v1 v2 nPt).1 (triaTangents v0 v1 v2 nPt).2 ∧
    sprod3 (triaNormal v0 v1 v2 nPt) (v1 - v0) = 0 ∧ sprod3 (triaNormal v0 v1 v2 nPt) (v2 - v0) = 0 ∧
    sprod3 (triaNormal v0 v1 v2 nPt) (nPt - v0) < 0 := by
  have hc : cross3 (v1 - v0) (v2 - v0) ≠ 0 := by intro h'; apply h; rw [h']; simp [sprod3]
  obtain ⟨a, b, h1, h2, h3, h4, h5, h6⟩ := tria_frame hc
  obtain ⟨hA, hn⟩ := tria_scaled h
  have e : ∀ w : Fin 3 → ℝ, 2 * triaArea v0 v1 v2 * sprod3 (triaNormal v0 v1 v2 nPt) w =
      (if 0 < sprod3 (cross3 (v1 - v0) (v2 - v0)) (nPt - v0) then -1 else 1) * sprod3 (cross3 (v1 - v0) (v2 - v0)) w := by
    intro w
    have := hn 0; have := hn 1; have := hn 2
    simp only [sprod3] at *
    linear_combination w 0 * hn 0 + w 1 * hn 1 + w 2 * hn 2
  have hA2 : 2 * triaArea v0 v1 v2 ≠ 0 := by positivity
  refine ⟨?_, ?_, ?_, ?_⟩
  · have key : ∀ s t : Fin 3 → ℝ, sprod3 s s = 1 → sprod3 t t = 1 → sprod3 s t = 0 → Orthonormal3 (cross3 s t) s t := by
      intro s t hs ht hst
      simp only [sprod3] at hs ht hst
      constructor <;> simp only [← sprod3_eq, sprod3, cross3, Matrix.cons_val_zero, Matrix.cons_val_one, Matrix.cons_val]
      · linear_combination (t 0 * t 0 + t 1 * t 1 + t 2 * t 2) * hs + ht - (s 0 * t 0 + s 1 * t 1 + s 2 * t 2) * hst
      · exact hs
      · exact ht
      · ring
      · ring
      · exact hst
    simp only [triaNormal, triaTangents, h1, h2]
    split
    · exact key b a h4 h3 (by simp only [sprod3] at h5 ⊢; linarith)
    · exact key a b h3 h4 h5
  · have := e (v1 - v0)
    rw [show sprod3 (cross3 (v1 - v0) (v2 - v0)) (v1 - v0) = 0 by simp [sprod3, cross3]; ring, mul_zero] at this
    exact (mul_eq_zero.1 this).resolve_left hA2
  · have := e (v2 - v0)
    rw [show sprod3 (cross3 (v1 - v0) (v2 - v0)) (v2 - v0) = 0 by simp [sprod3, cross3]; ring, mul_zero] at this
    exact (mul_eq_zero.1 this).resolve_left hA2
  · have := e (nPt - v0)
    have h0 : (2 * triaArea v0 v1 v2) * sprod3 (triaNormal v0 v1 v2 nPt) (nPt - v0) < 0 := by
      rw [this]
      split
      · linarith
      · rename_i h'; rcases lt_or_gt_of_ne h with h'' | h''
        · linarith
        · exact absurd h'' h'
    exact (mul_neg_iff.1 h0).elim (fun h => h.2) (fun h => absurd h.1 (by linarith))

/-! ### Faces of elements -/

/-- Vertex of an element. The third coordinate is zero in two dimensions. -/
def vePt (e : Ent) (ves : Nat → Nat → ℝ) (v : Nat) : Fin 3 → ℝ := fun d => if d.val < e.nDim then ves d.val v else 0

/-- Vertex of the simplex which is not part of face `fa`. -/
def oppVe : Ent → Nat → Nat
  | .tria, fa => [2, 0, 1].getD fa 0
  | .tet, fa => [3, 2, 1, 0].getD fa 0
  | _, _ => 0

/-- Which side of the line a point is. -/
def side2 (v0 v1 p : Fin 3 → ℝ) : ℝ := sprod3 (perp v0 v1) (p - v0)

/-- Which side of the plane through the triangle a point is. -/
def side3 (v0 v1 v2 p : Fin 3 → ℝ) : ℝ := sprod3 (cross3 (v1 - v0) (v2 - v0)) (p - v0)

/-- Signs of the two sides. -/
theorem signs {s x y D : ℝ} (hD : 0 < D) (hs : s = 1 ∧ 0 < x * y ∨ s = -1 ∧ x * y < 0) (hy : y = D ∨ y = -D) :
    s * (if 0 < x then -1 else 1) * -y = D := by
  rcases hs with ⟨rfl, h⟩ | ⟨rfl, h⟩ <;> rcases hy with rfl | rfl
  · rw [if_pos ((mul_pos_iff_of_pos_right hD).1 h)]; ring
  · rw [if_neg (fun h' => by nlinarith)]; ring
  · rw [if_neg (fun h' => by nlinarith)]; ring
  · rw [if_pos (by nlinarith)]; ring

/-- C95: length and normal of a face of a triangle, whose vertices are given in any order, are consistent with the map from the reference element: the
Jacobian maps the normal, scaled by the length, to the normal of the reference element, scaled by the determinant, if the point `nPt`
is on the element's side of the face, and to its opposite if the point is on the other side. -/
theorem C95_nanson2 {ves : Nat → Nat → ℝ} (hdet : 0 < jDet .tria ves) {fa w0 w1 : Nat} (hfa : fa < 3) (hw : [w0, w1].Perm (faVeCc .tria fa)) {nPt : Fin 3 → ℝ} {s : ℝ}
    (hs : s = 1 ∧ 0 < side2 (vePt .tria ves w0) (vePt .tria ves w1) nPt * side2 (vePt .tria ves w0) (vePt .tria ves w1) (vePt .tria ves (oppVe .tria fa)) ∨
      s = -1 ∧ side2 (vePt .tria ves w0) (vePt .tria ves w1) nPt * side2 (vePt .tria ves w0) (vePt .tria ves w1) (vePt .tria ves (oppVe .tria fa)) < 0) :
    0 < lineLen (vePt .tria ves w0) (vePt .tria ves w1) ∧ ∀ di : Fin 3, di.val < 2 →
    ∑ d : Fin 3, (if d.val < 2 then evalJac .tria ves di d * (lineLen (vePt .tria ves w0) (vePt .tria ves w1) * (s * lineNormal (vePt .tria ves w0) (vePt .tria ves w1) nPt d)) else 0) =
      jDet .tria ves * Flux.refNormal .tria fa di := by
  have hx : side2 (vePt .tria ves w0) (vePt .tria ves w1) nPt ≠ 0 := by
    intro h; rw [h, zero_mul] at hs; rcases hs with ⟨-, h⟩ | ⟨-, h⟩ <;> exact absurd h (lt_irrefl _)
  obtain ⟨hL, hn⟩ := line_scaled (nPt := nPt) (by simp [vePt, Ent.nDim]) hx
  refine ⟨hL, fun di hdi => ?_⟩
  change ∀ d, _ = (if 0 < side2 _ _ nPt then _ else _) * _ at hn
  have hy : side2 (vePt .tria ves w0) (vePt .tria ves w1) (vePt .tria ves (oppVe .tria fa)) = jDet .tria ves ∨
      side2 (vePt .tria ves w0) (vePt .tria ves w1) (vePt .tria ves (oppVe .tria fa)) = -jDet .tria ves := by
    rw [← List.mem_permutations'] at hw
    simp only [jDet, C88_detTria, Mesh.det2, pt3]
    interval_cases fa <;> simp [faVeCc, List.permutations', List.permutations'Aux] at hw <;> rcases hw with ⟨rfl, rfl⟩ | ⟨rfl, rfl⟩ <;>
      simp [side2, sprod3, perp, vePt, Ent.nDim, oppVe] <;> first | (left; ring1) | (right; ring1)
  have hp : ∑ d : Fin 3, (if d.val < 2 then evalJac .tria ves di d * perp (vePt .tria ves w0) (vePt .tria ves w1) d else 0) =
      -side2 (vePt .tria ves w0) (vePt .tria ves w1) (vePt .tria ves (oppVe .tria fa)) * Flux.refNormal .tria fa di := by
    rw [← List.mem_permutations'] at hw
    obtain rfl | rfl : di = 0 ∨ di = 1 := by omega
    all_goals
      interval_cases fa <;> simp [faVeCc, List.permutations', List.permutations'Aux] at hw <;> rcases hw with ⟨rfl, rfl⟩ | ⟨rfl, rfl⟩ <;>
        simp [side2, sprod3, perp, vePt, Ent.nDim, oppVe, Flux.refNormal, Fin.sum_univ_three, evalJac, derShape, derTria, sumN_succ, sumN_zero, Ent.nVe] <;> ring
  rw [← signs hdet hs hy, mul_assoc, ← hp, Finset.mul_sum]
  refine Finset.sum_congr rfl (fun d _ => ?_)
  split
  · rw [show ∀ a b c : ℝ, a * (b * (s * c)) = a * s * (b * c) by intros; ring, hn d]; ring
  · rw [mul_zero]

/-- The vertex opposite to a face of a tetrahedron, up to the sign given by the order of the face's vertices. -/
theorem tet_side (ves : Nat → Nat → ℝ) {fa w0 w1 w2 : Nat} (hfa : fa < 4) (hw : [w0, w1, w2].Perm (faVeCc .tet fa)) :
    side3 (vePt .tet ves w0) (vePt .tet ves w1) (vePt .tet ves w2) (vePt .tet ves (oppVe .tet fa)) = jDet .tet ves ∨
      side3 (vePt .tet ves w0) (vePt .tet ves w1) (vePt .tet ves w2) (vePt .tet ves (oppVe .tet fa)) = -jDet .tet ves := by
  rw [← List.mem_permutations'] at hw
  simp only [jDet, C88_detTet, Mesh.det3, pt3]
  interval_cases fa <;> simp [faVeCc, List.permutations', List.permutations'Aux] at hw <;> rcases hw with ⟨rfl, rfl, rfl⟩ | ⟨rfl, rfl, rfl⟩ | ⟨rfl, rfl, rfl⟩ | ⟨rfl, rfl, rfl⟩ | ⟨rfl, rfl, rfl⟩ | ⟨rfl, rfl, rfl⟩ <;>
    simp [side3, sprod3, cross3, vePt, Ent.nDim, oppVe] <;> first | (left; ring1) | (right; ring1)

set_option maxHeartbeats 1600000 in
/-- The Jacobian maps the cross product of two edges to a multiple of the normal of the reference element. -/
theorem tet_row (ves : Nat → Nat → ℝ) {fa w0 w1 w2 : Nat} (hfa : fa < 4) (hw : [w0, w1, w2].Perm (faVeCc .tet fa)) (di : Fin 3) :
    ∑ d : Fin 3, evalJac .tet ves di d * cross3 (vePt .tet ves w1 - vePt .tet ves w0) (vePt .tet ves w2 - vePt .tet ves w0) d =
      -side3 (vePt .tet ves w0) (vePt .tet ves w1) (vePt .tet ves w2) (vePt .tet ves (oppVe .tet fa)) * Flux.refNormal .tet fa di := by
  rw [← List.mem_permutations'] at hw
  simp only [Fin.sum_univ_three, evalJac, sumN_succ, sumN_zero, Ent.nVe]
  interval_cases fa <;> simp [faVeCc, List.permutations', List.permutations'Aux] at hw <;> rcases hw with ⟨rfl, rfl, rfl⟩ | ⟨rfl, rfl, rfl⟩ | ⟨rfl, rfl, rfl⟩ | ⟨rfl, rfl, rfl⟩ | ⟨rfl, rfl, rfl⟩ | ⟨rfl, rfl, rfl⟩ <;>
    fin_cases di <;>
      simp [side3, sprod3, cross3, vePt, Ent.nDim, oppVe, Flux.refNormal, derShape, derTet] <;> ring1

/-- C95: the same for the faces of a tetrahedron, with twice the area. -/
theorem C95_nanson3 {ves : Nat → Nat → ℝ} (hdet : 0 < jDet .tet ves) {fa w0 w1 w2 : Nat} (hfa : fa < 4) (hw : [w0, w1, w2].Perm (faVeCc .tet fa)) {nPt : Fin 3 → ℝ} {s : ℝ}
    (hs : s = 1 ∧ 0 < side3 (vePt .tet ves w0) (vePt .tet ves w1) (vePt .tet ves w2) nPt * side3 (vePt .tet ves w0) (vePt .tet ves w1) (vePt .tet ves w2) (vePt .tet ves (oppVe .tet fa)) ∨
      s = -1 ∧ side3 (vePt .tet ves w0) (vePt .tet ves w1) (vePt .tet ves w2) nPt * side3 (vePt .tet ves w0) (vePt .tet ves w1) (vePt .tet ves w2) (vePt .tet ves (oppVe .tet fa)) < 0) :
    0 < triaArea (vePt .tet ves w0) (vePt .tet ves w1) (vePt .tet ves w2) ∧ ∀ di : Fin 3,
    ∑ d : Fin 3, evalJac .tet ves di d * (2 * triaArea (vePt .tet ves w0) (vePt .tet ves w1) (vePt .tet ves w2) *
        (s * triaNormal (vePt .tet ves w0) (vePt .tet ves w1) (vePt .tet ves w2) nPt d)) =
      jDet .tet ves * Flux.refNormal .tet fa di := by
  have hx : side3 (vePt .tet ves w0) (vePt .tet ves w1) (vePt .tet ves w2) nPt ≠ 0 := by
    intro h; rw [h, zero_mul] at hs; rcases hs with ⟨-, h⟩ | ⟨-, h⟩ <;> exact absurd h (lt_irrefl _)
  obtain ⟨hL, hn⟩ := tria_scaled (nPt := nPt) hx
  refine ⟨hL, fun di => ?_⟩
  change ∀ d, _ = (if 0 < side3 _ _ _ nPt then _ else _) * _ at hn
  have hy := tet_side ves hfa hw
  have hp := tet_row ves hfa hw di
  rw [← signs hdet hs hy, mul_assoc, ← hp, Finset.mul_sum]
  refine Finset.sum_congr rfl (fun d _ => ?_)
  rw [show ∀ a b c : ℝ, a * (b * (s * c)) = a * s * (b * c) by intros; ring, hn d]; ring

end Edge.Face
