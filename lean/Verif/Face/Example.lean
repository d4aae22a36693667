import Verif.Face.Mesh
import Verif.Mesh.Ex
/-!
Concrete elements and meshes meeting the hypotheses of the theorems on the geometry of faces: C95.
-/
namespace Edge.Face
open Edge Edge.Map Edge.Seismic

/-- Coordinates of the mesh with two tetrahedrons. -/
def exTetCrds : List (Mesh.V3 ℝ) := [⟨0, 0, 0⟩, ⟨0, 1, 0⟩, ⟨1, 0, 0⟩, ⟨0, 0, 1⟩, ⟨1, 1, 1⟩]

theorem exTet_proper : Proper .tet4 2 exTetCrds [0, 1, 3, 2, 1, 2, 4, 3] := by
  intro el hel
  refine ⟨?_, ?_⟩
  · interval_cases el <;> simp [Mesh.ElTy.nVes, Mesh.slice, exTetCrds]
  · intro u v w x p q r s hp hu hv hw hx
    have hm := List.mem_permutations'.2 hp
    interval_cases el
    all_goals
      simp only [Mesh.slice, List.permutations', List.permutations'Aux, List.drop, List.take, List.flatMap_cons, List.flatMap_nil, List.map_cons, List.map_nil, List.append_nil, List.cons_append, List.nil_append,
        List.mem_cons, List.cons.injEq, List.not_mem_nil, or_false, and_true] at hm
      rcases hm with hm | hm | hm | hm | hm | hm | hm | hm | hm | hm | hm | hm | hm | hm | hm | hm | hm | hm | hm | hm | hm | hm | hm | hm <;>
        obtain ⟨rfl, rfl, rfl, rfl⟩ := hm <;>
        simp [exTetCrds] at hu hv hw hx <;> subst hu hv hw hx <;> norm_num [Mesh.det3]

/-- The hypotheses of C95_mesh3 are met. -/
example : ∃ ns, getNormalsFa .tet4 exTetCrds [0, 1, 3, 2, 1, 2, 4, 3] Mesh.tetConn = some ns ∧ ns.length = 7 := by
  obtain ⟨ns, -, -, h1, -, -, h2, -⟩ := C95_mesh3 Mesh.tet_spec exTet_proper
  exact ⟨ns, h1, h2⟩

/-- Coordinates of the strip of triangles. -/
def exStCrds : List (Mesh.V3 ℝ) := [⟨0, 0, 0⟩, ⟨1, 0, 0⟩, ⟨2, 0, 0⟩, ⟨3, 0, 0⟩, ⟨0, 1, 0⟩, ⟨1, 1, 0⟩, ⟨2, 1, 0⟩, ⟨3, 1, 0⟩]

theorem exSt_proper : Proper .tria3 6 exStCrds [0, 1, 4, 1, 5, 4, 1, 2, 5, 2, 6, 5, 2, 3, 6, 3, 7, 6] := by
  intro el hel
  refine ⟨?_, ?_⟩
  · interval_cases el <;> simp [Mesh.ElTy.nVes, Mesh.slice, exStCrds]
  · intro u v w p q r hp hu hv hw
    have hm := List.mem_permutations'.2 hp
    interval_cases el
    all_goals
      simp only [Mesh.slice, List.permutations', List.permutations'Aux, List.drop, List.take, List.flatMap_cons, List.flatMap_nil, List.map_cons, List.map_nil, List.append_nil, List.cons_append, List.nil_append,
        List.mem_cons, List.cons.injEq, List.not_mem_nil, or_false, and_true] at hm
      rcases hm with hm | hm | hm | hm | hm | hm <;>
        obtain ⟨rfl, rfl, rfl⟩ := hm <;>
        simp [exStCrds] at hu hv hw <;> subst hu hv hw <;> norm_num [Mesh.det2]

/-- Those of C95_mesh2. -/
example : ∃ ns, getNormalsFa .tria3 exStCrds [0, 1, 4, 1, 5, 4, 1, 2, 5, 2, 6, 5, 2, 3, 6, 3, 7, 6] Mesh.stConn = some ns ∧ ns.length = 13 := by
  obtain ⟨ns, -, -, h1, -, -, h2, -⟩ := C95_mesh2 Mesh.st_spec exSt_proper
  exact ⟨ns, h1, h2⟩

/-- A triangle and a tetrahedron. -/
def exTria : Nat → Nat → ℝ
  | 0, 1 => 2
  | 0, 2 => 1
  | 1, 2 => 3
  | _, _ => 0
def exTet : Nat → Nat → ℝ
  | 0, 1 => 2
  | 1, 2 => 1
  | 2, 3 => 3
  | 0, 3 => 1
  | _, _ => 0

/-- Those of C95_nanson2, for the second face with exchanged vertices, seen from the other side. -/
example : ∑ d : Fin 3, (if d.val < 2 then evalJac .tria exTria 1 d * (lineLen (vePt .tria exTria 2) (vePt .tria exTria 1) *
    (-1 * lineNormal (vePt .tria exTria 2) (vePt .tria exTria 1) ![4, 4, 0] d)) else 0) = 6 := by
  have h := (C95_nanson2 (ves := exTria) (by norm_num [jDet, C88_detTria, Mesh.det2, pt3, exTria]) (fa := 1) (w0 := 2) (w1 := 1) (by decide) (by decide)
    (nPt := ![4, 4, 0]) (s := -1) (Or.inr ⟨rfl, by simp [side2, sprod3, perp, vePt, Ent.nDim, exTria, oppVe]; norm_num⟩)).2 1 (by decide)
  refine h.trans ?_
  norm_num [jDet, C88_detTria, Mesh.det2, pt3, exTria, Flux.refNormal]

/-- Those of C95_nanson3, for the last face. -/
example : ∑ d : Fin 3, evalJac .tet exTet 2 d * (2 * triaArea (vePt .tet exTet 3) (vePt .tet exTet 1) (vePt .tet exTet 2) *
    (1 * triaNormal (vePt .tet exTet 3) (vePt .tet exTet 1) (vePt .tet exTet 2) 0 d)) = 6 := by
  have h := (C95_nanson3 (ves := exTet) (by norm_num [jDet, C88_detTet, Mesh.det3, pt3, exTet]) (fa := 3) (w0 := 3) (w1 := 1) (w2 := 2) (by decide) (by decide)
    (nPt := 0) (s := 1) (Or.inl ⟨rfl, by simp [side3, sprod3, cross3, vePt, Ent.nDim, exTet, oppVe]; norm_num⟩)).2 2
  refine h.trans ?_
  simp [jDet, C88_detTet, Mesh.det3, pt3, exTet, Flux.refNormal]; norm_num

/-- Those of C95_line and C95_tria. -/
example : sprod3 (perp ![1, 0, 0] ![0, 1, 0]) (![0, 0, 0] - ![1, 0, 0]) ≠ 0 := by simp [sprod3, perp]
example : sprod3 (cross3 (![1, 0, 0] - ![0, 0, 0]) (![0, 2, 0] - ![0, 0, 0])) (![1, 1, 5] - ![0, 0, 0]) ≠ 0 := by simp [sprod3, cross3]

/-- Those of C95_centroids_partial and C95_centroids_refuted: with other content of the memory the centroid of the first triangle is wrong. -/
example : ∃ cs c, getCentroidsEl 3 6 [0, 1, 4, 1, 5, 4, 1, 2, 5, 2, 6, 5, 2, 3, 6, 3, 7, 6] exStCrds (fun _ _ => 3) = some cs ∧ cs[0]? = some c ∧ c 0 = 1 / 3 + 1 := by
  refine ⟨_, _, rfl, rfl, ?_⟩
  rw [centroid_eq]
  norm_num [ofV3, exStCrds]

end Edge.Face
