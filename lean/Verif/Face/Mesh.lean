import Verif.Face.Geom
import Verif.Mesh.Ids
/-!
Areas, normals and tangents of the faces of a mesh (tools/edge_v/src/mesh/Mesh.cpp:706-840), volumes and centroids of the elements: C95.
-/
namespace Edge.Face
open Edge Edge.Map Edge.Seismic

/-- Coordinates of a vertex. -/
def ofV3 (p : Mesh.V3 ℝ) : Fin 3 → ℝ := ![p.x, p.y, p.z]

/-- `Mesh::getEnVeCrds` (tools/edge_v/src/mesh/Mesh.cpp:75-89). -/
noncomputable def getEnVeCrds (ves : List Nat) (veCrds : List (Mesh.V3 ℝ)) : Option (List (Fin 3 → ℝ)) :=
  ves.mapM (fun v => (rd veCrds v).map ofV3)

/-- `Geom::volume` (tools/edge_v/src/geom/Geom.cpp:36-58) of the faces of simplices. -/
noncomputable def volumeFa : Mesh.ElTy → List (Fin 3 → ℝ) → Option ℝ
  | .tria3, [v0, v1] => some (lineLen v0 v1)
  | .tet4, [v0, v1, v2] => some (triaArea v0 v1 v2)
  | _, _ => none

/-- `Geom::normal` (tools/edge_v/src/geom/Geom.cpp:75-95) of the faces of simplices. -/
noncomputable def normalFa : Mesh.ElTy → List (Fin 3 → ℝ) → (Fin 3 → ℝ) → Option (Fin 3 → ℝ)
  | .tria3, [v0, v1], nPt => some (lineNormal v0 v1 nPt)
  | .tet4, [v0, v1, v2], nPt => some (triaNormal v0 v1 v2 nPt)
  | _, _, _ => none

/-- `Line::tangent` (tools/edge_v/src/geom/Line.cpp:90-100). -/
noncomputable def lineTangent (v0 v1 nPt : Fin 3 → ℝ) : Fin 3 → ℝ :=
  let n := lineNormal v0 v1 nPt
  ![-n 1, n 0, 0]

/-- `Geom::tangents` (tools/edge_v/src/geom/Geom.cpp:97-122) of the faces of simplices. -/
noncomputable def tangentsFa : Mesh.ElTy → List (Fin 3 → ℝ) → (Fin 3 → ℝ) → Option ((Fin 3 → ℝ) × (Fin 3 → ℝ))
  | .tria3, [v0, v1], nPt => some (lineTangent v0 v1 nPt, 0)
  | .tet4, [v0, v1, v2], nPt => some (triaTangents v0 v1 v2 nPt)
  | _, _, _ => none

/-- Normal point of a face: the vertex of the first element which is not in the face (tools/edge_v/src/mesh/Mesh.cpp:782-789, 824-831). -/
noncomputable def normalPt (ty : Mesh.ElTy) (veCrds : List (Mesh.V3 ℝ)) (elVe : List Nat) (c : Mesh.Conn) (fa : Nat) : Option (Fin 3 → ℝ) := do
  let row ← rd c.faVe fa
  let el ← (← rd c.faEl (fa * 2))
  let np ← Mesh.getAddEntry row (Mesh.slice ty.nVes elVe el)
  return ofV3 (← rd veCrds np)

/-- `Mesh::getAreasFa` (tools/edge_v/src/mesh/Mesh.cpp:706-733); the array holds one value per face. -/
noncomputable def getAreasFa (ty : Mesh.ElTy) (veCrds : List (Mesh.V3 ℝ)) (c : Mesh.Conn) : Option (List ℝ) :=
  (List.range c.nFas).mapM (fun fa => do volumeFa ty (← getEnVeCrds (← rd c.faVe fa) veCrds))

/-- `Mesh::getNormalsFa` (tools/edge_v/src/mesh/Mesh.cpp:763-800). -/
noncomputable def getNormalsFa (ty : Mesh.ElTy) (veCrds : List (Mesh.V3 ℝ)) (elVe : List Nat) (c : Mesh.Conn) : Option (List (Fin 3 → ℝ)) :=
  (List.range c.nFas).mapM (fun fa => do
    let crds ← getEnVeCrds (← rd c.faVe fa) veCrds
    normalFa ty crds (← normalPt ty veCrds elVe c fa))

/-- `Mesh::getTangentsFa` (tools/edge_v/src/mesh/Mesh.cpp:802-840). -/
noncomputable def getTangentsFa (ty : Mesh.ElTy) (veCrds : List (Mesh.V3 ℝ)) (elVe : List Nat) (c : Mesh.Conn) :
    Option (List ((Fin 3 → ℝ) × (Fin 3 → ℝ))) :=
  (List.range c.nFas).mapM (fun fa => do
    let crds ← getEnVeCrds (← rd c.faVe fa) veCrds
    tangentsFa ty crds (← normalPt ty veCrds elVe c fa))

/-! ### Specification -/

/-- The vertices of all elements have coordinates and no element is degenerate. -/
def Proper (ty : Mesh.ElTy) (nEls : Nat) (veCrds : List (Mesh.V3 ℝ)) (elVe : List Nat) : Prop :=
  ∀ el < nEls, (∀ v ∈ Mesh.slice ty.nVes elVe el, v < veCrds.length) ∧
    match ty with
    | .tria3 => ∀ u v w p q r, [u, v, w].Perm (Mesh.slice 3 elVe el) → veCrds[u]? = some p → veCrds[v]? = some q → veCrds[w]? = some r →
        Mesh.det2 p q r ≠ 0 ∧ p.z = 0
    | .tet4 => ∀ u v w x p q r s, [u, v, w, x].Perm (Mesh.slice 4 elVe el) → veCrds[u]? = some p → veCrds[v]? = some q → veCrds[w]? = some r →
        veCrds[x]? = some s → Mesh.det3 p q r s ≠ 0

theorem mapM_some_iff {α β : Type _} {f : α → Option β} {l : List α} {r : List β} : l.mapM f = some r ↔ List.Forall₂ (fun a b => f a = some b) l r := by
  induction l generalizing r with
  | nil => simp [eq_comm]
  | cons a l ih =>
    simp only [List.mapM_cons, Option.bind_eq_bind, Option.bind_eq_some_iff, Option.pure_def, Option.some.injEq]
    constructor
    · rintro ⟨b, hb, bs, hbs, rfl⟩; exact .cons hb (ih.1 hbs)
    · rintro (_ | ⟨hb, hbs⟩); exact ⟨_, hb, _, ih.2 hbs, rfl⟩

theorem mapM_range {α : Type _} {n : Nat} {f : Nat → Option α} {P : Nat → α → Prop} (h : ∀ i < n, ∃ a, f i = some a ∧ P i a) :
    ∃ l, (List.range n).mapM f = some l ∧ l.length = n ∧ ∀ i < n, ∃ a, l[i]? = some a ∧ P i a := by
  induction n with
  | zero => exact ⟨[], by simp, rfl, fun i hi => by omega⟩
  | succ n ih =>
    obtain ⟨l, h1, h2, h3⟩ := ih (fun i hi => h i (by omega))
    obtain ⟨a, ha, hP⟩ := h n (by omega)
    refine ⟨l ++ [a], ?_, by simp [h2], fun i hi => ?_⟩
    · rw [List.range_succ, List.mapM_append, h1]; simp [ha]
    · rcases Nat.lt_succ_iff_lt_or_eq.1 hi with hi | rfl
      · obtain ⟨b, hb, hP'⟩ := h3 i hi
        exact ⟨b, by rw [List.getElem?_append_left (by omega)]; exact hb, hP'⟩
      · exact ⟨a, by simp [← h2], hP⟩

theorem side2_det (p q r : Mesh.V3 ℝ) : side2 (ofV3 p) (ofV3 q) (ofV3 r) = Mesh.det2 p q r := by
  simp [side2, sprod3, perp, ofV3, Mesh.det2]; ring

theorem side3_det (p q r s : Mesh.V3 ℝ) : side3 (ofV3 p) (ofV3 q) (ofV3 r) (ofV3 s) = Mesh.det3 p q r s := by
  simp [side3, sprod3, cross3, ofV3, Mesh.det3]; ring

/-- Coordinates of the vertices of a face and of the remaining vertex of the first element. -/
theorem face_pts {ty : Mesh.ElTy} {nEls : Nat} {R : Nat → Nat → Prop} {elVe0 elVe : List Nat} {c : Mesh.Conn} {veCrds : List (Mesh.V3 ℝ)}
    (h : Mesh.MeshSpec ty.nVes nEls R elVe0 c elVe) (hp : Proper ty nEls veCrds elVe) {f : Nat} (hf : f < c.nFas) :
    ∃ a row v, a < nEls ∧ c.faEl[f * 2]? = some (some a) ∧ c.faVe[f]? = some row ∧ (row ++ [v]).Perm (Mesh.slice ty.nVes elVe a) ∧
      Mesh.getAddEntry row (Mesh.slice ty.nVes elVe a) = some v ∧ row.length + 1 = ty.nVes ∧ (∀ u ∈ row ++ [v], u < veCrds.length) := by
  obtain ⟨a, row, v, h1, h2, h3, h4, h5⟩ := Mesh.C81_normalPoint h hf
  obtain ⟨a', fa, o, h6, -, h7, -⟩ := h.first f hf
  rw [h1] at h7
  simp only [Option.some.injEq] at h7
  subst h7
  have hperm : (row ++ [v]).Perm (Mesh.slice ty.nVes elVe a) := by
    refine List.Perm.trans ?_ (List.perm_cons_erase h3).symm
    exact (List.perm_append_singleton v row).trans (List.Perm.cons v h4)
  refine ⟨a, row, v, h6, h1, h2, hperm, h5, ?_, fun u hu => (hp a h6).1 u (hperm.mem_iff.1 hu)⟩
  have := hperm.length_eq
  rw [Mesh.slice_length h.normIn.elVe_len h6] at this
  simpa using this

/-- C95: normals, tangents and areas of the faces of a mesh of triangles. The normals are unit vectors, orthogonal to the faces, and point away from the
first element. -/
theorem C95_mesh2 {nEls : Nat} {R : Nat → Nat → Prop} {elVe0 elVe : List Nat} {c : Mesh.Conn} {veCrds : List (Mesh.V3 ℝ)}
    (h : Mesh.MeshSpec 3 nEls R elVe0 c elVe) (hp : Proper .tria3 nEls veCrds elVe) :
    ∃ ns ts as, getNormalsFa .tria3 veCrds elVe c = some ns ∧ getTangentsFa .tria3 veCrds elVe c = some ts ∧ getAreasFa .tria3 veCrds c = some as ∧
      ns.length = c.nFas ∧ ts.length = c.nFas ∧ as.length = c.nFas ∧
      ∀ f < c.nFas, ∃ a u v w p q r n, a < nEls ∧ c.faEl[f * 2]? = some (some a) ∧ c.faVe[f]? = some [u, v] ∧ [u, v, w].Perm (Mesh.slice 3 elVe a) ∧
        veCrds[u]? = some p ∧ veCrds[v]? = some q ∧ veCrds[w]? = some r ∧ ns[f]? = some n ∧ ts[f]? = some (![-n 1, n 0, 0], 0) ∧
        as[f]? = some (Real.sqrt ((q.x - p.x) ^ 2 + (q.y - p.y) ^ 2)) ∧
        n 0 ^ 2 + n 1 ^ 2 = 1 ∧ n 2 = 0 ∧ n 0 * (q.x - p.x) + n 1 * (q.y - p.y) = 0 ∧ n 0 * (r.x - p.x) + n 1 * (r.y - p.y) < 0 := by
  have key : ∀ f < c.nFas, ∃ a u v w p q r, a < nEls ∧ c.faEl[f * 2]? = some (some a) ∧ c.faVe[f]? = some [u, v] ∧ [u, v, w].Perm (Mesh.slice 3 elVe a) ∧
        veCrds[u]? = some p ∧ veCrds[v]? = some q ∧ veCrds[w]? = some r ∧ p.z = 0 ∧ q.z = 0 ∧ r.z = 0 ∧ side2 (ofV3 p) (ofV3 q) (ofV3 r) ≠ 0 ∧
        getEnVeCrds [u, v] veCrds = some [ofV3 p, ofV3 q] ∧ normalPt .tria3 veCrds elVe c f = some (ofV3 r) := by
    intro f hf
    obtain ⟨a, row, w, h1, h2, h3, h4, h5, h6, h7⟩ := face_pts (ty := .tria3) h hp hf
    obtain ⟨u, v, rfl⟩ := List.length_eq_two.1 (show row.length = 2 by simpa [Mesh.ElTy.nVes] using h6)
    have e1 := List.getElem?_eq_getElem (h7 u (by simp))
    have e2 := List.getElem?_eq_getElem (h7 v (by simp))
    have e3 := List.getElem?_eq_getElem (h7 w (by simp))
    have hd := (hp a h1).2
    have p1 := hd u v w _ _ _ h4 e1 e2 e3
    have p2 := hd v u w _ _ _ ((List.Perm.swap u v [w]).trans h4) e2 e1 e3
    have p3 := hd w u v _ _ _ ((List.perm_append_singleton w [u, v]).symm.trans h4) e3 e1 e2
    refine ⟨a, u, v, w, _, _, _, h1, h2, h3, h4, e1, e2, e3, p1.2, p2.2, p3.2, by rw [side2_det]; exact p1.1, ?_, ?_⟩
    · simp [getEnVeCrds, rd, e1, e2]
    · simp only [normalPt, rd, h3, h2, Option.bind_eq_bind, Option.bind_some, h5, e3]; rfl
  obtain ⟨ns, a1, a2, a3⟩ := mapM_range (n := c.nFas) (f := fun fa => do
    let crds ← getEnVeCrds (← rd c.faVe fa) veCrds
    normalFa .tria3 crds (← normalPt .tria3 veCrds elVe c fa))
    (P := fun f n => ∀ u v p q np, c.faVe[f]? = some [u, v] → veCrds[u]? = some p → veCrds[v]? = some q → normalPt .tria3 veCrds elVe c f = some np → n = lineNormal (ofV3 p) (ofV3 q) np) (by
    intro f hf
    obtain ⟨a, u, v, w, p, q, r, h1, h2, h3, h4, h5, h6, h7, -, -, -, -, h8, h9⟩ := key f hf
    refine ⟨lineNormal (ofV3 p) (ofV3 q) (ofV3 r), by simp [rd, h3, h8, h9, normalFa], ?_⟩
    intro u' v' p' q' np e1 e2 e3 e4
    simp_all)
  obtain ⟨ts, b1, b2, b3⟩ := mapM_range (n := c.nFas) (f := fun fa => do
    let crds ← getEnVeCrds (← rd c.faVe fa) veCrds
    tangentsFa .tria3 crds (← normalPt .tria3 veCrds elVe c fa))
    (P := fun f n => ∀ u v p q np, c.faVe[f]? = some [u, v] → veCrds[u]? = some p → veCrds[v]? = some q → normalPt .tria3 veCrds elVe c f = some np →
      n = (![-lineNormal (ofV3 p) (ofV3 q) np 1, lineNormal (ofV3 p) (ofV3 q) np 0, 0], 0)) (by
    intro f hf
    obtain ⟨a, u, v, w, p, q, r, h1, h2, h3, h4, h5, h6, h7, -, -, -, -, h8, h9⟩ := key f hf
    refine ⟨(lineTangent (ofV3 p) (ofV3 q) (ofV3 r), 0), by simp [rd, h3, h8, h9, tangentsFa], ?_⟩
    intro u' v' p' q' np e1 e2 e3 e4
    simp_all [lineTangent])
  obtain ⟨as, c1, c2, c3⟩ := mapM_range (n := c.nFas) (f := fun fa => do volumeFa .tria3 (← getEnVeCrds (← rd c.faVe fa) veCrds))
    (P := fun f n => ∀ u v p q, c.faVe[f]? = some [u, v] → veCrds[u]? = some p → veCrds[v]? = some q → n = lineLen (ofV3 p) (ofV3 q)) (by
    intro f hf
    obtain ⟨a, u, v, w, p, q, r, h1, h2, h3, h4, h5, h6, h7, -, -, -, -, h8, h9⟩ := key f hf
    refine ⟨lineLen (ofV3 p) (ofV3 q), by simp [rd, h3, h8, volumeFa], ?_⟩
    intro u' v' p' q' e1 e2 e3
    simp_all)
  refine ⟨ns, ts, as, a1, b1, c1, a2, b2, c2, fun f hf => ?_⟩
  obtain ⟨a, u, v, w, p, q, r, h1, h2, h3, h4, h5, h6, h7, z1, z2, z3, hs, h8, h9⟩ := key f hf
  obtain ⟨n, i1, i2⟩ := a3 f hf
  obtain ⟨t, j1, j2⟩ := b3 f hf
  obtain ⟨x, k1, k2⟩ := c3 f hf
  obtain rfl := i2 u v p q _ h3 h5 h6 h9
  obtain rfl := j2 u v p q _ h3 h5 h6 h9
  obtain rfl := k2 u v p q h3 h5 h6
  obtain ⟨g1, g2, g3, g4⟩ := C95_line (v0 := ofV3 p) (v1 := ofV3 q) (nPt := ofV3 r) (by simp [ofV3, z1, z2]) hs
  refine ⟨a, u, v, w, p, q, r, _, h1, h2, h3, h4, h5, h6, h7, i1, j1, ?_, ?_, g2, ?_, ?_⟩
  · rw [k1, lineLen_sq _ _ (by simp [ofV3, z1, z2])]; simp [ofV3, sq]
  · simp only [sprod3, g2] at g1; linarith
  · simp only [sprod3, g2] at g3; simpa [ofV3] using g3
  · simp only [sprod3, g2] at g4; simpa [ofV3] using g4

/-- C95: normals, tangents and areas of the faces of a mesh of tetrahedrons. Normal and tangents are a right-handed orthonormal system, the normal is
orthogonal to the face and points away from the first element, the area is half the length of the cross product of two edges. -/
theorem C95_mesh3 {nEls : Nat} {R : Nat → Nat → Prop} {elVe0 elVe : List Nat} {c : Mesh.Conn} {veCrds : List (Mesh.V3 ℝ)}
    (h : Mesh.MeshSpec 4 nEls R elVe0 c elVe) (hp : Proper .tet4 nEls veCrds elVe) :
    ∃ ns ts as, getNormalsFa .tet4 veCrds elVe c = some ns ∧ getTangentsFa .tet4 veCrds elVe c = some ts ∧ getAreasFa .tet4 veCrds c = some as ∧
      ns.length = c.nFas ∧ ts.length = c.nFas ∧ as.length = c.nFas ∧
      ∀ f < c.nFas, ∃ a u v w x p q r y n s t, a < nEls ∧ c.faEl[f * 2]? = some (some a) ∧ c.faVe[f]? = some [u, v, w] ∧
        [u, v, w, x].Perm (Mesh.slice 4 elVe a) ∧
        veCrds[u]? = some p ∧ veCrds[v]? = some q ∧ veCrds[w]? = some r ∧ veCrds[x]? = some y ∧ ns[f]? = some n ∧ ts[f]? = some (s, t) ∧
        as[f]? = some (norm3 (cross3 (ofV3 q - ofV3 p) (ofV3 r - ofV3 p)) / 2) ∧
        Orthonormal3 n s t ∧ sprod3 n (ofV3 q - ofV3 p) = 0 ∧ sprod3 n (ofV3 r - ofV3 p) = 0 ∧ sprod3 n (ofV3 y - ofV3 p) < 0 := by
  have key : ∀ f < c.nFas, ∃ a u v w x p q r y, a < nEls ∧ c.faEl[f * 2]? = some (some a) ∧ c.faVe[f]? = some [u, v, w] ∧
        [u, v, w, x].Perm (Mesh.slice 4 elVe a) ∧
        veCrds[u]? = some p ∧ veCrds[v]? = some q ∧ veCrds[w]? = some r ∧ veCrds[x]? = some y ∧ side3 (ofV3 p) (ofV3 q) (ofV3 r) (ofV3 y) ≠ 0 ∧
        getEnVeCrds [u, v, w] veCrds = some [ofV3 p, ofV3 q, ofV3 r] ∧ normalPt .tet4 veCrds elVe c f = some (ofV3 y) := by
    intro f hf
    obtain ⟨a, row, x, h1, h2, h3, h4, h5, h6, h7⟩ := face_pts (ty := .tet4) h hp hf
    obtain ⟨u, v, w, rfl⟩ := List.length_eq_three.1 (show row.length = 3 by simpa [Mesh.ElTy.nVes] using h6)
    have e1 := List.getElem?_eq_getElem (h7 u (by simp))
    have e2 := List.getElem?_eq_getElem (h7 v (by simp))
    have e3 := List.getElem?_eq_getElem (h7 w (by simp))
    have e4 := List.getElem?_eq_getElem (h7 x (by simp))
    have hd := (hp a h1).2
    have p1 := hd u v w x _ _ _ _ h4 e1 e2 e3 e4
    refine ⟨a, u, v, w, x, _, _, _, _, h1, h2, h3, h4, e1, e2, e3, e4, by rw [side3_det]; exact p1, ?_, ?_⟩
    · simp [getEnVeCrds, rd, e1, e2, e3]
    · simp only [normalPt, rd, h3, h2, Option.bind_eq_bind, Option.bind_some, h5, e4]; rfl
  obtain ⟨ns, a1, a2, a3⟩ := mapM_range (n := c.nFas) (f := fun fa => do
    let crds ← getEnVeCrds (← rd c.faVe fa) veCrds
    normalFa .tet4 crds (← normalPt .tet4 veCrds elVe c fa))
    (P := fun f n => ∀ u v w p q r np, c.faVe[f]? = some [u, v, w] → veCrds[u]? = some p → veCrds[v]? = some q → veCrds[w]? = some r → normalPt .tet4 veCrds elVe c f = some np →
      n = triaNormal (ofV3 p) (ofV3 q) (ofV3 r) np) (by
    intro f hf
    obtain ⟨a, u, v, w, x, p, q, r, y, h1, h2, h3, h4, h5, h6, h7, h7', -, h8, h9⟩ := key f hf
    refine ⟨triaNormal (ofV3 p) (ofV3 q) (ofV3 r) (ofV3 y), by simp [rd, h3, h8, h9, normalFa], ?_⟩
    intro u' v' w' p' q' r' np e1 e2 e3 e4 e5
    simp_all)
  obtain ⟨ts, b1, b2, b3⟩ := mapM_range (n := c.nFas) (f := fun fa => do
    let crds ← getEnVeCrds (← rd c.faVe fa) veCrds
    tangentsFa .tet4 crds (← normalPt .tet4 veCrds elVe c fa))
    (P := fun f n => ∀ u v w p q r np, c.faVe[f]? = some [u, v, w] → veCrds[u]? = some p → veCrds[v]? = some q → veCrds[w]? = some r → normalPt .tet4 veCrds elVe c f = some np →
      n = triaTangents (ofV3 p) (ofV3 q) (ofV3 r) np) (by
    intro f hf
    obtain ⟨a, u, v, w, x, p, q, r, y, h1, h2, h3, h4, h5, h6, h7, h7', -, h8, h9⟩ := key f hf
    refine ⟨triaTangents (ofV3 p) (ofV3 q) (ofV3 r) (ofV3 y), by simp [rd, h3, h8, h9, tangentsFa], ?_⟩
    intro u' v' w' p' q' r' np e1 e2 e3 e4 e5
    simp_all)
  obtain ⟨as, c1, c2, c3⟩ := mapM_range (n := c.nFas) (f := fun fa => do volumeFa .tet4 (← getEnVeCrds (← rd c.faVe fa) veCrds))
    (P := fun f n => ∀ u v w p q r, c.faVe[f]? = some [u, v, w] → veCrds[u]? = some p → veCrds[v]? = some q → veCrds[w]? = some r →
      n = triaArea (ofV3 p) (ofV3 q) (ofV3 r)) (by
    intro f hf
    obtain ⟨a, u, v, w, x, p, q, r, y, h1, h2, h3, h4, h5, h6, h7, h7', -, h8, h9⟩ := key f hf
    refine ⟨triaArea (ofV3 p) (ofV3 q) (ofV3 r), by simp [rd, h3, h8, volumeFa], ?_⟩
    intro u' v' w' p' q' r' e1 e2 e3 e4
    simp_all)
  refine ⟨ns, ts, as, a1, b1, c1, a2, b2, c2, fun f hf => ?_⟩
  obtain ⟨a, u, v, w, x, p, q, r, y, h1, h2, h3, h4, h5, h6, h7, h7', hs, h8, h9⟩ := key f hf
  obtain ⟨n, i1, i2⟩ := a3 f hf
  obtain ⟨t, j1, j2⟩ := b3 f hf
  obtain ⟨z, k1, k2⟩ := c3 f hf
  obtain rfl := i2 u v w p q r _ h3 h5 h6 h7 h9
  obtain rfl := j2 u v w p q r _ h3 h5 h6 h7 h9
  obtain rfl := k2 u v w p q r h3 h5 h6 h7
  obtain ⟨g1, g2, g3, g4⟩ := C95_tria (v0 := ofV3 p) (v1 := ofV3 q) (v2 := ofV3 r) (nPt := ofV3 y) hs
  exact ⟨a, u, v, w, x, p, q, r, y, _, _, _, h1, h2, h3, h4, h5, h6, h7, h7', i1, j1, k1, g1, g2, g3, g4⟩

/-! ### Centroids -/

/-- `Generic::centroid` (tools/edge_v/src/geom/Generic.cpp:27-41): the coordinates are added to the content `cen` of the output. -/
noncomputable def centroid (crds : List (Fin 3 → ℝ)) (cen : Fin 3 → ℝ) : Fin 3 → ℝ :=
  let s := crds.foldl (fun cen v => fun di => cen di + v di) cen
  fun di => s di / crds.length

/-- `Mesh::getCentroidsEl` (tools/edge_v/src/mesh/Mesh.cpp:676-704): `mem` is the content of the memory obtained through `new`, which is not initialised. -/
noncomputable def getCentroidsEl (n nEls : Nat) (elVe : List Nat) (veCrds : List (Mesh.V3 ℝ)) (mem : Nat → Fin 3 → ℝ) : Option (List (Fin 3 → ℝ)) :=
  (List.range nEls).mapM (fun el => do return centroid (← getEnVeCrds (Mesh.slice n elVe el) veCrds) (mem el))

theorem centroid_eq (crds : List (Fin 3 → ℝ)) (cen : Fin 3 → ℝ) (di : Fin 3) :
    centroid crds cen di = (cen di + (crds.map (fun v => v di)).sum) / crds.length := by
  simp only [centroid]
  congr 1
  induction crds generalizing cen with
  | nil => simp
  | cons v vs ih => rw [List.foldl_cons, ih]; simp; ring

/-- C95: if the memory is zero, the centroids are the averages of the vertices. -/
theorem C95_centroids_partial {n nEls : Nat} {elVe : List Nat} {veCrds : List (Mesh.V3 ℝ)} {cs : List (Fin 3 → ℝ)}
    (h : getCentroidsEl n nEls elVe veCrds (fun _ _ => 0) = some cs) {el : Nat} (hel : el < nEls) :
    ∃ crds c, getEnVeCrds (Mesh.slice n elVe el) veCrds = some crds ∧ cs[el]? = some c ∧
      ∀ di, c di = (crds.map (fun v => v di)).sum / crds.length := by
  rw [getCentroidsEl, mapM_some_iff] at h
  have h2 := List.forall₂_iff_get.1 h
  have hl : el < cs.length := by rw [← h2.1]; simpa using hel
  have h3 := h2.2 el (by simpa using hel) hl
  simp only [List.get_eq_getElem, List.getElem_range, Option.bind_eq_bind, Option.bind_eq_some_iff, Option.pure_def, Option.some.injEq] at h3
  obtain ⟨crds, e1, e2⟩ := h3
  exact ⟨crds, _, e1, List.getElem?_eq_getElem hl, fun di => by rw [← e2, centroid_eq, zero_add]⟩

/-- C95, refuted: the centroid of every element depends on the previous content of the memory. -/
theorem C95_centroids_refuted {n nEls : Nat} (hn : 0 < n) {elVe : List Nat} {veCrds : List (Mesh.V3 ℝ)} {mem mem' : Nat → Fin 3 → ℝ}
    {cs cs' : List (Fin 3 → ℝ)} (h : getCentroidsEl n nEls elVe veCrds mem = some cs) (h' : getCentroidsEl n nEls elVe veCrds mem' = some cs')
    (hl : elVe.length = nEls * n) {el : Nat} (hel : el < nEls) (di : Fin 3) {c c' : Fin 3 → ℝ} (hc : cs[el]? = some c) (hc' : cs'[el]? = some c') :
    c di - c' di = (mem el di - mem' el di) / n := by
  rw [getCentroidsEl, mapM_some_iff] at h h'
  have h2 := List.forall₂_iff_get.1 h
  have h2' := List.forall₂_iff_get.1 h'
  have hl1 : el < cs.length := by rw [← h2.1]; simpa using hel
  have hl2 : el < cs'.length := by rw [← h2'.1]; simpa using hel
  have h3 := h2.2 el (by simpa using hel) hl1
  have h3' := h2'.2 el (by simpa using hel) hl2
  rw [List.getElem?_eq_getElem hl1, Option.some.injEq] at hc
  rw [List.getElem?_eq_getElem hl2, Option.some.injEq] at hc'
  simp only [List.get_eq_getElem, List.getElem_range, Option.bind_eq_bind, Option.bind_eq_some_iff, Option.pure_def, Option.some.injEq] at h3 h3'
  obtain ⟨crds, e1, e2⟩ := h3
  obtain ⟨crds', e1', e2'⟩ := h3'
  rw [e1, Option.some.injEq] at e1'
  subst e1'
  have hlen : crds.length = n := by
    rw [getEnVeCrds, mapM_some_iff] at e1
    rw [← e1.length_eq, Mesh.slice_length hl hel]
  rw [← hc, ← hc', ← e2, ← e2', centroid_eq, centroid_eq, hlen]
  have : (n : ℝ) ≠ 0 := by positivity
  field_simp; ring

end Edge.Face
