import Verif.Mesh.Ctor
/-!
Ids of faces and vertices in neighbouring tetrahedra, additional vertex of a face: C78, C79, C81.
-/
namespace Edge.Mesh
open Edge

/-! ### Model -/

/-- `getAddEntry` (tools/edge_v/src/mesh/Mesh.cpp:55-73): first entry of the second list which is not in the first one;
`none` is `std::numeric_limits< t_idx >::max()`. -/
def getAddEntry (first second : List Nat) : Option Nat := second.find? (fun v => !first.contains v)

/-- Combination of vertices depending on the face and vertex of the neighbour (tools/edge_v/src/geom/Tet4.cpp:202-226);
aborts for other combinations. -/
def veCombi : Nat → Nat → Option Nat
  | 0, 0 => some 0
  | 0, 2 => some 1
  | 0, 1 => some 2
  | 1, 0 => some 0
  | 1, 1 => some 1
  | 1, 3 => some 2
  | 2, 0 => some 0
  | 2, 3 => some 1
  | 2, 2 => some 2
  | 3, 1 => some 0
  | 3, 2 => some 1
  | 3, 3 => some 2
  | _, _ => none

/-- Search of a vertex by its id (tools/edge_v/src/geom/Tet4.cpp:134-137). -/
def findVe (elVe : List Nat) (ad ve0 : Nat) : Option (Option Nat) :=
  forN 4 (fun ve acc => do
    let v ← rd elVe (ad * 4 + ve)
    return if v = ve0 then some ve else acc) none

section
variable {K : Type _} [Field K] [LinearOrder K]

/-- Number of equal coordinates (tools/edge_v/src/geom/Tet4.cpp:142-146). -/
def nEq (tol : K) (p q : V3 K) : Nat :=
  (if near tol p.x q.x then 1 else 0) + (if near tol p.y q.y then 1 else 0) + (if near tol p.z q.z then 1 else 0)

/-- Squared distance (tools/edge_v/src/geom/Tet4.cpp:155-166). -/
def dist2 (p q : V3 K) : K := (p.x - q.x) * (p.x - q.x) + (p.y - q.y) * (p.y - q.y) + (p.z - q.z) * (p.z - q.z)

/-- One vertex of the search of a vertex by its coordinates (tools/edge_v/src/geom/Tet4.cpp:139-173). -/
def findCrdStep (tol : K) (veCrds : List (V3 K)) (elVe : List Nat) (ad ve0 ve : Nat) (acc : Option Nat) :
    Option (Option Nat) := do
  let v ← rd elVe (ad * 4 + ve)
  let p0 ← rd veCrds ve0
  let p ← rd veCrds v
  if nEq tol p0 p = 2 then
    match acc with
    | none => return some ve
    | some w => do
      let vw ← rd elVe (ad * 4 + w)
      let q ← rd veCrds vw
      return if dist2 p0 q < dist2 p0 p then some ve else acc
  else return acc

/-- Search of a vertex by its coordinates (tools/edge_v/src/geom/Tet4.cpp:138-174). -/
def findCrd (tol : K) (veCrds : List (V3 K)) (elVe : List Nat) (ad ve0 : Nat) : Option (Option Nat) :=
  forN 4 (findCrdStep tol veCrds elVe ad ve0) none

/-- The coordinates are only used if they are available and the vertex has not been found (tools/edge_v/src/geom/Tet4.cpp:139). -/
def findVeCrd (tol : K) (veCrds : Option (List (V3 K))) (elVe : List Nat) (ad ve0 : Nat) : Option (Option Nat) := do
  let r ← findVe elVe ad ve0
  match r, veCrds with
  | none, some crds => findCrd tol crds elVe ad ve0
  | r, _ => return r

/-- `Tet4::getVeIdsAd` for one face (tools/edge_v/src/geom/Tet4.cpp:114-229). -/
def veIdAd (tol : K) (veCrds : Option (List (V3 K))) (elVe : List Nat) (elFaEl : List (Option Nat)) (el fa : Nat) :
    Option Nat := do
  let o ← rd elFaEl (el * 4 + fa)
  let ad ← o
  let ve0 ← rd elVe (el * 4 + (if fa ≤ 2 then 0 else 1))
  let r ← findVeCrd tol veCrds elVe ad ve0
  let veAd ← r
  let faId ← faIdAd 4 elFaEl el fa
  veCombi faId veAd

end

/-! ### Specification -/

/-- Vertices of the faces of the reference tetrahedron. -/
def tetFa : Nat → List Nat
  | 0 => [0, 2, 1]
  | 1 => [0, 1, 3]
  | 2 => [0, 3, 2]
  | _ => [1, 2, 3]

/-- Vertices of face `fa` of the tetrahedron with the given vertices. -/
def faceVes (ves : List Nat) (fa : Nat) : List Nat := (tetFa fa).map (fun k => ves.getD k 0)

/-! ### Additional vertex -/

/-- C81: the additional vertex of a face of a simplex is the only vertex of the simplex which is not a vertex of the face. -/
theorem C81_addEntry {face ves : List Nat} {v : Nat} (hn : ves.Nodup) (hv : v ∈ ves) (hp : face.Perm (ves.erase v)) :
    getAddEntry face ves = some v := by
  have hmem : ∀ u ∈ ves, u ∉ face ↔ u = v := by
    intro u hu
    rw [hp.mem_iff, hn.mem_erase_iff]
    constructor
    · intro h; by_contra hne; exact h ⟨hne, hu⟩
    · rintro rfl h; exact h.1 rfl
  unfold getAddEntry
  cases h : ves.find? (fun v => !face.contains v) with
  | none =>
    rw [List.find?_eq_none] at h
    have := h v hv
    simp at this
    exact absurd this ((hmem v hv).2 rfl)
  | some u =>
    have h1 := List.find?_some h
    have h2 := List.mem_of_find?_eq_some h
    simp at h1
    rw [(hmem u h2).1 h1]

example : getAddEntry [7, 2, 9] [2, 5, 7, 9] = some 5 := by decide

section
variable {n nEls : Nat} {elVe elVe' : List Nat} {c : Conn} {R : Nat → Nat → Prop}

/-- Every face of a simplex is the simplex without one vertex. -/
theorem NormIn.face (hi : NormIn n nEls c elVe) {e : Nat} (he : e < nEls) {z : Nat} (hz : z ∈ slice n c.elFa e) :
    ∃ u ∈ slice n elVe e, (c.faVe.getD z []).Perm ((slice n elVe e).erase u) := by
  obtain ⟨h1, h2, h3⟩ := hi.faces e he
  have hinj : ((slice n elVe e).map (fun v => sortNat ((slice n elVe e).erase v))).Nodup := by
    rw [List.nodup_map_iff_inj_on h1]
    intro a ha b hb hab
    rw [sortNat_eq_iff] at hab
    by_contra hne
    have hmem : b ∈ (slice n elVe e).erase a := (List.mem_erase_of_ne (Ne.symm hne)).2 hb
    exact ((h1.mem_erase_iff).1 (hab.mem_iff.1 hmem)).1 rfl
  have hsub : (slice n elVe e).map (fun v => sortNat ((slice n elVe e).erase v)) ⊆
      (rowsOf c.faVe (slice n c.elFa e)).map sortNat := by
    intro r hr
    rw [List.mem_map] at hr
    obtain ⟨v, hv, rfl⟩ := hr
    obtain ⟨row, hrow, hp⟩ := h3 v hv
    exact List.mem_map.2 ⟨row, hrow, (sortNat_eq_iff).2 hp⟩
  have hp := (List.subperm_of_subset hinj hsub).perm_of_length_le (by simp [h2])
  have hmem : sortNat (c.faVe.getD z []) ∈ (rowsOf c.faVe (slice n c.elFa e)).map sortNat :=
    List.mem_map_of_mem (List.mem_map_of_mem (f := fun f => c.faVe.getD f []) hz)
  rw [← hp.mem_iff, List.mem_map] at hmem
  obtain ⟨u, hu, heq⟩ := hmem
  exact ⟨u, hu, ((sortNat_eq_iff).1 heq).symm⟩

/-- C81: after the constructor, the point from which the normal of a face points away is the vertex of the face's first element
which is opposite to the face, also at periodic boundaries. -/
theorem C81_normalPoint (h : MeshSpec n nEls R elVe c elVe') {f : Nat} (hf : f < c.nFas) :
    ∃ a row v, c.faEl[f * 2]? = some (some a) ∧ c.faVe[f]? = some row ∧ v ∈ slice n elVe' a ∧
      row.Perm ((slice n elVe' a).erase v) ∧ getAddEntry row (slice n elVe' a) = some v := by
  obtain ⟨a, fa, o, h1, h2, h3, h4, -⟩ := h.first f hf
  have hm : f ∈ slice n c.elFa a := (mem_slice h.normIn.elFa_len h1).2 ⟨fa, h2, h4⟩
  obtain ⟨u, hu, hp⟩ := h.normIn.face h1 hm
  have hl := h.normIn.ids a h1 f hm
  rw [List.getD_eq_getElem?_getD, List.getElem?_eq_getElem hl] at hp
  exact ⟨a, _, u, h3, List.getElem?_eq_getElem hl, hu, hp, C81_addEntry (h.normIn.faces a h1).1 hu hp⟩

/-- C78: without periodic boundaries, the face id reported for the neighbour is the position of the same face in the
neighbour. -/
theorem C78_mesh (hn : 2 ≤ n) (h : MeshSpec n nEls R elVe c elVe') (hR : ∀ f g, ¬ R f g) (hd : DistinctEls n nEls elVe)
    {el fa ad : Nat} (he : el < nEls) (hfa : fa < n) (had : c.elFaEl[el * n + fa]? = some (some ad)) :
    ∃ fb, faIdAd n c.elFaEl el fa = some fb ∧ fb < n ∧ c.elFa[ad * n + fb]? = c.elFa[el * n + fa]? := by
  have hnb : NbOk n nEls c.elFa c.elFaEl := by
    intro el fa he hfa
    obtain ⟨f, o, h1, h2, h3⟩ := h.nb el fa he hfa
    exact ⟨f, o, h1, h2, fun ad => by rw [h3]; simp [hR]⟩
  have hd' : DistinctEls n nEls elVe' := fun a b ha hb hp =>
    hd a b ha hb (((h.perm a ha).symm.trans hp).trans (h.perm b hb))
  exact C78_faIdAd h.normIn.elFa_len hnb (C78_oneFace hn h.normIn hd' h.nodup hnb) he hfa had

end

/-! ### Vertex ids -/

theorem findVe_spec {elVe : List Nat} {ad ve0 b0 b1 b2 b3 : Nat} (h0 : elVe[ad * 4]? = some b0)
    (h1 : elVe[ad * 4 + 1]? = some b1) (h2 : elVe[ad * 4 + 2]? = some b2) (h3 : elVe[ad * 4 + 3]? = some b3) :
    findVe elVe ad ve0 = some (if b3 = ve0 then some 3 else if b2 = ve0 then some 2 else if b1 = ve0 then some 1 else
      if b0 = ve0 then some 0 else none) := by
  simp [findVe, forN, rd, h0, h1, h2, h3]

theorem slice4_get {α : Type _} {a : List α} {el : Nat} {x y z w : α} (h : slice 4 a el = [x, y, z, w]) :
    a[el * 4]? = some x ∧ a[el * 4 + 1]? = some y ∧ a[el * 4 + 2]? = some z ∧ a[el * 4 + 3]? = some w := by
  have g : ∀ k < 4, a[el * 4 + k]? = [x, y, z, w][k]? := fun k hk => by rw [← h, slice_getElem? hk]
  exact ⟨g 0 (by omega), g 1 (by omega), g 2 (by omega), g 3 (by omega)⟩

section
variable {K : Type _} [Field K] [LinearOrder K]

/-- C79: the vertex id of a neighbouring face is the position, in the neighbour's list of the face's vertices, of the first
vertex of the element's own list. -/
theorem C79_veIdAd {tol : K} {veCrds : Option (List (V3 K))} {elVe : List Nat} {elFaEl : List (Option Nat)}
    {el fa ad fb : Nat} {a b : List Nat} (hfa : fa < 4) (hfb : fb < 4)
    (ha : slice 4 elVe el = a) (hb : slice 4 elVe ad = b) (hla : a.length = 4) (hlb : b.length = 4) (hnb : b.Nodup)
    (had : elFaEl[el * 4 + fa]? = some (some ad)) (hid : faIdAd 4 elFaEl el fa = some fb)
    (hp : (faceVes a fa).Perm (faceVes b fb)) :
    ∃ h, veIdAd tol veCrds elVe elFaEl el fa = some h ∧ h < 3 ∧ (faceVes b fb)[h]? = (faceVes a fa)[0]? := by
  match a, hla with
  | [a0, a1, a2, a3], _ =>
    match b, hlb with
    | [b0, b1, b2, b3], _ =>
      obtain ⟨x0, x1, x2, x3⟩ := slice4_get ha
      obtain ⟨y0, y1, y2, y3⟩ := slice4_get hb
      simp only [List.nodup_cons, List.mem_cons, List.not_mem_nil, or_false, not_or, List.nodup_nil, and_true,
        not_false_eq_true] at hnb
      obtain ⟨⟨n01, n02, n03⟩, ⟨n12, n13⟩, n23⟩ := hnb
      -- the first vertex of the face
      have hv : ∃ v, elVe[el * 4 + (if fa ≤ 2 then 0 else 1)]? = some v ∧ (faceVes [a0, a1, a2, a3] fa)[0]? = some v := by
        rcases Nat.lt_or_ge fa 3 with h | h
        · refine ⟨a0, by rw [if_pos (by omega)]; exact x0, ?_⟩
          have : fa = 0 ∨ fa = 1 ∨ fa = 2 := by omega
          rcases this with rfl | rfl | rfl <;> rfl
        · refine ⟨a1, by rw [if_neg (by omega)]; exact x1, ?_⟩
          have : fa = 3 := by omega
          subst this; rfl
      obtain ⟨v, hv1, hv2⟩ := hv
      have hmem : v ∈ faceVes [b0, b1, b2, b3] fb := hp.mem_iff.1 (List.mem_of_getElem? hv2)
      have hfind := findVe_spec (ve0 := v) y0 y1 y2 y3
      have hrun : ∀ w, findVe elVe ad v = some (some w) → veIdAd tol veCrds elVe elFaEl el fa = veCombi fb w := by
        intro w hw
        have hfc : findVeCrd tol veCrds elVe ad v = some (some w) := by
          simp only [findVeCrd, hw, Option.bind_eq_bind, Option.bind_some]; rfl
        simp only [veIdAd, rd, had, hv1, Option.bind_eq_bind, Option.bind_some, hfc, hid]
      rw [hv2]
      have hc : fb = 0 ∨ fb = 1 ∨ fb = 2 ∨ fb = 3 := by omega
      rcases hc with rfl | rfl | rfl | rfl <;>
        simp only [faceVes, tetFa, List.map_cons, List.map_nil, List.mem_cons, List.not_mem_nil, or_false] at hmem ⊢ <;>
        rcases hmem with rfl | rfl | rfl <;>
        simp [n01, n02, n03, n12, n13, n23, Ne.symm n01, Ne.symm n02, Ne.symm n03, Ne.symm n12, Ne.symm n13, Ne.symm n23]
          at hfind <;>
        rw [hrun _ hfind] <;> simp [veCombi]

/-- Oriented volume of the face's vertices and the opposite vertex. -/
theorem det3_face [IsStrictOrderedRing K] (pt : Nat → V3 K) {a : List Nat} (hla : a.length = 4) {fa : Nat} (hfa : fa < 4) :
    ∃ x y z, faceVes a fa = [x, y, z] ∧
      det3 (pt x) (pt y) (pt z) (pt (a.getD (3 - fa) 0)) =
        - det3 (pt (a.getD 0 0)) (pt (a.getD 1 0)) (pt (a.getD 2 0)) (pt (a.getD 3 0)) := by
  match a, hla with
  | [a0, a1, a2, a3], _ =>
    have hc : fa = 0 ∨ fa = 1 ∨ fa = 2 ∨ fa = 3 := by omega
    rcases hc with rfl | rfl | rfl | rfl <;> refine ⟨_, _, _, rfl, ?_⟩ <;> simp [det3] <;> ring

/-- C79: if the two tetrahedra are positively oriented and on different sides of the face, then going through the neighbour's
list of the face's vertices backwards, beginning at the reported vertex id, gives the element's own list. Hence three ids
are sufficient. -/
theorem C79_reversed [IsStrictOrderedRing K] (pt : Nat → V3 K) {a b : List Nat} {fa fb h x y z : Nat} (hfa : fa < 4)
    (hfb : fb < 4) (hla : a.length = 4) (hlb : b.length = 4) (hnb : b.Nodup)
    (hoa : 0 < det3 (pt (a.getD 0 0)) (pt (a.getD 1 0)) (pt (a.getD 2 0)) (pt (a.getD 3 0)))
    (hob : 0 < det3 (pt (b.getD 0 0)) (pt (b.getD 1 0)) (pt (b.getD 2 0)) (pt (b.getD 3 0)))
    (hp : (faceVes a fa).Perm (faceVes b fb)) (hx : faceVes a fa = [x, y, z])
    (hside : det3 (pt x) (pt y) (pt z) (pt (a.getD (3 - fa) 0)) * det3 (pt x) (pt y) (pt z) (pt (b.getD (3 - fb) 0)) < 0)
    (hh : h < 3) (hpos : (faceVes b fb)[h]? = (faceVes a fa)[0]?) :
    (faceVes b fb)[(h + 2) % 3]? = (faceVes a fa)[1]? ∧ (faceVes b fb)[(h + 1) % 3]? = (faceVes a fa)[2]? := by
  obtain ⟨x', y', z', e1, e2⟩ := det3_face pt hla hfa
  rw [hx] at e1; cases e1
  obtain ⟨u, v, w, f1, f2⟩ := det3_face pt hlb hfb
  have hnd : [u, v, w].Nodup := by
    rw [← f1]
    match b, hlb with
    | [b0, b1, b2, b3], _ =>
      simp only [List.nodup_cons, List.mem_cons, List.not_mem_nil, or_false, not_or, List.nodup_nil, and_true,
        not_false_eq_true] at hnb
      obtain ⟨⟨n01, n02, n03⟩, ⟨n12, n13⟩, n23⟩ := hnb
      have hc : fb = 0 ∨ fb = 1 ∨ fb = 2 ∨ fb = 3 := by omega
      rcases hc with rfl | rfl | rfl | rfl <;>
        simp [faceVes, tetFa, n01, n02, n03, n12, n13, n23, Ne.symm n12, Ne.symm n13, Ne.symm n23]
  rw [hx, f1] at hp hpos ⊢
  generalize hd : pt (a.getD (3 - fa) 0) = d at *
  generalize hd' : pt (b.getD (3 - fb) 0) = d' at *
  have ea : det3 (pt x) (pt y) (pt z) d < 0 := by rw [e2]; exact neg_neg_of_pos hoa
  have eb : det3 (pt u) (pt v) (pt w) d' < 0 := by rw [f2]; exact neg_neg_of_pos hob
  have ec : 0 < det3 (pt x) (pt y) (pt z) d' := by
    by_contra hcon
    exact absurd hside (not_lt.2 (mul_nonneg_of_nonpos_of_nonpos ea.le (not_lt.1 hcon)))
  simp only [List.nodup_cons, List.mem_cons, List.not_mem_nil, or_false, not_or, List.nodup_nil, and_true,
    not_false_eq_true] at hnd
  obtain ⟨⟨m1, m2⟩, m3⟩ := hnd
  have hmx : x ∈ [u, v, w] := hp.mem_iff.1 (by simp)
  simp only [List.mem_cons, List.not_mem_nil, or_false] at hmx
  -- which of the two remaining orders
  have two : ∀ {p q r s : Nat}, [p, q].Perm [r, s] → (p = r ∧ q = s) ∨ (p = s ∧ q = r) := by
    intro p q r s hpq
    have hm : p ∈ [r, s] := hpq.mem_iff.1 (by simp)
    simp only [List.mem_cons, List.not_mem_nil, or_false] at hm
    rcases hm with rfl | rfl
    · exact Or.inl ⟨rfl, List.singleton_perm_singleton.1 ((List.perm_cons _).1 hpq)⟩
    · exact Or.inr ⟨rfl, List.singleton_perm_singleton.1 ((List.perm_cons _).1 (hpq.trans (List.Perm.swap _ _ _)))⟩
  rcases hmx with rfl | rfl | rfl
  · rcases two ((List.perm_cons _).1 hp) with ⟨rfl, rfl⟩ | ⟨rfl, rfl⟩
    · exact absurd ec (not_lt.2 eb.le)
    · have : h = 0 := by
        have hc : h = 0 ∨ h = 1 ∨ h = 2 := by omega
        rcases hc with rfl | rfl | rfl
        · rfl
        · simp at hpos; exact absurd hpos.symm m1
        · simp at hpos; exact absurd hpos.symm m2
      subst this; exact ⟨rfl, rfl⟩
  · have hp' : [x, y, z].Perm [x, u, w] := hp.trans (List.Perm.swap _ _ _)
    rcases two ((List.perm_cons _).1 hp') with ⟨rfl, rfl⟩ | ⟨rfl, rfl⟩
    · have : h = 1 := by
        have hc : h = 0 ∨ h = 1 ∨ h = 2 := by omega
        rcases hc with rfl | rfl | rfl
        · simp at hpos; exact absurd hpos m1
        · rfl
        · simp at hpos; exact absurd hpos.symm m3
      subst this; exact ⟨rfl, rfl⟩
    · have he : det3 (pt z) (pt x) (pt y) d' = det3 (pt x) (pt y) (pt z) d' := by simp only [det3]; ring
      rw [he] at eb
      exact absurd ec (not_lt.2 eb.le)
  · have hp' : [x, y, z].Perm [x, u, v] := hp.trans (List.perm_append_comm (l₁ := [u, v]) (l₂ := [x]))
    rcases two ((List.perm_cons _).1 hp') with ⟨rfl, rfl⟩ | ⟨rfl, rfl⟩
    · have he : det3 (pt y) (pt z) (pt x) d' = det3 (pt x) (pt y) (pt z) d' := by simp only [det3]; ring
      rw [he] at eb
      exact absurd ec (not_lt.2 eb.le)
    · have : h = 2 := by
        have hc : h = 0 ∨ h = 1 ∨ h = 2 := by omega
        rcases hc with rfl | rfl | rfl
        · simp at hpos; exact absurd hpos m2
        · simp at hpos; exact absurd hpos m3
        · rfl
      subst this; exact ⟨rfl, rfl⟩

/-! ### Periodic boundaries -/

theorem findCrd_spec {tol : K} {veCrds : List (V3 K)} {elVe : List Nat} {ad ve0 w : Nat} {p0 : V3 K} {p : Nat → V3 K}
    (h0 : veCrds[ve0]? = some p0)
    (hp : ∀ k < 4, ∃ v, elVe[ad * 4 + k]? = some v ∧ veCrds[v]? = some (p k))
    (hw : w < 4) (hw2 : nEq tol p0 (p w) = 2)
    (ho : ∀ k < 4, k ≠ w → nEq tol p0 (p k) = 2 → dist2 p0 (p k) < dist2 p0 (p w)) :
    findCrd tol veCrds elVe ad ve0 = some (some w) := by
  obtain ⟨acc, h, inv⟩ := forN_inv (n := 4) (body := findCrdStep tol veCrds elVe ad ve0) (s := none)
    (fun i acc => (∀ k < i, nEq tol p0 (p k) = 2 → acc ≠ none) ∧
      ∀ m, acc = some m → m < i ∧ nEq tol p0 (p m) = 2 ∧ ∀ k < i, nEq tol p0 (p k) = 2 → dist2 p0 (p k) ≤ dist2 p0 (p m))
    ⟨fun _ h => by omega, fun _ h => by cases h⟩
    (by
      rintro i acc hi ⟨i1, i2⟩
      obtain ⟨v, hv, hpv⟩ := hp i hi
      simp only [findCrdStep, rd, hv, h0, hpv, Option.bind_eq_bind, Option.bind_some]
      by_cases hc : nEq tol p0 (p i) = 2
      · rw [if_pos hc]
        cases acc with
        | none =>
          refine ⟨some i, rfl, ⟨fun _ _ _ => by simp, fun m hm => ?_⟩⟩
          cases hm
          refine ⟨by omega, hc, fun k hk hk2 => ?_⟩
          rcases Nat.lt_succ_iff_lt_or_eq.1 hk with h | h
          · exact absurd rfl (i1 k h hk2)
          · subst h; exact le_refl _
        | some m =>
          obtain ⟨j1, j2, j3⟩ := i2 m rfl
          obtain ⟨vm, hvm, hpm⟩ := hp m (by omega)
          simp only [hvm, hpm, Option.bind_some]
          refine ⟨_, rfl, ⟨fun _ _ _ => by split <;> simp, fun m' hm' => ?_⟩⟩
          by_cases hlt : dist2 p0 (p m) < dist2 p0 (p i)
          · rw [if_pos hlt] at hm'; cases hm'
            refine ⟨by omega, hc, fun k hk hk2 => ?_⟩
            rcases Nat.lt_succ_iff_lt_or_eq.1 hk with h | h
            · exact (j3 k h hk2).trans hlt.le
            · subst h; exact le_refl _
          · rw [if_neg hlt] at hm'; cases hm'
            refine ⟨by omega, j2, fun k hk hk2 => ?_⟩
            rcases Nat.lt_succ_iff_lt_or_eq.1 hk with h | h
            · exact j3 k h hk2
            · subst h; exact not_lt.1 hlt
      · rw [if_neg hc]
        refine ⟨acc, rfl, fun k hk hk2 => ?_, fun m hm => ?_⟩
        · rcases Nat.lt_succ_iff_lt_or_eq.1 hk with h | h
          · exact i1 k h hk2
          · subst h; exact absurd hk2 hc
        · obtain ⟨j1, j2, j3⟩ := i2 m hm
          refine ⟨by omega, j2, fun k hk hk2 => ?_⟩
          rcases Nat.lt_succ_iff_lt_or_eq.1 hk with h | h
          · exact j3 k h hk2
          · subst h; exact absurd hk2 hc)
  rw [findCrd, h]
  cases acc with
  | none => exact absurd rfl (inv.1 w hw hw2)
  | some m =>
    obtain ⟨j1, j2, j3⟩ := inv.2 m rfl
    by_cases hmw : m = w
    · rw [hmw]
    · exact absurd (j3 w hw hw2) (not_le.2 (ho m j1 hmw j2))

theorem findVe_none {elVe : List Nat} {ad ve0 : Nat} (h : ∀ k < 4, ∃ v, elVe[ad * 4 + k]? = some v ∧ v ≠ ve0) :
    findVe elVe ad ve0 = some none := by
  obtain ⟨b0, h0, n0⟩ := h 0 (by omega)
  obtain ⟨b1, h1, n1⟩ := h 1 (by omega)
  obtain ⟨b2, h2, n2⟩ := h 2 (by omega)
  obtain ⟨b3, h3, n3⟩ := h 3 (by omega)
  rw [findVe_spec h0 h1 h2 h3, if_neg n3, if_neg n2, if_neg n1, if_neg n0]

theorem veCombi_tetFa {fb h w : Nat} (hfb : fb < 4) (hw : (tetFa fb)[h]? = some w) : veCombi fb w = some h := by
  have hc : fb = 0 ∨ fb = 1 ∨ fb = 2 ∨ fb = 3 := by omega
  have hh : h < 3 := by
    have := (List.getElem?_eq_some_iff.1 hw).1
    rcases hc with rfl | rfl | rfl | rfl <;> simpa [tetFa] using this
  have hc2 : h = 0 ∨ h = 1 ∨ h = 2 := by omega
  rcases hc with rfl | rfl | rfl | rfl <;> rcases hc2 with rfl | rfl | rfl <;> simp [tetFa] at hw <;> subst hw <;> rfl

/-- C79 at periodic boundaries in dimension `d`: the vertex of the neighbour's face which has the same coordinates as the
element's first face vertex in the other two dimensions is the one whose position is reported. Assumptions: all vertices of
the neighbour are away from the vertex in the periodic dimension, the neighbour's fourth vertex is closer to it than the
neighbour's face, and the other vertices of the face differ in one of the other dimensions. -/
theorem C79_periodic [IsStrictOrderedRing K] {tol : K} {veCrds : List (V3 K)} {elVe : List Nat}
    {elFaEl : List (Option Nat)} {el fa ad fb ve0 d h w : Nat} {p0 : V3 K} {p : Nat → V3 K} (hd : d < 3) (hfb : fb < 4)
    (had : elFaEl[el * 4 + fa]? = some (some ad)) (hid : faIdAd 4 elFaEl el fa = some fb)
    (hve : elVe[el * 4 + (if fa ≤ 2 then 0 else 1)]? = some ve0) (h0 : veCrds[ve0]? = some p0)
    (hp : ∀ k < 4, ∃ v, elVe[ad * 4 + k]? = some v ∧ v ≠ ve0 ∧ veCrds[v]? = some (p k))
    (hw : (tetFa fb)[h]? = some w) (hwm : ∀ di < 3, di ≠ d → |p0.crd di - (p w).crd di| < tol)
    (hfar : ∀ k < 4, tol ≤ |p0.crd d - (p k).crd d|)
    (hother : ∀ k ∈ tetFa fb, k ≠ w → ∃ di < 3, di ≠ d ∧ tol ≤ |p0.crd di - (p k).crd di|)
    (hopp : (p0.crd d - (p (3 - fb)).crd d) ^ 2 + 2 * tol ^ 2 ≤ (p0.crd d - (p w).crd d) ^ 2) :
    veIdAd tol (some veCrds) elVe elFaEl el fa = some h := by
  have hc : fb = 0 ∨ fb = 1 ∨ fb = 2 ∨ fb = 3 := by omega
  have hw4 : w < 4 := by
    have := List.mem_of_getElem? hw
    rcases hc with rfl | rfl | rfl | rfl <;> simp [tetFa] at this <;> omega
  have hcov : ∀ k < 4, k ∈ tetFa fb ∨ k = 3 - fb := by
    intro k hk
    rcases hc with rfl | rfl | rfl | rfl <;> simp [tetFa] <;> omega
  -- equal coordinates are those of the other two dimensions
  have hn2 : ∀ k < 4, nEq tol p0 (p k) = 2 ↔ ∀ di < 3, di ≠ d → |p0.crd di - (p k).crd di| < tol := by
    intro k hk
    have hf := not_lt.2 (hfar k hk)
    have hall : (∀ di < 3, di ≠ d → |p0.crd di - (p k).crd di| < tol) ↔
        ((0 ≠ d → |p0.x - (p k).x| < tol) ∧ (1 ≠ d → |p0.y - (p k).y| < tol) ∧ (2 ≠ d → |p0.z - (p k).z| < tol)) := by
      constructor
      · intro hh; exact ⟨hh 0 (by omega), hh 1 (by omega), hh 2 (by omega)⟩
      · rintro ⟨g0, g1, g2⟩ di hdi hne
        have : di = 0 ∨ di = 1 ∨ di = 2 := by omega
        rcases this with rfl | rfl | rfl
        · exact g0 hne
        · exact g1 hne
        · exact g2 hne
    rw [hall]
    have hdc : d = 0 ∨ d = 1 ∨ d = 2 := by omega
    rcases hdc with rfl | rfl | rfl <;> simp only [V3.crd] at hf <;>
      by_cases q0 : |p0.x - (p k).x| < tol <;> by_cases q1 : |p0.y - (p k).y| < tol <;>
      by_cases q2 : |p0.z - (p k).z| < tol <;>
      first | exact absurd ‹_› hf | simp [nEq, near, q0, q1, q2]
  have hsq : ∀ {x : K}, |x| < tol → x * x < tol ^ 2 := by
    intro x hx
    have := sq_lt_sq' (by linarith [abs_lt.1 hx]) (abs_lt.1 hx).2
    rwa [sq] at this
  have hfind : findCrd tol veCrds elVe ad ve0 = some (some w) := by
    refine findCrd_spec h0 (fun k hk => by obtain ⟨v, a, _, b⟩ := hp k hk; exact ⟨v, a, b⟩) hw4 ((hn2 w hw4).2 hwm) ?_
    intro k hk hkw hk2
    have hk3 := (hn2 k hk).1 hk2
    rcases hcov k hk with hm | rfl
    · obtain ⟨di, g1, g2, g3⟩ := hother k hm hkw
      exact absurd (hk3 di g1 g2) (not_lt.2 g3)
    · have hx : ∀ y : K, 0 ≤ y * y := fun y => mul_self_nonneg y
      simp only [sq] at hopp
      have hdc : d = 0 ∨ d = 1 ∨ d = 2 := by omega
      rcases hdc with rfl | rfl | rfl <;> simp only [V3.crd, dist2] at hopp ⊢
      · have q1 := hsq (hk3 1 (by omega) (by omega))
        have q2 := hsq (hk3 2 (by omega) (by omega))
        simp only [V3.crd, sq] at q1 q2
        linarith [hx (p0.y - (p w).y), hx (p0.z - (p w).z)]
      · have q1 := hsq (hk3 0 (by omega) (by omega))
        have q2 := hsq (hk3 2 (by omega) (by omega))
        simp only [V3.crd, sq] at q1 q2
        linarith [hx (p0.x - (p w).x), hx (p0.z - (p w).z)]
      · have q1 := hsq (hk3 0 (by omega) (by omega))
        have q2 := hsq (hk3 1 (by omega) (by omega))
        simp only [V3.crd, sq] at q1 q2
        linarith [hx (p0.x - (p w).x), hx (p0.y - (p w).y)]
  have hfv : findVeCrd tol (some veCrds) elVe ad ve0 = some (some w) := by
    simp only [findVeCrd, findVe_none (fun k hk => by obtain ⟨v, a, b, _⟩ := hp k hk; exact ⟨v, a, b⟩), Option.bind_eq_bind,
      Option.bind_some]
    exact hfind
  simp only [veIdAd, rd, had, hve, Option.bind_eq_bind, Option.bind_some, hfv, hid]
  exact veCombi_tetFa hfb hw

end

end Edge.Mesh
