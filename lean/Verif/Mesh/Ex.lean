import Verif.Mesh.Ids
import Verif.Mesh.Sparse
import Mathlib.Data.List.Lex
import Mathlib.Tactic.IntervalCases
import Mathlib.Algebra.Order.Field.Rat
/-!
Concrete meshes meeting the hypotheses of the theorems, and a mesh with periodic boundaries for which the face ids of the
neighbours are wrong: C37, C39, C40, C77, C78, C79, C80, C81.
-/
namespace Edge.Mesh
open Edge

/-- An implementation of the sorting of faces. -/
def exSort (l : List Face) : List Face := l.insertionSort (fun a b => a.ves ≤ b.ves)

theorem lt_of_lexLt : ∀ {a b : List Nat}, lexLt a b = true → a < b
  | a :: as, b :: bs, h => by
    simp only [lexLt] at h
    rw [List.cons_lt_cons_iff]
    split at h
    · left; assumption
    · split at h
      · cases h
      · right; exact ⟨by omega, lt_of_lexLt h⟩
  | [], _, h => by simp [lexLt] at h
  | _ :: _, [], h => by simp [lexLt] at h

theorem exSort_spec (l : List Face) : StdSort faceLt l (exSort l) := by
  refine ⟨List.perm_insertionSort _ _, ?_⟩
  have := List.pairwise_insertionSort (fun a b : Face => a.ves ≤ b.ves) l
  refine this.imp fun {a b} h => ?_
  by_contra hc
  have hc' : faceLt b a = true := by simpa using hc
  exact absurd (lt_of_lexLt hc') (not_lt.2 h)

/-- An implementation of the sorting of rows. -/
def exSortL (d : List (List Nat)) (l : List Nat) : List Nat := l.insertionSort (fun a b => d.getD a [] ≤ d.getD b [])

theorem exSortL_spec (d : List (List Nat)) (l : List Nat) : StdSort (entryLess d) l (exSortL d l) := by
  refine ⟨List.perm_insertionSort _ _, ?_⟩
  have := List.pairwise_insertionSort (fun a b : Nat => d.getD a [] ≤ d.getD b []) l
  refine this.imp fun {a b} h => ?_
  by_contra hc
  have hc' : entryLess d b a = true := by simpa using hc
  unfold entryLess at hc'
  split at hc'
  · rename_i x y hx hy
    rw [List.getD_eq_getElem?_getD, List.getD_eq_getElem?_getD, hx, hy] at h
    exact absurd (lt_of_lexLt hc') (not_lt.2 h)
  · cases hc'

deriving instance DecidableEq for Conn

/-! ### Two tetrahedrons -/

/-- Vertices. -/
def tetCrds : List (V3 Rat) := [⟨0, 0, 0⟩, ⟨0, 1, 0⟩, ⟨1, 0, 0⟩, ⟨0, 0, 1⟩, ⟨1, 1, 1⟩]

/-- Vertices of the two elements, in no particular order. -/
def tetElVe : List Nat := [3, 1, 0, 2, 4, 2, 1, 3]

/-- Vertices of the faces of the two elements. -/
def tetElFaVe : List (List Nat) :=
  [[3, 1, 0], [3, 1, 2], [3, 0, 2], [1, 0, 2], [4, 2, 1], [4, 2, 3], [4, 1, 3], [2, 1, 3]]


/-- The faces given for the elements are the faces of the tetrahedrons. -/
theorem tet_faces : ∀ el < 2, FacesOf (slice 4 tetElVe el) (slice 4 tetElFaVe el) := by
  unfold FacesOf; decide +kernel

/-- Resulting connectivity: the order of two vertices and two faces was changed in both elements. -/
def tetConn : Conn :=
  { nFas := 7
    faVe := [[0, 1, 2], [0, 1, 3], [0, 2, 3], [1, 2, 3], [1, 2, 4], [1, 3, 4], [2, 3, 4]]
    faEl := [some 0, none, some 0, none, some 0, none, some 0, some 1, some 1, none, some 1, none, some 1, none]
    elFa := [1, 0, 2, 3, 4, 3, 5, 6]
    elFaEl := [none, none, none, some 1, none, some 0, none, none] }

theorem tet_ctor : meshCtor exSort exSortL .tet4 3 (1 / 100) (1 / 1000) tetCrds 2 tetElVe tetElFaVe
    [(5, [[2, 1, 0]]), (9, [[4, 1, 2], [1, 0, 2]])] none =
    some (tetConn, [0, 1, 3, 2, 1, 2, 4, 3], [13, 0, 0, 0, 9, 0, 0]) := by decide +kernel

/-- The hypotheses of C80_mesh (and C77, C39 and C40 by it) are met. -/
theorem tet_spec : MeshSpec 4 2 (ParO (faMatch (1 / 100) 3 3 tetCrds tetConn.faVe) none [13, 0, 0, 0, 9, 0, 0] 7) tetElVe
    tetConn [0, 1, 3, 2, 1, 2, 4, 3] :=
  C80_mesh exSort_spec (by decide +kernel) (by decide +kernel) (by decide +kernel) tet_faces tet_ctor

/-- Those of C77_total. -/
example : Conforming tetElFaVe := by
  refine (C77_connectivity (nEls := 2) (n := 4) (m := 3) exSort_spec (by decide) (by decide) (c := ?_) ?_).1
  · exact (build exSort 2 4 3 tetElFaVe).get (by decide +kernel)
  · decide +kernel

theorem tet_distinct : DistinctEls 4 2 tetElVe := by
  have key : ∀ a b : Fin 2, (slice 4 tetElVe a).Perm (slice 4 tetElVe b) → a = b := by decide +kernel
  exact fun a b ha hb h => congrArg Fin.val (key ⟨a, ha⟩ ⟨b, hb⟩ h)

/-- Those of C78_mesh: face 3 of the first element is face 1 of the second one. -/
example : faIdAd 4 tetConn.elFaEl 0 3 = some 1 ∧ ∃ fb, faIdAd 4 tetConn.elFaEl 0 3 = some fb ∧ fb < 4 ∧
    tetConn.elFa[1 * 4 + fb]? = tetConn.elFa[0 * 4 + 3]? :=
  ⟨by decide, C78_mesh (by decide) tet_spec (fun f g h => by obtain ⟨_, h, _⟩ := h; cases h) tet_distinct (el := 0)
    (fa := 3) (by decide) (by decide) rfl⟩

/-- Those of C79_veIdAd and C79_reversed. -/
example : ∃ h, veIdAd (1 / 100) (some tetCrds) [0, 1, 3, 2, 1, 2, 4, 3] tetConn.elFaEl 0 3 = some h ∧ h < 3 ∧
    (faceVes [1, 2, 4, 3] 1)[h]? = (faceVes [0, 1, 3, 2] 3)[0]? ∧
    (faceVes [1, 2, 4, 3] 1)[(h + 2) % 3]? = (faceVes [0, 1, 3, 2] 3)[1]? := by
  obtain ⟨h, h1, h2, h3⟩ := C79_veIdAd (tol := 1 / 100) (veCrds := some tetCrds) (elVe := [0, 1, 3, 2, 1, 2, 4, 3])
    (elFaEl := tetConn.elFaEl) (el := 0) (fa := 3) (ad := 1) (fb := 1) (a := [0, 1, 3, 2]) (b := [1, 2, 4, 3])
    (by decide) (by decide) (by decide) (by decide) (by decide) (by decide) (by decide) (by decide) (by decide) (by decide)
  refine ⟨h, h1, h2, h3, ?_⟩
  exact (C79_reversed (fun v => tetCrds.getD v ⟨0, 0, 0⟩) (a := [0, 1, 3, 2]) (b := [1, 2, 4, 3]) (fa := 3) (fb := 1)
    (x := 1) (y := 3) (z := 2) (by decide) (by decide) (by decide) (by decide) (by decide) (by decide +kernel)
    (by decide +kernel) (by decide) (by decide) (by decide +kernel) h2 h3).1

/-- Two tetrahedrons at opposite sides of the domain. -/
def peCrds : List (V3 Rat) :=
  [⟨0, 0, 0⟩, ⟨1, 0, 0⟩, ⟨0, 1, 0⟩, ⟨0, 0, 1⟩, ⟨0, 0, 4⟩, ⟨0, 0, 5⟩, ⟨1, 0, 5⟩, ⟨0, 1, 5⟩]

/-- The hypotheses of C79_periodic are met: face 0 of the first and face 3 of the second element match in the first two
coordinates. -/
example : veIdAd (1 / 100) (some peCrds) [0, 1, 2, 3, 4, 5, 6, 7]
    [some 1, none, none, none, none, none, none, some 0] 0 0 = some 0 := by
  refine C79_periodic (tol := 1 / 100) (p0 := ⟨0, 0, 0⟩) (p := fun k => peCrds.getD (4 + k) ⟨0, 0, 0⟩) (ad := 1) (fb := 3)
    (ve0 := 0) (d := 2) (w := 1) (by decide) (by decide) (by decide) (by decide) (by decide) (by decide +kernel) ?_ (by decide)
    (by decide +kernel) (by decide +kernel) ?_ (by decide +kernel)
  · intro k hk
    refine ⟨4 + k, ?_, by omega, ?_⟩ <;> interval_cases k <;> decide +kernel
  · intro k hk hw
    have : k = 2 ∨ k = 3 := by
      simp [tetFa] at hk; omega
    rcases this with rfl | rfl
    · exact ⟨0, by decide, by decide, by decide +kernel⟩
    · exact ⟨1, by decide, by decide, by decide +kernel⟩

/-! ### Triangles with periodic boundaries -/

/-- Strip of three squares, each split in two triangles. -/
def stCrds : List (V3 Rat) :=
  [⟨0, 0, 0⟩, ⟨1, 0, 0⟩, ⟨2, 0, 0⟩, ⟨3, 0, 0⟩, ⟨0, 1, 0⟩, ⟨1, 1, 0⟩, ⟨2, 1, 0⟩, ⟨3, 1, 0⟩]
def stElVe : List Nat := [0, 1, 4, 1, 4, 5, 1, 2, 5, 2, 5, 6, 2, 3, 6, 3, 6, 7]
def stElFaVe : List (List Nat) :=
  [[0, 1], [1, 4], [0, 4], [1, 4], [4, 5], [1, 5], [1, 2], [2, 5], [1, 5], [2, 5], [5, 6], [2, 6], [2, 3], [3, 6], [2, 6],
    [3, 6], [6, 7], [3, 7]]

/-- Resulting connectivity: behind the left face of the first element is the last element. -/
def stConn : Conn :=
  { nFas := 13
    faVe := [[0, 1], [0, 4], [1, 2], [1, 4], [1, 5], [2, 3], [2, 5], [2, 6], [3, 6], [3, 7], [4, 5], [5, 6], [6, 7]]
    faEl := [some 0, none, some 0, some 5, some 2, none, some 0, some 1, some 1, some 2, some 4, none, some 2, some 3,
      some 3, some 4, some 4, some 5, some 5, some 0, some 1, none, some 3, none, some 5, none]
    elFa := [0, 3, 1, 4, 10, 3, 2, 6, 4, 7, 11, 6, 5, 8, 7, 9, 12, 8]
    elFaEl := [none, some 1, some 5, some 2, none, some 0, none, some 3, some 1, some 4, none, some 2, none, some 5,
      some 3, some 0, none, some 4] }

theorem st_ctor : meshCtor exSort exSortL .tria3 2 (1 / 100) (1 / 1000) stCrds 6 stElVe stElFaVe
    [(7, [[0, 4], [3, 7]])] (some 7) =
    some (stConn, [0, 1, 4, 1, 5, 4, 1, 2, 5, 2, 6, 5, 2, 3, 6, 3, 7, 6], [0, 7, 0, 0, 0, 0, 0, 0, 0, 7, 0, 0, 0]) := by
  decide +kernel

/-- The hypotheses of C80_mesh are met. -/
theorem st_spec : MeshSpec 3 6
    (ParO (faMatch (1 / 100) 2 2 stCrds stConn.faVe) (some 7) [0, 7, 0, 0, 0, 0, 0, 0, 0, 7, 0, 0, 0] 13) stElVe stConn
    [0, 1, 4, 1, 5, 4, 1, 2, 5, 2, 6, 5, 2, 3, 6, 3, 7, 6] := C80_mesh exSort_spec (by decide +kernel) (by decide +kernel) (by decide +kernel)
  (by unfold FacesOf; decide +kernel) st_ctor

theorem st_oneFace : EdgeV.OneFace stConn.elFaEl 3 6 := by
  have key : ∀ (el : Fin 6) (f g : Fin 3), stConn.elFaEl[el.1 * 3 + f.1]? = stConn.elFaEl[el.1 * 3 + g.1]? →
      stConn.elFaEl[el.1 * 3 + f.1]? = some none ∨ f = g := by decide +kernel
  intro el f g a he hf hg h1 h2
  rcases key ⟨el, he⟩ ⟨f, hf⟩ ⟨g, hg⟩ (h1.trans h2.symm) with h | h
  · exact absurd (h1.symm.trans h) (by simp)
  · exact congrArg Fin.val h

/-- Those of C78_faIdAd_periodic. -/
example : faIdAd 3 stConn.elFaEl 0 2 = some 0 ∧ ∃ fb f g, faIdAd 3 stConn.elFaEl 0 2 = some fb ∧ fb < 3 ∧
    stConn.elFa[0 * 3 + 2]? = some f ∧ stConn.elFa[5 * 3 + fb]? = some g ∧ (g = f ∨
    ParO (faMatch (1 / 100) 2 2 stCrds stConn.faVe) (some 7) [0, 7, 0, 0, 0, 0, 0, 0, 0, 7, 0, 0, 0] 13 f g) :=
  ⟨by decide, C78_faIdAd_periodic st_spec.symm (by decide) st_spec.nb st_oneFace (el := 0) (fa := 2) (by decide) (by decide)
    rfl⟩

/-- Square, split in two triangles. -/
def sqCrds : List (V3 Rat) := [⟨0, 0, 0⟩, ⟨1, 0, 0⟩, ⟨0, 1, 0⟩, ⟨1, 1, 0⟩]
def sqElVe : List Nat := [0, 1, 2, 1, 2, 3]
def sqElFaVe : List (List Nat) := [[0, 1], [1, 2], [0, 2], [1, 2], [2, 3], [1, 3]]

/-- Resulting connectivity. -/
def sqConn : Conn :=
  { nFas := 5
    faVe := [[0, 1], [0, 2], [1, 2], [1, 3], [2, 3]]
    faEl := [some 0, some 1, some 0, some 1, some 0, some 1, some 1, some 0, some 1, some 0]
    elFa := [0, 2, 1, 3, 4, 2]
    elFaEl := [some 1, some 1, some 1, some 0, some 0, some 0] }

/-- C78: with periodic boundaries two elements may share several faces; then the face id of the neighbour is wrong. In the
square with all its four sides at the periodic boundary, the constructor succeeds and the partner of the lower side is the
upper side, but the face id of the neighbour behind the lower side belongs to the right side. -/
theorem C78_periodic_refuted :
    ∃ c elVe' sp, meshCtor exSort exSortL .tria3 2 (1 / 100) (1 / 1000) sqCrds 2 sqElVe sqElFaVe
        [(7, [[0, 1], [0, 2], [1, 3], [2, 3]])] (some 7) = some (c, elVe', sp) ∧
      ¬ ∀ el fa ad, el < 2 → fa < 3 → c.elFaEl[el * 3 + fa]? = some (some ad) →
        ∃ fb f g, faIdAd 3 c.elFaEl el fa = some fb ∧ c.elFa[el * 3 + fa]? = some f ∧ c.elFa[ad * 3 + fb]? = some g ∧
          (g = f ∨ ParO (faMatch (1 / 100) 2 2 sqCrds c.faVe) (some 7) sp c.nFas f g) := by
  refine ⟨sqConn,
    [0, 1, 2, 1, 3, 2], [7, 7, 0, 7, 7], by decide +kernel, fun h => ?_⟩
  obtain ⟨fb, f, g, h1, h2, h3, h4⟩ := h 0 0 1 (by decide) (by decide) rfl
  have e1 : fb = 0 := by
    have : faIdAd 3 sqConn.elFaEl 0 0 = some 0 := by decide
    rw [this] at h1; injection h1 with h1; exact h1.symm
  subst e1
  have e2 : f = 0 := by simpa [sqConn] using h2.symm
  have e3 : g = 3 := by simpa [sqConn] using h3.symm
  subst e2 e3
  rcases h4 with h4 | ⟨_, _, _, _, _, _, _, h4⟩
  · cases h4
  · revert h4; decide +kernel

end Edge.Mesh
