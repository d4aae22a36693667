import Verif.Flux.Props
import Verif.Gen.Example
/-!
C94: the hypotheses are met.
-/
namespace Edge.Flux
open Edge Edge.Map Edge.Quad Edge.Basis Edge.Proj Edge.Gen MvPolynomial

theorem exC2_fits : Fits exC2 .tria 4 := ⟨exC2_fit.sizes, rfl, rfl, rfl, by decide⟩

theorem exC3_fits : Fits exC3 .tet 3 := ⟨exC3_fit.sizes, rfl, rfl, rfl, by decide⟩

theorem exCh_fits : Fits exCh .hex 2 := ⟨exCh_shape.sizes, rfl, rfl, rfl, by decide⟩

/-- `C94_local` for hexahedra with two relaxation mechanisms. -/
example : ∃ LN FT E' A' s0 s1, Dg.surfLocal exCh LN FT ((List.range 6).map fun i => Dg.mkMat 9 9 (Dg.exS i)) ((List.range 6).map fun i => Dg.mkMat 6 9 (Dg.exS i))
    ((List.range 2).map Dg.exRf) (Dg.mk3 9 8 1 Dg.exE) (Dg.mk3 9 8 1 Dg.exE) ((List.range 2).map fun rm => Dg.mk3 6 8 1 (Dg.exA rm))
    (List.replicate 36 0) (List.replicate 36 0) = some (E', A', s0, s1) := by
  obtain ⟨LN, FT, E', A', s0, s1, -, h, -⟩ := C94_local exCh_fits (rfs := (List.range 2).map Dg.exRf) (rf := Dg.exRf) (Dg.mats_mk 6 9 9 Dg.exS) (fun _ => Dg.mats_mk 6 6 9 Dg.exS)
    (fun rm (h : rm < 2) => by simp [rd, h]) (Dg.rep_mk 9 8 1 Dg.exE) (Dg.rep_mk 9 8 1 Dg.exE) (Dg.perRm_mk exCh Dg.exA)
    (sc0 := List.replicate 36 0) (sc1 := List.replicate 36 0) (by simp [exCh]) (by simp [exCh])
  exact ⟨LN, FT, E', A', s0, s1, h⟩

/-- Faces of a tetrahedron: outflow, free surface, two adjacent elements. -/
def exFaces (fa : Nat) : Dg.FaceIn ℝ :=
  ⟨fa == 0, fa == 1, if fa < 2 then none else some (fa - 1), fa, ⟨true, false, false⟩, Dg.mkMat 9 9 (Dg.exS fa), [], ⟨Dg.mk3 9 10 1 Dg.exE, none, none⟩, none⟩

/-- `C94_neigh`. -/
example : ∃ LN FT E' A', Dg.neighEl exC3 LN FT [] true ((List.range 4).map exFaces) (Dg.mk3 9 10 1 Dg.exE) [] (List.replicate 54 0) (List.replicate 54 0) = some (E', A') := by
  obtain ⟨LN, FT, E', A', -, h, -⟩ := C94_neigh exC3_fits (rfs := []) (rf := fun _ => 0) (FA := fun _ _ _ => 0) (FE := Dg.exS) (T := fun _ => Dg.exE)
    (firstTs := true) (fs := exFaces) (fl := (List.range 4).map exFaces) (da := fun _ _ _ _ => 0) (dofsA := [])
    (fun fa (h : fa < 4) => by simp [rd, h]) (fun fa _ _ => Dg.mat_mk 9 9 (Dg.exS fa)) (fun _ _ _ h => absurd h (by decide)) (fun _ h => absurd h (by simp [exC3]))
    (by
      intro fa hfa _ ve hv
      change fa < 4 at hfa
      interval_cases fa <;> simp [exFaces] at hv ⊢ <;> subst hv <;> decide)
    (by
      intro fa hfa _
      refine ⟨rfl, ?_⟩
      exact Dg.assemble_eq (Dg.rep_mk 9 10 1 Dg.exE) false true)
    (Dg.rep_mk 9 10 1 Dg.exE) (Dg.perRm_mk exC3 _) (sc0 := List.replicate 54 0) (sc1 := List.replicate 54 0) (by simp [exC3]) (by simp [exC3])
  exact ⟨LN, FT, E', A', h⟩

/-- Vertices of two tetrahedra which share a face. -/
def exA4 (d v : Nat) : ℝ := ((([[0, 1, 0, 0], [0, 0, 1, 0], [0, 0, 0, 1]] : List (List ℤ)).getD d []).getD v 0 : ℤ)
def exB4 (d v : Nat) : ℝ := ((([[0, 1, 0, 1], [0, 0, 1, 1], [1, 0, 0, 1]] : List (List ℤ)).getD d []).getD v 0 : ℤ)

/-- `C94_point`: face 3 of the first tetrahedron is face 0 of the second, listed as vertices three, two and one of the first. -/
example (x y : ℝ) : ∀ d < 3, refToPhy .tet exB4 (crd (outPt .tet 2 0 x y)) d = refToPhy .tet exA4 (crd (elPt .tet 3 x y)) d := by
  have h := C94_point (e := .tet) (by decide) (ve := 2) (fa := 3) (fb := 0) (by decide) (by decide) (by decide) exA4 exB4 (fun _ => 0) (by
    intro d hd
    change d < 3 at hd
    interval_cases d <;> norm_num [Opposite, faCrd, faVeCc, exA4, exB4]) x y
  intro d hd
  simpa using h d hd

/-- Points of the faces are distinct: vertices of the inclined face of the tetrahedron. -/
example : elPt .tet 3 0 0 = ![1, 0, 0] ∧ elPt .tet 3 1 0 = ![0, 1, 0] ∧ elPt .tet 3 0 1 = ![0, 0, 1] := by
  refine ⟨?_, ?_, ?_⟩ <;> ext d <;> fin_cases d <;> simp [elPt, faToEl]

end Edge.Flux
