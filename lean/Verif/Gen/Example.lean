import Verif.Gen.Star
/-!
C93: the hypotheses are met.
-/
namespace Edge.Gen
open Edge Edge.Map Edge.Quad Edge.Basis Edge.Proj

/-- Sizes for triangles, fourth order, two fused runs. -/
def exC2 : Dg.Cfg := ⟨2, 5, 3, 10, 4, 2, 0, 4, 3, Dg.elModesCk .tria3 4⟩

/-- Sizes for tetrahedra, third order. -/
def exC3 : Dg.Cfg := ⟨3, 9, 6, 10, 6, 1, 0, 3, 4, Dg.elModesCk .tet4 3⟩

/-- Sizes for hexahedra, second order, with two relaxation mechanisms. -/
def exCh : Dg.Cfg := ⟨3, 9, 6, 8, 4, 1, 2, 2, 6, Dg.elModesCk .hex8r 2⟩

theorem exC2_fit : Fit exC2 .tria 4 := ⟨⟨⟨by decide, by decide, rfl, fun n => Dg.elModesCk_le .tria3 4 n⟩, rfl, rfl, rfl, rfl⟩, rfl⟩

theorem exC3_fit : Fit exC3 .tet 3 := ⟨⟨⟨by decide, by decide, rfl, fun n => Dg.elModesCk_le .tet4 3 n⟩, rfl, rfl, rfl, rfl⟩, rfl⟩

theorem exCh_shape : Shape exCh .hex 2 := ⟨⟨by decide, by decide, rfl, fun n => Dg.elModesCk_le .hex8r 2 n⟩, rfl, rfl, rfl, rfl⟩

/-- Vertices of a triangle and of a tetrahedron (first indices: dimensions). -/
def exVes (d v : Nat) : ℝ := ((([[1, 3, 2, 1], [0, 1, 4, 1], [0, 0, 1, 5]] : List (List ℤ)).getD d []).getD v 0 : ℤ)

theorem exRegular2 : Regular (1 / 100) .tria exVes := by
  norm_num [Regular, Mesh.det2, pt3, exVes]

theorem exRegular3 : Regular (1 / 100) .tet exVes := by
  norm_num [Regular, Mesh.det3, pt3, exVes]

/-- Star matrices exist. -/
theorem exStar2 : ∃ s, initStar2 (1 / 100) .tria exVes 2 3 5 = some s := by
  have h : (Linalg.inv2 (1 / 100) (fun i j : Fin 2 => evalJac .tria exVes i j)).isSome := by
    rw [(Linalg.C52_inv2 (by norm_num) _).1, ← Linalg.C52_det2, C88_detTria]
    norm_num [Mesh.det2, pt3, exVes]
  obtain ⟨J, hJ⟩ := Option.isSome_iff_exists.1 h
  exact ⟨_, by rw [initStar2, hJ]; rfl⟩

theorem exStar3 : ∃ s, initStar3 (1 / 100) .tet exVes 2 3 5 = some s := by
  have h : (Linalg.inv3 (1 / 100) (fun i j : Fin 3 => evalJac .tet exVes i j)).isSome := by
    rw [(Linalg.C52_inv3 (by norm_num) _).1, ← Linalg.C52_det3, C88_detTet]
    norm_num [Mesh.det3, pt3, exVes]
  obtain ⟨J, hJ⟩ := Option.isSome_iff_exists.1 h
  exact ⟨_, by rw [initStar3, hJ]; rfl⟩

/-- `C93_wave2`. -/
example (dT : ℝ) : ∃ (s l : List (List ℝ)) (m' : Dg.CkMem ℝ) (P : ℝ → Nat → Nat → Nat → ℝ),
    Dg.ck exC2 dT l s [] [] [] (Dg.mk3 5 10 2 Dg.exE) [] (Dg.ckMem0 exC2) = some m' ∧ P 0 = Dg.exE ∧
    ∀ r τ x, Elastic2 2 3 5 (fun t q => physEval (1 / 100) .tria 4 exVes (fun md => P t q md r)) τ x := by
  obtain ⟨s, hs⟩ := exStar2
  obtain ⟨l, m', P, -, h1, h2, -, -, h3⟩ := C93_wave2 (by decide) exC2_fit rfl dT (by norm_num) (by norm_num) exRegular2 hs
    (Dg.rep_mk 5 10 2 Dg.exE) (Dg.ckMem0_out exC2)
  exact ⟨s, l, m', P, h1, by funext q md r; exact h2 q md r, h3⟩

/-- `C93_wave3`. -/
example (dT : ℝ) : ∃ (s l : List (List ℝ)) (m' : Dg.CkMem ℝ) (P : ℝ → Nat → Nat → Nat → ℝ),
    Dg.ck exC3 dT l s [] [] [] (Dg.mk3 9 10 1 Dg.exE) [] (Dg.ckMem0 exC3) = some m' ∧ P 0 = Dg.exE ∧
    ∀ r τ x, Elastic3 2 3 5 (fun t q => physEval (1 / 100) .tet 3 exVes (fun md => P t q md r)) τ x := by
  obtain ⟨s, hs⟩ := exStar3
  obtain ⟨l, m', P, -, h1, h2, -, -, h3⟩ := C93_wave3 (by decide) exC3_fit rfl dT (by norm_num) (by norm_num) exRegular3 hs
    (Dg.rep_mk 9 10 1 Dg.exE) (Dg.ckMem0_out exC3)
  exact ⟨s, l, m', P, h1, by funext q md r; exact h2 q md r, h3⟩

/-- `C93_blocks` with relaxation mechanisms. -/
example : ∃ lT lV, storeStiffTDense (stiffVRaw .hex 2) (stiffTRaw .hex 2) .hex 8 = some lT ∧ storeStiffDense (stiffVRaw .hex 2) (stiffTRaw .hex 2) .hex 8 = some lV := by
  obtain ⟨lT, lV, _, _, h1, h2, -⟩ := C93_blocks exCh_shape
  exact ⟨lT, lV, h1, h2⟩

/-- The star matrices of a direction of the reference element are not trivial: the prediction moves. -/
example : waveOp 2 5 (fun di q k => if di = 0 ∧ q = 0 ∧ k = 3 then -13 else 0) (fun k p => if k = 3 then p 0 else 0) 0 (fun _ => 1) = 13 := by
  simp [waveOp, Fin.sum_univ_three, Finset.sum_range_succ, Function.update_apply]

/-- `C93_mass`: the hypothesis of C92 on the mass matrix, e.g. for fifth-order tetrahedra. -/
example : MassOk .tet 5 (massRaw .tet 5) := (C93_mass .tet 5).2 (by decide)

end Edge.Gen
