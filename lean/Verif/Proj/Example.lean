import Verif.Proj.Props
import Verif.Quad.Exists
/-!
The hypotheses of C92 are met for all types of elements and all orders which the code supports.
-/
namespace Edge.Proj
open Edge Edge.Map Edge.Quad Edge.Basis MvPolynomial

theorem mass_exists (e : Ent) (o : Nat) : ∃ raw, MassOk e o raw := by
  refine ⟨(List.range (nModes e o * nModes e o)).map (fun k => refInt e (fun x y z =>
    value (k / nModes e o) e o x y z * value (k % nModes e o) e o x y z)), by simp, fun r hr c hc => ?_⟩
  have h1 : r * nModes e o + c < nModes e o * nModes e o := by
    have := Nat.mul_le_mul_right (nModes e o) (Nat.succ_le_of_lt hr)
    rw [Nat.succ_mul] at this; omega
  have h2 : (r * nModes e o + c) / nModes e o = r := by
    rw [Nat.mul_comm, Nat.mul_add_div (by omega), Nat.div_eq_of_lt hc, Nat.add_zero]
  have h3 : (r * nModes e o + c) % nModes e o = c := by
    rw [Nat.mul_comm, Nat.mul_add_mod, Nat.mod_eq_of_lt hc]
  rw [List.getElem?_map, List.getElem?_range h1]
  simp only [Option.map_some, h2, h3]

/-- Rules, tolerances and mass matrices for all types of elements and orders. -/
theorem C92_setup (e : Ent) {o : Nat} (h : 0 < o) (ho : o + 1 ≤ maxOrder e) :
    ∃ pair raw, Setup pair e o (1 / 1000) (1 / 1000000) raw := by
  obtain ⟨pair, hp⟩ := C90_gauss_exists
  obtain ⟨raw, hr⟩ := mass_exists e o
  exact ⟨pair, raw, h, ho, fun n hn _ => hp n hn, by norm_num, by norm_num, by norm_num, by norm_num, hr⟩

/-- An expression which sets all quantities to a polynomial, with a factor for the fused run and one for the quantity. -/
noncomputable def exE (e : Ent) (f : MvPolynomial (Fin 3) ℝ) : Exprs ℝ := fun cr c _ =>
  (c, fun qt => val (C (cr + qt : ℝ) * f) (cut e c 0) (cut e c 1) (cut e c 2))

theorem exE_any (e : Ent) (f : MvPolynomial (Fin 3) ℝ) (nQts nCrs : Nat) :
    FromAny e nQts nCrs (exE e f) (fun cr qt c => val (C (cr + qt : ℝ) * f) (c 0) (c 1) (c 2)) :=
  fun _ _ _ _ => ⟨fun _ _ => rfl, fun _ _ => rfl⟩

theorem exVe (e : Ent) : veCrds e (fun _ v => v) (fun v d => (refVe e d v : ℝ)) 7 = fun d v => if d < e.nDim then refVe e d v else 0 := rfl

theorem elOk_cut {tol : ℝ} (h : tol < 1) (e : Ent) : ElOk tol e (fun d v => if d < e.nDim then (refVe e d v : ℝ) else 0) := by
  have hr := ref_ok h e
  cases e
  · refine ⟨by simpa [Ent.nDim] using hr.1, fun v hv => by simp [Ent.nDim]⟩
  · have ha : AxisAligned .quad (fun d v => if d < Ent.quad.nDim then (refVe .quad d v : ℝ) else 0) := by
      intro d hd v hv w hw he
      simp only
      rw [if_pos hd, if_pos hd]
      exact hr.1 d hd v hv w hw he
    exact ⟨ha, fun v hv => by simp [Ent.nDim], by simpa [Ent.nDim] using hr.2.2.1, by simpa [Ent.nDim] using hr.2.2.2.1,
      by simpa [Ent.nDim] using hr.2.2.2.2⟩
  · change tol < jDet .tria _
    have : jDet .tria (fun d v => if d < Ent.tria.nDim then (refVe .tria d v : ℝ) else 0) = jDet .tria (refVe .tria) := by
      simp only [jDet, C88_detTria]; simp [Mesh.det2, pt3, Ent.nDim]
    rw [this]; exact hr
  · have ha : AxisAligned .hex (fun d v => if d < Ent.hex.nDim then (refVe .hex d v : ℝ) else 0) := by
      intro d hd v hv w hw he
      simp only
      rw [if_pos hd, if_pos hd]
      exact hr.1 d hd v hv w hw he
    refine ⟨ha, ?_⟩
    have : jDet .hex (fun d v => if d < Ent.hex.nDim then (refVe .hex d v : ℝ) else 0) = jDet .hex (refVe .hex) := by
      simp only [jDet, C88_detHex _ ha, C88_detHex _ hr.1]; simp [Ent.nDim]
    rw [this]; exact hr.2
  · change tol < jDet .tet _
    have : jDet .tet (fun d v => if d < Ent.tet.nDim then (refVe .tet d v : ℝ) else 0) = jDet .tet (refVe .tet) := by
      simp only [jDet, C88_detTet]; simp [Mesh.det3, pt3, Ent.nDim]
    rw [this]; exact hr

/-- A mesh with the reference element as element 7: linear initial values in all quantities of two fused runs are reproduced at the lowest order which
represents them, and have error norms of zero. -/
example (e : Ent) : ∃ pair raw b r n, mkBasis Real.sqrt (1 / 1000) (1 / 1000000) pair raw e 2 = some b ∧
    dg Real.sqrt (1 / 1000) 9999 pair e 2 3 2 (exE e (X 0 + 5)) b (fun _ v => v) (fun v d => refVe e d v) (fun _ _ _ => 0) [(4, 7)] (fun _ _ _ _ => 0) = some r ∧
    (b.modal2ptval (1 / 4) 0 0 (fun md => r 7 2 md 1) = some (3 * (1 / 4 + 5))) ∧
    err Real.sqrt (1 / 1000) 9999 pair e 2 3 2 (exE e (X 0 + 5)) b (fun _ v => v) (fun v d => refVe e d v) (fun _ _ _ => 0) r 7 1 = some n ∧
    n.l1 2 1 = 0 ∧ n.l2p2 2 1 = 0 ∧ n.lInf 2 1 = 0 := by
  obtain ⟨pair, raw, hs⟩ := C92_setup e (o := 2) (by decide) (by cases e <;> decide)
  obtain ⟨b, hb⟩ := C92_basis hs
  have hdeg : ∀ a : ℝ, (C a * (X 0 + 5) : MvPolynomial (Fin 3) ℝ).totalDegree ≤ 1 := by
    intro a
    refine (totalDegree_mul _ _).trans ?_
    rw [totalDegree_C, zero_add]
    refine (totalDegree_add _ _).trans (max_le (totalDegree_X _).le ?_)
    rw [show (5 : MvPolynomial (Fin 3) ℝ) = C 5 from rfl, totalDegree_C]; omega
  have hf : ∀ a : ℝ, Fits e 2 (C a * (X 0 + 5)) := by
    intro a
    have h := hdeg a
    have h2 := fun i => (degreeOf_le_totalDegree (C a * (X 0 + 5) : MvPolynomial (Fin 3) ℝ) i).trans h
    cases e
    · change _ < _; omega
    · exact ⟨by have := h2 0; omega, by have := h2 1; omega⟩
    · change _ < _; omega
    · exact ⟨by have := h2 0; omega, by have := h2 1; omega, by have := h2 2; omega⟩
    · change _ < _; omega
  have hel : ElOk (1 / 1000) e (veCrds e (fun _ v => v) (fun v d => (refVe e d v : ℝ)) 7) := by
    rw [exVe]; exact elOk_cut (by norm_num) e
  obtain ⟨r, n, r1, n1, h⟩ := C92_err_zero (nQts := 3) (nCrs := 2) (first := 7) (size := 1) (sched := [(4, 7)]) hs hb (fun cr _ qt _ => hf (cr + qt)) (exE_any e (X 0 + 5) 3 2)
    (elVe := fun _ v => v) (coords := fun v d => refVe e d v) (by intro el; simp; omega) (fun i hi => by
      obtain rfl : i = 0 := by omega
      exact hel) 9999 (fun _ _ _ => 0) (fun _ _ _ _ => 0)
  obtain ⟨r', r1', r2', -⟩ := C92_exact (nQts := 3) (nCrs := 2) hs hb (fun cr _ qt _ => hf (cr + qt)) (exE_any e (X 0 + 5) 3 2).zero (big := 9999) (sched := [(4, 7)])
    (elVe := fun _ v => v) (coords := fun v d => refVe e d v) (by intro te hte; simp at hte; subst hte; exact hel) (fun _ _ _ => 0) (fun _ _ _ _ => 0)
  rw [r1, Option.some.injEq] at r1'
  subst r1'
  refine ⟨pair, raw, b, r, n, hb, r1, ?_, n1, h 2 (by decide) 1 (by decide)⟩
  rw [r2' (4, 7) (by simp) 2 (by decide) 1 (by decide) (1 / 4) 0 0 (by cases e <;> simp [FlatPt]) (by cases e <;> norm_num [PtOk])]
  simp only [Option.some.injEq, val, map_mul, map_add, eval_C, eval_X]
  have hx : refToPhy e (veCrds e (fun _ v => v) (fun v d => (refVe e d v : ℝ)) 7) (vec (1 / 4) 0 0) 0 = 1 / 4 := by
    cases e <;> simp [refToPhy, veCrds, refVe, tab, vec, sumN_succ, sumN_zero, shQuad, shTria, shHex, shTet, Ent.nDim] <;> norm_num
  rw [hx]
  have : (eval ![1 / 4, refToPhy e (veCrds e (fun _ v => v) (fun v d => (refVe e d v : ℝ)) 7) (vec (1 / 4) 0 0) 1,
      refToPhy e (veCrds e (fun _ v => v) (fun v d => (refVe e d v : ℝ)) 7) (vec (1 / 4) 0 0) 2]) (5 : MvPolynomial (Fin 3) ℝ) = 5 := by
    rw [show (5 : MvPolynomial (Fin 3) ℝ) = C 5 from rfl, eval_C]
  rw [this]; norm_num

end Edge.Proj
