import Verif.Advection.C110
import Verif.Advection.Example
/-!
C110: the hypotheses are met.
-/
namespace Edge.Advection
open Edge Edge.Map Edge.Quad Edge.Basis Edge.Proj Edge.Gen Edge.Flux MvPolynomial

/-- Two triangles with the sides 3, 4 and 5, connected by face 1; if `p`, the boundaries are periodic. -/
noncomputable def exRect (p : Bool) : Mesh ℝ where
  tet := false
  order := 2
  nd := 2
  nElFa := 3
  nIn := 2
  nSe := 0
  nFa := 5
  recvFa := []
  recvEl := []
  faEl := if p then [(0, 1), (0, 1), (0, 1), (1, 0), (1, 0)] else [(0, 9), (0, 1), (0, 9), (1, 9), (1, 9)]
  elFa := [[0, 1, 2], [3, 1, 4]]
  normal := [[0, -1], [4/5, 3/5], [-1, 0], [0, 1], [1, 0]]
  area := [3, 5, 4, 3, 4]
  periodic := [p, false, p, p, p]
  v := [[2, 1], [2, 1]]
  vRe := []
  det := [12, 12]

noncomputable def exG (p : Bool) : Desc ℝ := desc (exRect p) fun _ _ => none

theorem exRect_valid (p : Bool) : Valid (exRect p) (exG p) where
  faEl := by
    intro fa hfa
    simp only [exRect] at hfa
    cases p <;> interval_cases fa <;> exact ⟨_, rfl, by decide, by decide, rfl⟩
  elFa := by
    intro el hel
    have hel : el < 2 := hel
    interval_cases el <;> refine ⟨_, rfl, fun d hd => ?_⟩ <;> simp only [exRect] at hd <;> interval_cases d <;> rfl
  once := by
    intro el hel i hi j hj
    have hel : el < 2 := hel
    simp only [exRect] at hi hj
    interval_cases el <;> interval_cases i <;> interval_cases j <;> simp [exG, desc, exRect]
  faces := by
    intro el hel i hi
    have hel : el < 2 := hel
    simp only [exRect] at hi
    cases p <;> interval_cases el <;> interval_cases i <;> simp [exG, desc, exRect]
  inLeft := by
    intro fa hfa
    simp only [exRect] at hfa
    cases p <;> interval_cases fa
    all_goals first
      | exact ⟨0, by simp [exRect], rfl⟩
      | exact ⟨1, by simp [exRect], rfl⟩
      | exact ⟨2, by simp [exRect], rfl⟩
  inRight := by
    intro fa hfa r hr hp
    simp only [exRect] at hfa
    have : fa = 1 ∧ r = 1 := by
      cases p <;> interval_cases fa <;> simp [exG, desc, exRect] at hr hp ⊢ <;> omega
    obtain ⟨rfl, rfl⟩ := this
    exact ⟨1, by simp [exRect], rfl⟩
  normal := by
    intro fa hfa
    simp only [exRect] at hfa
    interval_cases fa <;> refine ⟨_, rfl, fun d hd => ?_⟩ <;> simp only [exRect] at hd <;> interval_cases d <;> rfl
  area := by
    intro fa hfa
    simp only [exRect] at hfa
    interval_cases fa <;> refine ⟨rfl, ?_⟩ <;> simp [exG, desc, exRect]
  periodic := by
    intro fa hfa
    simp only [exRect] at hfa
    interval_cases fa <;> rfl
  v := by
    intro el hel
    have hel : el < 2 := hel
    interval_cases el <;> refine ⟨_, rfl, fun d hd => ?_⟩ <;> simp only [exRect] at hd <;> interval_cases d <;> rfl
  det := by
    intro el hel
    have hel : el < 2 := hel
    interval_cases el <;> refine ⟨rfl, ?_⟩ <;> simp [exG, desc, exRect]
  recvLen := rfl
  recv := by simp [exRect, rd]
  recvAll := by simp [exG, desc]

/-- Vertices of the triangles. -/
def exRectVes (el d v : Nat) : ℝ := (((([[[0, 3, 0], [0, 0, 4]], [[3, 0, 3], [4, 4, 0]]] : List (List (List ℤ))).getD el []).getD d []).getD v 0 : ℤ)

theorem exRect_det (el : Nat) (h : el < 2) : jDet .tria (exRectVes el) = 12 := by
  rw [jDet, C88_detTria]
  interval_cases el <;> norm_num [Mesh.det2, pt3, exRectVes]

theorem exRect_reg (el : Nat) (h : el < 2) : Regular (1 / 100) .tria (exRectVes el) := by
  interval_cases el <;> norm_num [Regular, Mesh.det2, pt3, exRectVes]

theorem sqrt_eq {a b : ℝ} (hb : 0 ≤ b) (h : a = b * b) : Real.sqrt a = b := by rw [h, Real.sqrt_mul_self hb]

theorem exGeo (p : Bool) (el : Nat) (hel : el < 2) (fa : Nat) (hfa : fa < 3) :
    Step.FaceGeo2 (exRectVes el) fa ((exG p).area ((exG p).own el fa)) (fun d => outN (exG p) el fa d.val) := by
  have s9 : Real.sqrt 9 = 3 := sqrt_eq (by norm_num) (by norm_num)
  have s16 : Real.sqrt 16 = 4 := sqrt_eq (by norm_num) (by norm_num)
  have s25 : Real.sqrt 25 = 5 := sqrt_eq (by norm_num) (by norm_num)
  have hs : ∀ w0 w1 w2 : Nat, ∀ x y : ℝ, Face.side2 (Face.vePt .tria (exRectVes el) w0) (Face.vePt .tria (exRectVes el) w1) ![x, y, 0] =
      -(exRectVes el 1 w1 - exRectVes el 1 w0) * (x - exRectVes el 0 w0) + (exRectVes el 0 w1 - exRectVes el 0 w0) * (y - exRectVes el 1 w0) ∧
      Face.side2 (Face.vePt .tria (exRectVes el) w0) (Face.vePt .tria (exRectVes el) w1) (Face.vePt .tria (exRectVes el) w2) =
      -(exRectVes el 1 w1 - exRectVes el 1 w0) * (exRectVes el 0 w2 - exRectVes el 0 w0) + (exRectVes el 0 w1 - exRectVes el 0 w0) * (exRectVes el 1 w2 - exRectVes el 1 w0) := by
    intro w0 w1 w2 x y
    constructor <;> simp only [Face.side2, Seismic.sprod3, Face.perp, Face.vePt, Ent.nDim, Pi.sub_apply, Matrix.cons_val_zero, Matrix.cons_val_one, Matrix.cons_val] <;> norm_num
  have hlen : ∀ w0 w1 : Nat, Face.lineLen (Face.vePt .tria (exRectVes el) w0) (Face.vePt .tria (exRectVes el) w1) =
      Real.sqrt ((exRectVes el 0 w1 - exRectVes el 0 w0) * (exRectVes el 0 w1 - exRectVes el 0 w0) + (exRectVes el 1 w1 - exRectVes el 1 w0) * (exRectVes el 1 w1 - exRectVes el 1 w0)) := by
    intro w0 w1
    norm_num [Face.lineLen, Face.vePt, Ent.nDim]
  interval_cases el <;> interval_cases fa
  · refine ⟨0, 1, ![0, 4, 0], 1, by decide, .inl ⟨rfl, ?_⟩, ?_, ?_⟩
    · rw [(hs _ _ 0 _ _).1, (hs _ _ _ 0 0).2]
      norm_num [exRectVes, Face.oppVe]
    · rw [hlen]
      norm_num [exRectVes, exG, desc, exRect, s9, s16, s25]
    · funext d
      fin_cases d <;> cases p <;> norm_num [Face.lineNormal, Face.normalize2, Face.vePt, exRectVes, Ent.nDim, outN, side, exG, desc, exRect, s9, s16, s25] <;> rfl
  · refine ⟨1, 2, ![0, 0, 0], 1, by decide, .inl ⟨rfl, ?_⟩, ?_, ?_⟩
    · rw [(hs _ _ 0 _ _).1, (hs _ _ _ 0 0).2]
      norm_num [exRectVes, Face.oppVe]
    · rw [hlen]
      norm_num [exRectVes, exG, desc, exRect, s9, s16, s25]
    · funext d
      fin_cases d <;> cases p <;> norm_num [Face.lineNormal, Face.normalize2, Face.vePt, exRectVes, Ent.nDim, outN, side, exG, desc, exRect, s9, s16, s25] <;> rfl
  · refine ⟨2, 0, ![3, 0, 0], 1, by decide, .inl ⟨rfl, ?_⟩, ?_, ?_⟩
    · rw [(hs _ _ 0 _ _).1, (hs _ _ _ 0 0).2]
      norm_num [exRectVes, Face.oppVe]
    · rw [hlen]
      norm_num [exRectVes, exG, desc, exRect, s9, s16, s25]
    · funext d
      fin_cases d <;> cases p <;> norm_num [Face.lineNormal, Face.normalize2, Face.vePt, exRectVes, Ent.nDim, outN, side, exG, desc, exRect, s9, s16, s25] <;> rfl
  · refine ⟨0, 1, ![3, 0, 0], 1, by decide, .inl ⟨rfl, ?_⟩, ?_, ?_⟩
    · rw [(hs _ _ 0 _ _).1, (hs _ _ _ 0 0).2]
      norm_num [exRectVes, Face.oppVe]
    · rw [hlen]
      norm_num [exRectVes, exG, desc, exRect, s9, s16, s25]
    · funext d
      fin_cases d <;> cases p <;> norm_num [Face.lineNormal, Face.normalize2, Face.vePt, exRectVes, Ent.nDim, outN, side, exG, desc, exRect, s9, s16, s25] <;> rfl
  · refine ⟨1, 2, ![3, 4, 0], 1, by decide, .inl ⟨rfl, ?_⟩, ?_, ?_⟩
    · rw [(hs _ _ 0 _ _).1, (hs _ _ _ 0 0).2]
      norm_num [exRectVes, Face.oppVe]
    · rw [hlen]
      norm_num [exRectVes, exG, desc, exRect, s9, s16, s25]
    · funext d
      fin_cases d <;> cases p <;> norm_num [Face.lineNormal, Face.normalize2, Face.vePt, exRectVes, Ent.nDim, outN, side, exG, desc, exRect, s9, s16, s25] <;> rfl
  · refine ⟨2, 0, ![0, 4, 0], 1, by decide, .inl ⟨rfl, ?_⟩, ?_, ?_⟩
    · rw [(hs _ _ 0 _ _).1, (hs _ _ _ 0 0).2]
      norm_num [exRectVes, Face.oppVe]
    · rw [hlen]
      norm_num [exRectVes, exG, desc, exRect, s9, s16, s25]
    · funext d
      fin_cases d <;> cases p <;> norm_num [Face.lineNormal, Face.normalize2, Face.vePt, exRectVes, Ent.nDim, outN, side, exG, desc, exRect, s9, s16, s25] <;> rfl

/-- Faces: `exF` with periodic, `exO` with outflow boundaries. -/
def exFO (p : Bool) : Nat → Nat → AFace := if p then exF else exO

theorem exSetup (p : Bool) : ∃ els, els.length = 2 ∧ SetupOk exK .tria 2 (1 / 100) els (exRect p) (exG p) exRectVes (exFO p) := by
  obtain ⟨fs, h1, h2⟩ := setup_spec (exRect_valid p)
  obtain ⟨r0, a0, -⟩ := h2 0 (show 0 < 2 by decide)
  obtain ⟨r1, a1, -⟩ := h2 1 (show 1 < 2 by decide)
  have hst : ∀ el < 2, ∃ s, starM2 (1 / 100) (exRectVes el) ((exG p).v el 0) ((exG p).v el 1) = some s := by
    intro el hel
    refine Option.isSome_iff_exists.1 ((C108_star2 (by norm_num) (exRectVes el) ((exG p).v el)).1.2 ?_)
    rw [← Linalg.C52_det2]
    have := exRect_det el hel
    rw [jDet] at this
    rw [this]
    norm_num
  obtain ⟨s0, hs0⟩ := hst 0 (by decide)
  obtain ⟨s1, hs1⟩ := hst 1 (by decide)
  refine ⟨[⟨s0, r0, false, false, [exFO p 0 0, exFO p 0 1, exFO p 0 2]⟩, ⟨s1, r1, false, false, [exFO p 1 0, exFO p 1 1, exFO p 1 2]⟩], rfl, ?_⟩
  exact {
    valid := exRect_valid p
    size := rfl
    dim := rfl
    nfa := rfl
    tet := by simp [exRect]
    ord := rfl
    reg := exRect_reg
    det := by
      intro el hel
      rw [exRect_det el hel]
      have hel : el < 2 := hel
      interval_cases el <;> rfl
    geo2 := fun _ => exGeo p
    geo3 := fun h => by cases h
    star2 := by
      intro _ el E hE
      have hel : el < 2 := (List.getElem?_eq_some_iff.1 hE).1
      interval_cases el <;> cases hE
      · exact hs0
      · exact hs1
    star3 := fun h => by cases h
    fs := ⟨fs, h1, by
      intro el E hE
      have hel : el < 2 := (List.getElem?_eq_some_iff.1 hE).1
      interval_cases el <;> cases hE
      · exact a0
      · exact a1⟩
    faces := by
      intro el E hE fa hfa
      have hel : el < 2 := (List.getElem?_eq_some_iff.1 hE).1
      simp only [exK] at hfa
      interval_cases el <;> cases hE <;> interval_cases fa <;> rfl
    rel := by cases p <;> exact fun _ _ _ _ => rfl
    match_ := by
      intro el hel fa hfa hou
      have hel : el < 2 := hel
      have h0 : ∀ k l, (exFO p k l).ne = 1 - k ∧ (exFO p k l).fId = l ∧ (exFO p k l).vId = some 0 ∧ (exFO p k l).outflow = (exFO p 0 l).outflow := by
        cases p <;> exact fun _ _ => ⟨rfl, rfl, rfl, rfl⟩
      rw [(h0 el fa).1, (h0 el fa).2.1, (h0 el fa).2.2.1, (h0 (1 - el) fa).1, (h0 (1 - el) fa).2.1, (h0 (1 - el) fa).2.2.1]
      refine ⟨by show 1 - el < 2; omega, hfa, ⟨0, by decide, rfl⟩, ?_, by omega, rfl, rfl⟩
      rw [(h0 el fa).2.2.2] at hou
      rw [(h0 (1 - el) fa).2.2.2, hou]
    behind := by
      intro el hel fa hfa hou
      have hel : el < 2 := hel
      simp only [Ent.nFa] at hfa
      cases p <;> interval_cases el <;> interval_cases fa <;> simp [exFO, exF, exO] at hou ⊢ <;>
        refine ⟨?_, ?_, fun d hd => ?_⟩ <;>
        first
          | (simp only [Ent.nDim] at hd; interval_cases d <;> simp [outN, side, exG, desc, exRect])
          | (simp [vNe, exG, desc, exRect])
    outside := by
      intro el hel fa hfa hou
      have hel : el < 2 := hel
      simp only [Ent.nFa] at hfa
      cases p <;> interval_cases el <;> interval_cases fa <;> simp [exFO, exF, exO] at hou <;> simp [vNe, exG, desc, exRect] }

-- the hypotheses of `C110_mass`
example (u : Nat → Nat → Nat → ℝ) (dts : List ℝ) : ∃ els lT lV LN FT st' u', runMesh exK lT lV LN FT exMem els dts (exSt u) = some st' ∧ StateOk exK 2 st' u' ∧
    ∀ r < 2, mass (1 / 100) .tria 2 2 exRectVes u' r = mass (1 / 100) .tria 2 2 exRectVes u r := by
  obtain ⟨lT, lV, LN, FT, h⟩ := exStored (e := .tria) (by decide) 2
  obtain ⟨els, hl, hs⟩ := exSetup true
  have hm := C110_mass (.inl rfl) (by decide) exK_fit h exMem_ok (by norm_num) hs (fun _ _ _ _ => rfl) dts (st := exSt u) (u := u) (by rw [hl]; exact exSt_ok u)
  rw [hl] at hm
  obtain ⟨st', u', h'⟩ := hm
  exact ⟨els, lT, lV, LN, FT, st', u', h'⟩

-- the hypotheses of `C110_exact_partial`: a linear function is exact in the second triangle after one step
example (dt : ℝ) : ∃ (els : List (AEl ℝ)) (lT lV LN FT : List (List ℝ)) (u u' : Nat → Nat → Nat → ℝ) (st' : List (List ℝ × TDofs ℝ)),
    (∀ el < 2, ∀ r x, physEval (1 / 100) .tria 2 (exRectVes el) (fun md => u el md r) x = 5 + 3 * x 0 - 4 * x 1) ∧
    runMesh exK lT lV LN FT exMem els [dt] (exSt u) = some st' ∧ StateOk exK 2 st' u' ∧
    ∀ r < 2, ∀ x, physEval (1 / 100) .tria 2 (exRectVes 1) (fun md => u' 1 md r) x = 5 + 3 * (x 0 - dt * 2) - 4 * (x 1 - dt * 1) := by
  obtain ⟨lT, lV, LN, FT, h⟩ := exStored (e := .tria) (by decide) 2
  obtain ⟨els, hl, hs⟩ := exSetup false
  have hr : ∀ el, Regular (1 / 100) .tria (exRectVes (el % 2)) := fun el => exRect_reg _ (Nat.mod_lt _ (by decide))
  have key : ∀ el, ∃ a : Nat → ℝ, ∀ p, recon .tria 2 a p = Cons.affine 2 5 (fun d => if d = 0 then 3 else -4) (refToPhy .tria (exRectVes (el % 2)) (crd p)) := fun el => by
    obtain ⟨a, ha, -⟩ := Cons.affine_modes (e := .tria) (.inl rfl) (tol := 1 / 100) (by norm_num) (hr el) (by rw [exRect_det _ (Nat.mod_lt _ (by decide))]; norm_num) (o := 2) 5 (fun d => if d = 0 then 3 else -4) (by decide) (fun _ => by decide)
    exact ⟨a, ha⟩
  choose a ha using key
  have hp : ∀ el < 2, ∀ x, physEval (1 / 100) .tria 2 (exRectVes el) (a el) x = 5 + 3 * x 0 - 4 * x 1 := by
    intro el hel x
    have h1 := affine_phys (e := .tria) (by norm_num) (.inl rfl) (hr el) (ha el) x
    rw [Nat.mod_eq_of_lt hel] at h1
    rw [h1]
    simp [Cons.affine, Finset.sum_range_succ, Ent.nDim]
    ring
  have hm := C110_exact_partial (.inl rfl) (by decide) (by decide) exK_fit h exMem_ok (by norm_num) hs (v := (exG false).v 0) (q := fun _ x => 5 + 3 * x 0 - 4 * x 1)
    (fun el hel => by rw [hl] at hel; interval_cases el <;> rfl) (fun r _ el hel fa hfa hou => by
      rw [hl] at hel
      have hfa1 : fa = 1 := by simpa [exFO, exO] using hou
      subst hfa1
      refine ⟨fun _ => 0, fun x => by simp, fun ve hve d hd => ?_⟩
      simp only [Ent.nDim] at hd
      cases hve
      interval_cases el <;> interval_cases d <;> norm_num [Opposite, faCrd, faVeCc, exRectVes, exFO, exO]) [dt] (st := exSt fun el md _ => a el md) (u := fun el md _ => a el md)
    (by rw [hl]; exact exSt_ok _) (fun el hel r _ x => hp el (by rw [← hl]; exact hel) x)
  rw [hl] at hm
  obtain ⟨st', u', h1, h2, h3⟩ := hm
  refine ⟨els, lT, lV, LN, FT, fun el md _ => a el md, u', st', fun el hel _ x => hp el hel x, h1, h2, fun r hr x => ?_⟩
  rw [h3 1 (by decide) ⟨fun fa hfa hou => ?_, trivial, fun _ _ => trivial⟩ r hr x]
  · simp [back, exG, desc, exRect]
  · simp only [Ent.nFa] at hfa
    interval_cases fa <;> norm_num [dot, Finset.sum_range_succ, Ent.nDim, outN, side, exG, desc, exRect]
    simp [exFO, exO] at hou

end Edge.Advection
