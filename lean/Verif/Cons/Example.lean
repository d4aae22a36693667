import Verif.Cons.Props
import Verif.Step.Example
/-!
C98: meshes which meet the hypotheses.
-/
namespace Edge.Cons
open Edge Edge.Map Edge.Quad Edge.Basis Edge.Proj Edge.Gen Edge.Flux Edge.Step Edge.Seismic Matrix

/-- Any modes are those of a state of the memory. -/
theorem state_of (c : Dg.Cfg) (N : Nat) (u : Nat → Nat → Nat → Nat → ℝ) : ∃ st : List (List ℝ × Dg.CkMem ℝ), st.length = N ∧ ∀ el < N, HasDofs c st el (u el) :=
  ⟨(List.range N).map (fun el => (Dg.mk3 c.nQtsE c.nMds c.nCrs (u el), Dg.ckMem0 c)), by simp, fun el hel =>
    ⟨_, _, by rw [List.getElem?_map, List.getElem?_range hel]; rfl, Dg.rep_mk _ _ _ _, Dg.ckMem0_out c⟩⟩

/-- Two tetrahedra with a common face. -/
def exTets (el d v : Nat) : ℝ := if el = 0 then exTet1 d v else ([1, 1, 1, 1, 0, 0, 0, 0, 1, 0, 1, 0].getD (v * 3 + d) 0 : ℕ)

theorem exTets_det (el : Nat) : 1 ≤ jDet .tet (exTets el) := by
  by_cases h : el = 0
  · have : exTets el = exTet1 := by funext d v; simp [exTets, h]
    rw [this, exTet1_det]
  · rw [jDet, C88_detTet]
    simp [Mesh.det3, pt3, exTets, h]

/-- C98_rigid3, C98_momentum3, C98_angular3: two tetrahedra of different materials with free surfaces; the angular momentum of any data around the third axis. -/
example (dts : List ℝ) (u : Nat → Nat → Nat → Nat → ℝ) : ∃ (lT lV LN FT : List (List ℝ)) (els : List (MEl ℝ)) (st st' : List (List ℝ × Dg.CkMem ℝ)) (u' : Nat → Nat → Nat → Nat → ℝ),
    els.length = 2 ∧ runMesh exC3 lT lV LN FT els (List.replicate 54 0) (List.replicate 54 0) dts st = some st' ∧ (∀ el < 2, HasDofs exC3 st el (u el)) ∧ (∀ el < 2, HasDofs exC3 st' el (u' el)) ∧
    ∑ el ∈ Finset.range 2, (2:ℝ) * elInt .tet (exTets el) (fun x => x 0 * physEval (1/100) .tet 3 (exTets el) (fun md => u' el 7 md 0) x - x 1 * physEval (1/100) .tet 3 (exTets el) (fun md => u' el 6 md 0) x) =
    ∑ el ∈ Finset.range 2, (2:ℝ) * elInt .tet (exTets el) (fun x => x 0 * physEval (1/100) .tet 3 (exTets el) (fun md => u el 7 md 0) x - x 1 * physEval (1/100) .tet 3 (exTets el) (fun md => u el 6 md 0) x) := by
  have hel : ∀ k : Nat, (if k = 0 then exM else exM2).Elastic := fun k => by split <;> [exact exM_el; exact exM2_el]
  obtain ⟨ν, F, els, lT, lV, LN, FT, h1, -, h3, h4, h5, -⟩ := C97_full3 (o := 3) (by decide) exC3_fits exC3_fit rfl (N := 2) (tol := 1/100) (tolL := 1/100) (by norm_num) (by norm_num)
    (ves := exTets) (fun el _ => lt_of_lt_of_le (by norm_num) (exTets_det el)) (m := fun el => if el = 0 then exM else exM2)
    (m' := fun el fa => (fun el => if el = 0 then exM else exM2) (if (fa != 3) = true then el else 1 - el))
    (fun el _ => ⟨by split <;> [exact exM_el; exact exM2_el], fun _ _ => hel _⟩)
    (out := fun _ _ => false) (free := fun _ fa => fa != 3) (vId := fun _ _ => some 0) (fId := fun _ _ => 3) (ne := fun el _ => 1 - el)
    (fun el hel _ _ => ⟨by omega, fun ve h => by cases h; exact ⟨by decide, by omega⟩⟩)
    (t := fun _ _ _ => 0) (by
      intro el hel fa hfa h1 h2
      have h2 : (fa != 3) = false := h2
      obtain rfl : fa = 3 := by simpa using h2
      refine ⟨0, rfl, by decide, by show 3 < 4; omega, fun d hd => ?_⟩
      have hd : d < 3 := hd
      interval_cases el <;> interval_cases d <;> simp [Opposite, faCrd, faVeCc, exTets, exTet1])
  obtain ⟨st, s1, s2⟩ := state_of exC3 2 u
  obtain ⟨st', u', k1, k2, k3, k4⟩ := C98_angular3 (o := 3) (by decide) exC3_fits exC3_fit rfl h4 h5 (by
      rw [h1]
      intro el hel fa hfa
      refine ⟨(h3 el fa).1, fun hfr => ?_⟩
      rw [(h3 el fa).2.1] at hfr
      obtain rfl : fa = 3 := by simpa using hfr
      obtain ⟨-, -, a, b, d⟩ := h3 el 3
      rw [a, b, d]
      obtain ⟨-, e, a', b', d'⟩ := h3 (1 - el) 3
      exact ⟨by omega, by decide, by rw [e]; rfl, by rw [a']; omega, d', b'⟩)
    (by
      intro el hel fa hfa
      rw [(h3 el fa).2.1, (h3 el fa).2.2.1])
    (sc0 := List.replicate 54 0) (sc1 := List.replicate 54 0) (by simp [exC3]) (by simp [exC3]) (s1.trans h1.symm) (u := u) (by rw [h1]; exact s2) dts (i := 0) (j := 1) (by omega) (by omega)
  rw [h1] at k3 k4
  refine ⟨lT, lV, LN, FT, els, st, st', u', h1, k1, s2, k3, ?_⟩
  have := k4 0 (by decide)
  have hr : ∀ el : Nat, (if el = 0 then exM else exM2).rho = 2 := by intro el; split <;> rfl
  simp only [hr] at this
  exact this

/-- C98_rigid2, C98_momentum2: the momentum of any data on a mesh of triangles with periodic boundaries. -/
example (dts : List ℝ) (u : Nat → Nat → Nat → Nat → ℝ) : ∃ (lT lV LN FT : List (List ℝ)) (els : List (MEl ℝ)) (st st' : List (List ℝ × Dg.CkMem ℝ)) (u' : Nat → Nat → Nat → Nat → ℝ),
    els.length = 8 ∧ runMesh exC2 lT lV LN FT els (List.replicate 40 0) (List.replicate 40 0) dts st = some st' ∧ (∀ el < 8, HasDofs exC2 st el (u el)) ∧ (∀ el < 8, HasDofs exC2 st' el (u' el)) ∧
    ∑ el ∈ Finset.range 8, (2:ℝ) * elInt .tria (exTor el) (physEval (1/100) .tria 4 (exTor el) (fun md => u' el 4 md 1)) =
    ∑ el ∈ Finset.range 8, (2:ℝ) * elInt .tria (exTor el) (physEval (1/100) .tria 4 (exTor el) (fun md => u el 4 md 1)) := by
  obtain ⟨ν, F, els, lT, lV, LN, FT, h1, -, h3, h4, h5, -⟩ := C97_full2 (o := 4) (by decide) exC2_fits exC2_fit rfl (N := 8) (tol := 1/100) (tolL := 1/100) (by norm_num) (by norm_num)
    (ves := exTor) (fun el _ => by rw [exTor_det]; norm_num) (m := fun _ => exM2) (m' := fun _ _ => exM2) (fun el _ => ⟨exM2_el, fun _ _ => exM2_el⟩)
    (out := fun _ _ => false) (free := fun _ _ => false) (vId := fun _ _ => some 0) (fId := fun _ fa => fa) (ne := exNe)
    (fun el hel fa hfa => ⟨by interval_cases el <;> interval_cases fa <;> decide, fun ve h => by cases h; exact ⟨by decide, hfa⟩⟩)
    (t := exShift) (by
      intro el hel fa hfa _ _
      refine ⟨0, rfl, by decide, hfa, fun d hd => ?_⟩
      have hd : d < 2 := hd
      interval_cases el <;> interval_cases fa <;> interval_cases d <;> simp [Opposite, faCrd, faVeCc, exTor, exSq, exNe, exShift] <;> norm_num)
  obtain ⟨st, s1, s2⟩ := state_of exC2 8 u
  obtain ⟨st', u', k1, k2, k3, k4⟩ := C98_momentum2 (o := 4) (by decide) exC2_fits exC2_fit rfl h4 h5 (by
      rw [h1]
      intro el hel fa hfa
      have hfa : fa < 3 := hfa
      refine ⟨(h3 el fa).1, fun _ => ?_⟩
      obtain ⟨-, -, a, b, d⟩ := h3 el fa
      rw [a, b, d]
      obtain ⟨-, e, a', b', d'⟩ := h3 (exNe el fa) fa
      exact ⟨by interval_cases el <;> interval_cases fa <;> decide, hfa, e, by rw [a']; interval_cases el <;> interval_cases fa <;> rfl, d', b'⟩)
    (fun _ _ _ _ => rfl)
    (sc0 := List.replicate 40 0) (sc1 := List.replicate 40 0) (by simp [exC2]) (by simp [exC2]) (s1.trans h1.symm) (u := u) (by rw [h1]; exact s2) dts (j := 1) (by omega)
  rw [h1] at k3 k4
  exact ⟨lT, lV, LN, FT, els, st, st', u', h1, k1, s2, k3, k4 1 (by decide)⟩

/-- C98_angular2: two triangles of different materials with free surfaces. -/
example (dts : List ℝ) (u : Nat → Nat → Nat → Nat → ℝ) : ∃ (lT lV LN FT : List (List ℝ)) (els : List (MEl ℝ)) (st st' : List (List ℝ × Dg.CkMem ℝ)) (u' : Nat → Nat → Nat → Nat → ℝ),
    els.length = 2 ∧ runMesh exC2 lT lV LN FT els (List.replicate 40 0) (List.replicate 40 0) dts st = some st' ∧ (∀ el < 2, HasDofs exC2 st el (u el)) ∧ (∀ el < 2, HasDofs exC2 st' el (u' el)) ∧
    ∑ el ∈ Finset.range 2, (2:ℝ) * elInt .tria (exSq el) (fun x => x 0 * physEval (1/100) .tria 4 (exSq el) (fun md => u' el 4 md 0) x - x 1 * physEval (1/100) .tria 4 (exSq el) (fun md => u' el 3 md 0) x) =
    ∑ el ∈ Finset.range 2, (2:ℝ) * elInt .tria (exSq el) (fun x => x 0 * physEval (1/100) .tria 4 (exSq el) (fun md => u el 4 md 0) x - x 1 * physEval (1/100) .tria 4 (exSq el) (fun md => u el 3 md 0) x) := by
  have hel : ∀ k : Nat, (if k = 0 then exM else exM2).Elastic := fun k => by split <;> [exact exM_el; exact exM2_el]
  obtain ⟨ν, F, els, lT, lV, LN, FT, h1, -, h3, h4, h5, -⟩ := C97_full2 (o := 4) (by decide) exC2_fits exC2_fit rfl (N := 2) (tol := 1/100) (tolL := 1/100) (by norm_num) (by norm_num)
    (ves := exSq) (fun el _ => by rw [exSq_det]; norm_num) (m := fun el => if el = 0 then exM else exM2)
    (m' := fun el fa => (fun el => if el = 0 then exM else exM2) (if (fa != 1) = true then el else 1 - el))
    (fun el _ => ⟨by split <;> [exact exM_el; exact exM2_el], fun _ _ => hel _⟩)
    (out := fun _ _ => false) (free := fun _ fa => fa != 1) (vId := fun _ _ => some 0) (fId := fun _ _ => 1) (ne := fun el _ => 1 - el)
    (fun el hel _ _ => ⟨by omega, fun ve h => by cases h; exact ⟨by decide, by omega⟩⟩)
    (t := fun _ _ _ => 0) (by
      intro el hel fa hfa h1 h2
      have h2 : (fa != 1) = false := h2
      obtain rfl : fa = 1 := by simpa using h2
      refine ⟨0, rfl, by decide, by show 1 < 3; omega, fun d hd => ?_⟩
      have hd : d < 2 := hd
      interval_cases el <;> interval_cases d <;> simp [Opposite, faCrd, faVeCc, exSq])
  obtain ⟨st, s1, s2⟩ := state_of exC2 2 u
  obtain ⟨st', u', k1, k2, k3, k4⟩ := C98_angular2 (o := 4) (by decide) exC2_fits exC2_fit rfl h4 h5 (by
      rw [h1]
      intro el hel fa hfa
      refine ⟨(h3 el fa).1, fun hfr => ?_⟩
      rw [(h3 el fa).2.1] at hfr
      obtain rfl : fa = 1 := by simpa using hfr
      obtain ⟨-, -, a, b, d⟩ := h3 el 1
      rw [a, b, d]
      obtain ⟨-, e, a', b', d'⟩ := h3 (1 - el) 1
      exact ⟨by omega, by decide, by rw [e]; rfl, by rw [a']; omega, d', b'⟩)
    (by
      intro el hel fa hfa
      rw [(h3 el fa).2.1, (h3 el fa).2.2.1])
    (sc0 := List.replicate 40 0) (sc1 := List.replicate 40 0) (by simp [exC2]) (by simp [exC2]) (s1.trans h1.symm) (u := u) (by rw [h1]; exact s2) dts (i := 0) (j := 1) (by omega) (by omega)
  rw [h1] at k3 k4
  refine ⟨lT, lV, LN, FT, els, st, st', u', h1, k1, s2, k3, ?_⟩
  have := k4 0 (by decide)
  have hr : ∀ el : Nat, (if el = 0 then exM else exM2).rho = 2 := by intro el; split <;> rfl
  simp only [hr] at this
  exact this

end Edge.Cons
