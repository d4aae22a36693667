import Verif.Rate.Exact
import Verif.Rate.Cons
import Verif.Rate.Schedule
import Verif.Cons.Example
/-!
C100, C101, C102: meshes and sequences of updates which meet the hypotheses.
-/
namespace Edge.Rate
open Edge Edge.Map Edge.Quad Edge.Basis Edge.Proj Edge.Gen Edge.Flux Edge.Step Edge.Cons Edge.Seismic Matrix

/-- Two elements with a common face `j`, the second one has twice the time step of the first one. -/
def exPair (e : Ent) (j : Nat) (els : List (MEl ℝ)) : List (REl ℝ) := els.mapIdx (fun el E =>
  { E with tg := el, isLt := el == 0, isGt := el == 1, ad := (List.range e.nFa).map (fun fa => if fa = j then ⟨false, el == 0, el == 1⟩ else ⟨true, false, false⟩) })

theorem exPair_some {e : Ent} {j : Nat} {els : List (MEl ℝ)} {el : Nat} {E : REl ℝ} (h : (exPair e j els)[el]? = some E) :
    els[el]? = some E.toMEl ∧ E.tg = el ∧ E.isLt = (el == 0) ∧ E.isGt = (el == 1) ∧ E.ad = (List.range e.nFa).map (fun fa => if fa = j then ⟨false, el == 0, el == 1⟩ else ⟨true, false, false⟩) := by
  rw [exPair, List.getElem?_mapIdx, Option.map_eq_some_iff] at h
  obtain ⟨E', h1, rfl⟩ := h
  exact ⟨h1, rfl, rfl, rfl, rfl⟩

theorem exPair_bits {e : Ent} {j : Nat} {els : List (MEl ℝ)} (h2 : els.length = 2) {F : Nat → Nat → MFace ℝ} (hF : ∀ el fa, (F el fa).freeSurface = (fa != j) ∧ (F el fa).ne = 1 - el) :
    BitsOk e (fun el => el) F (exPair e j els) := by
  intro el E hE
  have hl : el < 2 := by
    have := (List.getElem?_eq_some_iff.1 hE).1
    simp only [exPair, List.length_mapIdx, h2] at this
    exact this
  obtain ⟨-, e2, -, -, e5⟩ := exPair_some hE
  refine ⟨e2, fun fa hfa => ⟨_, by rw [e5, List.getElem?_map, List.getElem?_range hfa]; rfl, fun _ E' hE' => ?_⟩⟩
  obtain ⟨-, -, f3, f4, -⟩ := exPair_some hE'
  rw [f3, f4]
  simp only [MFace.nb, (hF el fa).1, (hF el fa).2]
  by_cases hj : fa = j
  · interval_cases el <;> simp [hj]
  · interval_cases el <;> simp [hj]

/-- Updates between two synchronizations. -/
def exEvs : List Ev := [.loc 0, .loc 1, .nei 0, .loc 0, .nei 0, .nei 1]
/-- The same in another order. -/
def exEvs' : List Ev := [.loc 1, .loc 0, .nei 0, .loc 0, .nei 1, .nei 0]

theorem ordered_of {K : Type} {e : Ent} {tg : Nat → Nat} {F : Nat → Nat → MFace K} {N : Nat} {evs : List Ev} (h : ∀ i (hi : i < evs.length), evs[i].el < N ∧ Allowed e tg F (evs.take i) evs[i]) :
    Ordered e tg F N evs := by
  rintro pre ev post rfl
  have := h pre.length (by simp)
  simpa using this

theorem exEvs_ordered {K : Type} {e : Ent} {j : Nat} {F : Nat → Nat → MFace K} (hF : ∀ el fa, (F el fa).freeSurface = (fa != j) ∧ (F el fa).ne = 1 - el) : Ordered e (fun el => el) F 2 exEvs := by
  refine ordered_of (fun i hi => ?_)
  have hi : i < 6 := hi
  have key : ∀ el fa, (F el fa).nb el = if fa = j then 1 - el else el := by
    intro el fa
    by_cases h : fa = j <;> simp [MFace.nb, hF, h]
  interval_cases i <;> simp only [exEvs, List.getElem_cons_zero, List.getElem_cons_succ, Ev.el, Allowed, key] <;>
    refine ⟨by decide, ?_⟩ <;> first | rfl | (refine ⟨rfl, fun fa _ _ => ?_⟩; by_cases h : fa = j <;> simp [h])

theorem exEvs'_ordered {K : Type} {e : Ent} {j : Nat} {F : Nat → Nat → MFace K} (hF : ∀ el fa, (F el fa).freeSurface = (fa != j) ∧ (F el fa).ne = 1 - el) : Ordered e (fun el => el) F 2 exEvs' := by
  refine ordered_of (fun i hi => ?_)
  have hi : i < 6 := hi
  have key : ∀ el fa, (F el fa).nb el = if fa = j then 1 - el else el := by
    intro el fa
    by_cases h : fa = j <;> simp [MFace.nb, hF, h]
  interval_cases i <;> simp only [exEvs', List.getElem_cons_zero, List.getElem_cons_succ, Ev.el, Allowed, key] <;>
    refine ⟨by decide, ?_⟩ <;> first | rfl | (refine ⟨rfl, fun fa _ _ => ?_⟩; by_cases h : fa = j <;> simp [h])

theorem exEvs_complete : Complete (fun el => el) 2 exEvs 2 := by
  intro el hel
  interval_cases el <;> decide

theorem exEvs'_complete : Complete (fun el => el) 2 exEvs' 2 := by
  intro el hel
  interval_cases el <;> decide

/-- Any modes are those of a state at a synchronization. -/
theorem ready_of (c : Dg.Cfg) (els : List (REl ℝ)) (u : Nat → Modes) : ∃ st, Ready c els st u :=
  ⟨(List.range els.length).map (fun el => ⟨Dg.mk3 c.nQtsE c.nMds c.nCrs (u el), Dg.ckMem0 c, some (List.replicate (c.nQtsE * c.nMds * c.nCrs) 0), some (List.replicate (c.nQtsE * c.nMds * c.nCrs) 0), 0, 0⟩),
    by simp, fun el E hE => ⟨_, by rw [List.getElem?_map, List.getElem?_range (List.getElem?_eq_some_iff.1 hE).1]; rfl, Dg.rep_mk _ _ _ _, Dg.ckMem0_out c,
      fun _ => ⟨_, rfl, List.length_replicate⟩, fun _ => ⟨_, rfl, List.length_replicate⟩⟩⟩

/-- Time steps of the groups which are split in halves. -/
noncomputable def exDt (g _k : Nat) : ℝ := 2 ^ g / 100

theorem exDt_halves (tg : Nat → Nat) (N : Nat) : Halves tg N exDt := fun _ _ g _ k => by
  constructor <;> simp only [exDt, pow_succ] <;> ring

/-- Two tetrahedra of different materials with free surfaces and different time steps. -/
theorem exTets_full : ∃ (ν : Nat → Nat → Fin 3 → ℝ) (F : Nat → Nat → MFace ℝ) (els : List (REl ℝ)) (lT lV LN FT : List (List ℝ)), els.length = 2 ∧
    (∀ el fa, (F el fa).outflow = false ∧ (F el fa).freeSurface = (fa != 3) ∧ (F el fa).ne = 1 - el) ∧ Closed .tet 2 F ∧ Stored exC3 .tet 3 lT lV LN FT ∧ BitsOk .tet (fun el => el) F els ∧
    (∀ el E, els[el]? = some E → SetUp3 (1/100) (1/100) (exTets el) (if el = 0 then exM else exM2) ((fun fa => (fun el => if el = 0 then exM else exM2) (if (fa != 3) = true then el else 1 - el)))
      (ν el) (fun fa => (F el fa).freeSurface) E.starE E.fsL (fun fa => (F el fa).fsE) ∧ FacesOk .tet els.length E.faces (F el) ∧ ∀ fa < 4, Joined .tet exTets el fa (F el fa) (fun _ => 0)) ∧
    (∀ w : Nat → Nat → ℝ → Nat → (Nat → ℝ) → ℝ, (∀ el < 2, ∀ r < exC3.nCrs, Wave3 (if el = 0 then exM else exM2) 3 (w el r)) → ∃ u : Nat → Modes, ∀ el < 2, ∀ r < exC3.nCrs, ∀ q < 9, ∀ x,
      physEval (1/100) .tet 3 (exTets el) (fun md => u el q md r) x = w el r 0 q x) ∧ ∃ els0, els0.length = 2 ∧ els = exPair .tet 3 els0 := by
  have hel : ∀ k : Nat, (if k = 0 then exM else exM2).Elastic := fun k => by split <;> [exact exM_el; exact exM2_el]
  obtain ⟨ν, F, els, lT, lV, LN, FT, h1, -, h3, h4, h5, h6⟩ := C97_full3 (o := 3) (by decide) exC3_fits exC3_fit rfl (N := 2) (tol := 1/100) (tolL := 1/100) (by norm_num) (by norm_num)
    (ves := exTets) (fun el _ => lt_of_lt_of_le (by norm_num) (exTets_det el)) (m := fun el => if el = 0 then exM else exM2)
    (m' := fun el fa => (fun el => if el = 0 then exM else exM2) (if (fa != 3) = true then el else 1 - el))
    (fun el _ => ⟨by split <;> [exact exM_el; exact exM2_el], fun _ _ => hel _⟩)
    (out := fun _ _ => false) (free := fun _ fa => fa != 3) (vId := fun _ _ => some 0) (fId := fun _ _ => 3) (ne := fun el _ => 1 - el)
    (fun el hel _ _ => ⟨by omega, fun ve h => by cases h; exact ⟨by decide, by omega⟩⟩)
    (t := fun _ _ _ => 0) (by
      intro el hel fa hfa h1 h2
      have h2 : (fa != 3) = false := h2
      obtain rfl : fa = 3 := by simpa using h2
      refine ⟨0, rfl, by decide, by show 3 < 4; omega, fun d hd => ?_⟩
      have hd : d < 3 := hd
      interval_cases el <;> interval_cases d <;> simp [Opposite, faCrd, faVeCc, exTets, exTet1])
  have hlen : (exPair .tet 3 els).length = 2 := by rw [exPair, List.length_mapIdx, h1]
  refine ⟨ν, F, exPair .tet 3 els, lT, lV, LN, FT, hlen, fun el fa => ⟨(h3 el fa).1, (h3 el fa).2.1, (h3 el fa).2.2.1⟩, ?_, h4,
    exPair_bits h1 (fun el fa => ⟨(h3 el fa).2.1, (h3 el fa).2.2.1⟩), fun el E hE => ?_, fun w hw => ?_, els, h1, rfl⟩
  · intro el hel fa hfa
    refine ⟨(h3 el fa).1, fun hfr => ?_⟩
    rw [(h3 el fa).2.1] at hfr
    obtain rfl : fa = 3 := by simpa using hfr
    obtain ⟨-, -, a, b, d⟩ := h3 el 3
    rw [a, b, d]
    obtain ⟨-, e, a', b', d'⟩ := h3 (1 - el) 3
    exact ⟨by omega, by decide, by rw [e]; rfl, by rw [a']; omega, d', b'⟩
  · rw [hlen, ← h1]
    exact h5 el _ (exPair_some hE).1
  · obtain ⟨st, u, -, g2⟩ := h6 (R := fun _ => True) (w := w) (fun el hel _ => hw el hel) 0
    exact ⟨u, fun el hel => (g2 el hel).2 trivial⟩

/-- C100_rigid3, C100_momentum3: momentum of any data. -/
example (dt : Nat → Nat → ℝ) (u : Nat → Modes) : ∃ (lT lV LN FT : List (List ℝ)) (els : List (REl ℝ)) (st st' : List (RSt ℝ)) (u' : Nat → Modes), els.length = 2 ∧
    runSync exC3 lT lV LN FT els (List.replicate 54 0) (List.replicate 54 0) [(dt, exEvs), (dt, exEvs')] st = some st' ∧ Ready exC3 els st u ∧ Ready exC3 els st' u' ∧
    ∑ el ∈ Finset.range 2, (2:ℝ) * elInt .tet (exTets el) (physEval (1/100) .tet 3 (exTets el) (fun md => u' el 7 md 0)) =
    ∑ el ∈ Finset.range 2, (2:ℝ) * elInt .tet (exTets el) (physEval (1/100) .tet 3 (exTets el) (fun md => u el 7 md 0)) := by
  obtain ⟨ν, F, els, lT, lV, LN, FT, h1, h2, h3, h4, h5, h6, -⟩ := exTets_full
  obtain ⟨st, hs⟩ := ready_of exC3 els u
  obtain ⟨st', u', k1, k2, k3⟩ := C100_momentum3 (o := 3) (by decide) exC3_fits exC3_fit rfl h4 h6 h5 (by rw [h1]; exact h3) (by
      intro el hel fa hfa
      rw [(h2 el fa).2.1, (h2 el fa).2.2])
    (sc0 := List.replicate 54 0) (sc1 := List.replicate 54 0) (by simp [exC3]) (by simp [exC3]) hs (ivs := [(dt, exEvs), (dt, exEvs')]) (by
      intro iv hiv
      rw [h1]
      simp only [List.mem_cons, List.not_mem_nil, or_false] at hiv
      rcases hiv with rfl | rfl
      · exact ⟨exEvs_ordered (fun el fa => (h2 el fa).2), 2, exEvs_complete⟩
      · exact ⟨exEvs'_ordered (fun el fa => (h2 el fa).2), 2, exEvs'_complete⟩) (j := 1) (by omega)
  rw [h1] at k3
  refine ⟨lT, lV, LN, FT, els, st, st', u', h1, k1, hs, k2, ?_⟩
  have := k3 0 (by decide)
  have hr : ∀ el : Nat, (if el = 0 then exM else exM2).rho = 2 := by intro el; split <;> rfl
  simp only [hr] at this
  exact this

/-- C101_schedule, C101_intervals: both orders of the updates give the same state. -/
example (dt : Nat → Nat → ℝ) (u : Nat → Modes) : ∃ (lT lV LN FT : List (List ℝ)) (els : List (REl ℝ)) (st st' : List (RSt ℝ)), els.length = 2 ∧ Ready exC3 els st u ∧
    runEv exC3 dt lT lV LN FT els (List.replicate 54 0) (List.replicate 54 0) exEvs (sync st) = some st' ∧
    runEv exC3 dt lT lV LN FT els (List.replicate 54 0) (List.replicate 54 0) exEvs' (sync st) = some st' := by
  obtain ⟨ν, F, els, lT, lV, LN, FT, h1, h2, h3, h4, h5, h6, -⟩ := exTets_full
  obtain ⟨st, hs⟩ := ready_of exC3 els u
  have hmat : ∀ el < els.length, ∀ fa < 4, (fun fa => (fun el => if el = 0 then exM else exM2) (if (fa != 3) = true then el else 1 - el)) fa =
      (fun el => if el = 0 then exM else exM2) (if (F el fa).freeSurface then el else (F el fa).ne) := by
    intro el hel fa hfa
    rw [(h2 el fa).2.1, (h2 el fa).2.2]
  have o1 : Ordered .tet (fun el => el) F els.length exEvs := by rw [h1]; exact exEvs_ordered (fun el fa => (h2 el fa).2)
  have o2 : Ordered .tet (fun el => el) F els.length exEvs' := by rw [h1]; exact exEvs'_ordered (fun el fa => (h2 el fa).2)
  have hrun : ∀ evs, Ordered .tet (fun el => el) F els.length evs → Complete (fun el => el) els.length evs 2 →
      ∃ st', runEv exC3 dt lT lV LN FT els (List.replicate 54 0) (List.replicate 54 0) evs (sync st) = some st' := by
    intro evs h h'
    obtain ⟨st', u', k1, -⟩ := C100_momentum3 (o := 3) (by decide) exC3_fits exC3_fit rfl h4 h6 h5 (by rw [h1]; exact h3) hmat
      (sc0 := List.replicate 54 0) (sc1 := List.replicate 54 0) (by simp [exC3]) (by simp [exC3]) hs (ivs := [(dt, evs)]) (by
        intro iv hiv
        rw [List.mem_singleton.1 hiv]
        exact ⟨h, 2, h'⟩) (j := 1) (by omega)
    refine ⟨st', ?_⟩
    simpa [runSync] using k1
  obtain ⟨a, ha⟩ := hrun exEvs o1 (by rw [h1]; exact exEvs_complete)
  obtain ⟨b, hb⟩ := hrun exEvs' o2 (by rw [h1]; exact exEvs'_complete)
  have hm : Meets .tet (fun el => el) F els := fun el E hE => by
    obtain ⟨-, f, -⟩ := h6 el E hE
    refine ⟨f.1, fun fa hfa => ⟨(f.2 fa hfa).1, fun hout => ?_⟩⟩
    obtain ⟨-, b⟩ := h5 el E hE
    obtain ⟨_, -, b⟩ := b fa hfa
    have hl : (F el fa).nb el < els.length := by
      have := (List.getElem?_eq_some_iff.1 hE).1
      rw [MFace.nb, (h2 el fa).2.2]
      split <;> omega
    exact (b hout _ (List.getElem?_eq_getElem hl)).2.2.1
  have hab := C101_schedule hm hs.1 o1 o2 (by rw [h1]; exact exEvs_complete) (by rw [h1]; exact exEvs'_complete) ha hb
  exact ⟨lT, lV, LN, FT, els, st, a, h1, hs, ha, hab ▸ hb⟩

/-- C102_region3, C102_mesh3: two tetrahedra rotate. -/
example : ∃ (lT lV LN FT : List (List ℝ)) (els : List (REl ℝ)) (st st' : List (RSt ℝ)) (u' : Nat → Modes), els.length = 2 ∧
    runSync exC3 lT lV LN FT els (List.replicate 54 0) (List.replicate 54 0) [(exDt, exEvs), (exDt, exEvs')] st = some st' ∧ Ready exC3 els st' u' ∧
    ∀ el < 2, ∀ x, physEval (1/100) .tet 3 (exTets el) (fun md => u' el 6 md 0) x = -x 1 := by
  obtain ⟨ν, F, els, lT, lV, LN, FT, h1, h2, h3, h4, h5, h6, h7, -⟩ := exTets_full
  obtain ⟨u, hu⟩ := h7 (fun _ _ => exRot 6) (fun _ _ _ _ => exRot3 _)
  obtain ⟨st, hs⟩ := ready_of exC3 els u
  obtain ⟨st', u', k1, k2, k3⟩ := C102_mesh3 (o := 3) (by decide) exC3_fits exC3_fit rfl h4 h6 h5 (w := fun _ _ => exRot 6) (fun _ _ _ _ => exRot3 _) (by
      intro el hel fa hfa r hr τ x y
      rw [Quiet, (h2 el fa).1, (h2 el fa).2.1]
      simp only [Bool.false_eq_true, if_false]
      split
      · exact stress3_zero (fun i => by fin_cases i <;> simp [at_, exRot]) _
      · simp)
    (sc0 := List.replicate 54 0) (sc1 := List.replicate 54 0) (by simp [exC3]) (by simp [exC3]) hs (s := 0) (by rw [h1]; exact hu) (ivs := [(exDt, exEvs), (exDt, exEvs')]) (M := fun _ => 2) (by
      intro iv hiv
      rw [h1]
      simp only [List.mem_cons, List.not_mem_nil, or_false] at hiv
      rcases hiv with rfl | rfl
      · exact ⟨exDt_halves _ _, exEvs_ordered (fun el fa => (h2 el fa).2), exEvs_complete⟩
      · exact ⟨exDt_halves _ _, exEvs'_ordered (fun el fa => (h2 el fa).2), exEvs'_complete⟩)
  rw [h1] at k3
  exact ⟨lT, lV, LN, FT, els, st, st', u', h1, k1, k2, fun el hel x => (k3 el hel 0 (by decide) 6 (by omega) x).trans (by simp [exRot])⟩

/-- Two triangles of different materials with free surfaces and different time steps. -/
theorem exSq_full : ∃ (ν : Nat → Nat → Fin 2 → ℝ) (F : Nat → Nat → MFace ℝ) (els : List (REl ℝ)) (lT lV LN FT : List (List ℝ)), els.length = 2 ∧
    (∀ el fa, (F el fa).outflow = false ∧ (F el fa).freeSurface = (fa != 1) ∧ (F el fa).ne = 1 - el) ∧ Closed .tria 2 F ∧ Stored exC2 .tria 4 lT lV LN FT ∧ BitsOk .tria (fun el => el) F els ∧
    (∀ el E, els[el]? = some E → SetUp2 (1/100) (1/100) (exSq el) (if el = 0 then exM else exM2) ((fun fa => (fun el => if el = 0 then exM else exM2) (if (fa != 1) = true then el else 1 - el)))
      (ν el) (fun fa => (F el fa).freeSurface) E.starE E.fsL (fun fa => (F el fa).fsE) ∧ FacesOk .tria els.length E.faces (F el) ∧ ∀ fa < 3, Joined .tria exSq el fa (F el fa) (fun _ => 0)) ∧
    (∀ w : Nat → Nat → ℝ → Nat → (Nat → ℝ) → ℝ, (∀ el < 2, ∀ r < exC2.nCrs, Wave2 (if el = 0 then exM else exM2) 4 (w el r)) → ∃ u : Nat → Modes, ∀ el < 2, ∀ r < exC2.nCrs, ∀ q < 5, ∀ x,
      physEval (1/100) .tria 4 (exSq el) (fun md => u el q md r) x = w el r 0 q x) ∧ ∃ els0, els0.length = 2 ∧ els = exPair .tria 1 els0 := by
  have hel : ∀ k : Nat, (if k = 0 then exM else exM2).Elastic := fun k => by split <;> [exact exM_el; exact exM2_el]
  obtain ⟨ν, F, els, lT, lV, LN, FT, h1, -, h3, h4, h5, h6⟩ := C97_full2 (o := 4) (by decide) exC2_fits exC2_fit rfl (N := 2) (tol := 1/100) (tolL := 1/100) (by norm_num) (by norm_num)
    (ves := exSq) (fun el _ => by rw [exSq_det]; norm_num) (m := fun el => if el = 0 then exM else exM2)
    (m' := fun el fa => (fun el => if el = 0 then exM else exM2) (if (fa != 1) = true then el else 1 - el))
    (fun el _ => ⟨by split <;> [exact exM_el; exact exM2_el], fun _ _ => hel _⟩)
    (out := fun _ _ => false) (free := fun _ fa => fa != 1) (vId := fun _ _ => some 0) (fId := fun _ _ => 1) (ne := fun el _ => 1 - el)
    (fun el hel _ _ => ⟨by omega, fun ve h => by cases h; exact ⟨by decide, by omega⟩⟩)
    (t := fun _ _ _ => 0) (by
      intro el hel fa hfa h1 h2
      have h2 : (fa != 1) = false := h2
      obtain rfl : fa = 1 := by simpa using h2
      refine ⟨0, rfl, by decide, by show 1 < 3; omega, fun d hd => ?_⟩
      have hd : d < 2 := hd
      interval_cases el <;> interval_cases d <;> simp [Opposite, faCrd, faVeCc, exSq])
  have hlen : (exPair .tria 1 els).length = 2 := by rw [exPair, List.length_mapIdx, h1]
  refine ⟨ν, F, exPair .tria 1 els, lT, lV, LN, FT, hlen, fun el fa => ⟨(h3 el fa).1, (h3 el fa).2.1, (h3 el fa).2.2.1⟩, ?_, h4,
    exPair_bits h1 (fun el fa => ⟨(h3 el fa).2.1, (h3 el fa).2.2.1⟩), fun el E hE => ?_, fun w hw => ?_, els, h1, rfl⟩
  · intro el hel fa hfa
    refine ⟨(h3 el fa).1, fun hfr => ?_⟩
    rw [(h3 el fa).2.1] at hfr
    obtain rfl : fa = 1 := by simpa using hfr
    obtain ⟨-, -, a, b, d⟩ := h3 el 1
    rw [a, b, d]
    obtain ⟨-, e, a', b', d'⟩ := h3 (1 - el) 1
    exact ⟨by omega, by decide, by rw [e]; rfl, by rw [a']; omega, d', b'⟩
  · rw [hlen, ← h1]
    exact h5 el _ (exPair_some hE).1
  · obtain ⟨st, u, -, g2⟩ := h6 (R := fun _ => True) (w := w) (fun el hel _ => hw el hel) 0
    exact ⟨u, fun el hel => (g2 el hel).2 trivial⟩

/-- C100_rigid2, C100_momentum2: momentum of any data. -/
example (dt : Nat → Nat → ℝ) (u : Nat → Modes) : ∃ (lT lV LN FT : List (List ℝ)) (els : List (REl ℝ)) (st st' : List (RSt ℝ)) (u' : Nat → Modes), els.length = 2 ∧
    runSync exC2 lT lV LN FT els (List.replicate 40 0) (List.replicate 40 0) [(dt, exEvs), (dt, exEvs')] st = some st' ∧ Ready exC2 els st u ∧ Ready exC2 els st' u' ∧
    ∑ el ∈ Finset.range 2, (2:ℝ) * elInt .tria (exSq el) (physEval (1/100) .tria 4 (exSq el) (fun md => u' el 4 md 1)) =
    ∑ el ∈ Finset.range 2, (2:ℝ) * elInt .tria (exSq el) (physEval (1/100) .tria 4 (exSq el) (fun md => u el 4 md 1)) := by
  obtain ⟨ν, F, els, lT, lV, LN, FT, h1, h2, h3, h4, h5, h6, -⟩ := exSq_full
  obtain ⟨st, hs⟩ := ready_of exC2 els u
  obtain ⟨st', u', k1, k2, k3⟩ := C100_momentum2 (o := 4) (by decide) exC2_fits exC2_fit rfl h4 h6 h5 (by rw [h1]; exact h3) (by
      intro el hel fa hfa
      rw [(h2 el fa).2.1, (h2 el fa).2.2])
    (sc0 := List.replicate 40 0) (sc1 := List.replicate 40 0) (by simp [exC2]) (by simp [exC2]) hs (ivs := [(dt, exEvs), (dt, exEvs')]) (by
      intro iv hiv
      rw [h1]
      simp only [List.mem_cons, List.not_mem_nil, or_false] at hiv
      rcases hiv with rfl | rfl
      · exact ⟨exEvs_ordered (fun el fa => (h2 el fa).2), 2, exEvs_complete⟩
      · exact ⟨exEvs'_ordered (fun el fa => (h2 el fa).2), 2, exEvs'_complete⟩) (j := 1) (by omega)
  rw [h1] at k3
  refine ⟨lT, lV, LN, FT, els, st, st', u', h1, k1, hs, k2, ?_⟩
  have := k3 1 (by decide)
  have hr : ∀ el : Nat, (if el = 0 then exM else exM2).rho = 2 := by intro el; split <;> rfl
  simp only [hr] at this
  exact this

/-- C102_region2, C102_mesh2: two triangles rotate. -/
example : ∃ (lT lV LN FT : List (List ℝ)) (els : List (REl ℝ)) (st st' : List (RSt ℝ)) (u' : Nat → Modes), els.length = 2 ∧
    runSync exC2 lT lV LN FT els (List.replicate 40 0) (List.replicate 40 0) [(exDt, exEvs), (exDt, exEvs')] st = some st' ∧ Ready exC2 els st' u' ∧
    ∀ el < 2, ∀ x, physEval (1/100) .tria 4 (exSq el) (fun md => u' el 3 md 1) x = -x 1 := by
  obtain ⟨ν, F, els, lT, lV, LN, FT, h1, h2, h3, h4, h5, h6, h7, -⟩ := exSq_full
  obtain ⟨u, hu⟩ := h7 (fun _ _ => exRot 3) (fun _ _ _ _ => exRot2 _)
  obtain ⟨st, hs⟩ := ready_of exC2 els u
  obtain ⟨st', u', k1, k2, k3⟩ := C102_mesh2 (o := 4) (by decide) exC2_fits exC2_fit rfl h4 h6 h5 (w := fun _ _ => exRot 3) (fun _ _ _ _ => exRot2 _) (by
      intro el hel fa hfa r hr τ x y
      rw [Quiet, (h2 el fa).1, (h2 el fa).2.1]
      simp only [Bool.false_eq_true, if_false]
      split
      · exact stress2_zero (by simp [at_, exRot]) (by simp [at_, exRot]) (by simp [at_, exRot]) _
      · simp)
    (sc0 := List.replicate 40 0) (sc1 := List.replicate 40 0) (by simp [exC2]) (by simp [exC2]) hs (s := 0) (by rw [h1]; exact hu) (ivs := [(exDt, exEvs), (exDt, exEvs')]) (M := fun _ => 2) (by
      intro iv hiv
      rw [h1]
      simp only [List.mem_cons, List.not_mem_nil, or_false] at hiv
      rcases hiv with rfl | rfl
      · exact ⟨exDt_halves _ _, exEvs_ordered (fun el fa => (h2 el fa).2), exEvs_complete⟩
      · exact ⟨exDt_halves _ _, exEvs'_ordered (fun el fa => (h2 el fa).2), exEvs'_complete⟩)
  rw [h1] at k3
  exact ⟨lT, lV, LN, FT, els, st, st', u', h1, k1, k2, fun el hel x => (k3 el hel 1 (by decide) 3 (by omega) x).trans (by simp [exRot])⟩

end Edge.Rate
