import Verif.Work.Results
import Verif.Work.Example
import Verif.Rate.Example
/-!
C104: a simulation which meets the hypotheses.
-/
namespace Edge.Work
open Edge Edge.Map Edge.Quad Edge.Basis Edge.Proj Edge.Gen Edge.Flux Edge.Step Edge.Cons Edge.Seismic Edge.Rate Edge.Lts Matrix

/-- Two elements in two time groups. -/
def exL : Layout := ⟨[(1, 0), (1, 0)], [(0, 0), (0, 0)]⟩

theorem exL_ok : exL.Ok 2 (fun el => el) := by
  refine ⟨by decide, by decide, rfl, rfl, fun el hel => ?_⟩
  have : el = 0 ∨ el = 1 := by omega
  rcases this with rfl | rfl <;> simp [InTg, Layout.nIn, Layout.nSe, exL]

/-- Three threads, one of them schedules. -/
def exSh2 : Option Shared.Sh := do regAll Shared.demoA (setupRegs 1 [0, 0] exL.inn exL.snd) (← Shared.init true 3)

theorem exSh2_some : exSh2.isSome = true := by decide +kernel

def exS2 : Shared.Sh := exSh2.get exSh2_some

/-- An interval. -/
def exItv : Itv := ⟨fun g => Time.Group.mk' 1 2 g, exS2, exP, 1 / 8, 1 / 5, exRun (shareOf exS2) ((List.range 11).flatMap (fun _ => exRound))⟩

theorem exItv_out : exItv.x.out = [.loc 0, .loc 1, .nei 0, .loc 0, .nei 1, .nei 0] := by decide +kernel

theorem exItv_wrk : exP.nWrk = exS2.nWrks := by decide +kernel

theorem exItv_done : exItv.x.s.finished = true := by decide +kernel

attribute [local irreducible] exRun in
theorem exItv_reach : WReach exItv.p (shareOf exItv.sh) exItv.x := by
  unfold exItv
  exact exRun_reach _ _

theorem exItv_ok : exItv.Ok exL := by
  refine ⟨by norm_num [exItv], by norm_num [exItv], ⟨1, fun g hg => ⟨0, .init⟩⟩, fun g hg => ?_, ?_, rfl, exItv_wrk, exP_wf.order, exItv_reach, exItv_done⟩
  · obtain ⟨n, g', -, h, -⟩ := Time.C01_interval_covered (big := 1) (nTgs := 2) (tg := g) hg (by decide) .init (1 / 8) (1 / 5) (by norm_num) (by norm_num)
    have hn : exP.N g = n := by
      have x := h.2.1
      rw [h.1] at x
      simp only [Time.Group.finished, Time.after_nTsSync, Time.setUp_nTsSync, Time.after_nTsReqFull, Time.after_maxDiv, Time.setUp_maxDiv, beq_iff_eq, Nat.zero_add] at x
      have hg : g < 2 := hg
      have : g = 0 ∨ g = 1 := by omega
      rw [x, Time.setUp_nTsReqFull]
      rcases this with rfl | rfl <;> norm_num [Time.Group.mk', Time.doubleShort, exP]
    exact ⟨g', hn ▸ h⟩
  · have h : exSh2 = some exS2 := (Option.some_get _).symm
    simp only [exSh2, Option.bind_eq_bind, Option.bind_eq_some_iff] at h
    obtain ⟨s0, h0, h1⟩ := h
    obtain ⟨st, hr⟩ := reach_regs h0 (by unfold Shared.Reg.Wf; decide) (by decide) h1
    exact ⟨_, _, _, _, _, st, by decide +kernel, hr⟩

/-- Adjacency of two elements with common face `j`. -/
def exAd (n j : Nat) : List (Option Nat) := (List.range (2 * n)).map (fun i => if i % n = j then some (1 - i / n) else none)

/-- Types of the elements. -/
def exSp (e : Ent) (j : Nat) : Option (List Word) := setLtsTypes 2 e.nFa exL.nTgs (exAd e.nFa j) exL.nIn exL.nSe none [0#64, 0#64]

theorem exTyped {e : Ent} {j : Nat} (he : e = .tet ∧ j = 3 ∨ e = .tria ∧ j = 1) {els0 : List (MEl ℝ)} (h0 : els0.length = 2) {F : Nat → Nat → MFace ℝ}
    (hF : ∀ el fa, (F el fa).outflow = false ∧ (F el fa).freeSurface = (fa != j) ∧ (F el fa).ne = 1 - el) : Typed e exL (Rate.exPair e j els0) (fun el => el) F := by
  have hl : (Rate.exPair e j els0).length = 2 := by rw [Rate.exPair, List.length_mapIdx, h0]
  have hs : (exSp e j).isSome = true := by rcases he with ⟨rfl, rfl⟩ | ⟨rfl, rfl⟩ <;> decide +kernel
  obtain ⟨out, ho⟩ := Option.isSome_iff_exists.1 hs
  refine ⟨by rw [hl]; exact exL_ok, fun el E hE => (exPair_some hE).2.1, exAd e.nFa j, [0#64, 0#64], out, ⟨?_, ?_⟩, by rw [hl]; rfl, by simp, by rw [hl]; exact ho, ?_⟩
  · rw [hl]
    intro el hel fa hfa _
    rw [(hF el fa).2.1, (hF el fa).2.2]
    have : ∀ el < 2, ∀ fa < e.nFa, (exAd e.nFa j)[el * e.nFa + fa]? = some (if (fa != j) = true then none else some (1 - el)) := by
      rcases he with ⟨rfl, rfl⟩ | ⟨rfl, rfl⟩ <;> decide
    exact this el hel fa hfa
  · rw [hl]
    intro el hel fa hfa _ _
    rw [(hF el fa).2.2]
    have : ∀ el < 2, j < e.nFa ∧ (exAd e.nFa j)[(1 - el) * e.nFa + j]? = some (some el) := by
      rcases he with ⟨rfl, rfl⟩ | ⟨rfl, rfl⟩ <;> decide
    exact ⟨j, this el hel⟩
  · intro el E w hE hw
    obtain ⟨-, -, e3, e4, e5⟩ := exPair_some hE
    have hel : el < 2 := by rw [← hl]; exact (List.getElem?_eq_some_iff.1 hE).1
    have key : ∀ el < 2, ((exSp e j).bind (fun l => l[el]?)).all (fun w => elHas w 1 == (el == 0) && (elHas w 2 == (el == 1)) &&
        (List.range e.nFa).all (fun fa => adHas w fa 0 == (fa != j) && (adHas w fa 1 == (fa == j && el == 0)) && (adHas w fa 2 == (fa == j && el == 1)))) = true := by
      rcases he with ⟨rfl, rfl⟩ | ⟨rfl, rfl⟩ <;> decide +kernel
    have := key el hel
    rw [ho, Option.bind_some, hw, Option.all_some] at this
    simp only [Bool.and_eq_true, beq_iff_eq, List.all_eq_true, List.mem_range] at this
    obtain ⟨⟨a, b⟩, c⟩ := this
    refine ⟨by rw [a, e3], by rw [b, e4], ?_⟩
    rw [e5]
    refine List.map_congr_left (fun fa hfa => ?_)
    obtain ⟨⟨c1, c2⟩, c3⟩ := c fa (List.mem_range.1 hfa)
    rw [c1, c2, c3]
    by_cases hj : fa = j <;> simp [hj]

/-- C104_exact3: two tetrahedra rotate, in a simulation of two intervals. -/
theorem exTets_sim : ∃ (lT lV LN FT : List (List ℝ)) (els : List (REl ℝ)) (st st' : List (RSt ℝ)) (u' : Nat → Modes), els.length = 2 ∧
    simRun exC3 lT lV LN FT els (List.replicate 54 0) (List.replicate 54 0) [exItv, exItv] st = some st' ∧ Ready exC3 els st' u' ∧
    ∀ el < 2, ∀ x, physEval (1/100) .tet 3 (exTets el) (fun md => u' el 6 md 0) x = -x 1 := by
  obtain ⟨ν, F, els, lT, lV, LN, FT, h1, h2, h3, h4, h5, h6, h7, els0, h8, rfl⟩ := exTets_full
  obtain ⟨u, hu⟩ := h7 (fun _ _ => exRot 6) (fun _ _ _ _ => exRot3 _)
  obtain ⟨st, hs⟩ := ready_of exC3 (Rate.exPair .tet 3 els0) u
  obtain ⟨st', u', k1, k2, k3⟩ := C104_exact3 (o := 3) (by decide) exC3_fits exC3_fit rfl h4 h6 (exTyped (Or.inl ⟨rfl, rfl⟩) h8 h2) (w := fun _ _ => exRot 6) (fun _ _ _ _ => exRot3 _) (by
      intro el hel fa hfa r hr τ x y
      rw [Quiet, (h2 el fa).1, (h2 el fa).2.1]
      simp only [Bool.false_eq_true, if_false]
      split
      · exact stress3_zero (fun i => by fin_cases i <;> simp [at_, exRot]) _
      · simp)
    (sc0 := List.replicate 54 0) (sc1 := List.replicate 54 0) (by simp [exC3]) (by simp [exC3]) hs (s := 0) (by rw [h1]; exact hu) (is := [exItv, exItv]) (by
      intro i hi
      simp only [List.mem_cons, List.not_mem_nil, or_false, or_self] at hi
      exact hi ▸ exItv_ok)
  rw [h1] at k3
  exact ⟨lT, lV, LN, FT, _, st, st', u', h1, k1, k2, fun el hel x => (k3 el hel 0 (by decide) 6 (by omega) x).trans (by simp [exRot])⟩

/-- C104_exact2: two triangles rotate, in a simulation of two intervals. -/
example : ∃ (lT lV LN FT : List (List ℝ)) (els : List (REl ℝ)) (st st' : List (RSt ℝ)) (u' : Nat → Modes), els.length = 2 ∧
    simRun exC2 lT lV LN FT els (List.replicate 40 0) (List.replicate 40 0) [exItv, exItv] st = some st' ∧ Ready exC2 els st' u' ∧
    ∀ el < 2, ∀ x, physEval (1/100) .tria 4 (exSq el) (fun md => u' el 3 md 1) x = -x 1 := by
  obtain ⟨ν, F, els, lT, lV, LN, FT, h1, h2, h3, h4, h5, h6, h7, els0, h8, rfl⟩ := exSq_full
  obtain ⟨u, hu⟩ := h7 (fun _ _ => exRot 3) (fun _ _ _ _ => exRot2 _)
  obtain ⟨st, hs⟩ := ready_of exC2 (Rate.exPair .tria 1 els0) u
  obtain ⟨st', u', k1, k2, k3⟩ := C104_exact2 (o := 4) (by decide) exC2_fits exC2_fit rfl h4 h6 (exTyped (Or.inr ⟨rfl, rfl⟩) h8 h2) (w := fun _ _ => exRot 3) (fun _ _ _ _ => exRot2 _) (by
      intro el hel fa hfa r hr τ x y
      rw [Quiet, (h2 el fa).1, (h2 el fa).2.1]
      simp only [Bool.false_eq_true, if_false]
      split
      · exact stress2_zero (by simp [at_, exRot]) (by simp [at_, exRot]) (by simp [at_, exRot]) _
      · simp)
    (sc0 := List.replicate 40 0) (sc1 := List.replicate 40 0) (by simp [exC2]) (by simp [exC2]) hs (s := 0) (by rw [h1]; exact hu) (is := [exItv, exItv]) (by
      intro i hi
      simp only [List.mem_cons, List.not_mem_nil, or_false, or_self] at hi
      exact hi ▸ exItv_ok)
  rw [h1] at k3
  exact ⟨lT, lV, LN, FT, _, st, st', u', h1, k1, k2, fun el hel x => (k3 el hel 1 (by decide) 3 (by omega) x).trans (by simp [exRot])⟩

/-- C104_rigid3: angular momentum of any data, in a simulation of two intervals. -/
example (u : Nat → Modes) : ∃ (lT lV LN FT : List (List ℝ)) (els : List (REl ℝ)) (st st' : List (RSt ℝ)) (u' : Nat → Modes), els.length = 2 ∧
    simRun exC3 lT lV LN FT els (List.replicate 54 0) (List.replicate 54 0) [exItv, exItv] st = some st' ∧ Ready exC3 els st u ∧ Ready exC3 els st' u' ∧
    momentum (1/100) .tet 3 2 exTets (fun el => (if el = 0 then exM else exM2).rho) (fun j => 6 + j) (fun _ => 0) (fun i j => if i = 0 ∧ j = 1 then 1 else if i = 1 ∧ j = 0 then -1 else 0) u' 0 =
    momentum (1/100) .tet 3 2 exTets (fun el => (if el = 0 then exM else exM2).rho) (fun j => 6 + j) (fun _ => 0) (fun i j => if i = 0 ∧ j = 1 then 1 else if i = 1 ∧ j = 0 then -1 else 0) u 0 := by
  obtain ⟨ν, F, els, lT, lV, LN, FT, h1, h2, h3, h4, h5, h6, -, els0, h8, rfl⟩ := exTets_full
  obtain ⟨st, hs⟩ := ready_of exC3 (Rate.exPair .tet 3 els0) u
  obtain ⟨st', u', k1, k2, k3⟩ := C104_rigid3 (o := 3) (by decide) exC3_fits exC3_fit rfl h4 h6 (exTyped (Or.inl ⟨rfl, rfl⟩) h8 h2) (by rw [h1]; exact h3) (by
      intro el hel fa hfa
      rw [(h2 el fa).2.1, (h2 el fa).2.2])
    (sc0 := List.replicate 54 0) (sc1 := List.replicate 54 0) (by simp [exC3]) (by simp [exC3]) (fun _ => 0) (W := fun i j => if i = 0 ∧ j = 1 then 1 else if i = 1 ∧ j = 0 then -1 else 0) (by
      intro i hi j hj
      interval_cases i <;> interval_cases j <;> simp) (fun _ => by decide) (by simp) hs (is := [exItv, exItv]) (by
      intro i hi
      simp only [List.mem_cons, List.not_mem_nil, or_false, or_self] at hi
      exact hi ▸ exItv_ok)
  rw [h1] at k3
  exact ⟨lT, lV, LN, FT, _, st, st', u', h1, k1, hs, k2, k3 0 (by decide)⟩

/-- Another interleaving and another distribution of the work: at first worker 1 is faster. -/
def exFirst : List WAct :=
  List.replicate 39 (.act .sched) ++ [.act (.testSend 0 true), .act (.testRecv 0 true)] ++ (List.range 16).flatMap (fun _ => [.act (.wrk 1), .upd 1])

def exOut' : List Ev := (exRun exShare (exFirst ++ (List.range 11).flatMap (fun _ => exRound))).out

theorem exRan' : Ran exP (fun el => el) 2 exOut' := ⟨exP_wf, exShare, _, exShare_shares, exRun_reach _ _, by decide +kernel, rfl⟩

example : exOut' = [.loc 1, .loc 0, .nei 0, .loc 0, .nei 1, .nei 0] := by decide +kernel

theorem exItv_ran : Ran exP (fun el => el) 2 exItv.x.out := exItv_ok.ran exL_ok

/-- C103_threads: any two interleavings give the same state. -/
theorem ex_threads {evs evs' : List Ev} (hran : Ran exP (fun el => el) 2 evs) (hran' : Ran exP (fun el => el) 2 evs') (dt : Nat → Nat → ℝ) (u : Nat → Modes) : ∃ (lT lV LN FT : List (List ℝ)) (els : List (REl ℝ)) (st st' : List (RSt ℝ)), els.length = 2 ∧ Ready exC3 els st u ∧
    runSync exC3 lT lV LN FT els (List.replicate 54 0) (List.replicate 54 0) [(dt, evs)] st = some st' ∧
    runSync exC3 lT lV LN FT els (List.replicate 54 0) (List.replicate 54 0) [(dt, evs')] st = some st' := by
  obtain ⟨ν, F, els, lT, lV, LN, FT, h1, h2, h3, h4, h5, h6, -⟩ := exTets_full
  obtain ⟨st, hs⟩ := ready_of exC3 els u
  have hF : ∀ el < els.length, ∀ fa < Ent.tet.nFa, (F el fa).outflow = false → (F el fa).nb el < els.length := nb_of_faces (fun el E hE => (h6 el E hE).2.1)
  have hrun : ∀ evs, Ran exP (fun el => el) 2 evs → ∃ st', runSync exC3 lT lV LN FT els (List.replicate 54 0) (List.replicate 54 0) [(dt, evs)] st = some st' := by
    intro evs h
    rw [← h1] at h
    obtain ⟨o1, o2⟩ := C103_interval (F := F) h hF
    obtain ⟨st', u', k1, -⟩ := C100_momentum3 (o := 3) (by decide) exC3_fits exC3_fit rfl h4 h6 h5 (by rw [h1]; exact h3) (by
        intro el hel fa hfa
        rw [(h2 el fa).2.1, (h2 el fa).2.2])
      (sc0 := List.replicate 54 0) (sc1 := List.replicate 54 0) (by simp [exC3]) (by simp [exC3]) hs (ivs := [(dt, evs)]) (by
        intro iv hiv
        rw [List.mem_singleton.1 hiv]
        exact ⟨o1, _, o2⟩) (j := 1) (by omega)
    exact ⟨st', k1⟩
  obtain ⟨a, ha⟩ := hrun _ hran
  obtain ⟨b, hb⟩ := hrun _ hran'
  have hm : Meets .tet (fun el => el) F els := fun el E hE => by
    obtain ⟨-, f, -⟩ := h6 el E hE
    refine ⟨f.1, fun fa hfa => ⟨(f.2 fa hfa).1, fun hout => ?_⟩⟩
    obtain ⟨-, b⟩ := h5 el E hE
    obtain ⟨_, -, b⟩ := b fa hfa
    have hl := hF el (List.getElem?_eq_some_iff.1 hE).1 fa hfa hout
    exact (b hout _ (List.getElem?_eq_getElem hl)).2.2.1
  have hab := C103_threads hm hF hs.1 (ivs := [(dt, evs)]) (ivs' := [(dt, evs')]) (.cons ⟨rfl, exP, exP, rfl, h1 ▸ hran, h1 ▸ hran'⟩ .nil) ha hb
  exact ⟨lT, lV, LN, FT, els, st, a, h1, hs, ha, hab ▸ hb⟩

example (dt : Nat → Nat → ℝ) (u : Nat → Modes) : ∃ (lT lV LN FT : List (List ℝ)) (els : List (REl ℝ)) (st st' : List (RSt ℝ)), els.length = 2 ∧ Ready exC3 els st u ∧
    runSync exC3 lT lV LN FT els (List.replicate 54 0) (List.replicate 54 0) [(dt, exItv.x.out)] st = some st' ∧
    runSync exC3 lT lV LN FT els (List.replicate 54 0) (List.replicate 54 0) [(dt, exOut')] st = some st' := ex_threads exItv_ran exRan' dt u

end Edge.Work
