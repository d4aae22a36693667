import Verif.Work.Spec
import Verif.Rate.Spec
import Verif.Sched.Props
/-!
The updates of the elements have the rhythm which local time stepping needs.
-/
namespace Edge.Work
open Edge Edge.Sched Edge.Rate Edge.Quad Edge.Step Edge.Map

variable {p : Params} {share : Nat → Nat → Nat → List Nat}

/-- The threads are those of the scheduler's model. -/
theorem WReach.reach {x : WState} (h : WReach p share x) : Reachable p x.s := by
  induction h with
  | init h => exact .init h
  | @step x a _ ih =>
    have key : ∀ a, Reachable p (Sched.step p x.s a) := fun a => Reachable.step a ih
    cases a with
    | upd w =>
      simp only [wstep]
      split
      · split <;> exact ih
      · exact ih
    | act a =>
      cases a with
      | wrk w =>
        simp only [wstep]
        split
        · split
          · exact key (.wrk w)
          · exact key (.wrk w)
          · split
            · exact key (.wrk w)
            · exact ih
        · exact ih
      | sched => exact key .sched
      | testSend c b => exact key (.testSend c b)
      | testRecv c b => exact key (.testRecv c b)

theorem exec1_frame {s : State} (i : Instr) : (exec1 p s i).wk = s.wk ∧ (exec1 p s i).exec = s.exec := by
  refine ⟨?_, ?_⟩ <;> cases i <;> simp only [exec1] <;> (repeat' split) <;> rfl

/-- Actions other than those of the workers do not touch them. -/
theorem step_frame {s : State} {a : Action} (h : ∀ w, a ≠ .wrk w) : (Sched.step p s a).wk = s.wk ∧ (Sched.step p s a).exec = s.exec := by
  cases a with
  | wrk w => exact absurd rfl (h w)
  | sched =>
    simp only [Sched.step, stepSched]
    split
    · split <;> exact ⟨rfl, rfl⟩
    · exact exec1_frame _
  | testSend c b => simp only [Sched.step, stepTestSend]; split <;> exact ⟨rfl, rfl⟩
  | testRecv c b => simp only [Sched.step, stepTestRecv]; split <;> exact ⟨rfl, rfl⟩

/-- Region of local or neighboring steps. -/
def Upd (r : Nat) : Prop := r < 2 ∨ 4 ≤ r ∧ r < 6

theorem evOf_upd {r el : Nat} (h : Upd r) : evOf r el = [if r < 2 then .loc el else .nei el] := by
  unfold evOf
  rcases h with h | ⟨h, _⟩
  · rw [if_pos h, if_pos h]
  · rw [if_neg (by omega), if_neg (by omega), if_neg (by omega)]

/-- Update of an element in a region. -/
def ev (r el : Nat) : Ev := if r < 2 then .loc el else .nei el

theorem ev_inj {r r' el el' : Nat} : ev r el = ev r' el' ↔ el = el' ∧ (r < 2 ↔ r' < 2) := by
  unfold ev
  split <;> split <;> simp [*]

/-- The worker has updated the element in the package which is in progress. -/
def Done (x : WState) (g r w el : Nat) : Prop := x.s.wk w = .run g r ∧ el ∉ x.rest w

/-- Number `n` of updates: completed packages, and the current one. -/
def Num (n e : Nat) (d : Prop) : Prop := (d → n = e + 1) ∧ (¬ d → n = e)

theorem Num.congr {n e : Nat} {d d' : Prop} (h : Num n e d) (hd : d' ↔ d) : Num n e d' := ⟨fun k => h.1 (hd.1 k), fun k => h.2 (fun l => k (hd.2 l))⟩

/-- Numbers of updates. -/
structure WInv (p : Params) (share : Nat → Nat → Nat → List Nat) (x : WState) : Prop where
  suffix : ∀ w < p.nWrk, ∀ g r, x.s.wk w = .run g r → x.rest w <:+ share g r w
  count : ∀ g < p.nTgs, ∀ r, Upd r → ∀ w < p.nWrk, ∀ el ∈ share g r w, Num (x.out.count (ev r el)) (x.s.exec g r w) (Done x g r w el)

theorem inv_upd {tg : Nat → Nat} {N : Nat} (hs : Shares p tg N share) {x : WState} (ih : WInv p share x) {w' g' r' el' : Nat} {l : List Nat} (hw' : w' < p.nWrk) (hg' : g' < p.nTgs)
    (hr' : r' < 6) (hk : x.s.wk w' = .run g' r') (hl : x.rest w' = el' :: l) : WInv p share ⟨x.s, fun v => if v = w' then l else x.rest v, x.out ++ evOf r' el'⟩ := by
  have hsuf := ih.suffix w' hw' g' r' hk
  rw [hl] at hsuf
  have hnd : (el' :: l).Nodup := hsuf.sublist.nodup (hs.nodup g' r' w')
  have hmem : el' ∈ share g' r' w' := hsuf.subset List.mem_cons_self
  refine ⟨fun w hw g r h => ?_, fun g hg r hr w hw el hel => ?_⟩
  · simp only at h ⊢
    by_cases e : w = w'
    · subst e
      rw [if_pos rfl]
      rw [hk] at h
      cases h
      exact (List.suffix_cons el' l).trans hsuf
    · rw [if_neg e]
      exact ih.suffix w hw g r h
  · have hc := ih.count g hg r hr w hw el hel
    show Num ((x.out ++ evOf r' el').count (ev r el)) (x.s.exec g r w) (x.s.wk w = .run g r ∧ el ∉ if w = w' then l else x.rest w)
    rw [List.count_append]
    by_cases hu : Upd r'
    · have he : evOf r' el' = [ev r' el'] := evOf_upd hu
      rw [he, List.count_singleton]
      by_cases hev : ev r' el' = ev r el
      · obtain ⟨rfl, h2⟩ := ev_inj.1 hev
        have hgg : g = g' := (hs.mem g r w _ hg hw hr hel).2.symm.trans (hs.mem g' r' w' _ hg' hw' hu hmem).2
        subst hgg
        obtain ⟨rfl, rfl⟩ := hs.once g r r' w w' _ hg hw hw' (by unfold Upd at hr hu; omega) hel hmem
        have h0 := hc.2 (fun h => h.2 (by rw [hl]; exact List.mem_cons_self))
        refine ⟨fun _ => by rw [h0, if_pos (by simp)], fun h => absurd ⟨hk, ?_⟩ h⟩
        rw [if_pos rfl]
        exact (List.nodup_cons.1 hnd).1
      · rw [if_neg (by simpa using hev), Nat.add_zero]
        refine hc.congr ?_
        by_cases e : w = w'
        · subst e
          unfold Done
          rw [if_pos rfl, hl, hk]
          refine and_congr_right (fun h => ?_)
          cases h
          have : el ≠ el' := by rintro rfl; exact hev rfl
          simp [this]
        · rw [if_neg e]
          exact Iff.rfl
    · have he : evOf r' el' = [] := by
        unfold evOf
        unfold Upd at hu
        rw [if_neg (by omega), if_pos (by omega)]
      rw [he, List.count_nil, Nat.add_zero]
      refine hc.congr ?_
      by_cases e : w = w'
      · subst e
        unfold Done
        rw [hk]
        refine and_congr_right (fun h => ?_)
        cases h
        exact absurd hr hu
      · rw [if_neg e]
        exact Iff.rfl

theorem wreach_inv {tg : Nat → Nat} {N : Nat} (wf : p.WF) (hs : Shares p tg N share) {x : WState} (h : WReach p share x) : WInv p share x := by
  induction h with
  | @init s h =>
    refine ⟨fun w _ g r h' => ?_, fun g hg r hr w hw el hel => ?_⟩
    · have : s.wk w = .run g r := h'
      rw [h.wk w] at this; cases this
    · refine ⟨fun hd => ?_, fun _ => ?_⟩
      · have : s.wk w = .run g r := hd.1
        rw [h.wk w] at this; cases this
      · show 0 = s.exec g r w
        rw [h.exec]
  | @step x a hx ih =>
    cases a with
    | upd w' =>
      simp only [wstep]
      split
      case isFalse => exact ih
      rename_i hw'
      split
      case h_2 => exact ih
      rename_i g' r' el' l hk hl
      obtain ⟨hg', hr', -⟩ := running_facts wf hx.reach hw' hk
      exact inv_upd hs ih hw' hg' hr' hk hl
    | act a =>
      by_cases hwa : ∃ w', a = .wrk w'
      case neg =>
        have hf := step_frame (p := p) (s := x.s) (a := a) (fun w h => hwa ⟨w, h⟩)
        have : wstep p share x (.act a) = { x with s := Sched.step p x.s a } := by
          cases a with
          | wrk w => exact absurd ⟨w, rfl⟩ hwa
          | _ => rfl
        rw [this]
        refine ⟨fun w hw g r h => ih.suffix w hw g r (by rw [← hf.1]; exact h), fun g hg r hr w hw el hel => ?_⟩
        show Num (x.out.count (ev r el)) ((Sched.step p x.s a).exec g r w) ((Sched.step p x.s a).wk w = .run g r ∧ el ∉ x.rest w)
        rw [hf.1, hf.2]
        exact ih.count g hg r hr w hw el hel
      obtain ⟨w', rfl⟩ := hwa
      simp only [wstep]
      split
      case isFalse => exact ih
      rename_i hw'
      split
      · rename_i hk
        have hstep : (Sched.step p x.s (.wrk w')).exec = x.s.exec ∧ ∀ w, (Sched.step p x.s (.wrk w')).wk w = x.s.wk w ∨
            w = w' ∧ ∃ g r, (Sched.step p x.s (.wrk w')).wk w = .got g r := by
          simp only [Sched.step, if_pos hw', stepWrk, hk]
          split
          · exact ⟨rfl, fun w => Or.inl rfl⟩
          · split
            · exact ⟨rfl, fun w => Or.inl rfl⟩
            · refine ⟨rfl, fun w => ?_⟩
              by_cases e : w = w'
              · exact Or.inr ⟨e, _, _, if_pos e⟩
              · exact Or.inl (if_neg e)
        have hrun : ∀ w g r, (Sched.step p x.s (.wrk w')).wk w = .run g r ↔ x.s.wk w = .run g r := by
          intro w g r
          rcases hstep.2 w with h | ⟨rfl, g', r', h⟩
          · rw [h]
          · rw [h, hk]; simp
        refine ⟨fun w hw g r h => ih.suffix w hw g r ((hrun w g r).1 h), fun g hg r hr w hw el hel => ?_⟩
        show Num (x.out.count (ev r el)) ((Sched.step p x.s (.wrk w')).exec g r w) ((Sched.step p x.s (.wrk w')).wk w = .run g r ∧ el ∉ x.rest w)
        rw [hstep.1, hrun]
        exact ih.count g hg r hr w hw el hel
      · rename_i g' r' hk
        have hstep : (Sched.step p x.s (.wrk w')).exec = x.s.exec ∧ ∀ w, (Sched.step p x.s (.wrk w')).wk w = if w = w' then .run g' r' else x.s.wk w := by
          simp only [Sched.step, if_pos hw', stepWrk, hk]
          exact ⟨trivial, fun w => trivial⟩
        refine ⟨fun w hw g r h => ?_, fun g hg r hr w hw el hel => ?_⟩
        · have h : (Sched.step p x.s (.wrk w')).wk w = .run g r := h
          show (if w = w' then share g' r' w' else x.rest w) <:+ share g r w
          rw [hstep.2] at h
          by_cases e : w = w'
          · rw [if_pos e] at h ⊢
            cases h
            rw [e]
          · rw [if_neg e] at h ⊢
            exact ih.suffix w hw g r h
        · show Num (x.out.count (ev r el)) ((Sched.step p x.s (.wrk w')).exec g r w) ((Sched.step p x.s (.wrk w')).wk w = .run g r ∧ el ∉ if w = w' then share g' r' w' else x.rest w)
          rw [hstep.1, hstep.2]
          refine (ih.count g hg r hr w hw el hel).congr ?_
          unfold Done
          by_cases e : w = w'
          · subst e
            rw [if_pos rfl, if_pos rfl, hk]
            constructor
            · rintro ⟨h, hn⟩
              cases h
              exact absurd hel hn
            · rintro ⟨h, -⟩
              cases h
          · rw [if_neg e, if_neg e]
      · rename_i g' r' hk
        split
        case isFalse => exact ih
        rename_i hl
        have hstep : (∀ g r w, (Sched.step p x.s (.wrk w')).exec g r w = if g = g' ∧ r = r' ∧ w = w' then x.s.exec g r w + 1 else x.s.exec g r w) ∧
            ∀ w, (Sched.step p x.s (.wrk w')).wk w = if w = w' then .idle else x.s.wk w := by
          simp only [Sched.step, if_pos hw', stepWrk, hk]
          exact ⟨fun _ _ _ => trivial, fun w => trivial⟩
        refine ⟨fun w hw g r h => ?_, fun g hg r hr w hw el hel => ?_⟩
        · have h : (Sched.step p x.s (.wrk w')).wk w = .run g r := h
          rw [hstep.2] at h
          by_cases e : w = w'
          · rw [if_pos e] at h; cases h
          · rw [if_neg e] at h
            exact ih.suffix w hw g r h
        · show Num (x.out.count (ev r el)) ((Sched.step p x.s (.wrk w')).exec g r w) ((Sched.step p x.s (.wrk w')).wk w = .run g r ∧ el ∉ x.rest w)
          rw [hstep.1, hstep.2]
          have hc := ih.count g hg r hr w hw el hel
          by_cases e : w = w'
          · subst e
            rw [if_pos rfl]
            refine ⟨fun h => by simp at h, fun _ => ?_⟩
            by_cases e2 : g = g' ∧ r = r'
            · obtain ⟨rfl, rfl⟩ := e2
              rw [if_pos ⟨rfl, rfl, rfl⟩]
              exact hc.1 ⟨hk, by rw [hl]; simp⟩
            · rw [if_neg (fun h => e2 ⟨h.1, h.2.1⟩)]
              refine hc.2 (fun h => e2 ?_)
              have := h.1
              rw [hk] at this
              cases this
              exact ⟨rfl, rfl⟩
          · rw [if_neg (fun h => e h.2.2), if_neg e]
            exact hc

variable {tg : Nat → Nat} {N : Nat}

/-- Number of updates of an element whose package is not in progress. -/
theorem WInv.fix {x : WState} (h : WInv p share x) {g r w el : Nat} (hg : g < p.nTgs) (hr : Upd r) (hw : w < p.nWrk) (hel : el ∈ share g r w) (hn : x.s.wk w ≠ .run g r) :
    x.out.count (ev r el) = x.s.exec g r w :=
   (h.count g hg r hr w hw el hel).2 (fun h => hn h.1)

theorem ev_loc {r el : Nat} (h : r < 2) : ev r el = .loc el := if_pos h
theorem ev_nei {r el : Nat} (h : 4 ≤ r) : ev r el = .nei el := if_neg (by omega)

variable {K : Type} {e : Ent} {F : Nat → Nat → MFace K}

/-- An update which is executed next. -/
theorem upd_allowed (wf : p.WF) (hs : Shares p tg N share) (hF : ∀ el < N, ∀ fa < e.nFa, (F el fa).outflow = false → (F el fa).nb el < N) {x : WState} (hx : WReach p share x)
    {w g r el : Nat} {l : List Nat} (hw : w < p.nWrk) (hr : Upd r) (hk : x.s.wk w = .run g r) (hl : x.rest w = el :: l) : (ev r el).el < N ∧ Allowed e tg F x.out (ev r el) := by
  have hi := wreach_inv wf hs hx
  have hre := hx.reach
  obtain ⟨hg, hr6, -⟩ := running_facts wf hre hw hk
  have hsuf := hi.suffix w hw g r hk
  have hmem : el ∈ share g r w := hsuf.subset (by rw [hl]; exact List.mem_cons_self)
  obtain ⟨hN, htg⟩ := hs.mem g r w el hg hw hr hmem
  have hown : x.out.count (ev r el) = x.s.exec g r w :=
     (hi.count g hg r hr w hw el hmem).2 (fun h => h.2 (by rw [hl]; exact List.mem_cons_self))
  rcases hr with h2 | ⟨h4, -⟩
  · have hq : IsLocal r := by unfold IsLocal localInner localSend; omega
    rw [ev_loc h2] at hown ⊢
    refine ⟨hN, ?_⟩
    obtain ⟨r', k4, k6, v, hv, hm⟩ := hs.nei el hN
    rw [htg] at hm
    have hn : IsNeigh r' := by unfold IsNeigh neighInner neighSend; omega
    have hc := hi.fix hg (Or.inr ⟨k4, k6⟩) hv hm (fun h => (C06_no_local_during_neigh wf hre hv hn h hw hq (Or.inl rfl)).1 hk)
    rw [ev_nei k4] at hc
    show x.out.count (.nei el) = x.out.count (.loc el)
    rw [hc, hown, (C06_overwrite_after_consumption wf hre hw hq hk rfl hv hn).1]
  · have hn : IsNeigh r := by unfold IsNeigh neighInner neighSend; omega
    rw [ev_nei h4] at hown ⊢
    refine ⟨hN, ?_⟩
    have key : ∀ el' < N, ∀ f, tg el' = f → f < p.nTgs → (f = g ∨ f + 1 = g ∨ (f = g + 1 ∧ g + 1 < p.nTgs)) →
        ∃ q v, IsLocal q ∧ v < p.nWrk ∧ x.out.count (.loc el') = x.s.exec f q v := by
      intro el' hel' f hf hfn hfg
      obtain ⟨q, hq2, v, hv, hm⟩ := hs.loc el' hel'
      rw [hf] at hm
      have hq : IsLocal q := by unfold IsLocal localInner localSend; omega
      refine ⟨q, v, hq, hv, ?_⟩
      have := hi.fix hfn (Or.inl hq2) hv hm (C06_no_local_during_neigh wf hre hw hn hk hv hq hfg).1
      rwa [ev_loc hq2] at this
    refine ⟨?_, fun fa hfa hout => ?_⟩
    · obtain ⟨q, v, hq, hv, h⟩ := key el hN g htg hg (Or.inl rfl)
      rw [h, hown, (C05_neigh_reads_matching_predictions wf hre hw hn hk rfl hv hq).1]
    · have hne := hF el hN fa hfa hout
      have hgn := hs.groups _ hne
      generalize (F el fa).nb el = ne at hne hgn
      refine ⟨fun ht => ?_, fun ht => ?_, fun ht => ?_⟩
      · obtain ⟨q, v, hq, hv, h⟩ := key ne hne g (ht.trans htg) hg (Or.inl rfl)
        rw [h, hown, (C05_neigh_reads_matching_predictions wf hre hw hn hk rfl hv hq).1]
      · obtain ⟨q, v, hq, hv, h⟩ := key ne hne _ rfl hgn (Or.inr (Or.inl (by omega)))
        rw [h, hown, (C05_neigh_reads_matching_predictions wf hre hw hn hk rfl hv hq).2.1 _ (by omega)]
      · obtain ⟨q, v, hq, hv, h⟩ := key ne hne (g + 1) (by omega) (by omega) (Or.inr (Or.inr ⟨rfl, by omega⟩))
        rw [h, hown, (C05_neigh_reads_matching_predictions wf hre hw hn hk rfl hv hq).2.2 (by omega)]

/-- C103: in every execution of an interval, i.e. for every interleaving of the scheduling thread, the workers and the messages, every number of workers, every order of priorities and every distribution of
the elements to the workers, the updates of the elements have the rhythm on which local time stepping relies. -/
theorem C103_rhythm (wf : p.WF) (hs : Shares p tg N share) (hF : ∀ el < N, ∀ fa < e.nFa, (F el fa).outflow = false → (F el fa).nb el < N) {x : WState} (hx : WReach p share x) :
    Ordered e tg F N x.out := by
  induction hx with
  | init h =>
    intro pre ev post h
    simp at h
  | @step x a hx ih =>
    cases a with
    | act a =>
      have : (wstep p share x (.act a)).out = x.out := by
        cases a with
        | wrk w =>
          simp only [wstep]
          repeat' split
          all_goals rfl
        | _ => rfl
      rw [this]
      exact ih
    | upd w =>
      simp only [wstep]
      split
      case isFalse => exact ih
      rename_i hw
      split
      case h_2 => exact ih
      rename_i g r el l hk hl
      by_cases hr : Upd r
      · have h := upd_allowed (e := e) (F := F) wf hs hF hx hw hr hk hl
        have he : evOf r el = [ev r el] := evOf_upd hr
        intro pre ev' post heq
        simp only [he] at heq
        rcases List.eq_nil_or_concat post with rfl | ⟨post', z, rfl⟩
        · obtain ⟨h1, h2⟩ := List.append_inj' heq rfl
          cases h2
          rw [← h1]
          exact h
        · have heq' : x.out ++ [ev r el] = (pre ++ ev' :: post') ++ [z] := by rw [heq]; simp
          exact ih pre ev' post' (List.append_inj' heq' rfl).1
      · have he : evOf r el = [] := by
          obtain ⟨-, h6, -⟩ := running_facts wf hx.reach hw hk
          unfold Upd at hr
          unfold evOf
          rw [if_neg (by omega), if_pos (by omega)]
        intro pre ev' post heq
        simp only [he, List.append_nil] at heq
        exact ih pre ev' post heq

/-- Numbers of steps of the groups. -/
theorem steps_pow (wf : p.WF) {g : Nat} (hg : g < p.nTgs) : p.N g * 2 ^ g = p.N 0 := by
  induction g with
  | zero => simp
  | succ g ih =>
    rw [← ih (by omega), wf.two g hg, pow_succ]
    ring

/-- C103: when the manager reports that the interval is finished, all elements have executed all their updates: they have reached the same point in time. -/
theorem C103_complete (wf : p.WF) (hs : Shares p tg N share) {x : WState} (hx : WReach p share x) (hf : x.s.finished = true) : Complete tg N x.out (p.N 0) := by
  intro el hel
  have hi := wreach_inv wf hs hx
  have hg := hs.groups el hel
  obtain ⟨r, h2, w, hw, hm⟩ := hs.loc el hel
  obtain ⟨r', h4, h6, v, hv, hm'⟩ := hs.nei el hel
  obtain ⟨-, a2, a3⟩ := C09_finished wf hx.reach hf hg (show r < 6 by omega) hw
  obtain ⟨-, b2, b3⟩ := C09_finished wf hx.reach hf hg h6 hv
  have c1 := hi.fix hg (Or.inl h2) hw hm a3
  have c2 := hi.fix hg (Or.inr ⟨h4, h6⟩) hv hm' b3
  rw [ev_loc h2] at c1
  rw [ev_nei h4] at c2
  rw [c1, c2, a2, b2]
  exact ⟨rfl, steps_pow wf hg⟩

end Edge.Work
