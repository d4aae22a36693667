import Verif.Sched.Lemmas
/-! The invariant holds in every reachable state. -/
namespace Edge.Sched

/-- Group a statement belongs to. -/
def Instr.grp : Instr → Option Nat
  | .initCf g | .finLocIn g | .finLocSe g | .finSrcIn g | .finSrcSe g | .finNeIn g | .finNeSe g | .finSend g
  | .finRecv g | .locSe g | .locIn g | .send g | .srcSe g | .srcIn g | .neSe g | .neIn g | .recv g
  | .complete g | .count g => some g
  | .zeroCnt | .check => none

/-- The core invariant does not mention the program text, the counter and the flag of the scheduler. -/
theorem core_congr {p : Params} {s : State} (l : List Instr) (n : Nat) (f : Bool) (h : Core p s) :
    Core p { s with todo := l, nFin := n, finished := f } :=
  ⟨h.grp, h.pair, fun c h1 h2 => ⟨(h.sch c h1 h2).1, (h.sch c h1 h2).2, (h.sch c h1 h2).3⟩,
    fun c h1 h2 => ⟨(h.rch c h1 h2).1, (h.rch c h1 h2).2, (h.rch c h1 h2).3⟩,
    fun w hw => ⟨(h.wki w hw).1, (h.wki w hw).2, (h.wki w hw).3⟩, h.noabort⟩

theorem exec1_core {p : Params} (wf : p.WF) {s : State} (hi : Core p s) (i : Instr)
    (hg : ∀ g, i.grp = some g → g < p.nTgs) : Core p (exec1 p s i) := by
  cases i with
  | initCf g => exact core_initCf wf hi (hg g rfl)
  | finLocIn g => exact core_finLocIn hi (hg g rfl)
  | finLocSe g => exact core_finLocSe hi (hg g rfl)
  | finSrcIn g => exact core_finSrcIn hi (hg g rfl)
  | finSrcSe g => exact core_finSrcSe hi (hg g rfl)
  | finNeIn g => exact core_finNeIn hi (hg g rfl)
  | finNeSe g => exact core_finNeSe hi (hg g rfl)
  | finSend g => exact core_finSend hi (hg g rfl)
  | finRecv g => exact core_finRecv hi (hg g rfl)
  | locSe g => exact core_locSe hi (hg g rfl)
  | locIn g => exact core_locIn hi (hg g rfl)
  | send g => exact core_send hi (hg g rfl)
  | srcSe g => exact core_srcSe hi (hg g rfl)
  | srcIn g => exact core_srcIn hi (hg g rfl)
  | neSe g => exact core_neSe hi (hg g rfl)
  | neIn g => exact core_neIn hi (hg g rfl)
  | recv g => exact core_recv hi (hg g rfl)
  | complete g => exact core_complete hi (hg g rfl)
  | zeroCnt => exact core_congr s.todo 0 s.finished hi
  | count g =>
    simp only [exec1]; split
    · exact core_congr s.todo (s.nFin + 1) s.finished hi
    · exact hi
  | check =>
    simp only [exec1]; split
    · exact core_congr s.todo s.nFin true hi
    · exact hi

theorem exec1_tg_other {p : Params} {s : State} (i : Instr) (h : Nat) (hh : i.grp ≠ some h) :
    (exec1 p s i).tg h = s.tg h := by
  cases i <;> simp only [exec1] <;> (repeat' split) <;>
    first
    | rfl
    | (simp only [Instr.grp, ne_eq, Option.some.injEq] at hh
       simp only [State.setTg, State.setRdy, State.beginSends, State.beginRecvs]
       rw [if_neg (fun e => hh e.symm)])

/-- Values of the entries of a finished group. -/
theorem finG_vals {p : Params} (wf : p.WF) {s : State} {h : Nat} (hi : Core p s) (hn : h < p.nTgs) (hf : FinG p s h) :
    (s.tg h).c0 = 5 ∧ (s.tg h).c1 = 5 ∧ (s.tg h).c2 = 3 ∧ (s.tg h).c3 = 3 ∧ (s.tg h).c4 = 4 ∧ (s.tg h).c5 = 4 ∧
    (s.tg h).c6 = 2 ∧ (s.tg h).c7 = 3 := by
  obtain ⟨h1, h2, h3⟩ := hf
  rcases hi.grp h hn with hu | ⟨hG, _⟩
  · have := wf.one h hn
    rw [hu.1] at h1
    simp [TgState.reset] at h1; omega
  · obtain ⟨lt,d1,d2,v0,v1,v2,v3,v4,v5,r2,r3,r4,r5,x4,x5,pI,pS,uI,uS,s6,sN,r7,rN⟩ := hG
    have c4 : (s.tg h).c4 = 4 := by
      apply Classical.byContradiction; intro hc; have := d2 hc; omega
    have := d1 c4
    have := r4.1.1 (by omega); have := r4.2.2 (by omega)
    have := r5.1.1 (by omega); have := r5.2.2 (by omega)
    have := r7.2.2.2 ⟨by omega, by omega⟩
    omega

theorem finG_stable {p : Params} (wf : p.WF) {s : State} {h : Nat} (hi : Core p s) (hn : h < p.nTgs) (hf : FinG p s h)
    (i : Instr) : FinG p (exec1 p s i) h := by
  have htg : (exec1 p s i).tg h = s.tg h := by
    by_cases hh : i.grp = some h
    · obtain ⟨c0, c1, c2, c3, c4, c5, c6, c7⟩ := finG_vals wf hi hn hf
      cases i <;> simp only [Instr.grp, Option.some.injEq, reduceCtorEq] at hh <;> subst hh <;>
        simp [exec1, c0, c1, c2, c3, c4, c5, c6, c7] <;> (try split) <;> first | rfl | (simp [umax] at *; done) | omega
    · exact exec1_tg_other i h hh
  unfold FinG
  rw [htg]; exact hf

/-! ### The program text -/

theorem mem_phase1_grp {g : Nat} {i : Instr} (h : i ∈ phase1 g) : i.grp = some g := by
  simp only [phase1, List.mem_cons, List.not_mem_nil, or_false] at h
  rcases h with h | h | h | h | h | h | h | h | h <;> subst h <;> rfl

theorem mem_phase2_grp {g : Nat} {i : Instr} (h : i ∈ phase2 g) : i.grp = some g := by
  simp only [phase2, List.mem_cons, List.not_mem_nil, or_false] at h
  rcases h with h | h | h | h | h | h | h | h | h | h <;> subst h <;> rfl

theorem mem_prog_grp {n : Nat} {i : Instr} (h : i ∈ prog n) (g : Nat) (hg : i.grp = some g) : g < n := by
  simp only [prog, List.mem_append, List.mem_cons, List.mem_flatMap, List.mem_range, List.not_mem_nil, or_false] at h
  rcases h with ⟨x, hx, h⟩ | h | ⟨x, hx, h⟩ | h
  · have := mem_phase1_grp h; rw [this] at hg; cases hg; exact hx
  · subst h; cases hg
  · have := mem_phase2_grp h; rw [this] at hg; cases hg; exact hx
  · subst h; cases hg

/-- What remains after the reset of the counter. -/
def tail2 (n : Nat) : List Instr := (List.range n).flatMap phase2 ++ [.check]

theorem zero_not_phase1 (n : Nat) : Instr.zeroCnt ∉ (List.range n).flatMap phase1 := by
  simp [phase1]

theorem zero_not_tail2 (n : Nat) : Instr.zeroCnt ∉ tail2 n := by
  simp [tail2, phase2]

theorem suffix_after_zero {n : Nat} {l : List Instr} (h : (Instr.zeroCnt :: l) <:+ prog n) : l = tail2 n := by
  obtain ⟨a, ha⟩ := h
  have hp : prog n = (List.range n).flatMap phase1 ++ Instr.zeroCnt :: tail2 n := rfl
  rw [hp] at ha
  rw [List.append_eq_append_iff] at ha
  rcases ha with ⟨c, h1, h2⟩ | ⟨c, h1, h2⟩
  · cases c with
    | nil => simp at h2; exact h2.symm ▸ rfl
    | cons x c =>
      simp at h2
      exact absurd (by rw [h1]; simp [← h2.1]) (zero_not_phase1 n)
  · cases c with
    | nil => simp at h2; exact h2.symm ▸ rfl
    | cons x c =>
      simp at h2
      exact absurd (by rw [h2.2]; simp) (zero_not_tail2 n)

theorem countP_tail2 (n : Nat) : (tail2 n).countP Instr.isCount = n := by
  simp only [tail2, List.countP_append]
  have : ∀ m, ((List.range m).flatMap phase2).countP Instr.isCount = m := by
    intro m
    induction m with
    | zero => rfl
    | succ m ih =>
      rw [List.range_succ, List.flatMap_append, List.countP_append, ih]
      rfl
  rw [this]; rfl

theorem count_mem_tail2 {n g : Nat} (h : g < n) : Instr.count g ∈ tail2 n := by
  simp [tail2, phase2, h]

theorem prog_ne_nil (n : Nat) : Instr.zeroCnt ∈ prog n := by simp [prog]

/-! ### Scheduler steps -/

theorem exec1_todo {p : Params} {s : State} (i : Instr) : (exec1 p s i).todo = s.todo := by
  cases i <;> simp only [exec1] <;> (repeat' split) <;> rfl

theorem exec1_nFin {p : Params} {s : State} (i : Instr) (h1 : i ≠ .zeroCnt) (h2 : i.isCount = false) :
    (exec1 p s i).nFin = s.nFin := by
  cases i <;> simp only [exec1] <;> (repeat' split) <;> first | rfl | (simp at h1; done) | (simp [Instr.isCount] at h2; done)

theorem exec1_finished {p : Params} {s : State} (i : Instr) (h1 : i ≠ .check) :
    (exec1 p s i).finished = s.finished := by
  cases i <;> simp only [exec1] <;> (repeat' split) <;> first | rfl | (simp at h1)

theorem core_todo {p : Params} {s : State} (l : List Instr) (h : Core p s) : Core p { s with todo := l } :=
  core_congr l s.nFin s.finished h

theorem inv_sched {p : Params} (wf : p.WF) {s : State} (hi : Inv p s) : Inv p (stepSched p s) := by
  unfold stepSched
  split
  · split
    · exact hi
    · rename_i hfin
      refine ⟨core_todo _ hi.core, List.suffix_refl _, Or.inl (prog_ne_nil _), ?_⟩
      intro h; exact absurd h hfin
  · rename_i i is htodo
    have hsuf : (i :: is) <:+ prog p.nTgs := htodo ▸ hi.todo
    have hmem : i ∈ prog p.nTgs := hsuf.mem (by simp)
    have hcore := exec1_core wf hi.core i (fun g hg => mem_prog_grp hmem g hg)
    have hsuf' : is <:+ prog p.nTgs := (List.suffix_cons i is).trans hsuf
    refine ⟨core_todo _ hcore, hsuf', ?_, ?_⟩
    · -- counter
      show CntI p { exec1 p s i with todo := is }
      by_cases hz : i = .zeroCnt
      · subst hz
        right; right
        have hl := suffix_after_zero hsuf
        subst hl
        simp only [exec1, countP_tail2]
        refine ⟨by omega, ?_⟩
        intro _ g hg hng
        exact absurd (count_mem_tail2 hg) hng
      · rcases hi.cnt with h | h | ⟨h1, h2⟩
        · left
          rw [htodo] at h
          simp at h
          rcases h with h | h
          · exact absurd h.symm hz
          · exact h
        · rw [htodo] at h; cases h
        · rw [htodo] at h1 h2
          by_cases hnil : is = []
          · right; left; exact hnil
          right; right
          by_cases hcnt : i.isCount = true
          · cases i with
            | count g =>
              have hg : g < p.nTgs := mem_prog_grp hmem g rfl
              have e1 : (Instr.count g :: is).countP Instr.isCount = is.countP Instr.isCount + 1 := by
                rw [List.countP_cons]; rfl
              rw [e1] at h1 h2
              by_cases hF : FinG p s g
              · have e2 : (exec1 p s (.count g)).nFin = s.nFin + 1 := by
                  obtain ⟨a, b, c⟩ := hF
                  simp [exec1, a, b, c]
                show (exec1 p s (.count g)).nFin + is.countP Instr.isCount ≤ _ ∧ ((exec1 p s (.count g)).nFin + is.countP Instr.isCount = _ → _)
                rw [e2]
                refine ⟨by omega, ?_⟩
                intro he h hh hnot
                have hFs : ∀ x, FinG p s x → FinG p { exec1 p s (.count g) with todo := is } x := by
                  intro x hx
                  unfold FinG at hx ⊢
                  have : (exec1 p s (.count g)).tg = s.tg := by simp only [exec1]; split <;> rfl
                  simp only [this]; exact hx
                by_cases hhg : h = g
                · subst hhg; exact hFs _ hF
                · apply hFs
                  refine h2 (by omega) h hh ?_
                  simp only [List.mem_cons, not_or]
                  exact ⟨fun e => hhg (by injection e), hnot⟩
              · have e2 : (exec1 p s (.count g)).nFin = s.nFin := by
                  simp only [exec1]
                  rw [if_neg]
                  exact hF
                show (exec1 p s (.count g)).nFin + is.countP Instr.isCount ≤ _ ∧ ((exec1 p s (.count g)).nFin + is.countP Instr.isCount = _ → _)
                rw [e2]
                refine ⟨by omega, ?_⟩
                intro he
                omega
            | _ => simp [Instr.isCount] at hcnt
          · have hcnt' : i.isCount = false := by simpa using hcnt
            have e1 : (i :: is).countP Instr.isCount = is.countP Instr.isCount := by
              simp [hcnt']
            rw [e1] at h1 h2
            have e2 := exec1_nFin (p := p) (s := s) i hz hcnt'
            show (exec1 p s i).nFin + is.countP Instr.isCount ≤ _ ∧ ((exec1 p s i).nFin + is.countP Instr.isCount = _ → _)
            rw [e2]
            refine ⟨h1, ?_⟩
            intro he h hh hnot
            have := h2 he h hh (by
              simp only [List.mem_cons, not_or]
              exact ⟨fun e => by rw [← e] at hcnt'; simp [Instr.isCount] at hcnt', hnot⟩)
            exact finG_stable wf hi.core hh this i
    · -- finished
      intro hf g hg
      by_cases hc : i = .check
      · subst hc
        by_cases hff : s.finished = true
        · exact finG_stable wf hi.core hg (hi.fin hff g hg) _
        · have hn : s.nFin = p.nTgs := by
            apply Classical.byContradiction
            intro hne
            simp [exec1, hne, hff] at hf
          rcases hi.cnt with h | h | ⟨h1, h2⟩
          · -- zeroCnt cannot follow check
            exfalso
            rw [htodo] at h
            simp only [List.mem_cons, reduceCtorEq, false_or] at h
            obtain ⟨a, b, hab⟩ := List.append_of_mem h
            have hs2 : (Instr.zeroCnt :: b) <:+ prog p.nTgs := by
              refine List.IsSuffix.trans ⟨a, hab.symm⟩ hsuf'
            have hb := suffix_after_zero hs2
            subst hb
            obtain ⟨c, hc⟩ := hsuf
            rw [hab] at hc
            have : prog p.nTgs = (List.range p.nTgs).flatMap phase1 ++ Instr.zeroCnt :: tail2 p.nTgs := rfl
            rw [this] at hc
            have h3 : (c ++ Instr.check :: a) ++ Instr.zeroCnt :: tail2 p.nTgs =
                (List.range p.nTgs).flatMap phase1 ++ Instr.zeroCnt :: tail2 p.nTgs := by
              simpa using hc
            have h4 := List.append_cancel_right h3
            have : Instr.check ∈ (List.range p.nTgs).flatMap phase1 := by rw [← h4]; simp
            simp [phase1] at this
          · rw [htodo] at h; cases h
          · rw [htodo] at h1 h2
            have e1 : (Instr.check :: is).countP Instr.isCount = is.countP Instr.isCount := by simp [Instr.isCount]
            rw [e1] at h1 h2
            have h0 : is.countP Instr.isCount = 0 := by omega
            rw [List.countP_eq_zero] at h0
            have := h2 (by omega) g hg (by
              simp only [List.mem_cons, reduceCtorEq, false_or]
              intro hm; exact h0 _ hm rfl)
            exact finG_stable wf hi.core hg this _
      · have := exec1_finished (p := p) (s := s) i hc
        have hf' : s.finished = true := by rw [← this]; exact hf
        exact finG_stable wf hi.core hg (hi.fin hf' g hg) i

/-! ### Worker steps -/

/-- Frame rule for changes of the status table by a worker. -/
theorem core_wrk {p : Params} {s s' : State} (hi : Core p s)
    (e_tg : s'.tg = s.tg) (e1 : s'.sPend = s.sPend) (e2 : s'.rPend = s.rPend) (e3 : s'.sTest = s.sTest)
    (e4 : s'.rTest = s.rTest) (e5 : s'.sBegun = s.sBegun) (e6 : s'.rBegun = s.rBegun)
    (hab : s'.abort = false)
    (hst : ∀ g r w, g < p.nTgs → r < 6 → w < p.nWrk →
      (s'.st g r w = s.st g r w ∧ s'.exec g r w = s.exec g r w) ∨
      (s.st g r w = .RDY ∧ s'.st g r w = .IPR ∧ s'.exec g r w = s.exec g r w) ∨
      (s.st g r w = .IPR ∧ s'.st g r w = .FIN ∧ s'.exec g r w = s.exec g r w + 1))
    (hwk : ∀ w, w < p.nWrk → WkI p s' w) : Core p s' := by
  refine ⟨?_, by rw [e_tg]; exact hi.pair, ?_, ?_, hwk, hab⟩
  · intro g hg
    rcases hi.grp g hg with hu | ⟨hG, hR⟩
    · left
      refine ⟨by rw [e_tg]; exact hu.1, fun r w hr hw => ?_⟩
      have h0 := hu.2 r w hr hw
      rcases hst g r w hg hr hw with h | h | h
      · rw [h.1, h.2]; exact h0
      · rw [h0.1] at h; cases h.1
      · rw [h0.1] at h; cases h.1
    · right
      rw [e_tg]
      refine ⟨hG, fun r w hr hw => ?_⟩
      have h0 := hR r w hr hw
      rcases hst g r w hg hr hw with h | ⟨a, b, c⟩ | ⟨a, b, c⟩
      · rw [h.1, h.2]; exact h0
      · rw [b, c]; rw [a] at h0
        refine ⟨fun h => ?_, fun h => ?_, fun h => ?_⟩
        · have := (h0.a h).2; rcases this with h | h <;> cases h
        · rcases h0.b h with h | h
          · exact Or.inl ⟨h.1, Or.inr rfl⟩
          · cases h.2
        · cases (h0.d h).2
      · rw [b, c]; rw [a] at h0
        refine ⟨fun h => ?_, fun h => ?_, fun h => ?_⟩
        · have := (h0.a h).2; rcases this with h | h <;> cases h
        · rcases h0.b h with h | h
          · exact Or.inr ⟨by omega, rfl⟩
          · cases h.2
        · cases (h0.d h).2
  · intro ch h1 h2
    obtain ⟨a, b, c⟩ := hi.sch ch h1 h2
    exact ⟨by rw [e1, e3]; exact a, by rw [e1, e_tg]; exact b, by rw [e5, e_tg]; exact c⟩
  · intro ch h1 h2
    obtain ⟨a, b, c⟩ := hi.rch ch h1 h2
    exact ⟨by rw [e2, e4]; exact a, by rw [e2, e_tg]; exact b, by rw [e6, e_tg]; exact c⟩

theorem getWrkTd_some {p : Params} {s : State} {w g r : Nat} (wf : p.WF) (h : getWrkTd p s w = some (g, r)) :
    g < p.nTgs ∧ r < 6 ∧ s.st g r w = .RDY := by
  unfold getWrkTd at h
  have h1 := List.mem_of_find?_eq_some h
  have h2 := List.find?_some h
  rw [wf.order] at h1
  simp at h2
  exact ⟨h1.1, h1.2, h2⟩

theorem core_stepWrk {p : Params} (wf : p.WF) {s : State} (hi : Core p s) (w : Nat) (hw : w < p.nWrk) :
    Core p (stepWrk p s w) := by
  unfold stepWrk
  split
  · split
    · exact hi
    · split
      · exact hi
      · rename_i hidle _ _ g r hget
        obtain ⟨a, b, c⟩ := getWrkTd_some wf hget
        refine core_wrk hi rfl rfl rfl rfl rfl rfl rfl hi.noabort (fun _ _ _ _ _ _ => Or.inl ⟨rfl, rfl⟩) ?_
        intro v hv
        have hk := hi.wki v hv
        by_cases hvw : v = w
        · subst hvw
          refine ⟨?_, ?_, ?_⟩
          · intro g' r' h
            simp at h
            obtain ⟨h1, h2⟩ := h
            subst h1; subst h2
            exact ⟨a, b, c⟩
          · intro g' r' h; simp at h
          · intro g' r' h1 h2 h3
            have := hk.ipr g' r' h1 h2 h3
            rw [hidle] at this; cases this
        · refine ⟨?_, ?_, ?_⟩
          · intro g' r' h; simp [hvw] at h; exact hk.got g' r' h
          · intro g' r' h; simp [hvw] at h; exact hk.run g' r' h
          · intro g' r' h1 h2 h3; simp [hvw]; exact hk.ipr g' r' h1 h2 h3
  · rename_i g r hgot
    obtain ⟨a, b, c⟩ := (hi.wki w hw).got g r hgot
    refine core_wrk hi rfl rfl rfl rfl rfl rfl rfl (by simp [hi.noabort, c]) ?_ ?_
    · intro g' r' v h1 h2 h3
      by_cases h : g' = g ∧ r' = r ∧ v = w
      · obtain ⟨rfl, rfl, rfl⟩ := h
        right; left
        exact ⟨c, by simp, rfl⟩
      · left; exact ⟨by simp [h], rfl⟩
    · intro v hv
      have hk := hi.wki v hv
      by_cases hvw : v = w
      · subst hvw
        refine ⟨?_, ?_, ?_⟩
        · intro g' r' h; simp at h
        · intro g' r' h
          simp at h
          obtain ⟨h1, h2⟩ := h
          subst h1; subst h2
          exact ⟨a, b, by simp⟩
        · intro g' r' h1 h2 h3
          simp only [if_pos]
          by_cases h : g' = g ∧ r' = r
          · obtain ⟨rfl, rfl⟩ := h; rfl
          · have hne : ¬ (g' = g ∧ r' = r ∧ v = v) := fun hh => h ⟨hh.1, hh.2.1⟩
            dsimp only at h3
            rw [if_neg hne] at h3
            have := hk.ipr g' r' h1 h2 h3
            rw [hgot] at this; cases this
      · have hne : ∀ g' r', ¬ (g' = g ∧ r' = r ∧ v = w) := fun _ _ hh => hvw hh.2.2
        refine ⟨?_, ?_, ?_⟩
        · intro g' r' h; simp [hvw] at h; simp only [hne, if_false]; exact hk.got g' r' h
        · intro g' r' h; simp [hvw] at h; simp only [hne, if_false]; exact hk.run g' r' h
        · intro g' r' h1 h2 h3; simp only [hne, if_false] at h3; simp [hvw]; exact hk.ipr g' r' h1 h2 h3
  · rename_i g r hrun
    obtain ⟨a, b, c⟩ := (hi.wki w hw).run g r hrun
    refine core_wrk hi rfl rfl rfl rfl rfl rfl rfl (by simp [hi.noabort, c]) ?_ ?_
    · intro g' r' v h1 h2 h3
      by_cases h : g' = g ∧ r' = r ∧ v = w
      · obtain ⟨rfl, rfl, rfl⟩ := h
        right; right
        exact ⟨c, by simp, by simp⟩
      · left; exact ⟨by simp [h], by simp [h]⟩
    · intro v hv
      have hk := hi.wki v hv
      by_cases hvw : v = w
      · subst hvw
        refine ⟨?_, ?_, ?_⟩
        · intro g' r' h; simp at h
        · intro g' r' h; simp at h
        · intro g' r' h1 h2 h3
          exfalso
          by_cases h : g' = g ∧ r' = r
          · obtain ⟨rfl, rfl⟩ := h
            simp at h3
          · have hne : ¬ (g' = g ∧ r' = r ∧ v = v) := fun hh => h ⟨hh.1, hh.2.1⟩
            dsimp only at h3
            rw [if_neg hne] at h3
            have := hk.ipr g' r' h1 h2 h3
            rw [hrun] at this
            injection this with e1 e2
            exact h ⟨e1.symm, e2.symm⟩
      · have hne : ∀ g' r', ¬ (g' = g ∧ r' = r ∧ v = w) := fun _ _ hh => hvw hh.2.2
        refine ⟨?_, ?_, ?_⟩
        · intro g' r' h; simp [hvw] at h; simp only [hne, if_false]; exact hk.got g' r' h
        · intro g' r' h; simp [hvw] at h; simp only [hne, if_false]; exact hk.run g' r' h
        · intro g' r' h1 h2 h3; simp only [hne, if_false] at h3; simp [hvw]; exact hk.ipr g' r' h1 h2 h3

theorem stepWrk_frame {p : Params} {s : State} (w : Nat) :
    (stepWrk p s w).tg = s.tg ∧ (stepWrk p s w).todo = s.todo ∧ (stepWrk p s w).nFin = s.nFin ∧
    (stepWrk p s w).finished = s.finished := by
  unfold stepWrk
  split
  · split
    · exact ⟨rfl, rfl, rfl, rfl⟩
    · split <;> exact ⟨rfl, rfl, rfl, rfl⟩
  · exact ⟨rfl, rfl, rfl, rfl⟩
  · exact ⟨rfl, rfl, rfl, rfl⟩

/-- Steps that do not change the groups and the scheduler's own variables. -/
theorem inv_frame {p : Params} {s s' : State} (hi : Inv p s) (hc : Core p s')
    (e : s'.tg = s.tg ∧ s'.todo = s.todo ∧ s'.nFin = s.nFin ∧ s'.finished = s.finished) : Inv p s' := by
  obtain ⟨e1, e2, e3, e4⟩ := e
  have hF : ∀ g, FinG p s g → FinG p s' g := by intro g h; unfold FinG at h ⊢; rw [e1]; exact h
  refine ⟨hc, by rw [e2]; exact hi.todo, ?_, ?_⟩
  · rcases hi.cnt with h | h | ⟨h1, h2⟩
    · left; rw [e2]; exact h
    · right; left; rw [e2]; exact h
    · right; right; rw [e2, e3]
      exact ⟨h1, fun h g hg hn => hF g (h2 h g hg hn)⟩
  · rw [e4]; exact fun h g hg => hF g (hi.fin h g hg)

theorem inv_wrk {p : Params} (wf : p.WF) {s : State} (hi : Inv p s) (w : Nat) (hw : w < p.nWrk) :
    Inv p (stepWrk p s w) := inv_frame hi (core_stepWrk wf hi.core w hw) (stepWrk_frame w)

theorem inv_testSend {p : Params} {s : State} (hi : Inv p s) (ch : Nat) (b : Bool) : Inv p (stepTestSend p s ch b) := by
  unfold stepTestSend
  split
  · refine inv_frame hi ?_ ⟨rfl, rfl, rfl, rfl⟩
    have hc := hi.core
    refine ⟨hc.grp, hc.pair, ?_, fun ch h1 h2 => ⟨(hc.rch ch h1 h2).1, (hc.rch ch h1 h2).2, (hc.rch ch h1 h2).3⟩,
      fun w hw => ⟨(hc.wki w hw).1, (hc.wki w hw).2, (hc.wki w hw).3⟩, hc.noabort⟩
    intro c h1 h2
    obtain ⟨a, b, d⟩ := hc.sch c h1 h2
    refine ⟨?_, ?_, d⟩
    · simp only; split
      · simp
      · exact a
    · simp only; split
      · simp
      · exact b
  · exact hi

theorem inv_testRecv {p : Params} {s : State} (hi : Inv p s) (ch : Nat) (b : Bool) : Inv p (stepTestRecv p s ch b) := by
  unfold stepTestRecv
  split
  · refine inv_frame hi ?_ ⟨rfl, rfl, rfl, rfl⟩
    have hc := hi.core
    refine ⟨hc.grp, hc.pair, fun ch h1 h2 => ⟨(hc.sch ch h1 h2).1, (hc.sch ch h1 h2).2, (hc.sch ch h1 h2).3⟩, ?_,
      fun w hw => ⟨(hc.wki w hw).1, (hc.wki w hw).2, (hc.wki w hw).3⟩, hc.noabort⟩
    intro c h1 h2
    obtain ⟨a, b, d⟩ := hc.rch c h1 h2
    refine ⟨?_, ?_, d⟩
    · simp only; split
      · simp
      · exact a
    · simp only; split
      · simp
      · exact b
  · exact hi

theorem inv_step {p : Params} (wf : p.WF) {s : State} (hi : Inv p s) (a : Action) : Inv p (step p s a) := by
  cases a with
  | sched => exact inv_sched wf hi
  | wrk w =>
    simp only [step]; split
    · rename_i h; exact inv_wrk wf hi w h
    · exact hi
  | testSend ch b => exact inv_testSend hi ch b
  | testRecv ch b => exact inv_testRecv hi ch b

theorem inv_init {p : Params} {s : State} (h : Init s) : Inv p s := by
  have hk : TgState.reset.k = 0 := rfl
  refine ⟨⟨?_, ?_, ?_, ?_, ?_, h.abort⟩, ?_, ?_, ?_⟩
  · intro g _
    left
    exact ⟨h.tg g, fun r w _ _ => ⟨h.st g r w, h.exec g r w⟩⟩
  · intro g _
    rw [h.tg, h.tg]
    constructor <;> simp [TgState.reset, umax]
  · intro ch _ _
    refine ⟨?_, ?_, ?_⟩
    · rw [h.sPend]; intro h; cases h
    · rw [h.sPend]; intro h; cases h
    · rw [h.sBegun, h.tg]; simp [TgState.sRounds, TgState.reset, umax]
  · intro ch _ _
    refine ⟨?_, ?_, ?_⟩
    · rw [h.rPend]; intro h; cases h
    · rw [h.rPend]; intro h; cases h
    · rw [h.rBegun, h.tg]; simp [TgState.rRounds, TgState.reset, umax]
  · intro w _
    refine ⟨?_, ?_, ?_⟩
    · intro g r e; rw [h.wk] at e; cases e
    · intro g r e; rw [h.wk] at e; cases e
    · intro g r _ _ e; rw [h.st] at e; cases e
  · rw [h.todo]; exact List.nil_suffix
  · right; left; exact h.todo
  · rw [h.finished]; intro h; cases h

theorem reachable_inv {p : Params} (wf : p.WF) {s : State} (h : Reachable p s) : Inv p s := by
  induction h with
  | init h => exact inv_init h
  | step a _ ih => exact inv_step wf ih a

end Edge.Sched
