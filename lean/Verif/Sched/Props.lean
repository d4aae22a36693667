import Verif.Sched.Fair
import Verif.Sched.Demo
/-!
Properties of the task scheduler (C05-C10), for every reachable state, i.e. for every interleaving of the scheduling
thread, the workers and the message tests.

Vocabulary of the statements (fields of the model's `State` with a direct meaning for a user):
* `s.wk w = .run g r`: worker `w` is executing its package of region `r` of time group `g`;
* `s.exec g r w`: how often worker `w` has completed that package since the start of the interval;
* `s.sPend ch`, `s.rPend ch`: a send/receive request of channel `ch` is active;
* `s.sBegun ch`, `s.rBegun ch`: number of started sends/receives of the channel.
-/
namespace Edge.Sched

/-! ### Names of the six work regions of a time group (`src/impl/seismic/setup.inc:337-399`) -/
abbrev localInner : Nat := 0
abbrev localSend : Nat := 1
abbrev sourceInner : Nat := 2
abbrev sourceSend : Nat := 3
abbrev neighInner : Nat := 4
abbrev neighSend : Nat := 5

/-- A neighbouring update is one of the two kinds. -/
def IsNeigh (r : Nat) : Prop := r = neighInner ∨ r = neighSend
/-- A local step is one of the two kinds. -/
def IsLocal (r : Nat) : Prop := r = localInner ∨ r = localSend

section aux
variable {p : Params} {s : State}

theorem running_facts (wf : p.WF) (hr : Reachable p s) {w g r : Nat} (hw : w < p.nWrk) (h : s.wk w = .run g r) :
    g < p.nTgs ∧ r < 6 ∧ GI (p.N g) (s.tg g).k (s.tg g) ∧ (s.tg g).cf r = 1 ∧ s.exec g r w = (s.tg g).k ∧
    s.st g r w = .IPR := by
  have hi := (reachable_inv wf hr).core
  obtain ⟨a, b, c⟩ := (hi.wki w hw).run g r h
  rcases hi.grp g a with hu | ⟨hG, hR⟩
  · have := (hu.2 r w b hw).1; rw [c] at this; cases this
  · have h0 := hR r w b hw
    rw [c] at h0
    have h1 : (s.tg g).cf r = 1 := by
      rcases Nat.lt_or_ge ((s.tg g).cf r) 1 with h | h
      · have := (h0.a (by omega)).2; rcases this with h | h <;> cases h
      · rcases Nat.lt_or_ge 1 ((s.tg g).cf r) with h | h
        · cases (h0.d h).2
        · omega
    refine ⟨a, b, hG, h1, ?_, c⟩
    rcases h0.b h1 with h | h
    · exact h.1
    · cases h.2

theorem gi_of (wf : p.WF) (hr : Reachable p s) {g : Nat} (hg : g < p.nTgs) (h : (s.tg g).tpI ≠ 0 ∨ (s.tg g).duI ≠ 0 ∨ (s.tg g).ts ≠ 0) :
    GI (p.N g) (s.tg g).k (s.tg g) ∧
      ∀ r w, r < 6 → w < p.nWrk → RI (s.tg g).k ((s.tg g).cf r) (s.st g r w) (s.exec g r w) := by
  rcases (reachable_inv wf hr).core.grp g hg with hu | h'
  · rw [hu.1] at h; simp [TgState.reset] at h
  · exact h'

/-- While a group executes a neighbouring update of its step `k`, the next faster one has completed exactly `2(k+1)` predictions. -/
theorem neigh_faster (wf : p.WF) (hr : Reachable p s) {w g r : Nat} (hw : w < p.nWrk) (hn : IsNeigh r)
    (h : s.wk w = .run (g + 1) r) (v : Nat) (hv : v < p.nWrk) (q : Nat) (hq : IsLocal q) :
    s.exec g q v = 2 * (s.exec (g + 1) r w + 1) ∧ s.st g q v = .FIN := by
  obtain ⟨a, b, hG, c, e, _⟩ := running_facts wf hr hw h
  have hp := (reachable_inv wf hr).core.pair g a
  have h1 : (1 ≤ (s.tg (g+1)).c4 ∧ (s.tg (g+1)).c4 ≤ 4) ∨ (1 ≤ (s.tg (g+1)).c5 ∧ (s.tg (g+1)).c5 ≤ 4) := by
    rcases hn with rfl | rfl
    · left; simp [TgState.cf] at c; omega
    · right; simp [TgState.cf] at c; omega
  have h4 := hp.iv h1
  obtain ⟨hA, hR⟩ := gi_of wf hr (show g < p.nTgs by omega) (Or.inl (by omega))
  have h3 : (s.tg g).ts ≤ 2 * (s.tg (g+1)).k + 1 := by
    have := hp.ii; have := hG.uI; have := hG.uS
    rcases hn with rfl | rfl
    · simp [TgState.cf] at c; omega
    · simp [TgState.cf] at c; omega
  have h5 : (s.tg g).k ≤ (s.tg g).ts := by unfold TgState.k; split <;> omega
  have := hA.pI; have := hA.pS
  have hk : (s.tg g).k = 2 * (s.tg (g+1)).k + 1 := by omega
  have hc : 2 ≤ (s.tg g).cf q := by rcases hq with rfl | rfl <;> simp [TgState.cf] <;> omega
  have := (hR q v (by rcases hq with rfl | rfl <;> decide) hv).d hc
  rw [e]
  exact ⟨by omega, this.2⟩

theorem neigh_slower (wf : p.WF) (hr : Reachable p s) {w g r : Nat} (hw : w < p.nWrk) (hn : IsNeigh r)
    (h : s.wk w = .run g r) (hg : g + 1 < p.nTgs) (v : Nat) (hv : v < p.nWrk) (q : Nat) (hq : IsLocal q) :
    s.exec (g + 1) q v = s.exec g r w / 2 + 1 ∧ s.st (g + 1) q v = .FIN := by
  obtain ⟨a, b, hG, c, e, _⟩ := running_facts wf hr hw h
  have hp := (reachable_inv wf hr).core.pair g hg
  have h1 : (1 ≤ (s.tg g).c4 ∧ (s.tg g).c4 ≤ 4) ∨ (1 ≤ (s.tg g).c5 ∧ (s.tg g).c5 ≤ 4) := by
    rcases hn with rfl | rfl
    · left; simp [TgState.cf] at c; omega
    · right; simp [TgState.cf] at c; omega
  have h4 := hp.i h1
  obtain ⟨hA, hR⟩ := gi_of wf hr hg (Or.inl (by omega))
  have h3 : 2 * (s.tg (g+1)).ts ≤ (s.tg g).k := by
    have := hp.iii; have := hG.uI; have := hG.uS
    rcases hn with rfl | rfl
    · simp [TgState.cf] at c; omega
    · simp [TgState.cf] at c; omega
  have h5 : (s.tg (g+1)).k ≤ (s.tg (g+1)).ts := by unfold TgState.k; split <;> omega
  have := hA.pI; have := hA.pS
  have hk : (s.tg (g+1)).k = (s.tg g).k / 2 := by omega
  have hc : 2 ≤ (s.tg (g+1)).cf q := by rcases hq with rfl | rfl <;> simp [TgState.cf] <;> omega
  have := (hR q v (by rcases hq with rfl | rfl <;> decide) hv).d hc
  rw [e]
  exact ⟨by omega, this.2⟩

theorem neigh_self (wf : p.WF) (hr : Reachable p s) {w g r : Nat} (hw : w < p.nWrk) (hn : IsNeigh r)
    (h : s.wk w = .run g r) (v : Nat) (hv : v < p.nWrk) (q : Nat) (hq : IsLocal q) :
    s.exec g q v = s.exec g r w + 1 ∧ s.st g q v = .FIN := by
  obtain ⟨a, b, hG, c, e, _⟩ := running_facts wf hr hw h
  have hcc : 4 ≤ (s.tg g).c0 ∧ 4 ≤ (s.tg g).c1 := by
    have := hG.r4; have := hG.r5; have := hG.x4; have := hG.x5
    rcases hn with rfl | rfl <;> simp [TgState.cf] at c <;> omega
  obtain ⟨hA, hR⟩ := gi_of wf hr a (Or.inl (by have := hG.pI; omega))
  have hc : 2 ≤ (s.tg g).cf q := by rcases hq with rfl | rfl <;> simp [TgState.cf] <;> omega
  have := (hR q v (by rcases hq with rfl | rfl <;> decide) hv).d hc
  rw [e]
  exact this

end aux

/-- **C05.** Whenever worker `w` executes a neighbouring update (inner or send elements) of group `g` for its step
`k` (it has completed it `k` times before), every worker has completed the local step (inner and send) exactly `k+1` times in
group `g`, `2(k+1)` times in the next faster group and `⌊k/2⌋+1` times in the next slower one. -/
theorem C05_neigh_reads_matching_predictions {p : Params} (wf : p.WF) {s : State} (hr : Reachable p s)
    {w g r k : Nat} (hw : w < p.nWrk) (hn : IsNeigh r) (h : s.wk w = .run g r) (hk : k = s.exec g r w)
    {v q : Nat} (hv : v < p.nWrk) (hq : IsLocal q) :
    s.exec g q v = k + 1 ∧
    (∀ f, f + 1 = g → s.exec f q v = 2 * (k + 1)) ∧
    (g + 1 < p.nTgs → s.exec (g + 1) q v = k / 2 + 1) := by
  subst hk
  refine ⟨(neigh_self wf hr hw hn h v hv q hq).1, ?_, fun hg => (neigh_slower wf hr hw hn h hg v hv q hq).1⟩
  rintro f rfl
  exact (neigh_faster wf hr hw hn h v hv q hq).1

/-- Worker 0 executes the second neighbouring update (`k = 1`) of the send elements of group 1. -/
example : ∃ s, Reachable Demo.p s ∧ s.wk 0 = .run 1 neighSend ∧ s.exec 1 neighSend 0 = 1 ∧ s.exec 0 localInner 1 = 4 :=
  ⟨Demo.at' 25 [], Demo.reach _, by decide +kernel, by decide +kernel, by decide +kernel⟩

/-- Worker 0 executes the third neighbouring update (`k = 2`) of the inner elements of group 0. -/
example : ∃ s, Reachable Demo.p s ∧ s.wk 0 = .run 0 neighInner ∧ s.exec 0 neighInner 0 = 2 ∧ s.exec 1 localSend 1 = 2 :=
  ⟨Demo.at' 20 [], Demo.reach _, by decide +kernel, by decide +kernel, by decide +kernel⟩

/-- **C06**, first part.  While a worker executes a neighbouring update of group `g`, no worker executes (and none is about to execute) a
local step of `g`, of the next faster or of the next slower group. -/
theorem C06_no_local_during_neigh {p : Params} (wf : p.WF) {s : State} (hr : Reachable p s)
    {w g r : Nat} (hw : w < p.nWrk) (hn : IsNeigh r) (h : s.wk w = .run g r)
    {v q f : Nat} (hv : v < p.nWrk) (hq : IsLocal q) (hf : f = g ∨ f + 1 = g ∨ (f = g + 1 ∧ g + 1 < p.nTgs)) :
    s.wk v ≠ .run f q ∧ s.wk v ≠ .got f q := by
  have hst : s.st f q v = .FIN := by
    rcases hf with rfl | rfl | ⟨rfl, hg⟩
    · exact (neigh_self wf hr hw hn h v hv q hq).2
    · exact (neigh_faster wf hr hw hn h v hv q hq).2
    · exact (neigh_slower wf hr hw hn h hg v hv q hq).2
  have hk := (reachable_inv wf hr).core.wki v hv
  constructor
  · intro h'; have := (hk.run f q h').2.2; rw [hst] at this; cases this
  · intro h'; have := (hk.got f q h').2.2; rw [hst] at this; cases this

/-- While worker 1 executes a neighbouring update of group 1, worker 0 is busy with a source step of group 0: the exclusion only
concerns local steps. -/
example : ∃ s, Reachable Demo.p s ∧ s.wk 1 = .run 1 neighSend ∧ s.wk 0 = .got 0 sourceInner :=
  ⟨Demo.at' 25 (List.replicate 41 .sched ++ [.wrk 0, .wrk 0]), Demo.reach _, by decide +kernel, by decide +kernel⟩

/-- **C06**, second part.  Regions which update the same DOFs (those of inner elements: 0, 2, 4; those of send elements: 1, 3, 5) of a
group are never executed concurrently, by whichever workers. -/
theorem C06_dof_updates_exclusive {p : Params} (wf : p.WF) {s : State} (hr : Reachable p s)
    {w v g r q : Nat} (hw : w < p.nWrk) (hv : v < p.nWrk) (h1 : s.wk w = .run g r) (h2 : s.wk v = .run g q)
    (hkind : r % 2 = q % 2) : r = q := by
  obtain ⟨a, b, hG, c, _, _⟩ := running_facts wf hr hw h1
  obtain ⟨_, b', _, c', _, _⟩ := running_facts wf hr hv h2
  have := hG.r2; have := hG.r3; have := hG.r4; have := hG.r5
  have e : r = 0 ∨ r = 1 ∨ r = 2 ∨ r = 3 ∨ r = 4 ∨ r = 5 := by omega
  have e' : q = 0 ∨ q = 1 ∨ q = 2 ∨ q = 3 ∨ q = 4 ∨ q = 5 := by omega
  rcases e with rfl | rfl | rfl | rfl | rfl | rfl <;> rcases e' with rfl | rfl | rfl | rfl | rfl | rfl <;>
    simp [TgState.cf] at c c' hkind ⊢ <;> omega

/-- Two workers work on the same region at the same time. -/
example : ∃ s, Reachable Demo.p s ∧ s.wk 0 = .run 0 neighInner ∧ s.wk 1 = .run 0 neighInner :=
  ⟨Demo.at' 20 [], Demo.reach _, by decide +kernel, by decide +kernel⟩

/-- **C06**, third part: when the local step `k` of a group is executed (overwriting its predictions), all consumers of the previous
prediction are done: the group's own neighbouring updates of the steps `< k`, the updates `< 2k` of the next faster group and the updates
`< ⌊k/2⌋` of the next slower group (which reads the sum over two steps). -/
theorem C06_overwrite_after_consumption {p : Params} (wf : p.WF) {s : State} (hr : Reachable p s)
    {w g q k : Nat} (hw : w < p.nWrk) (hq : IsLocal q) (h : s.wk w = .run g q) (hk : k = s.exec g q w)
    {v r : Nat} (hv : v < p.nWrk) (hn : IsNeigh r) :
    s.exec g r v = k ∧ (∀ f, f + 1 = g → 2 * k ≤ s.exec f r v) ∧ (g + 1 < p.nTgs → k / 2 ≤ s.exec (g + 1) r v) := by
  obtain ⟨a, b, hG, c, e, hst⟩ := running_facts wf hr hw h
  subst hk
  have hcore := (reachable_inv wf hr).core
  have hr6 : r < 6 := by rcases hn with rfl | rfl <;> decide
  have hne4 : (s.tg g).c4 = 0 ∨ (s.tg g).c5 = 0 := by
    have := hG.r4; have := hG.r5
    rcases hq with rfl | rfl <;> simp [TgState.cf] at c <;> omega
  have hts : (s.tg g).ts = (s.tg g).k := by
    have := hG.d1; have := hG.d2
    have : (s.tg g).c4 ≠ 4 := by
      intro h4; rcases hne4 with h | h
      · omega
      · have := hG.d1 h4; omega
    exact (hG.d2 this).2
  have duLe : ∀ x, x < p.nTgs → (s.tg x).duI ≤ s.exec x 4 v ∧ (s.tg x).duS ≤ s.exec x 5 v := by
    intro x hx
    rcases hcore.grp x hx with hu | ⟨hX, hR⟩
    · rw [hu.1]; simp [TgState.reset]
    · have h4 := hR 4 v (by decide) hv
      have h5 := hR 5 v (by decide) hv
      have e4 : (s.tg x).cf 4 = (s.tg x).c4 := rfl
      have e5 : (s.tg x).cf 5 = (s.tg x).c5 := rfl
      rw [e4] at h4; rw [e5] at h5
      obtain ⟨a4, b4, d4⟩ := h4
      obtain ⟨a5, b5, d5⟩ := h5
      have := hX.uI; have := hX.uS
      constructor
      · rcases Nat.lt_or_ge (s.tg x).c4 2 with hh | hh
        · rcases Nat.lt_or_ge (s.tg x).c4 1 with h1 | h1
          · have := a4 (by omega); omega
          · have := b4 (by omega); omega
        · have := d4 hh; omega
      · rcases Nat.lt_or_ge (s.tg x).c5 2 with hh | hh
        · rcases Nat.lt_or_ge (s.tg x).c5 1 with h1 | h1
          · have := a5 (by omega); omega
          · have := b5 (by omega); omega
        · have := d5 hh; omega
  rw [e]
  refine ⟨?_, ?_, ?_⟩
  · rcases hcore.grp g a with hu | ⟨_, hR⟩
    · have := (hu.2 q w b hw).1; rw [hst] at this; cases this
    · have hz : (s.tg g).cf r = 0 := by
        have := hG.r4; have := hG.r5; have := hG.x4; have := hG.x5
        rcases hq with rfl | rfl <;> rcases hn with rfl | rfl <;> simp [TgState.cf] at c ⊢ <;> omega
      exact ((hR r v hr6 hv).a hz).1
  · rintro f rfl
    have := (hcore.pair f a).iii
    have := duLe f (by omega)
    rcases hn with rfl | rfl <;> simp only [neighInner, neighSend] <;> omega
  · intro hg
    have := (hcore.pair g hg).ii
    have := duLe (g+1) hg
    rcases hn with rfl | rfl <;> simp only [neighInner, neighSend] <;> omega

/-- Worker 0 executes the fourth local step (`k = 3`) of group 0. -/
example : ∃ s, Reachable Demo.p s ∧ s.wk 0 = .run 0 localSend ∧ s.exec 0 localSend 0 = 3 ∧ s.exec 1 neighInner 1 = 1 :=
  ⟨Demo.at' 22 (List.replicate 41 .sched ++ [.wrk 0, .wrk 0]), Demo.reach _, by decide +kernel, by decide +kernel,
    by decide +kernel⟩

/-- **C07.** No fatal status check of the shared memory layer fires. -/
theorem C07_no_abort {p : Params} (wf : p.WF) {s : State} (hr : Reachable p s) : s.abort = false :=
  (reachable_inv wf hr).core.noabort

/-- The checks are not vacuous: from an unreachable state the model does abort. -/
example : (stepWrk Demo.p { Demo.s0 with wk := fun _ => .got 0 0 } 0).abort = true := by decide +kernel

/-- Completion is reported forever, and it means that everything is done. -/
theorem after_finish {p : Params} (wf : p.WF) {σ : Nat → State} {a : Nat → Action} (hx : Exec p σ a) {T : Nat}
    (hT : (σ T).finished = true) :
    ∀ i, T ≤ i → (σ i).finished = true ∧ (∀ g, g < p.nTgs → ((σ i).tg g).ts = p.N g) ∧
      (∀ w, w < p.nWrk → (σ i).wk w = .idle) := by
  have hfin : ∀ n, (σ (T + n)).finished = true := by
    intro n
    induction n with
    | zero => exact hT
    | succ n ih =>
      show (σ (T + n + 1)).finished = true
      rw [hx.next]
      cases a (T + n) with
      | sched =>
        simp only [step, stepSched]
        split
        · simp [ih]
        · rename_i x xs _
          simp only
          by_cases hc : x = .check
          · subst hc; simp only [exec1]; split
            · rfl
            · exact ih
          · rw [exec1_finished x hc]; exact ih
      | wrk w =>
        simp only [step]; split
        · rw [(stepWrk_frame w).2.2.2]; exact ih
        · exact ih
      | testSend ch b => simp only [step, stepTestSend]; split <;> exact ih
      | testRecv ch b => simp only [step, stepTestRecv]; split <;> exact ih
  intro i hi
  have h1 : (σ i).finished = true := by
    have := hfin (i - T); rwa [show T + (i - T) = i by omega] at this
  have hI := reachable_inv wf (exec_reach hx i)
  refine ⟨h1, fun g hg => (hI.fin h1 g hg).1, ?_⟩
  intro w hw
  have hk := hI.core.wki w hw
  have nost : ∀ g r, g < p.nTgs → r < 6 → (σ i).st g r w = .FIN := by
    intro g r hg hr6
    obtain ⟨c0, c1, c2, c3, c4, c5, c6, c7⟩ := finG_vals wf hI.core hg (hI.fin h1 g hg)
    rcases hI.core.grp g hg with hu | ⟨_, hR⟩
    · rw [hu.1] at c0; simp [TgState.reset, umax] at c0
    · refine ((hR r w hr6 hw).d ?_).2
      have : r = 0 ∨ r = 1 ∨ r = 2 ∨ r = 3 ∨ r = 4 ∨ r = 5 := by omega
      rcases this with rfl | rfl | rfl | rfl | rfl | rfl <;> simp [TgState.cf] <;> omega
  cases h : (σ i).wk w with
  | idle => rfl
  | got g r => obtain ⟨b, c, d⟩ := hk.got g r h; rw [nost g r b c] at d; cases d
  | run g r => obtain ⟨b, c, d⟩ := hk.run g r h; rw [nost g r b c] at d; cases d

/-- **C08.** Every fair execution of an interval (`Exec`: an arbitrary infinite interleaving starting in an initial state; `Fair`: scheduler and
workers keep running, started messages eventually complete) reaches completion: the manager reports it, from then on forever, all groups have
performed all their steps and all workers have left their work. -/
theorem C08_terminates {p : Params} (wf : p.WF) {σ : Nat → State} {a : Nat → Action} (hx : Exec p σ a) (hf : Fair p σ a) :
    ∃ T, ∀ i, T ≤ i → (σ i).finished = true ∧ (∀ g, g < p.nTgs → ((σ i).tg g).ts = p.N g) ∧
      (∀ w, w < p.nWrk → (σ i).wk w = .idle) := by
  obtain ⟨T, hT⟩ := fair_finishes wf hx hf
  exact ⟨T, after_finish wf hx hT⟩

theorem Demo.round_length : Demo.round.length = 53 := by decide

/-- Round-robin execution of the demo configuration. -/
def Demo.act (i : Nat) : Action :=
  Demo.round[i % 53]'(by rw [Demo.round_length]; omega)
def Demo.sig : Nat → State
  | 0 => Demo.s0
  | i + 1 => step Demo.p (Demo.sig i) (Demo.act i)

/-- The hypotheses of C08 are met by an actual execution. -/
example : Exec Demo.p Demo.sig Demo.act ∧ Fair Demo.p Demo.sig Demo.act := by
  have key : ∀ c, c < 53 → ∀ i, ∃ j, i ≤ j ∧ j % 53 = c := fun c hc i => ⟨53 * (i + 1) + c, by omega, by omega⟩
  have act : ∀ j c (h : c < 53), j % 53 = c → Demo.act j = Demo.round[c]'(by rw [Demo.round_length]; omega) := by
    intro j c h e; subst e; rfl
  refine ⟨⟨Demo.init_s0, fun _ => rfl⟩, ⟨?_, ?_, ?_, ?_⟩⟩
  · intro i
    obtain ⟨j, h1, h2⟩ := key 0 (by decide) i
    exact ⟨j, h1, by rw [act j 0 (by decide) h2]; rfl⟩
  · intro w hw i
    have : w = 0 ∨ w = 1 := by simp only [Demo.p] at hw; omega
    rcases this with rfl | rfl
    · obtain ⟨j, h1, h2⟩ := key 43 (by decide) i
      exact ⟨j, h1, by rw [act j 43 (by decide) h2]; rfl⟩
    · obtain ⟨j, h1, h2⟩ := key 44 (by decide) i
      exact ⟨j, h1, by rw [act j 44 (by decide) h2]; rfl⟩
  · intro ch hc i
    have : ch = 0 := by simp only [Demo.p] at hc; omega
    subst this
    obtain ⟨j, h1, h2⟩ := key 41 (by decide) i
    exact ⟨j, h1, true, by rw [act j 41 (by decide) h2]; rfl, fun _ => rfl⟩
  · intro ch hc i
    have : ch = 0 := by simp only [Demo.p] at hc; omega
    subst this
    obtain ⟨j, h1, h2⟩ := key 42 (by decide) i
    exact ⟨j, h1, true, by rw [act j 42 (by decide) h2]; rfl, fun _ => rfl⟩

/-- **C09**, during the interval: if a group has completed `n` updates, every worker has executed every region `n` or (in the current step)
`n+1` times, never more and never fewer. -/
theorem C09_once_per_step {p : Params} (wf : p.WF) {s : State} (hr : Reachable p s) {g r w : Nat}
    (hg : g < p.nTgs) (hr6 : r < 6) (hw : w < p.nWrk) :
    (s.tg g).ts ≤ s.exec g r w ∧ s.exec g r w ≤ (s.tg g).ts + 1 ∧ s.exec g r w ≤ p.N g := by
  rcases (reachable_inv wf hr).core.grp g hg with hu | ⟨hG, hR⟩
  · have := (hu.2 r w hr6 hw).2
    rw [hu.1, this]; simp [TgState.reset]
  · obtain ⟨a, b, d⟩ := hR r w hr6 hw
    have h1 := hG.d1; have h2 := hG.d2; have := hG.lt
    have hcf : (s.tg g).c4 = 4 → 2 ≤ (s.tg g).cf r := by
      intro h
      have h5 := (h1 h).1
      have := hG.r4; have := hG.r5; have := hG.r2; have := hG.r3
      have e : r = 0 ∨ r = 1 ∨ r = 2 ∨ r = 3 ∨ r = 4 ∨ r = 5 := by omega
      rcases e with rfl | rfl | rfl | rfl | rfl | rfl <;> simp [TgState.cf] <;> omega
    by_cases h4 : (s.tg g).c4 = 4
    · have := d (hcf h4); have := h1 h4; omega
    · have := h2 h4
      rcases Nat.lt_or_ge ((s.tg g).cf r) 2 with hh | hh
      · rcases Nat.lt_or_ge ((s.tg g).cf r) 1 with h1 | h1
        · have := a (by omega); omega
        · have := b (by omega); omega
      · have := d hh; omega

/-- **C09**, order: in every step the neighbouring update follows the source step of all workers and the source step follows the local step of all
workers (inner elements: 0, 2, 4; send elements: 1, 3, 5), so the numbers of executions never overtake each other. -/
theorem C09_order {p : Params} (wf : p.WF) {s : State} (hr : Reachable p s) {g w v kind : Nat}
    (hg : g < p.nTgs) (hw : w < p.nWrk) (hv : v < p.nWrk) (hk : kind < 2) :
    s.exec g (4 + kind) w ≤ s.exec g (2 + kind) v ∧ s.exec g (2 + kind) w ≤ s.exec g kind v := by
  rcases (reachable_inv wf hr).core.grp g hg with hu | ⟨hG, hR⟩
  · have := (hu.2 (4 + kind) w (by omega) hw).2
    have := (hu.2 (2 + kind) w (by omega) hw).2
    omega
  · have := hG.r2; have := hG.r3; have := hG.r4; have := hG.r5
    have hcc : ((s.tg g).cf (4 + kind) ≠ 0 → 2 ≤ (s.tg g).cf (2 + kind)) ∧
        ((s.tg g).cf (2 + kind) ≠ 0 → 2 ≤ (s.tg g).cf kind) := by
      have e : kind = 0 ∨ kind = 1 := by omega
      rcases e with rfl | rfl <;> simp [TgState.cf] <;> omega
    have bnd : ∀ r u, r < 6 → u < p.nWrk → (s.tg g).k ≤ s.exec g r u ∧ s.exec g r u ≤ (s.tg g).k + 1 ∧
        ((s.tg g).cf r = 0 → s.exec g r u = (s.tg g).k) ∧ (2 ≤ (s.tg g).cf r → s.exec g r u = (s.tg g).k + 1) := by
      intro r u h1 h2
      obtain ⟨a, b, d⟩ := hR r u h1 h2
      refine ⟨?_, ?_, fun h => (a h).1, fun h => (d h).1⟩ <;>
      · rcases Nat.lt_or_ge ((s.tg g).cf r) 2 with hh | hh
        · rcases Nat.lt_or_ge ((s.tg g).cf r) 1 with h1 | h1
          · have := a (by omega); omega
          · have := b (by omega); omega
        · have := d hh; omega
    have b1 := bnd (4 + kind) w (by omega) hw
    have b2 := bnd (2 + kind) v (by omega) hv
    have b3 := bnd (2 + kind) w (by omega) hw
    have b4 := bnd kind v (by omega) hv
    constructor
    · by_cases h : (s.tg g).cf (4 + kind) = 0
      · have := b1.2.2.1 h; omega
      · have := b2.2.2.2 (hcc.1 h); omega
    · by_cases h : (s.tg g).cf (2 + kind) = 0
      · have := b3.2.2.1 h; omega
      · have := b4.2.2.2 (hcc.2 h); omega

/-- **C09**, end of the interval: when the manager reports completion, every group has performed all its steps and every worker has executed
every region exactly once per step. -/
theorem C09_finished {p : Params} (wf : p.WF) {s : State} (hr : Reachable p s) (hf : s.finished = true)
    {g r w : Nat} (hg : g < p.nTgs) (hr6 : r < 6) (hw : w < p.nWrk) :
    (s.tg g).ts = p.N g ∧ s.exec g r w = p.N g ∧ s.wk w ≠ .run g r := by
  have hi := reachable_inv wf hr
  have hF := hi.fin hf g hg
  have h1 := C09_once_per_step wf hr hg hr6 hw
  refine ⟨hF.1, by have := hF.1; omega, ?_⟩
  intro h
  obtain ⟨_, _, _, c, _, _⟩ := running_facts wf hr hw h
  obtain ⟨c0, c1, c2, c3, c4, c5, c6, c7⟩ := finG_vals wf hi.core hg hF
  have e : r = 0 ∨ r = 1 ∨ r = 2 ∨ r = 3 ∨ r = 4 ∨ r = 5 := by omega
  rcases e with rfl | rfl | rfl | rfl | rfl | rfl <;> simp [TgState.cf] at c <;> omega

/-- The demo configuration does finish. -/
example : ∃ s, Reachable Demo.p s ∧ s.finished = true ∧ s.exec 0 neighSend 1 = 4 ∧ s.exec 1 neighSend 1 = 2 :=
  ⟨Demo.at' 28 [], Demo.reach _, by decide +kernel, by decide +kernel, by decide +kernel⟩

/-- **C10**, send side: while a worker executes the local step of the send elements of a group (writing the send buffers), no send of
the group is pending, and as many messages have been started as there are completed steps (every second one towards slower groups). -/
theorem C10_send_buffer_idle {p : Params} (wf : p.WF) {s : State} (hr : Reachable p s) {w g : Nat} (hw : w < p.nWrk)
    (h : s.wk w = .run g localSend) {ch : Nat} (hc : ch < p.nCh) (hg : p.tgL ch = g) :
    s.sPend ch = false ∧
    s.sBegun ch = (if g < p.tgR ch then s.exec g localSend w / 2 else s.exec g localSend w) := by
  obtain ⟨a, b, hG, c, e, _⟩ := running_facts wf hr hw h
  have hS := (reachable_inv wf hr).core.sch ch hc (by omega)
  have c1 : (s.tg g).c1 = 1 := by simpa [TgState.cf] using c
  have := hG.s6; have := hG.sN
  have h6 : (s.tg g).c6 = 0 := by omega
  constructor
  · cases hp : s.sPend ch with
    | false => rfl
    | true => have := (hS.c hp).1; rw [hg] at this; omega
  · have := hS.n
    rw [hg] at this
    rw [this, e]
    simp only [TgState.sRounds, h6]
    have : (s.tg g).nS = (s.tg g).k := by omega
    simp [this]

/-- Worker 0 writes the send buffers of group 0 in step 3. -/
example : ∃ s, Reachable Demo.p s ∧ s.wk 0 = .run 0 localSend ∧ s.exec 0 localSend 0 = 3 ∧ Demo.p.tgL 0 = 0 ∧ s.sBegun 0 = 1 :=
  ⟨Demo.at' 22 (List.replicate 41 .sched ++ [.wrk 0, .wrk 0]), Demo.reach _, by decide +kernel, by decide +kernel, rfl,
    by decide +kernel⟩

/-- **C10**, receive side: while a worker executes the neighbouring update of the send elements of a group for its step `k` (reading the receive
buffers), no receive of the group is pending, and exactly the messages of the steps `≤ k` have been received (from a slower group one for
two steps). -/
theorem C10_recv_buffer_idle {p : Params} (wf : p.WF) {s : State} (hr : Reachable p s) {w g : Nat} (hw : w < p.nWrk)
    (h : s.wk w = .run g neighSend) {ch : Nat} (hc : ch < p.nCh) (hg : p.tgL ch = g) :
    s.rPend ch = false ∧
    s.rBegun ch = (if g < p.tgR ch then s.exec g neighSend w / 2 + 1 else s.exec g neighSend w + 1) := by
  obtain ⟨a, b, hG, c, e, _⟩ := running_facts wf hr hw h
  have hS := (reachable_inv wf hr).core.rch ch hc (by omega)
  have c5 : (s.tg g).c5 = 1 := by simpa [TgState.cf] using c
  have := hG.r7; have := hG.rN
  have h7 : (s.tg g).c7 = 0 := by omega
  constructor
  · cases hp : s.rPend ch with
    | false => rfl
    | true => have := (hS.c hp).1; rw [hg] at this; omega
  · have := hS.n
    rw [hg] at this
    rw [this, e]
    simp only [TgState.rRounds, h7]
    have : (s.tg g).nR = (s.tg g).k + 1 := by omega
    simp only [this]
    split <;> simp <;> omega

/-- Worker 0 reads the receive buffers of group 0 in step 2. -/
example : ∃ s, Reachable Demo.p s ∧ s.wk 0 = .run 0 neighSend ∧ s.exec 0 neighSend 0 = 2 ∧ s.rBegun 0 = 2 :=
  ⟨Demo.at' 19 (List.replicate 41 .sched ++ [.wrk 0, .wrk 0]), Demo.reach _, by decide +kernel, by decide +kernel,
    by decide +kernel⟩

/-- **C10**, a message is only started after its data has been written: the `m`-th message of a channel requires `m` completed local steps of
the send elements by every worker, `2m` towards a slower group. -/
theorem C10_send_after_write {p : Params} (wf : p.WF) {s : State} (hr : Reachable p s) {w : Nat} (hw : w < p.nWrk)
    {ch : Nat} (hc : ch < p.nCh) (hg : p.tgL ch < p.nTgs) :
    (if p.tgL ch < p.tgR ch then 2 * s.sBegun ch else s.sBegun ch) ≤ s.exec (p.tgL ch) localSend w := by
  have hS := (reachable_inv wf hr).core.sch ch hc hg
  have key : (s.tg (p.tgL ch)).sRounds ≤ s.exec (p.tgL ch) 1 w := by
    rcases (reachable_inv wf hr).core.grp _ hg with hu | ⟨hG, hR⟩
    · rw [hu.1]; simp [TgState.sRounds, TgState.reset, umax]
    · obtain ⟨a, b, d⟩ := hR 1 w (by decide) hw
      have e : (s.tg (p.tgL ch)).cf 1 = (s.tg (p.tgL ch)).c1 := rfl
      rw [e] at a b d
      have := hG.sN; have := hG.s6
      unfold TgState.sRounds
      rcases Nat.lt_or_ge (s.tg (p.tgL ch)).c1 2 with hh | hh
      · rcases Nat.lt_or_ge (s.tg (p.tgL ch)).c1 1 with h1 | h1
        · have := a (by omega); split <;> omega
        · have := b (by omega); split <;> omega
      · have := d hh; split <;> omega
  have := hS.n
  split at this <;> simp only [localSend] <;> split <;> omega

/-- **C10**, number of messages: at the end of an interval, no message is pending; as many sends and receives have been started as the group
performs steps, half as many for channels to a slower group. -/
theorem C10_message_count {p : Params} (wf : p.WF) {s : State} (hr : Reachable p s) (hf : s.finished = true)
    {ch : Nat} (hc : ch < p.nCh) (hL : p.tgL ch < p.nTgs) (hR : p.tgR ch < p.nTgs) :
    s.sPend ch = false ∧ s.rPend ch = false ∧ s.sBegun ch = s.rBegun ch ∧
    (if p.tgL ch < p.tgR ch then 2 * s.sBegun ch = p.N (p.tgL ch) else s.sBegun ch = p.N (p.tgL ch)) := by
  have hi := reachable_inv wf hr
  have hF := hi.fin hf _ hL
  obtain ⟨c0, c1, c2, c3, c4, c5, c6, c7⟩ := finG_vals wf hi.core hL hF
  have hS := hi.core.sch ch hc hL
  have hRc := hi.core.rch ch hc hL
  have hn1 := hS.n; have hn2 := hRc.n
  rcases hi.core.grp _ hL with hu | ⟨hG, _⟩
  · rw [hu.1] at c0; simp [TgState.reset, umax] at c0
  have hd := (hG.d1 c4)
  have hsR : (s.tg (p.tgL ch)).sRounds = p.N (p.tgL ch) := by
    have := hG.sN; unfold TgState.sRounds; split <;> omega
  have hrR : (s.tg (p.tgL ch)).rRounds = p.N (p.tgL ch) := by
    have := hG.rN; unfold TgState.rRounds; split <;> omega
  refine ⟨?_, ?_, ?_⟩
  · cases hp : s.sPend ch with
    | false => rfl
    | true => have := (hS.c hp).1; omega
  · cases hp : s.rPend ch with
    | false => rfl
    | true => have := (hRc.c hp).1; omega
  · rw [hsR] at hn1; rw [hrR] at hn2
    by_cases hlt : p.tgL ch < p.tgR ch
    · have h2 := wf.two (p.tgL ch) (by omega)
      simp only [hlt, if_true] at hn1 hn2 ⊢
      omega
    · simp only [hlt, if_false] at hn1 hn2 ⊢
      omega

/-- Group 0 has performed four steps and has started two messages to the slower remote group. -/
example : ∃ s, Reachable Demo.p s ∧ s.finished = true ∧ s.sBegun 0 = 2 ∧ s.rBegun 0 = 2 :=
  ⟨Demo.at' 28 [], Demo.reach _, by decide +kernel, by decide +kernel, by decide +kernel⟩

end Edge.Sched
