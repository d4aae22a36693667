import Verif.Sched.Term
/-! Fair executions reach completion (lemmas for C08). -/
namespace Edge.Sched

/-- An infinite execution: a sequence of states and the actions between them. -/
structure Exec (p : Params) (σ : Nat → State) (a : Nat → Action) : Prop where
  init : Init (σ 0)
  next : ∀ i, σ (i + 1) = step p (σ i) (a i)

/-- Fairness: the scheduling thread and every worker take infinitely many steps, and the requests of every channel are tested infinitely often
at a time when they are inactive or complete (messages eventually complete). -/
structure Fair (p : Params) (σ : Nat → State) (a : Nat → Action) : Prop where
  sched : ∀ i, ∃ j, i ≤ j ∧ a j = .sched
  wrk : ∀ w, w < p.nWrk → ∀ i, ∃ j, i ≤ j ∧ a j = .wrk w
  send : ∀ ch, ch < p.nCh → ∀ i, ∃ j, i ≤ j ∧ ∃ d, a j = .testSend ch d ∧ ((σ j).sPend ch = true → d = true)
  recv : ∀ ch, ch < p.nCh → ∀ i, ∃ j, i ≤ j ∧ ∃ d, a j = .testRecv ch d ∧ ((σ j).rPend ch = true → d = true)

/-- Fairness of the threads alone. -/
structure FairT (p : Params) (a : Nat → Action) : Prop where
  sched : ∀ i, ∃ j, i ≤ j ∧ a j = .sched
  wrk : ∀ w, w < p.nWrk → ∀ i, ∃ j, i ≤ j ∧ a j = .wrk w

section
variable {p : Params} {σ : Nat → State} {a : Nat → Action}

theorem Fair.t (h : Fair p σ a) : FairT p a := ⟨h.sched, h.wrk⟩

theorem exec_reach (h : Exec p σ a) (i : Nat) : Reachable p (σ i) := by
  induction i with
  | zero => exact .init h.init
  | succ i ih => rw [h.next]; exact .step _ ih

theorem stepWrk_tests (s : State) (w : Nat) : (stepWrk p s w).sTest = s.sTest ∧ (stepWrk p s w).rTest = s.rTest := by
  unfold stepWrk
  split
  · split
    · exact ⟨rfl, rfl⟩
    · split <;> exact ⟨rfl, rfl⟩
  · exact ⟨rfl, rfl⟩
  · exact ⟨rfl, rfl⟩

/-- What a scheduler step does: it starts a new pass, it executes a disabled statement, or it executes an enabled one. -/
theorem sched_cases (s : State) :
    (s.todo = [] ∧ stepSched p s = s ∧ s.finished = true) ∨
    (s.todo = [] ∧ stepSched p s = { s with todo := prog p.nTgs } ∧ s.finished = false) ∨
    (∃ i is, s.todo = i :: is ∧ ¬ Enabled p s i ∧ ∃ n f, stepSched p s = { s with todo := is, nFin := n, finished := f }) ∨
    (∃ i is, s.todo = i :: is ∧ Enabled p s i ∧ stepSched p s = { exec1 p s i with todo := is }) := by
  unfold stepSched
  cases h : s.todo with
  | nil =>
    cases hf : s.finished
    · right; left; exact ⟨rfl, by simp, rfl⟩
    · left; exact ⟨rfl, by simp, rfl⟩
  | cons i is =>
    right; right
    by_cases he : Enabled p s i
    · right; exact ⟨i, is, rfl, he, rfl⟩
    · left
      obtain ⟨n, f, e⟩ := exec1_disabled i he
      exact ⟨i, is, rfl, he, n, f, by simp only [e]⟩

theorem grp_none_disabled {s : State} {i : Instr} (h : i.grp = none) : ¬ Enabled p s i := by
  cases i <;> simp [Instr.grp] at h <;> simp [Enabled]

theorem step_phi (wf : p.WF) {s : State} (hi : Inv p s) (x : Action) {g : Nat} (hg : g < p.nTgs) :
    (s.tg g).phi ≤ ((step p s x).tg g).phi := by
  cases x with
  | sched =>
    simp only [step]
    rcases sched_cases (p := p) s with ⟨_, e, _⟩ | ⟨_, e, _⟩ | ⟨i, is, _, _, n, f, e⟩ | ⟨i, is, ht, he, e⟩
    · rw [e]; exact Nat.le_refl _
    · rw [e]; exact Nat.le_refl _
    · rw [e]; exact Nat.le_refl _
    · rw [e]
      show (s.tg g).phi ≤ ((exec1 p s i).tg g).phi
      by_cases hgr : i.grp = some g
      · exact Nat.le_of_lt (exec1_enabled hi.core i g hgr hg he)
      · rw [exec1_tg_other i g hgr]; exact Nat.le_refl _
  | wrk w =>
    simp only [step]; split
    · rw [(stepWrk_frame w).1]; exact Nat.le_refl _
    · exact Nat.le_refl _
  | testSend ch b => simp only [step, stepTestSend]; split <;> exact Nat.le_refl _
  | testRecv ch b => simp only [step, stepTestRecv]; split <;> exact Nat.le_refl _

/-- If no group advances, the scheduler has not executed an enabled statement. -/
theorem no_enabled (wf : p.WF) {s : State} (hi : Inv p s) (h : ∀ g, g < p.nTgs → ((stepSched p s).tg g).phi = (s.tg g).phi) :
    ∃ l n f, stepSched p s = { s with todo := l, nFin := n, finished := f } ∧
      (∀ i is, s.todo = i :: is → l = is ∧ ¬ Enabled p s i) ∧
      (s.todo = [] → s.finished = false → l = prog p.nTgs) := by
  rcases sched_cases (p := p) s with ⟨h1, e, _⟩ | ⟨h1, e, hf⟩ | ⟨i, is, h1, hd, n, f, e⟩ | ⟨i, is, ht, he, e⟩
  · exact ⟨s.todo, s.nFin, s.finished, by rw [e], by rw [h1]; simp, fun _ hf => by simp_all⟩
  · exact ⟨prog p.nTgs, s.nFin, s.finished, by rw [e], by rw [h1]; simp, fun _ _ => rfl⟩
  · refine ⟨is, n, f, e, ?_, by rw [h1]; simp⟩
    intro i' is' h'
    rw [h1] at h'; injection h' with h2 h3
    subst h2; subst h3
    exact ⟨rfl, hd⟩
  · exfalso
    cases hgr : i.grp with
    | none => exact grp_none_disabled hgr he
    | some g =>
      have hmem : i ∈ prog p.nTgs := hi.todo.mem (by rw [ht]; simp)
      have hg := mem_prog_grp hmem g hgr
      have h1 := exec1_enabled hi.core i g hgr hg he
      have h2 := h g hg
      rw [e] at h2
      simp only at h2
      omega

/-- From time `T` on, no group advances. -/
def Quiet (p : Params) (σ : Nat → State) (T : Nat) : Prop :=
  ∀ i, T ≤ i → ∀ g, g < p.nTgs → ((σ (i+1)).tg g).phi = ((σ i).tg g).phi

theorem ev_quiet (wf : p.WF) (hx : Exec p σ a) : ∃ T, Quiet p σ T := by
  obtain ⟨T, _, h⟩ := fin_eventually p.nTgs 0 (fun g i => ((σ (i+1)).tg g).phi = ((σ i).tg g).phi) (by
    intro g hg
    obtain ⟨T, h1, h2⟩ := mono_stable (fun i => ((σ i).tg g).phi) (200 + 200 * p.N g) 0
      (fun i _ => by
        rw [hx.next]
        exact step_phi wf (reachable_inv wf (exec_reach hx i)) _ hg)
      (fun i _ => phi_bound (reachable_inv wf (exec_reach hx i)).core hg)
    exact ⟨T, h1, fun i hi => by
      have e1 := h2 i hi
      have e2 := h2 (i+1) (by omega)
      rw [e1, e2]⟩)
  exact ⟨T, h⟩

theorem quiet_sched (wf : p.WF) (hx : Exec p σ a) {T i : Nat} (hq : Quiet p σ T) (hi : T ≤ i) (ha : a i = .sched) :
    ∃ l n f, σ (i+1) = { σ i with todo := l, nFin := n, finished := f } ∧
      (∀ x xs, (σ i).todo = x :: xs → l = xs ∧ ¬ Enabled p (σ i) x) ∧
      ((σ i).todo = [] → (σ i).finished = false → l = prog p.nTgs) := by
  have e : σ (i+1) = stepSched p (σ i) := by rw [hx.next, ha]; rfl
  have := no_enabled wf (reachable_inv wf (exec_reach hx i)) (fun g hg => by rw [← e]; exact hq i hi g hg)
  rw [← e] at this
  exact this

theorem quiet_tg (wf : p.WF) (hx : Exec p σ a) {T i : Nat} (hq : Quiet p σ T) (hi : T ≤ i) : (σ (i+1)).tg = (σ i).tg := by
  cases ha : a i with
  | sched => obtain ⟨l, n, f, e, _⟩ := quiet_sched wf hx hq hi ha; rw [e]
  | wrk w =>
    rw [hx.next, ha]; simp only [step]; split
    · exact (stepWrk_frame w).1
    · rfl
  | testSend ch b => rw [hx.next, ha]; simp only [step, stepTestSend]; split <;> rfl
  | testRecv ch b => rw [hx.next, ha]; simp only [step, stepTestRecv]; split <;> rfl

/-- A worker's own data only changes by its own steps. -/
theorem quiet_wrk (wf : p.WF) (hx : Exec p σ a) {T i : Nat} (hq : Quiet p σ T) (hi : T ≤ i) {w : Nat} (ha : a i ≠ .wrk w) :
    (σ (i+1)).wk w = (σ i).wk w ∧ ∀ g r, (σ (i+1)).st g r w = (σ i).st g r w ∧ (σ (i+1)).exec g r w = (σ i).exec g r w := by
  cases hai : a i with
  | sched =>
    obtain ⟨l, n, f, e, _⟩ := quiet_sched wf hx hq hi hai
    rw [e]; exact ⟨rfl, fun _ _ => ⟨rfl, rfl⟩⟩
  | wrk v =>
    have hvw : w ≠ v := by intro h; subst h; exact ha hai
    rw [hx.next, hai]; simp only [step]; split
    · unfold stepWrk
      split
      · split
        · exact ⟨rfl, fun _ _ => ⟨rfl, rfl⟩⟩
        · split
          · exact ⟨rfl, fun _ _ => ⟨rfl, rfl⟩⟩
          · exact ⟨by simp [hvw], fun _ _ => ⟨rfl, rfl⟩⟩
      · exact ⟨by simp [hvw], fun _ _ => ⟨by simp [hvw], rfl⟩⟩
      · exact ⟨by simp [hvw], fun _ _ => ⟨by simp [hvw], by simp [hvw]⟩⟩
    · exact ⟨rfl, fun _ _ => ⟨rfl, rfl⟩⟩
  | testSend ch b =>
    rw [hx.next, hai]; simp only [step, stepTestSend]
    split <;> exact ⟨rfl, fun _ _ => ⟨rfl, rfl⟩⟩
  | testRecv ch b =>
    rw [hx.next, hai]; simp only [step, stepTestRecv]
    split <;> exact ⟨rfl, fun _ _ => ⟨rfl, rfl⟩⟩

theorem stepWrk_exec_le (s : State) (v g r w : Nat) : s.exec g r w ≤ (stepWrk p s v).exec g r w := by
  unfold stepWrk
  split
  · split
    · exact Nat.le_refl _
    · split <;> exact Nat.le_refl _
  · exact Nat.le_refl _
  · simp only; split <;> omega

theorem step_exec_le (s : State) (x : Action) (g r w : Nat) : s.exec g r w ≤ (step p s x).exec g r w := by
  cases x with
  | sched =>
    simp only [step]
    rcases sched_cases (p := p) s with ⟨_, e, _⟩ | ⟨_, e, _⟩ | ⟨i, is, _, _, n, f, e⟩ | ⟨i, is, ht, he, e⟩
    · rw [e]; exact Nat.le_refl _
    · rw [e]; exact Nat.le_refl _
    · rw [e]; exact Nat.le_refl _
    · rw [e]
      have : (exec1 p s i).exec = s.exec := by
        cases i <;> simp only [exec1] <;> (repeat' split) <;> rfl
      simp only [this]; exact Nat.le_refl _
  | wrk v =>
    simp only [step]; split
    · exact stepWrk_exec_le s v g r w
    · exact Nat.le_refl _
  | testSend ch b => simp only [step, stepTestSend]; split <;> exact Nat.le_refl _
  | testRecv ch b => simp only [step, stepTestRecv]; split <;> exact Nat.le_refl _

theorem exec_bound (wf : p.WF) {s : State} (hi : Core p s) {g r w : Nat} (hg : g < p.nTgs) (hr : r < 6) (hw : w < p.nWrk) :
    s.exec g r w ≤ p.N g := by
  rcases hi.grp g hg with hu | ⟨hG, hR⟩
  · rw [(hu.2 r w hr hw).2]; omega
  · obtain ⟨a, b, d⟩ := hR r w hr hw
    have := hG.lt
    rcases Nat.lt_or_ge ((s.tg g).cf r) 2 with hh | hh
    · rcases Nat.lt_or_ge ((s.tg g).cf r) 1 with h1 | h1
      · have := a (by omega); omega
      · have := b (by omega); omega
    · have := d hh; omega

/-- From some time on, the numbers of executions do not change. -/
theorem ev_exec (wf : p.WF) (hx : Exec p σ a) (T : Nat) : ∃ T', T ≤ T' ∧ ∀ i, T' ≤ i → ∀ w, w < p.nWrk → ∀ r, r < 6 → ∀ g, g < p.nTgs →
    (σ (i+1)).exec g r w = (σ i).exec g r w := by
  refine fin_eventually p.nWrk T (fun w i => ∀ r, r < 6 → ∀ g, g < p.nTgs → (σ (i+1)).exec g r w = (σ i).exec g r w) ?_
  intro w hw
  refine fin_eventually 6 T (fun r i => ∀ g, g < p.nTgs → (σ (i+1)).exec g r w = (σ i).exec g r w) ?_
  intro r hr
  refine fin_eventually p.nTgs T (fun g i => (σ (i+1)).exec g r w = (σ i).exec g r w) ?_
  intro g hg
  obtain ⟨T', h1, h2⟩ := mono_stable (fun i => (σ i).exec g r w) (p.N g) T
    (fun i _ => by rw [hx.next]; exact step_exec_le _ _ _ _ _)
    (fun i _ => exec_bound wf (reachable_inv wf (exec_reach hx i)).core hg hr hw)
  exact ⟨T', h1, fun i hi => by
    have e1 := h2 i hi
    have e2 := h2 (i+1) (by omega)
    rw [e1, e2]⟩

/-- Once nothing advances any more, no worker is working and nothing is ready. -/
theorem ev_idle (wf : p.WF) (hx : Exec p σ a) (hf : FairT p a) (hnf : ∀ i, (σ i).finished = false)
    {T : Nat} (hq : Quiet p σ T)
    (he : ∀ i, T ≤ i → ∀ w, w < p.nWrk → ∀ r, r < 6 → ∀ g, g < p.nTgs → (σ (i+1)).exec g r w = (σ i).exec g r w)
    {i : Nat} (hi : T ≤ i) {w : Nat} (hw : w < p.nWrk) :
    (σ i).wk w = .idle ∧ ∀ g r, g < p.nTgs → r < 6 → (σ i).st g r w ≠ .RDY ∧ (σ i).st g r w ≠ .IPR := by
  have norun : ∀ i, T ≤ i → ∀ g r, (σ i).wk w ≠ .run g r := by
    intro i hi g r hrun
    obtain ⟨j, hj, hXj, hPj⟩ := persist (fun j => (σ j).wk w = .run g r) (fun j => a j = .wrk w) i hrun
      (fun l hl hP hn => by
        have := (quiet_wrk wf hx hq (by omega : T ≤ l) hn).1
        rw [this]; exact hP) (hf.wrk w hw i)
    have hk := (reachable_inv wf (exec_reach hx j)).core.wki w hw
    obtain ⟨h1, h2, _⟩ := hk.run g r hPj
    have := he j (by omega) w hw r h2 g h1
    rw [hx.next, hXj] at this
    simp [step, hw, stepWrk, hPj] at this
  have nogot : ∀ i, T ≤ i → ∀ g r, (σ i).wk w ≠ .got g r := by
    intro i hi g r hgot
    obtain ⟨j, hj, hXj, hPj⟩ := persist (fun j => (σ j).wk w = .got g r) (fun j => a j = .wrk w) i hgot
      (fun l hl hP hn => by
        have := (quiet_wrk wf hx hq (by omega : T ≤ l) hn).1
        rw [this]; exact hP) (hf.wrk w hw i)
    apply norun (j+1) (by omega) g r
    rw [hx.next, hXj]
    simp [step, hw, stepWrk, hPj]
  have idle : ∀ i, T ≤ i → (σ i).wk w = .idle := by
    intro i hi
    cases h : (σ i).wk w with
    | idle => rfl
    | got g r => exact absurd h (nogot i hi g r)
    | run g r => exact absurd h (norun i hi g r)
  refine ⟨idle i hi, fun g r hg hr => ⟨?_, ?_⟩⟩
  · intro hrdy
    obtain ⟨j, hj, hXj, hPj⟩ := persist (fun j => (σ j).st g r w = .RDY) (fun j => a j = .wrk w) i hrdy
      (fun l hl hP hn => by
        have := ((quiet_wrk wf hx hq (by omega : T ≤ l) hn).2 g r).1
        rw [this]; exact hP) (hf.wrk w hw i)
    have hsome : ∃ gr, getWrkTd p (σ j) w = some gr := by
      cases hg' : getWrkTd p (σ j) w with
      | some gr => exact ⟨gr, rfl⟩
      | none =>
        unfold getWrkTd at hg'
        rw [List.find?_eq_none] at hg'
        have := hg' (g, r) ((wf.order g r).2 ⟨hg, hr⟩)
        simp [hPj] at this
    obtain ⟨⟨g', r'⟩, hs⟩ := hsome
    apply nogot (j+1) (by omega) g' r'
    rw [hx.next, hXj]
    simp [step, hw, stepWrk, idle j (by omega), hnf j, hs]
  · intro hipr
    have hk := (reachable_inv wf (exec_reach hx i)).core.wki w hw
    exact norun i hi g r (hk.ipr g r hg hr hipr)

/-- Once nothing advances any more, tests which have succeeded stay so. -/
theorem quiet_sTest (wf : p.WF) (hx : Exec p σ a) {T i : Nat} (hq : Quiet p σ T) (hi : T ≤ i) {ch : Nat}
    (h : (σ i).sTest ch = true) : (σ (i+1)).sTest ch = true := by
  cases ha : a i with
  | sched => obtain ⟨l, n, f, e, _⟩ := quiet_sched wf hx hq hi ha; rw [e]; exact h
  | wrk w =>
    rw [hx.next, ha]; simp only [step]; split
    · rw [(stepWrk_tests _ w).1]; exact h
    · exact h
  | testSend c b =>
    rw [hx.next, ha]; simp only [step, stepTestSend]; split
    · simp only; split
      · rfl
      · exact h
    · exact h
  | testRecv c b => rw [hx.next, ha]; simp only [step, stepTestRecv]; split <;> exact h

theorem quiet_rTest (wf : p.WF) (hx : Exec p σ a) {T i : Nat} (hq : Quiet p σ T) (hi : T ≤ i) {ch : Nat}
    (h : (σ i).rTest ch = true) : (σ (i+1)).rTest ch = true := by
  cases ha : a i with
  | sched => obtain ⟨l, n, f, e, _⟩ := quiet_sched wf hx hq hi ha; rw [e]; exact h
  | wrk w =>
    rw [hx.next, ha]; simp only [step]; split
    · rw [(stepWrk_tests _ w).2]; exact h
    · exact h
  | testRecv c b =>
    rw [hx.next, ha]; simp only [step, stepTestRecv]; split
    · simp only; split
      · rfl
      · exact h
    · exact h
  | testSend c b => rw [hx.next, ha]; simp only [step, stepTestSend]; split <;> exact h

theorem ev_tests (wf : p.WF) (hx : Exec p σ a) (hf : Fair p σ a) {T : Nat} (hq : Quiet p σ T) :
    ∃ T', T ≤ T' ∧ ∀ i, T' ≤ i → ∀ ch, ch < p.nCh → (σ i).sTest ch = true ∧ (σ i).rTest ch = true := by
  refine fin_eventually p.nCh T (fun ch i => (σ i).sTest ch = true ∧ (σ i).rTest ch = true) ?_
  intro ch hc
  obtain ⟨j, hj, d, ha, hd⟩ := hf.send ch hc T
  obtain ⟨k, hk, e, hb, he⟩ := hf.recv ch hc T
  have s1 : (σ (j+1)).sTest ch = true := by
    rw [hx.next, ha]
    simp only [step, stepTestSend]
    rw [if_pos]
    · simp
    · refine ⟨hc, ?_⟩
      cases hp : (σ j).sPend ch with
      | false => left; rfl
      | true => right; exact hd hp
  have r1 : (σ (k+1)).rTest ch = true := by
    rw [hx.next, hb]
    simp only [step, stepTestRecv]
    rw [if_pos]
    · simp
    · refine ⟨hc, ?_⟩
      cases hp : (σ k).rPend ch with
      | false => left; rfl
      | true => right; exact he hp
  refine ⟨j + k + 1 + T, by omega, ?_⟩
  intro i hi
  constructor
  · have : ∀ n, (σ (j + 1 + n)).sTest ch = true := by
      intro n
      induction n with
      | zero => exact s1
      | succ n ih => exact quiet_sTest (i := j + 1 + n) wf hx hq (by omega) ih
    have := this (i - (j + 1))
    rwa [show j + 1 + (i - (j + 1)) = i by omega] at this
  · have : ∀ n, (σ (k + 1 + n)).rTest ch = true := by
      intro n
      induction n with
      | zero => exact r1
      | succ n ih => exact quiet_rTest (i := k + 1 + n) wf hx hq (by omega) ih
    have := this (i - (k + 1))
    rwa [show k + 1 + (i - (k + 1)) = i by omega] at this

/-! ### Passes of the scheduler -/

/-- Other threads do not touch the scheduler's position. -/
theorem other_todo (hx : Exec p σ a) {i : Nat} (ha : a i ≠ .sched) :
    (σ (i+1)).todo = (σ i).todo ∧ (σ (i+1)).nFin = (σ i).nFin := by
  cases hai : a i with
  | sched => exact absurd hai ha
  | wrk w =>
    rw [hx.next, hai]; simp only [step]; split
    · exact ⟨(stepWrk_frame w).2.1, (stepWrk_frame w).2.2.1⟩
    · exact ⟨rfl, rfl⟩
  | testSend ch b => rw [hx.next, hai]; simp only [step, stepTestSend]; split <;> exact ⟨rfl, rfl⟩
  | testRecv ch b => rw [hx.next, hai]; simp only [step, stepTestRecv]; split <;> exact ⟨rfl, rfl⟩

/-- The next scheduler step from time `i`. -/
theorem next_sched (hx : Exec p σ a) (hf : FairT p a) (i : Nat) :
    ∃ j, i ≤ j ∧ a j = .sched ∧ (σ j).todo = (σ i).todo ∧ (σ j).nFin = (σ i).nFin := by
  obtain ⟨j, h1, h2, h3⟩ := persist (fun j => (σ j).todo = (σ i).todo ∧ (σ j).nFin = (σ i).nFin) (fun j => a j = .sched) i
    ⟨rfl, rfl⟩ (fun l _ hP hn => by have := other_todo hx hn; rw [this.1, this.2]; exact hP) (hf.sched i)
  exact ⟨j, h1, h2, h3⟩

theorem sched_todo (hx : Exec p σ a) {i : Nat} (ha : a i = .sched) {x : Instr} {xs : List Instr} (h : (σ i).todo = x :: xs) :
    σ (i+1) = { exec1 p (σ i) x with todo := xs } := by
  rw [hx.next, ha]
  simp only [step, stepSched, h]

/-- The scheduler gets through any remaining part of a pass. -/
theorem reach_pos (hx : Exec p σ a) (hf : FairT p a) (l1 l2 : List Instr) (i : Nat) (h : (σ i).todo = l1 ++ l2) :
    ∃ j, i ≤ j ∧ (σ j).todo = l2 := by
  induction l1 generalizing i with
  | nil => exact ⟨i, Nat.le_refl _, h⟩
  | cons x l1 ih =>
    obtain ⟨j, h1, h2, h3, _⟩ := next_sched hx hf i
    rw [h] at h3
    have := sched_todo hx h2 h3
    obtain ⟨k, h4, h5⟩ := ih (j+1) (by rw [this]; rfl)
    exact ⟨k, by omega, h5⟩

/-- The start of a pass is reached again and again. -/
theorem reach_start (hx : Exec p σ a) (hf : FairT p a) (hnf : ∀ i, (σ i).finished = false) (T : Nat) :
    ∃ j, T ≤ j ∧ (σ j).todo = prog p.nTgs := by
  obtain ⟨j, h1, h2⟩ := reach_pos hx hf (σ T).todo [] T (by simp)
  obtain ⟨k, h3, h4, h5, _⟩ := next_sched hx hf j
  refine ⟨k + 1, by omega, ?_⟩
  rw [hx.next, h4]
  rw [h2] at h5
  simp [step, stepSched, h5, hnf k]

/-- Every statement of the program is executed again and again. -/
theorem reach_instr (hx : Exec p σ a) (hf : FairT p a) (hnf : ∀ i, (σ i).finished = false) (T : Nat)
    {x : Instr} (hm : x ∈ prog p.nTgs) : ∃ j xs, T ≤ j ∧ a j = .sched ∧ (σ j).todo = x :: xs := by
  obtain ⟨l1, l2, e⟩ := List.append_of_mem hm
  obtain ⟨i, h1, h2⟩ := reach_start hx hf hnf T
  rw [e] at h2
  obtain ⟨j, h3, h4⟩ := reach_pos hx hf l1 (x :: l2) i h2
  obtain ⟨k, h5, h6, h7, _⟩ := next_sched hx hf j
  exact ⟨k, l2, by omega, h6, by rw [h7, h4]⟩

theorem instr_mem_prog {n : Nat} {x : Instr} {g : Nat} (h : x.grp = some g) (hg : g < n) : x ∈ prog n := by
  simp only [prog, List.mem_append, List.mem_cons, List.mem_flatMap, List.mem_range, List.not_mem_nil, or_false]
  cases x <;> simp only [Instr.grp, Option.some.injEq, reduceCtorEq] at h <;> subst h
  all_goals first
    | (refine Or.inl ⟨_, hg, ?_⟩; simp [phase1]; done)
    | (refine Or.inr (Or.inr (Or.inl ⟨_, hg, ?_⟩)); simp [phase2]; done)

/-- Without completion, a fair execution gets stuck. -/
theorem ev_stuck (wf : p.WF) (hx : Exec p σ a) (hf : Fair p σ a) (hnf : ∀ i, (σ i).finished = false) :
    ∃ T, ∀ i, T ≤ i → Stuck p (σ i) := by
  obtain ⟨T1, hq⟩ := ev_quiet wf hx
  obtain ⟨T2, hT2, he⟩ := ev_exec wf hx T1
  have hq2 : Quiet p σ T2 := fun i hi => hq i (by omega)
  obtain ⟨T3, hT3, ht⟩ := ev_tests wf hx hf hq2
  have hidle := fun i hi w hw => ev_idle wf hx hf.t hnf hq2 he (i := i) hi (w := w) hw
  -- everything the guards depend on is constant
  have htg : ∀ n, (σ (T3 + n)).tg = (σ T3).tg := by
    intro n
    induction n with
    | zero => rfl
    | succ n ih => rw [← ih]; exact quiet_tg (i := T3 + n) wf hx hq2 (by omega)
  refine ⟨T3, fun i hi => ⟨?_, ?_, fun ch hc => (ht i hi ch hc).1, fun ch hc => (ht i hi ch hc).2⟩⟩
  · intro x g hgr hg hen
    obtain ⟨j, xs, hj, haj, htj⟩ := reach_instr hx hf.t hnf i (instr_mem_prog hgr hg)
    obtain ⟨l, n, f, e, hd, _⟩ := quiet_sched wf hx hq2 (by omega : T2 ≤ j) haj
    apply (hd x xs htj).2
    have etg : (σ j).tg = (σ i).tg := by
      have e1 := htg (i - T3); have e2 := htg (j - T3)
      rw [show T3 + (i - T3) = i by omega] at e1
      rw [show T3 + (j - T3) = j by omega] at e2
      rw [e1, e2]
    -- statuses of the region are all FIN whenever its entry is not 0
    have hfin : ∀ k, T3 ≤ k → ∀ r, r < 6 → ((σ k).tg g).cf r = 1 → (σ k).allFin p g r = true := by
      intro k hk r hr hc
      rw [allFin_iff]
      intro w hw
      have hid := (hidle k (by omega) w hw).2 g r hg hr
      rcases (reachable_inv wf (exec_reach hx k)).core.grp g hg with hu | ⟨_, hR⟩
      · rw [hu.1] at hc
        have : r = 0 ∨ r = 1 ∨ r = 2 ∨ r = 3 ∨ r = 4 ∨ r = 5 := by omega
        rcases this with rfl | rfl | rfl | rfl | rfl | rfl <;> simp [TgState.cf, TgState.reset, umax] at hc
      · rcases (hR r w hr hw).b hc with h | h
        · rcases h.2 with h | h
          · exact absurd h hid.1
          · exact absurd h hid.2
        · exact h.2
    have hsend : ∀ lt, (σ j).finSends p lt g = true := by
      intro lt; rw [finSends_iff]; intro ch hc _; exact (ht j (by omega) ch hc).1
    have hrecv : ∀ lt, (σ j).finRecvs p lt g = true := by
      intro lt; rw [finRecvs_iff]; intro ch hc _; exact (ht j (by omega) ch hc).2
    have hav : (σ j).available p g = (σ i).available p g := by simp only [State.available, etg]
    have hco : (σ j).consumed p g = (σ i).consumed p g := by simp only [State.consumed, etg]
    cases x <;> simp only [Instr.grp, Option.some.injEq, reduceCtorEq] at hgr <;> subst hgr <;>
      simp only [Enabled, etg, hav, hco, hsend, hrecv] at hen ⊢ <;> first
      | exact hen
      | exact ⟨hen.1, hfin j (by omega) _ (by decide) (by rw [etg]; exact hen.1)⟩
      | exact ⟨hen.1, trivial⟩
  · intro g r w hg hr hw
    exact (hidle i (by omega) w hw).2 g r hg hr

/-- The counting loop of a pass in which all groups are finished. -/
theorem count_pass (wf : p.WF) (hx : Exec p σ a) (hf : FairT p a) (hnf : ∀ i, (σ i).finished = false) {T : Nat}
    (hF : ∀ i, T ≤ i → ∀ g, g < p.nTgs → FinG p (σ i) g) (l : List Instr) (i : Nat) (hi : T ≤ i)
    (hl : ∀ x ∈ l, x ≠ .zeroCnt ∧ ∀ g, x.grp = some g → g < p.nTgs)
    (ht : (σ i).todo = l ++ [.check]) (hn : (σ i).nFin + l.countP Instr.isCount = p.nTgs) :
    ∃ j, (σ j).finished = true := by
  induction l generalizing i with
  | nil =>
    obtain ⟨j, h1, h2, h3, h4⟩ := next_sched hx hf i
    rw [ht] at h3
    refine ⟨j + 1, ?_⟩
    rw [sched_todo hx h2 h3]
    simp only [List.countP_nil, Nat.add_zero] at hn
    simp [exec1, h4, hn]
  | cons x l ih =>
    obtain ⟨j, h1, h2, h3, h4⟩ := next_sched hx hf i
    rw [ht] at h3
    have e := sched_todo hx h2 h3
    obtain ⟨hz, hgr⟩ := hl x (by simp)
    refine ih (j + 1) (by omega) (fun y hy => hl y (by simp [hy])) (by rw [e]; rfl) ?_
    rw [List.countP_cons] at hn
    cases hc : x.isCount with
    | true =>
      cases x with
      | count g =>
        have hg := hgr g rfl
        have hFg := hF j (by omega) g hg
        rw [e]
        have : (exec1 p (σ j) (.count g)).nFin = (σ j).nFin + 1 := by
          obtain ⟨q1, q2, q3⟩ := hFg
          simp only [exec1]
          rw [if_pos ⟨q1, q2, q3⟩]
        show (exec1 p (σ j) (.count g)).nFin + _ = _
        rw [this, h4]
        simp only [hc, if_true] at hn
        omega
      | _ => simp [Instr.isCount] at hc
    | false =>
      rw [e]
      show (exec1 p (σ j) x).nFin + _ = _
      rw [exec1_nFin x hz hc, h4]
      simpa [hc] using hn

/-- Once all groups are finished, the manager reports completion. -/
theorem finG_finishes (wf : p.WF) (hx : Exec p σ a) (hf : FairT p a) {T : Nat}
    (hF : ∀ i, T ≤ i → ∀ g, g < p.nTgs → FinG p (σ i) g) : ∃ i, (σ i).finished = true := by
  apply Classical.byContradiction
  intro hne
  have hnf : ∀ i, (σ i).finished = false := by
    intro i
    cases h : (σ i).finished with
    | false => rfl
    | true => exact absurd ⟨i, h⟩ hne
  obtain ⟨j, xs, h1, h2, h3⟩ := reach_instr hx hf hnf T (prog_ne_nil p.nTgs)
  have hsuf := (reachable_inv wf (exec_reach hx j)).todo
  rw [h3] at hsuf
  have hxs := suffix_after_zero hsuf
  subst hxs
  have e := sched_todo hx h2 h3
  obtain ⟨k, hk⟩ := count_pass wf hx hf hnf hF ((List.range p.nTgs).flatMap phase2) (j + 1) (by omega) (by
      intro x hxm
      refine ⟨?_, fun g hg => ?_⟩
      · intro h; subst h
        exact zero_not_tail2 p.nTgs (by simp only [tail2, List.mem_append]; exact Or.inl hxm)
      · simp only [List.mem_flatMap, List.mem_range] at hxm
        obtain ⟨y, hy, hxy⟩ := hxm
        have := mem_phase2_grp hxy
        rw [this] at hg; cases hg; exact hy) (by rw [e]; rfl) (by
      rw [e]
      have := countP_tail2 p.nTgs
      simp only [tail2, List.countP_append] at this
      have h0 : [Instr.check].countP Instr.isCount = 0 := rfl
      simp only [exec1]
      omega)
  exact hne ⟨k, hk⟩

theorem fair_finishes (wf : p.WF) (hx : Exec p σ a) (hf : Fair p σ a) : ∃ i, (σ i).finished = true := by
  apply Classical.byContradiction
  intro hne
  have hnf : ∀ i, (σ i).finished = false := by
    intro i
    cases h : (σ i).finished with
    | false => rfl
    | true => exact absurd ⟨i, h⟩ hne
  obtain ⟨T, hT⟩ := ev_stuck wf hx hf hnf
  exact hne (finG_finishes wf hx hf.t (T := T) fun i hi g hg =>
    stuck_done wf (reachable_inv wf (exec_reach hx i)).core (hT i hi) hg)

end
end Edge.Sched
