import Verif.Sched.Props
/-!
Model of a distributed run: several ranks, each executing the scheduler of `Verif.Sched.Model`, connected by point-to-point messages.

Modelled code: as in `Verif.Sched.Model`, and in addition the pairing of the messages of two ranks
(`/repo/src/parallel/Distributed.cpp:180-260`: the send and the receive message of a channel, tags by time groups;
`/repo/src/parallel/MpiRemix.cpp:72-115`: `MPI_Isend`/`MPI_Irecv` with destination rank and tag).

The message layer is MPI's: messages with the same source, destination and tag do not overtake each other, so the `j`-th receive of a channel gets the
`j`-th message sent by the peer's channel.  A receive completes only after the message has been sent.  Nothing is assumed on when a send
completes (it may complete early because it is buffered, or late because it waits for the receiver).

Simplifications: all ranks start the interval together; the content of a message is represented by the numbers of local steps (predictions) of the
send elements the workers of the sending group have finished when the message is handed to the message layer
(`Edge.Sched.C10_send_buffer_idle`: the buffer is not written while the message is active).
-/
namespace Edge.Sched

/-- Ranks, their parameters and the pairing of the channels: `peer r ch` are rank and channel on the other side. -/
structure Net where
  nRk : Nat
  p : Nat → Params
  peer : Nat → Nat → Nat × Nat

/-- Admissible networks.  All ranks work on the same groups with the same numbers of steps (the time steps are computed from the global
minimum, `/repo/src/main.cpp`, `/repo/src/time/Manager.cpp`), the two sides of a channel name each other and
have exchanged time groups, and neighboring elements are in the same or in adjacent groups (`Edge.EdgeV.C29_max_ratio_two`). -/
structure Net.WF (n : Net) : Prop where
  wf : ∀ r, r < n.nRk → (n.p r).WF
  nTgs : ∀ r q, r < n.nRk → q < n.nRk → (n.p r).nTgs = (n.p q).nTgs
  steps : ∀ r q g, r < n.nRk → q < n.nRk → g < (n.p r).nTgs → (n.p r).N g = (n.p q).N g
  tgL : ∀ r ch, r < n.nRk → ch < (n.p r).nCh → (n.p r).tgL ch < (n.p r).nTgs
  rk : ∀ r ch, r < n.nRk → ch < (n.p r).nCh → (n.peer r ch).1 < n.nRk
  ch : ∀ r ch, r < n.nRk → ch < (n.p r).nCh → (n.peer r ch).2 < (n.p (n.peer r ch).1).nCh
  back : ∀ r ch, r < n.nRk → ch < (n.p r).nCh → n.peer (n.peer r ch).1 (n.peer r ch).2 = (r, ch)
  swap : ∀ r ch, r < n.nRk → ch < (n.p r).nCh → (n.p (n.peer r ch).1).tgL (n.peer r ch).2 = (n.p r).tgR ch
  adj : ∀ r ch, r < n.nRk → ch < (n.p r).nCh →
    (n.p r).tgL ch = (n.p r).tgR ch ∨ (n.p r).tgL ch + 1 = (n.p r).tgR ch ∨ (n.p r).tgR ch + 1 = (n.p r).tgL ch

/-- State of all ranks and of the messages.  `sent r ch` are the contents of the messages sent so far on a channel, `buf r ch` is the content of
the receive buffer.  A content gives for every worker of the sender how many predictions of its share of the group's send elements it had
finished. -/
structure NState where
  rk : Nat → State
  sent : Nat → Nat → List (Nat → Nat)
  buf : Nat → Nat → Option (Nat → Nat)

/-- The message awaited by the latest receive of a channel has been sent. -/
def NState.arrived (n : Net) (s : NState) (r ch : Nat) : Prop :=
  (s.rk r).rBegun ch ≤ (s.rk (n.peer r ch).1).sBegun (n.peer r ch).2

/-- The receive of the latest message of a channel has been posted by the other side. -/
def NState.posted (n : Net) (s : NState) (r ch : Nat) : Prop :=
  (s.rk r).sBegun ch ≤ (s.rk (n.peer r ch).1).rBegun (n.peer r ch).2

instance (n : Net) (s : NState) (r ch : Nat) : Decidable (s.arrived n r ch) := inferInstanceAs (Decidable (_ ≤ _))
instance (n : Net) (s : NState) (r ch : Nat) : Decidable (s.posted n r ch) := inferInstanceAs (Decidable (_ ≤ _))

/-- The test of a receive is only answered positively if the message has been sent. -/
def NState.eff (n : Net) (s : NState) (r : Nat) : Action → Action
  | .testRecv ch d => .testRecv ch (d && decide (s.arrived n r ch))
  | a => a

/-- One action of rank `r`: its own step (`Edge.Sched.step`), the record of a message it has started to send, and the arrival of a message in its
receive buffer. -/
def nstep (n : Net) (s : NState) (r : Nat) (a : Action) : NState :=
  if r < n.nRk then
    let t := step (n.p r) (s.rk r) (s.eff n r a)
    { rk := fun q => if q = r then t else s.rk q
      sent := fun q ch =>
        if q = r ∧ (s.rk r).sBegun ch < t.sBegun ch then s.sent q ch ++ [t.exec ((n.p r).tgL ch) localSend] else s.sent q ch
      buf := fun q ch =>
        if q = r ∧ (s.rk r).rPend ch = true ∧ t.rPend ch = false then
          (s.sent (n.peer r ch).1 (n.peer r ch).2)[(s.rk r).rBegun ch - 1]?
        else s.buf q ch }
  else s

/-- Start of an interval on all ranks. -/
structure NInit (s : NState) : Prop where
  rk : ∀ r, Init (s.rk r)
  sent : ∀ r ch, s.sent r ch = []
  buf : ∀ r ch, s.buf r ch = none

/-- States reachable by any interleaving of the ranks' threads. -/
inductive NReach (n : Net) : NState → Prop
  | init {s} : NInit s → NReach n s
  | step {s} (r : Nat) (a : Action) : NReach n s → NReach n (nstep n s r a)

/-- An infinite execution of all ranks. -/
structure NExec (n : Net) (σ : Nat → NState) (a : Nat → Nat × Action) : Prop where
  init : NInit (σ 0)
  next : ∀ i, σ (i + 1) = nstep n (σ i) (a i).1 (a i).2

/-- Fairness: on every rank the scheduling thread and the workers take infinitely many steps and all requests are tested infinitely often, at a
time when they are complete *if* the other side has done its part: an active receive is complete if its message has been sent; an active
send is complete if the matching receive has been posted. -/
structure NFair (n : Net) (σ : Nat → NState) (a : Nat → Nat × Action) : Prop where
  sched : ∀ r, r < n.nRk → ∀ i, ∃ j, i ≤ j ∧ a j = (r, .sched)
  wrk : ∀ r, r < n.nRk → ∀ w, w < (n.p r).nWrk → ∀ i, ∃ j, i ≤ j ∧ a j = (r, .wrk w)
  send : ∀ r, r < n.nRk → ∀ ch, ch < (n.p r).nCh → ∀ i, ∃ j, i ≤ j ∧ ∃ d, a j = (r, .testSend ch d) ∧
    (((σ j).rk r).sPend ch = true → (σ j).posted n r ch → d = true)
  recv : ∀ r, r < n.nRk → ∀ ch, ch < (n.p r).nCh → ∀ i, ∃ j, i ≤ j ∧ ∃ d, a j = (r, .testRecv ch d) ∧
    (((σ j).rk r).rPend ch = true → (σ j).arrived n r ch → d = true)

/-! ### Each rank executes the model of one rank -/

theorem nreach_rank {n : Net} {s : NState} (h : NReach n s) {r : Nat} : Reachable (n.p r) (s.rk r) := by
  induction h with
  | init h => exact .init (h.rk r)
  | @step s q a _ ih =>
    unfold nstep
    split
    · simp only
      split
      · rename_i h; subst h; exact .step _ ih
      · exact ih
    · exact ih

/-- The actions of one rank in an execution; the others' actions do not touch it. -/
def projAct (n : Net) (σ : Nat → NState) (a : Nat → Nat × Action) (r i : Nat) : Action :=
  if (a i).1 = r then (σ i).eff n r (a i).2 else .testSend (n.p r).nCh false

theorem proj_exec {n : Net} {σ : Nat → NState} {a : Nat → Nat × Action} (hx : NExec n σ a) {r : Nat} (hr : r < n.nRk) :
    Exec (n.p r) (fun i => (σ i).rk r) (projAct n σ a r) := by
  refine ⟨hx.init.rk r, fun i => ?_⟩
  simp only [hx.next i, nstep, projAct]
  by_cases h : (a i).1 = r
  · subst h; simp [hr]
  · rw [if_neg h]
    have e : step (n.p r) ((σ i).rk r) (.testSend (n.p r).nCh false) = (σ i).rk r := by
      simp [step, stepTestSend]
    rw [e]
    split
    · simp only; rw [if_neg (fun h' => h h'.symm)]
    · rfl

theorem proj_fair {n : Net} {σ : Nat → NState} {a : Nat → Nat × Action} (hf : NFair n σ a) {r : Nat} (hr : r < n.nRk) :
    FairT (n.p r) (projAct n σ a r) := by
  constructor
  · intro i
    obtain ⟨j, h1, h2⟩ := hf.sched r hr i
    exact ⟨j, h1, by simp [projAct, h2, NState.eff]⟩
  · intro w hw i
    obtain ⟨j, h1, h2⟩ := hf.wrk r hr w hw i
    exact ⟨j, h1, by simp [projAct, h2, NState.eff]⟩

theorem nexec_reach {n : Net} {σ : Nat → NState} {a : Nat → Nat × Action} (hx : NExec n σ a) (i : Nat) : NReach n (σ i) := by
  induction i with
  | zero => exact .init hx.init
  | succ i ih => rw [hx.next]; exact .step _ _ ih

/-! ### Contents of the messages -/

theorem step_sBegun {p : Params} {s : State} (a : Action) (ch : Nat) :
    (step p s a).sBegun ch = s.sBegun ch ∨
    ((step p s a).sBegun ch = s.sBegun ch + 1 ∧ ((step p s a).tg (p.tgL ch)).c1 = 3 ∧ ((step p s a).tg (p.tgL ch)).c6 = 1 ∧
      p.isMatch ch (((step p s a).tg (p.tgL ch)).nS % 2 == 1) (p.tgL ch) = true) := by
  cases a with
  | sched =>
    simp only [step, stepSched]
    split
    · split <;> exact Or.inl rfl
    · rename_i i is _
      cases i with
      | send g =>
        simp only [exec1]
        split
        · simp only [State.setTg, State.beginSends]
          split
          · rename_i hm
            have := isMatch_tg hm.2
            right
            simp only [this, if_true]
            exact ⟨trivial, trivial, trivial, hm.2⟩
          · exact Or.inl rfl
        · exact Or.inl rfl
      | _ => left; simp only [exec1] <;> (repeat' split) <;> rfl
  | wrk w =>
    left; simp only [step]; split
    · unfold stepWrk
      split
      · split
        · rfl
        · split <;> rfl
      · rfl
      · rfl
    · rfl
  | testSend c b => left; simp only [step, stepTestSend]; split <;> rfl
  | testRecv c b => left; simp only [step, stepTestRecv]; split <;> rfl

theorem step_rPend {p : Params} {s : State} (a : Action) (ch : Nat) :
    ((step p s a).rBegun ch = s.rBegun ch ∧ (step p s a).rPend ch = s.rPend ch) ∨
    ((step p s a).rBegun ch = s.rBegun ch + 1 ∧ (step p s a).rPend ch = true) ∨
    ((step p s a).rBegun ch = s.rBegun ch ∧ (step p s a).rPend ch = false ∧ s.rPend ch = true ∧ a = .testRecv ch true) := by
  cases a with
  | sched =>
    simp only [step, stepSched]
    split
    · split <;> exact Or.inl ⟨rfl, rfl⟩
    · rename_i i is _
      cases i with
      | initCf g =>
        simp only [exec1]
        split
        · simp only [State.setTg, State.beginRecvs]
          split
          · exact Or.inr (Or.inl ⟨rfl, rfl⟩)
          · exact Or.inl ⟨rfl, rfl⟩
        · exact Or.inl ⟨rfl, rfl⟩
      | recv g =>
        simp only [exec1]
        split
        · split
          · exact Or.inl ⟨rfl, rfl⟩
          · simp only [State.setTg, State.beginRecvs]
            split
            · exact Or.inr (Or.inl ⟨rfl, rfl⟩)
            · exact Or.inl ⟨rfl, rfl⟩
        · exact Or.inl ⟨rfl, rfl⟩
      | _ => left; simp only [exec1] <;> (repeat' split) <;> first | exact ⟨rfl, rfl⟩ | exact ⟨trivial, trivial⟩ | simp
  | wrk w =>
    left; simp only [step]; split
    · unfold stepWrk
      split
      · split
        · exact ⟨rfl, rfl⟩
        · split <;> exact ⟨rfl, rfl⟩
      · exact ⟨rfl, rfl⟩
      · exact ⟨rfl, rfl⟩
    · exact ⟨rfl, rfl⟩
  | testSend c b => left; simp only [step, stepTestSend]; split <;> exact ⟨rfl, rfl⟩
  | testRecv c b =>
    simp only [step, stepTestRecv]
    split
    · rename_i h
      by_cases hc : ch = c
      · subst hc
        cases hp : s.rPend ch with
        | false => left; simp
        | true =>
          right; right
          rcases h.2 with h' | h'
          · rw [hp] at h'; cases h'
          · subst h'; simp
      · left; simp [hc]
    · exact Or.inl ⟨rfl, rfl⟩

/-- Number of predictions the sending group has finished when it sends message `j` of a channel. -/
def content (p : Params) (ch j : Nat) : Nat := if p.tgL ch < p.tgR ch then 2 * (j + 1) else j + 1

/-- Invariant of the messages. -/
structure MsgI (n : Net) (s : NState) : Prop where
  len : ∀ r ch, r < n.nRk → ch < (n.p r).nCh → (s.sent r ch).length = (s.rk r).sBegun ch
  val : ∀ r ch j v, r < n.nRk → ch < (n.p r).nCh → (s.sent r ch)[j]? = some v →
    ∀ w, w < (n.p r).nWrk → v w = content (n.p r) ch j
  buf : ∀ r ch, r < n.nRk → ch < (n.p r).nCh → (s.rk r).rPend ch = false → 0 < (s.rk r).rBegun ch →
    s.arrived n r ch ∧ s.buf r ch = (s.sent (n.peer r ch).1 (n.peer r ch).2)[(s.rk r).rBegun ch - 1]?

theorem msgI_step {n : Net} (wf : n.WF) {s : NState} (hr : NReach n s) (h : MsgI n s) (r : Nat) (a : Action) : MsgI n (nstep n s r a) := by
  rcases Nat.lt_or_ge r n.nRk with hrn | hrn
  rotate_left
  · simp only [nstep, if_neg (Nat.not_lt.2 hrn)]; exact h
  have hI : Inv (n.p r) (step (n.p r) (s.rk r) (s.eff n r a)) := reachable_inv (wf.wf r hrn) (.step _ (nreach_rank hr))
  have mono : ∀ q c, ((nstep n s r a).rk q).sBegun c = (s.rk q).sBegun c ∨
      (((nstep n s r a).rk q).sBegun c = (s.rk q).sBegun c + 1) := by
    intro q c
    simp only [nstep, if_pos hrn]
    by_cases hq : q = r
    · subst hq
      simp only [if_true]
      rcases step_sBegun (p := n.p q) (s := s.rk q) (s.eff n q a) c with e | ⟨e, _⟩
      · exact Or.inl e
      · exact Or.inr e
    · simp [hq]
  have grow : ∀ q c, q < n.nRk → c < (n.p q).nCh →
      ((nstep n s r a).sent q c).length = ((nstep n s r a).rk q).sBegun c ∧
      ∀ j, j < (s.rk q).sBegun c → ((nstep n s r a).sent q c)[j]? = (s.sent q c)[j]? := by
    intro q c hq hc
    have hl := h.len q c hq hc
    simp only [nstep, if_pos hrn]
    by_cases hqr : q = r
    · subst hqr
      simp only [if_true, true_and]
      rcases step_sBegun (p := n.p q) (s := s.rk q) (s.eff n q a) c with e | ⟨e, _⟩
      · rw [if_neg (by omega), e]; exact ⟨hl, fun _ _ => rfl⟩
      · rw [if_pos (by omega), e]
        refine ⟨by simp [hl], fun j hj => ?_⟩
        rw [List.getElem?_append_left (by omega)]
    · simp only [hqr, false_and, if_false]
      exact ⟨hl, fun _ _ => trivial⟩
  refine ⟨fun q c hq hc => (grow q c hq hc).1, ?_, ?_⟩
  · intro q c j v hq hc hv w hw
    have hl := h.len q c hq hc
    have hj : j < ((nstep n s r a).sent q c).length := by
      apply Classical.byContradiction; intro hn
      rw [List.getElem?_eq_none (by omega)] at hv; cases hv
    rw [(grow q c hq hc).1] at hj
    rcases Nat.lt_or_ge j ((s.rk q).sBegun c) with hjl | hjl
    · rw [(grow q c hq hc).2 j hjl] at hv
      exact h.val q c j v hq hc hv w hw
    · -- the new message
      have hqr : q = r := by
        apply Classical.byContradiction; intro hn
        simp only [nstep, if_pos hrn, hn, if_false] at hj; omega
      subst hqr
      simp only [nstep, if_pos hrn, if_true, true_and] at hj hv
      rcases step_sBegun (p := n.p q) (s := s.rk q) (s.eff n q a) c with e | ⟨e, c1, c6, hm⟩
      · omega
      rw [if_pos (by omega)] at hv
      have hjeq : j = (s.sent q c).length := by omega
      subst hjeq
      rw [List.getElem?_append_right (by omega)] at hv
      simp only [Nat.sub_self, List.getElem?_cons_zero, Option.some.injEq] at hv
      subst hv
      have htl := wf.tgL q c hrn hc
      have hsc := (hI.core.sch c hc htl).n
      rcases hI.core.grp _ htl with hu | ⟨hG, hRI⟩
      · rw [hu.1] at c1; simp [TgState.reset, umax] at c1
      have hex := ((hRI 1 w (by decide) hw).d (by simp only [TgState.cf]; omega)).1
      rw [hex]
      generalize (step (n.p q) (s.rk q) (s.eff n q a)).tg ((n.p q).tgL c) = t at *
      have h2 := hG.sN.2.2.2 (by omega) c6
      have h3 : t.sRounds = t.nS + 1 := by simp [TgState.sRounds, c6]
      rw [e, h3] at hsc
      unfold content
      unfold Params.isMatch at hm
      split at hsc
      · rename_i hlt
        rw [if_pos hlt]
        simp only [beq_self_eq_true, Bool.true_and, if_pos hlt, beq_iff_eq] at hm
        omega
      · rename_i hlt
        rw [if_neg hlt]; omega
  · intro q c hq hc hp hb
    have hpk := wf.rk q c hq hc
    have hpc := wf.ch q c hq hc
    have hmn := mono (n.peer q c).1 (n.peer q c).2
    -- the lookup in the peer's messages is stable
    have fin : (s.rk q).rBegun c = ((nstep n s r a).rk q).rBegun c → s.arrived n q c →
        (nstep n s r a).buf q c = (s.sent (n.peer q c).1 (n.peer q c).2)[(s.rk q).rBegun c - 1]? →
        (nstep n s r a).arrived n q c ∧
        (nstep n s r a).buf q c = ((nstep n s r a).sent (n.peer q c).1 (n.peer q c).2)[((nstep n s r a).rk q).rBegun c - 1]? := by
      intro e harr hbuf
      simp only [NState.arrived] at harr ⊢
      rw [← e] at hb ⊢
      rw [hbuf, (grow _ _ hpk hpc).2 _ (by omega)]
      exact ⟨by omega, rfl⟩
    by_cases hqr : q = r
    · subst hqr
      have e1 : (nstep n s q a).rk q = step (n.p q) (s.rk q) (s.eff n q a) := by simp only [nstep, if_pos hrn, if_true]
      rw [e1] at hp hb fin ⊢
      rw [← e1] at fin ⊢
      have hbufdef : (nstep n s q a).buf q c = if (s.rk q).rPend c = true then
          (s.sent (n.peer q c).1 (n.peer q c).2)[(s.rk q).rBegun c - 1]? else s.buf q c := by
        simp only [nstep, if_pos hrn, true_and, hp, and_true]
      rcases step_rPend (p := n.p q) (s := s.rk q) (s.eff n q a) c with ⟨e2, e3⟩ | ⟨_, e3⟩ | ⟨e2, e3, e4, e5⟩
      · rw [hp] at e3
        obtain ⟨b1, b2⟩ := h.buf q c hq hc e3.symm (by omega)
        refine fin (by rw [e1, e2]) b1 ?_
        rw [hbufdef, if_neg (by rw [← e3]; simp), b2]
      · rw [hp] at e3; cases e3
      · refine fin (by rw [e1, e2]) ?_ ?_
        · cases a <;> simp only [NState.eff, reduceCtorEq, Action.testRecv.injEq, Bool.and_eq_true, decide_eq_true_eq] at e5
          obtain ⟨rfl, _, h6⟩ := e5
          exact h6
        · rw [hbufdef, if_pos e4]
    · have e1 : (nstep n s r a).rk q = s.rk q := by simp only [nstep, if_pos hrn, hqr, if_false]
      rw [e1] at hp hb
      obtain ⟨b1, b2⟩ := h.buf q c hq hc hp hb
      refine fin (by rw [e1]) b1 ?_
      rw [← b2]
      simp only [nstep, if_pos hrn, hqr, false_and, if_false]

theorem nreach_msg {n : Net} (wf : n.WF) {s : NState} (h : NReach n s) : MsgI n s := by
  induction h with
  | init h =>
    refine ⟨fun r ch _ _ => by rw [h.sent, (h.rk r).sBegun]; rfl, fun r ch j v _ _ hv w _ => ?_, fun r ch _ _ _ hb => ?_⟩
    · rw [h.sent] at hv; simp at hv
    · rw [(h.rk r).rBegun] at hb; omega
  | step r a hr ih => exact msgI_step wf hr ih r a

end Edge.Sched
