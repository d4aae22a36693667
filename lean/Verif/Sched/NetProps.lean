import Verif.Sched.NetTerm
/-!
Properties of distributed runs (C83, C84), for every number of ranks, every pairing of their channels and every interleaving of the ranks' threads
and of the message layer's answers.
-/
namespace Edge.Sched

/-- **C83.** While a worker executes the neighbouring update of the send elements of group `g` in the group's step `k` (steps are counted by the
worker's finished updates), the receive buffer of each of the group's channels holds, from every worker of the other rank, the same number `v` of
predictions, and the last of them is the one that belongs to the end of the step: it begins before the end of the step and
ends at it or later.  (Times in multiples of the smallest time step; a step of group `h` takes `2^h`.) -/
theorem C83_received_predictions {n : Net} (wf : n.WF) {s : NState} (hr : NReach n s) {r w g : Nat} (hrn : r < n.nRk) (hw : w < (n.p r).nWrk)
    (h : (s.rk r).wk w = .run g neighSend) {ch : Nat} (hc : ch < (n.p r).nCh) (hg : (n.p r).tgL ch = g) :
    ∃ m v, s.buf r ch = some m ∧ (∀ w', w' < (n.p (n.peer r ch).1).nWrk → m w' = v + 1) ∧
      v * 2 ^ (n.p r).tgR ch < ((s.rk r).exec g neighSend w + 1) * 2 ^ g ∧
      ((s.rk r).exec g neighSend w + 1) * 2 ^ g ≤ (v + 1) * 2 ^ (n.p r).tgR ch := by
  obtain ⟨hp, hb⟩ := C10_recv_buffer_idle (wf.wf r hrn) (nreach_rank hr) hw h hc hg
  have hM := nreach_msg wf hr
  have hpos : 0 < (s.rk r).rBegun ch := by rw [hb]; split <;> omega
  obtain ⟨harr, hbuf⟩ := hM.buf r ch hrn hc hp hpos
  have h1 := wf.rk r ch hrn hc
  have h2 := wf.ch r ch hrn hc
  have h3 := wf.swap r ch hrn hc
  have h5 := wf.swap _ _ h1 h2
  rw [wf.back r ch hrn hc] at h5
  simp only at h5
  have hlen := hM.len _ _ h1 h2
  simp only [NState.arrived] at harr
  obtain ⟨m, hm⟩ : ∃ m, (s.sent (n.peer r ch).1 (n.peer r ch).2)[(s.rk r).rBegun ch - 1]? = some m :=
    ⟨_, List.getElem?_eq_getElem (by omega)⟩
  have hval := hM.val _ _ _ m h1 h2 hm
  have hj : (s.rk r).rBegun ch - 1 + 1 = (s.rk r).rBegun ch := by omega
  simp only [content, hj, h3, ← h5, hg] at hval
  have hadj := wf.adj r ch hrn hc
  rw [hg] at hadj
  have pos : ∀ x, 0 < 2 ^ x := fun x => Nat.pow_pos (by decide)
  rw [hb] at hval
  refine ⟨m, if g < (n.p r).tgR ch then (s.rk r).exec g neighSend w / 2
      else if (n.p r).tgR ch < g then 2 * (s.rk r).exec g neighSend w + 1 else (s.rk r).exec g neighSend w, by rw [hbuf, hm], ?_⟩
  generalize (s.rk r).exec g neighSend w = k at *
  rcases hadj with e | e | e
  · rw [← e] at hval ⊢
    simp only [Nat.lt_irrefl, if_false] at hval ⊢
    exact ⟨hval, Nat.mul_lt_mul_of_pos_right (by omega) (pos g), Nat.le_refl _⟩
  · rw [← e] at hval ⊢
    simp only [if_pos (show g < g + 1 by omega), if_neg (show ¬ g + 1 < g by omega)] at hval ⊢
    rw [two_pow_succ', ← Nat.mul_assoc, ← Nat.mul_assoc]
    exact ⟨hval, Nat.mul_lt_mul_of_pos_right (by omega) (pos g), Nat.mul_le_mul_right _ (by omega)⟩
  · simp only [if_neg (show ¬ g < (n.p r).tgR ch by omega), if_pos (show (n.p r).tgR ch < g by omega)] at hval ⊢
    have e2 : 2 ^ g = 2 * 2 ^ (n.p r).tgR ch := by rw [← e, two_pow_succ']
    rw [e2, ← Nat.mul_assoc]
    refine ⟨fun w' hw' => by rw [hval w' hw']; omega, Nat.mul_lt_mul_of_pos_right (by omega) (pos _), Nat.mul_le_mul_right _ (by omega)⟩

/-- Once nothing advances, a request of an unfinished rank whose test has not been successful waits for the other side. -/
theorem ev_nstuck {n : Net} (wf : n.WF) {σ : Nat → NState} {a : Nat → Nat × Action} (hx : NExec n σ a) (hf : NFair n σ a) :
    ∃ T, (∀ i, T ≤ i → NStuck n (σ i)) := by
  -- per rank: eventually finished forever, or frozen forever with constant tests
  have per : ∀ r, r < n.nRk → ∃ T, Quiet (n.p r) (fun i => (σ i).rk r) T ∧
      ((∀ i, T ≤ i → ∀ g, g < (n.p r).nTgs → FinG (n.p r) ((σ i).rk r) g) ∨
       (∀ i, T ≤ i → Frozen (n.p r) ((σ i).rk r) ∧ ∀ ch, ch < (n.p r).nCh →
          ((σ (i+1)).rk r).sTest ch = ((σ i).rk r).sTest ch ∧ ((σ (i+1)).rk r).rTest ch = ((σ i).rk r).rTest ch)) := by
    intro r hr
    have he := proj_exec hx hr
    by_cases hfin : ∃ i, ((σ i).rk r).finished = true
    · obtain ⟨T1, h1⟩ := hfin
      obtain ⟨T2, h2⟩ := ev_quiet (wf.wf r hr) he
      have h3 := after_finish (wf.wf r hr) he (T := T1) h1
      refine ⟨T1 + T2, fun i hi => h2 i (by omega), Or.inl fun i hi g hg => ?_⟩
      exact (reachable_inv (wf.wf r hr) (nreach_rank (nexec_reach hx i))).fin (h3 i (by omega)).1 g hg
    · have hnf : ∀ i, ((σ i).rk r).finished = false := by
        intro i
        cases h : ((σ i).rk r).finished with
        | false => rfl
        | true => exact absurd ⟨i, h⟩ hfin
      obtain ⟨T, h1, h2, h3⟩ := ev_frozen (wf.wf r hr) he (proj_fair hf hr) hnf
      exact ⟨T, h1, Or.inr fun i hi => ⟨h2 i hi, h3 i hi⟩⟩
  -- a common time
  obtain ⟨T, _, hT⟩ : ∃ T, 0 ≤ T ∧ ∀ i, T ≤ i → ∀ r, r < n.nRk → Quiet (n.p r) (fun i => (σ i).rk r) i ∧
      ((∀ j, i ≤ j → ∀ g, g < (n.p r).nTgs → FinG (n.p r) ((σ j).rk r) g) ∨
       (∀ j, i ≤ j → Frozen (n.p r) ((σ j).rk r) ∧ ∀ ch, ch < (n.p r).nCh →
          ((σ (j+1)).rk r).sTest ch = ((σ j).rk r).sTest ch ∧ ((σ (j+1)).rk r).rTest ch = ((σ j).rk r).rTest ch)) := by
    refine fin_eventually n.nRk 0 (fun r i => Quiet (n.p r) (fun i => (σ i).rk r) i ∧
      ((∀ j, i ≤ j → ∀ g, g < (n.p r).nTgs → FinG (n.p r) ((σ j).rk r) g) ∨
       (∀ j, i ≤ j → Frozen (n.p r) ((σ j).rk r) ∧ ∀ ch, ch < (n.p r).nCh →
          ((σ (j+1)).rk r).sTest ch = ((σ j).rk r).sTest ch ∧ ((σ (j+1)).rk r).rTest ch = ((σ j).rk r).rTest ch))) ?_
    intro r hr
    obtain ⟨T, h1, h2⟩ := per r hr
    refine ⟨T, Nat.zero_le _, fun i hi => ⟨fun j hj => h1 j (by omega), ?_⟩⟩
    rcases h2 with h2 | h2
    · exact Or.inl fun j hj => h2 j (by omega)
    · exact Or.inr fun j hj => h2 j (by omega)
  refine ⟨T, fun i hi => ⟨fun r hr => (reachable_inv (wf.wf r hr) (nreach_rank (nexec_reach hx i))).core, fun r hr => ?_⟩⟩
  have begun : ∀ q, q < n.nRk → ∀ j, i ≤ j → ((σ j).rk q).sBegun = ((σ i).rk q).sBegun ∧ ((σ j).rk q).rBegun = ((σ i).rk q).rBegun :=
    fun q hq j hj => (quiet_const (wf.wf q hq) (proj_exec hx hq) (hT T (Nat.le_refl _) q hq).1 hi hj).2
  rcases (hT i hi r hr).2 with h | h
  · exact Or.inl (h i (Nat.le_refl _))
  · right
    have tests : ∀ j, i ≤ j → ∀ ch, ch < (n.p r).nCh →
        ((σ j).rk r).sTest ch = ((σ i).rk r).sTest ch ∧ ((σ j).rk r).rTest ch = ((σ i).rk r).rTest ch := by
      intro j hj ch hc
      induction hj with
      | refl => exact ⟨rfl, rfl⟩
      | @step m hm ih =>
        have := (h m hm).2 ch hc
        rw [this.1, this.2]; exact ih
    refine ⟨(h i (Nat.le_refl _)).1, ?_, ?_⟩
    · intro ch hc hT0 hpo
      obtain ⟨j, hj, d, haj, hd⟩ := hf.send r hr ch hc i
      have hpj : (σ j).posted n r ch := by
        simp only [NState.posted] at hpo ⊢
        rw [(begun r hr j hj).1, (begun _ (wf.rk r ch hr hc) j hj).2]; exact hpo
      have e : ((σ (j+1)).rk r).sTest ch = true := by
        rw [hx.next, haj]
        simp only [nstep, if_pos hr, if_true, NState.eff, step, stepTestSend]
        rw [if_pos]
        · simp
        · refine ⟨hc, ?_⟩
          cases hp : ((σ j).rk r).sPend ch with
          | false => exact Or.inl rfl
          | true => exact Or.inr (hd hp hpj)
      rw [(tests (j+1) (by omega) ch hc).1, hT0] at e
      cases e
    · intro ch hc hT0 har
      obtain ⟨j, hj, d, haj, hd⟩ := hf.recv r hr ch hc i
      have hpj : (σ j).arrived n r ch := by
        simp only [NState.arrived] at har ⊢
        rw [(begun r hr j hj).2, (begun _ (wf.rk r ch hr hc) j hj).1]; exact har
      have e : ((σ (j+1)).rk r).rTest ch = true := by
        rw [hx.next, haj]
        simp only [nstep, if_pos hr, if_true, NState.eff, step, stepTestRecv]
        rw [if_pos]
        · simp
        · refine ⟨hc, ?_⟩
          cases hp : ((σ j).rk r).rPend ch with
          | false => exact Or.inl rfl
          | true => exact Or.inr (by rw [hd hp hpj]; simp [hpj])
      rw [(tests (j+1) (by omega) ch hc).2, hT0] at e
      cases e

/-- **C84.** Every fair execution of a distributed run (`NExec`, `NFair`; in particular, sends need not complete before the matching receive has been
posted) reaches completion on all ranks: from some time on, every rank reports completion, all its groups have performed all their steps, all
workers have left their work, no request is active, and on every channel as many messages have been received as have been sent. -/
theorem C84_all_ranks_finish {n : Net} (wf : n.WF) {σ : Nat → NState} {a : Nat → Nat × Action} (hx : NExec n σ a) (hf : NFair n σ a) :
    ∃ T, ∀ i, T ≤ i → ∀ r, r < n.nRk → ((σ i).rk r).finished = true ∧
      (∀ g, g < (n.p r).nTgs → (((σ i).rk r).tg g).ts = (n.p r).N g) ∧
      (∀ w, w < (n.p r).nWrk → ((σ i).rk r).wk w = .idle) ∧
      (∀ ch, ch < (n.p r).nCh → ((σ i).rk r).sPend ch = false ∧ ((σ i).rk r).rPend ch = false ∧
        ((σ i).rk r).sBegun ch = ((σ i).rk (n.peer r ch).1).rBegun (n.peer r ch).2) := by
  obtain ⟨T0, hS⟩ := ev_nstuck wf hx hf
  obtain ⟨T, _, hT⟩ := fin_eventually n.nRk 0 (fun r i => ((σ i).rk r).finished = true ∧
      (∀ g, g < (n.p r).nTgs → (((σ i).rk r).tg g).ts = (n.p r).N g) ∧
      (∀ w, w < (n.p r).nWrk → ((σ i).rk r).wk w = .idle)) (by
    intro r hr
    obtain ⟨T, h⟩ := finG_finishes (wf.wf r hr) (proj_exec hx hr) (proj_fair hf hr) (T := T0)
      (fun i hi g hg => nstuck_done wf (hS i hi) hr hg)
    exact ⟨T, Nat.zero_le _, after_finish (wf.wf r hr) (proj_exec hx hr) h⟩)
  refine ⟨T, fun i hi r hr => ?_⟩
  obtain ⟨h1, h2, h3⟩ := hT i hi r hr
  refine ⟨h1, h2, h3, fun ch hc => ?_⟩
  have hre := nexec_reach hx i
  have q1 := wf.rk r ch hr hc
  have q2 := wf.ch r ch hr hc
  have q3 := wf.swap r ch hr hc
  have q5 := wf.swap _ _ q1 q2
  rw [wf.back r ch hr hc] at q5
  simp only at q5
  have hL := wf.tgL r ch hr hc
  have hL' := wf.tgL _ _ q1 q2
  have hnt := wf.nTgs r _ hr q1
  obtain ⟨m1, m2, m3, m4⟩ := C10_message_count (wf.wf r hr) (nreach_rank hre) h1 hc hL (by rw [hnt, ← q3]; exact hL')
  obtain ⟨k1, k2, k3, k4⟩ := C10_message_count (wf.wf _ q1) (nreach_rank hre) (hT i hi _ q1).1 q2 hL' (by rw [← q5, ← hnt]; exact hL)
  refine ⟨m1, m2, ?_⟩
  rw [← k3]
  rw [q3, ← q5, wf.steps _ r _ q1 hr (by rw [← q3]; exact hL')] at k4
  rcases wf.adj r ch hr hc with e | e | e
  · rw [← e] at m4 k4
    simp only [Nat.lt_irrefl, if_false] at m4 k4
    omega
  · have hw := (wf.wf r hr).two ((n.p r).tgL ch) (by rw [e, hnt, ← q3]; exact hL')
    rw [e] at hw
    rw [if_pos (by omega)] at m4
    rw [if_neg (by omega)] at k4
    omega
  · have hw := (wf.wf r hr).two ((n.p r).tgR ch) (by omega)
    rw [e] at hw
    rw [if_neg (by omega)] at m4
    rw [if_pos (by omega)] at k4
    omega

/-! ### A concrete network: two ranks, a channel between group 0 of the first and group 1 of the second -/
namespace Demo2

def p1 : Params := { Demo.p with tgL := fun _ => 1, tgR := fun _ => 0 }

def net : Net where
  nRk := 2
  p r := if r = 0 then Demo.p else p1
  peer r _ := (1 - r, 0)

theorem wf1 : p1.WF := ⟨Demo.wf.pos, Demo.wf.one, Demo.wf.two, Demo.wf.order⟩

theorem wf : net.WF := by
  have two : ∀ r, r < 2 → r = 0 ∨ r = 1 := by omega
  have one : ∀ r ch, r < 2 → ch < (net.p r).nCh → ch = 0 := by
    intro r ch hr hc
    rcases two r hr with rfl | rfl <;> simp [net, Demo.p, p1] at hc <;> exact hc
  constructor
  · intro r hr; rcases two r hr with rfl | rfl
    · exact Demo.wf
    · exact wf1
  · intro r q hr hq; rcases two r hr with rfl | rfl <;> rcases two q hq with rfl | rfl <;> rfl
  · intro r q g hr hq _; rcases two r hr with rfl | rfl <;> rcases two q hq with rfl | rfl <;> rfl
  all_goals
    intro r ch hr hc
    rw [one r ch hr hc]
    rcases two r hr with rfl | rfl <;> decide

def s0 : NState where
  rk _ := Demo.s0
  sent _ _ := []
  buf _ _ := none

theorem init : NInit s0 := ⟨fun _ => Demo.init_s0, fun _ _ => rfl, fun _ _ => rfl⟩

/-- Round-robin execution of both ranks. -/
def round : List (Nat × Action) := Demo.round.map (fun a => (0, a)) ++ Demo.round.map (fun a => (1, a))

theorem round_length : round.length = 106 := by decide

def act (i : Nat) : Nat × Action := round[i % 106]'(by rw [round_length]; omega)

def sig : Nat → NState
  | 0 => s0
  | i + 1 => nstep net (sig i) (act i).1 (act i).2

/-- The hypotheses of C84 are met by an actual execution. -/
example : net.WF ∧ NExec net sig act ∧ NFair net sig act := by
  have key : ∀ c, c < 106 → ∀ i, ∃ j, i ≤ j ∧ j % 106 = c := fun c hc i => ⟨106 * (i + 1) + c, by omega, by omega⟩
  have act : ∀ j c (h : c < 106), j % 106 = c → act j = round[c]'(by rw [round_length]; omega) := by
    intro j c h e; subst e; rfl
  have two : ∀ r, r < 2 → r = 0 ∨ r = 1 := by omega
  refine ⟨wf, ⟨init, fun _ => rfl⟩, ⟨?_, ?_, ?_, ?_⟩⟩
  · intro r hr i
    rcases two r hr with rfl | rfl
    · obtain ⟨j, h1, h2⟩ := key 0 (by decide) i
      exact ⟨j, h1, by rw [act j 0 (by decide) h2]; rfl⟩
    · obtain ⟨j, h1, h2⟩ := key 53 (by decide) i
      exact ⟨j, h1, by rw [act j 53 (by decide) h2]; rfl⟩
  · intro r hr w hw i
    have hw' : w = 0 ∨ w = 1 := by
      rcases two r hr with rfl | rfl <;> simp [net, Demo.p, p1] at hw <;> omega
    rcases two r hr with rfl | rfl <;> rcases hw' with rfl | rfl
    · obtain ⟨j, h1, h2⟩ := key 43 (by decide) i
      exact ⟨j, h1, by rw [act j 43 (by decide) h2]; rfl⟩
    · obtain ⟨j, h1, h2⟩ := key 44 (by decide) i
      exact ⟨j, h1, by rw [act j 44 (by decide) h2]; rfl⟩
    · obtain ⟨j, h1, h2⟩ := key 96 (by decide) i
      exact ⟨j, h1, by rw [act j 96 (by decide) h2]; rfl⟩
    · obtain ⟨j, h1, h2⟩ := key 97 (by decide) i
      exact ⟨j, h1, by rw [act j 97 (by decide) h2]; rfl⟩
  · intro r hr ch hc i
    have : ch = 0 := by
      rcases two r hr with rfl | rfl <;> simp [net, Demo.p, p1] at hc <;> exact hc
    subst this
    rcases two r hr with rfl | rfl
    · obtain ⟨j, h1, h2⟩ := key 41 (by decide) i
      exact ⟨j, h1, true, by rw [act j 41 (by decide) h2]; rfl, fun _ _ => rfl⟩
    · obtain ⟨j, h1, h2⟩ := key 94 (by decide) i
      exact ⟨j, h1, true, by rw [act j 94 (by decide) h2]; rfl, fun _ _ => rfl⟩
  · intro r hr ch hc i
    have : ch = 0 := by
      rcases two r hr with rfl | rfl <;> simp [net, Demo.p, p1] at hc <;> exact hc
    subst this
    rcases two r hr with rfl | rfl
    · obtain ⟨j, h1, h2⟩ := key 42 (by decide) i
      exact ⟨j, h1, true, by rw [act j 42 (by decide) h2]; rfl, fun _ _ => rfl⟩
    · obtain ⟨j, h1, h2⟩ := key 95 (by decide) i
      exact ⟨j, h1, true, by rw [act j 95 (by decide) h2]; rfl, fun _ _ => rfl⟩

def exe (l : List (Nat × Action)) : NState := l.foldl (fun s x => nstep net s x.1 x.2) s0

theorem reach (l : List (Nat × Action)) : NReach net (exe l) := by
  have : ∀ (l : List (Nat × Action)) s, NReach net s → NReach net (l.foldl (fun s x => nstep net s x.1 x.2) s) := by
    intro l
    induction l with
    | nil => intro s h; exact h
    | cons a l ih => intro s h; exact ih _ (NReach.step a.1 a.2 h)
  exact this l s0 (.init init)

/-- The state after `m` rounds and the first `k` actions of the next one. -/
def at' (m k : Nat) : NState := exe ((List.range m).flatMap (fun _ => round) ++ round.take k)

/-- C83: in the third step of the fast group of rank 0 its buffer holds two predictions of the slow group of rank 1. -/
example : NReach net (at' 19 46) ∧ ((at' 19 46).rk 0).wk 0 = .run 0 neighSend ∧ ((at' 19 46).rk 0).exec 0 neighSend 0 = 2 ∧
    ((at' 19 46).buf 0 0).map (fun m => (m 0, m 1)) = some (2, 2) :=
  ⟨reach _, by decide +kernel, by decide +kernel, by decide +kernel⟩

/-- C83: in the first step of the slow group of rank 1 its buffer holds two predictions of the fast group of rank 0. -/
example : NReach net (at' 10 105) ∧ ((at' 10 105).rk 1).wk 0 = .run 1 neighSend ∧ ((at' 10 105).rk 1).exec 1 neighSend 0 = 0 ∧
    ((at' 10 105).buf 1 0).map (fun m => (m 0, m 1)) = some (2, 2) :=
  ⟨reach _, by decide +kernel, by decide +kernel, by decide +kernel⟩

end Demo2

end Edge.Sched
