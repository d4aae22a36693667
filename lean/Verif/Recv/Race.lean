import Verif.Recv.Props
import Verif.Sched.Props
import Verif.Sched.Demo
/-!
C42: flushes are issued by the scheduling thread while other threads execute local steps, which write to the buffers of receivers.
`flushIf()` is called when the neighbouring update of the inner elements of a group is scheduled (`man_sched.inc:156-166`).
-/
namespace Edge.Recv
open Edge Edge.Sched

/-- The scheduler calls `flushIf` for group `g` in its next action: it is at the statement in question and the control flow entry of
the neighbouring update changes from 0 to 1. -/
def Flushes (p : Params) (s : State) (g : Nat) : Prop :=
  s.todo.head? = some (.neIn g) ∧ (s.tg g).c4 = 0 ∧ ((step p s .sched).tg g).c4 = 1

/-- A worker is within a local step of group `f`. -/
def InLocal (p : Params) (s : State) (f : Nat) : Prop := ∃ w r, w < p.nWrk ∧ IsLocal r ∧ s.wk w = .run f r

/-- After the neighbouring update of the inner elements of group `g` has been scheduled, the local steps of `g` and of the groups next to it
are completed. -/
theorem local_done {p : Params} {s : State} (wf : p.WF) (hr : Reachable p s) {g : Nat} (hg : g < p.nTgs) (h4 : (s.tg g).c4 = 1)
    {f : Nat} (hf : f < p.nTgs) (hfg : f = g ∨ f = g + 1 ∨ f + 1 = g) {q : Nat} (hq : IsLocal q) : 2 ≤ (s.tg f).cf q := by
  have hi := (reachable_inv wf hr).core
  have hG : GI (p.N g) (s.tg g).k (s.tg g) := by
    rcases hi.grp g hg with hu | h
    · rw [hu.1] at h4; simp [TgState.reset, umax] at h4
    · exact h.1
  rcases hfg with rfl | rfl | rfl
  · have := hG.r4; have := hG.x4
    rcases hq with rfl | rfl <;> simp [TgState.cf] <;> omega
  · have hp := hi.pair g hf
    have h1 := hp.i (Or.inl (by omega))
    obtain ⟨hA, -⟩ := gi_of wf hr hf (Or.inl (by omega))
    have h3 : 2 * (s.tg (g+1)).ts ≤ (s.tg g).k := by
      have := hp.iii; have := hG.uI
      omega
    have h5 : (s.tg (g+1)).k ≤ (s.tg (g+1)).ts := by unfold TgState.k; split <;> omega
    have := hA.pI; have := hA.pS
    rcases hq with rfl | rfl <;> simp [TgState.cf] <;> omega
  · have hp := hi.pair f hg
    have h1 := hp.iv (Or.inl (by omega))
    obtain ⟨hA, -⟩ := gi_of wf hr hf (Or.inl (by omega))
    have h3 : (s.tg f).ts ≤ 2 * (s.tg (f+1)).k + 1 := by
      have := hp.ii; have := hG.uI
      omega
    have h5 : (s.tg f).k ≤ (s.tg f).ts := by unfold TgState.k; split <;> omega
    have := hA.pI; have := hA.pS
    rcases hq with rfl | rfl <;> simp [TgState.cf] <;> omega

theorem step_wk {p : Params} {s : State} {g : Nat} (h : s.todo.head? = some (.neIn g)) : (step p s .sched).wk = s.wk := by
  rcases ht : s.todo with _ | ⟨i, l⟩
  · rw [ht] at h; cases h
  · rw [ht] at h
    obtain rfl := Option.some.inj h
    simp only [step, stepSched, ht, exec1]
    split <;> rfl

/-- **C42 (races, partial).** Whenever `flushIf` is called for the sake of group `g`, no worker is within a local step of `g` itself or of
a group next to it.  With at most two time groups, receivers are therefore never flushed and written at the same
time.  (Missing for the full property: three or more groups, see `C42_race_refuted`.) -/
theorem C42_no_race_partial (p : Params) (wf : p.WF) (s : State) (hr : Reachable p s) (g : Nat) (hg : g < p.nTgs)
    (hf : Flushes p s g) :
    (∀ f, f < p.nTgs → (f = g ∨ f = g + 1 ∨ f + 1 = g) → ¬ InLocal p s f) ∧
    (p.nTgs ≤ 2 → ∀ f, ¬ InLocal p s f) := by
  have key : ∀ f, (f = g ∨ f = g + 1 ∨ f + 1 = g) → ¬ InLocal p s f := by
    rintro f hfg ⟨w, r, hw, hl, hrun⟩
    have hr' : Reachable p (step p s .sched) := .step _ hr
    have hrun' : (step p s .sched).wk w = .run f r := by rw [step_wk hf.1]; exact hrun
    obtain ⟨a, -, -, c, -⟩ := running_facts wf hr' hw hrun'
    have := local_done wf hr' hg hf.2.2 a hfg hl
    omega
  refine ⟨fun f _ hfg => key f hfg, ?_⟩
  rintro h2 f ⟨w, r, hw, hl, hrun⟩
  obtain ⟨a, -⟩ := running_facts wf hr hw hrun
  exact key f (by omega) ⟨w, r, hw, hl, hrun⟩

/-! ### Three time groups

Two workers, three time groups with four, two and one steps, no communication; the order of the regions is that of the priorities
(`src/impl/seismic/setup.inc:337-399`): send regions before inner ones, faster groups first. -/

def p3 : Params where
  nTgs := 3
  nWrk := 2
  nCh := 0
  N g := if g = 0 then 4 else if g = 1 then 2 else 1
  tgL _ := 0
  tgR _ := 0
  order := [(0,1),(0,3),(0,5),(1,1),(1,3),(1,5),(2,1),(2,3),(2,5),(0,0),(0,2),(0,4),(1,0),(1,2),(1,4),(2,0),(2,2),(2,4)]

theorem p3_wf : p3.WF := by
  refine ⟨by decide, ?_, ?_, ?_⟩
  · intro g hg
    have : g = 0 ∨ g = 1 ∨ g = 2 := by simp only [p3] at hg; omega
    rcases this with rfl | rfl | rfl <;> decide
  · intro g hg
    have : g = 0 ∨ g = 1 := by simp only [p3] at hg; omega
    rcases this with rfl | rfl <;> decide
  · intro g r
    constructor
    · intro h
      simp only [p3, List.mem_cons, Prod.mk.injEq, List.not_mem_nil, or_false] at h ⊢
      omega
    · intro ⟨h1, h2⟩
      have : g = 0 ∨ g = 1 ∨ g = 2 := by simp only [p3] at h1; omega
      have : r = 0 ∨ r = 1 ∨ r = 2 ∨ r = 3 ∨ r = 4 ∨ r = 5 := by omega
      rcases ‹g = 0 ∨ g = 1 ∨ g = 2› with rfl | rfl | rfl <;>
        rcases ‹r = 0 ∨ _› with rfl | rfl | rfl | rfl | rfl | rfl <;> decide

def exe3 (l : List Action) : State := l.foldl (step p3) Demo.s0

theorem reach3 (l : List Action) : Reachable p3 (exe3 l) := by
  have : ∀ (l : List Action) s, Reachable p3 s → Reachable p3 (l.foldl (step p3) s) := by
    intro l
    induction l with
    | nil => intro s h; exact h
    | cons a l ih => intro s h; exact ih _ (Reachable.step a h)
  exact this l Demo.s0 (.init Demo.init_s0)

/-- One call of `schedule()`. -/
def call3 : List Action := List.replicate 60 .sched

/-- A worker executes `n` packages. -/
def work3 (w n : Nat) : List Action := List.replicate (3 * n) (.wrk w)

/-- An execution: the scheduler is called, both workers complete the local steps of the groups 0 and 1 and of the send elements of group
2, the scheduler is called again, both workers complete the available source updates, worker 0 also the local step of group 2, worker 1
starts it; then the scheduler runs up to the neighbouring update of group 0. -/
def exec3 : List Action :=
  call3 ++ work3 0 5 ++ work3 1 5 ++ call3 ++ work3 0 6 ++ work3 1 5 ++ [.wrk 1, .wrk 1] ++ List.replicate 35 .sched

/-- **C42 (races, negative part).** With three time groups there are executions of the scheduler in which `flushIf` is called (for
group 0) while a worker is within the local step of group 2, which writes to receivers. -/
theorem C42_race_refuted : ∃ s, Reachable p3 s ∧ p3.WF ∧ Flushes p3 s 0 ∧ InLocal p3 s 2 :=
  ⟨exe3 exec3, reach3 _, p3_wf, ⟨by decide +kernel, by decide +kernel, by decide +kernel⟩,
    1, 0, by decide, Or.inl rfl, by decide +kernel⟩

/-- **C42 (lost sample, negative part).** If a local step writes a sample to a receiver after the buffered rows have been appended to its file and before the number of
buffered values is reset, this sample never gets to the file, although the time of the next sample advances: the rows of the
receiver are those before the write. -/
theorem C42_lost_sample_refuted {K : Type} [Field K] (c : Cfg K) (r : Rcv K) (hw : r.WF c) (hn : r.nBuff < c.buffSize) (d : List K)
    (hd : d.length = c.nQts * c.nMds * c.nCrs) :
    ∃ r1 r2, flushRows c r = some r1 ∧ writeRecv c d r1 = some r2 ∧ rows c (flushReset r2) = rows c r ∧
      (flushReset r2).time = r.time + c.freq := by
  obtain ⟨r2, h1, h2, h3, h4, h5, h6, h7, h8, h9⟩ := writeRecv_spec (c := c) (dofs := d)
    (r := { r with file := r.file ++ buffered c r }) ⟨hw.buf, hw.tim, hw.nb, hw.bas⟩ hd hn
  refine ⟨_, r2, flushRows_spec hw, h1, ?_, h6⟩
  rw [rows, buffered_zero (r := flushReset r2) rfl, List.append_nil]
  exact h8

/-- The hypotheses are met by a new receiver . -/
example : (newRcv exCfg 0 0 0 0 0 [1]).WF exCfg := ⟨rfl, rfl, Nat.zero_le _, rfl⟩

/-- A state in which `flushIf` is called in a configuration with two groups. -/
example : ∃ s, Reachable Demo.p s ∧ Flushes Demo.p s 0 :=
  ⟨Demo.at' 5 (List.replicate 26 .sched), Demo.reach _, by decide +kernel, by decide +kernel, by decide +kernel⟩

end Edge.Recv
