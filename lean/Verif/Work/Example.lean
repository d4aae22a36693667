import Verif.Work.Props
import Verif.Sched.Demo
/-!
C103: threads and packages which meet the hypotheses.
-/
namespace Edge.Work
open Edge Edge.Sched Edge.Shared Edge.Rate Edge.Step Edge.Gen

/-- Calls of `regWrkRgn` one after the other. -/
def regAll (A : Arith) (regs : List Reg) (s : Sh) : Option Sh := regs.foldlM (fun s r => r.call A 20 s) s

theorem reach_regs {A : Arith} {sep : Bool} {n : Nat} {s0 s : Sh} (h0 : Shared.init sep n = some s0) {regs : List Reg} (hw : ∀ r ∈ regs, r.Wf) (hid : (regs.map (·.id)).Nodup)
    (h : regAll A regs s0 = some s) : ∃ st, Shared.Reach A sep n regs st s := by
  induction regs using List.reverseRecOn generalizing s with
  | nil =>
    cases h
    exact ⟨_, .init h0⟩
  | append_singleton regs r ih =>
    rw [regAll, List.foldlM_append, Option.bind_eq_bind, Option.bind_eq_some_iff] at h
    obtain ⟨s1, a, b⟩ := h
    rw [List.map_append, List.nodup_append] at hid
    obtain ⟨st, hr⟩ := ih (fun r hr => hw r (List.mem_append_left _ hr)) hid.1 a
    refine ⟨_, .reg 20 r hr (hw r (by simp)) (fun q hq => hid.2.2 _ (List.mem_map_of_mem hq) _ (by simp)) (s' := s) ?_⟩
    simpa using b

/-- Two time groups: three inner and one send element, two inner elements with a point source. -/
def exIn : List (Nat × Nat) := [(3, 0), (2, 1)]
def exSe : List (Nat × Nat) := [(1, 0), (0, 0)]
def exTg (el : Nat) : Nat := if 3 ≤ el ∧ el < 5 then 1 else 0
/-- Three threads, one of them schedules. -/
def exSh : Option Sh := do regAll demoA (setupRegs 1 [1, 0, 0, 1, 0, 0] exIn exSe) (← Shared.init true 3)

/-- C103_packages: the two workers share the elements. -/
theorem exShares : ∃ s, exSh = some s ∧ Shares Demo.p exTg 6 (shareOf s) := by
  have hs : exSh.isSome = true := by decide +kernel
  obtain ⟨s, hs⟩ := Option.isSome_iff_exists.1 hs
  have hw : s.nWrks = 2 := by
    have : exSh.map (·.nWrks) = some 2 := by decide +kernel
    rw [hs] at this; simpa using this
  have h := hs
  simp only [exSh, Option.bind_eq_bind, Option.bind_eq_some_iff] at h
  obtain ⟨s0, h0, h1⟩ := h
  obtain ⟨st, hr⟩ := reach_regs h0 (by unfold Reg.Wf; decide) (by decide) h1
  refine ⟨s, hs, C103_packages (by decide +kernel) hr rfl rfl hw.symm rfl (fun el hel => ?_)⟩
  have : el = 0 ∨ el = 1 ∨ el = 2 ∨ el = 3 ∨ el = 4 ∨ el = 5 := by omega
  rcases this with rfl | rfl | rfl | rfl | rfl | rfl <;> simp [Lts.InTg, exIn, exSe, exTg]

/-- Elements of the packages. -/
example : exSh.map (fun s => (List.range 2).map (fun w => [shareOf s 0 0 w, shareOf s 0 1 w, shareOf s 1 4 w])) = some [[[0, 1], [5], [3]], [[2], [], [4]]] := by decide +kernel

/-- Two steps of group 0, one step of group 1. -/
def exP : Params := { Demo.p with N := fun g => if g = 0 then 2 else 1 }

theorem exP_wf : exP.WF := by
  refine ⟨by decide, ?_, ?_, Demo.wf.order⟩
  · intro g hg
    have : g = 0 ∨ g = 1 := by simp only [exP, Demo.p] at hg; omega
    rcases this with rfl | rfl <;> decide
  · intro g hg
    have : g = 0 := by simp only [exP, Demo.p] at hg; omega
    subst this; decide

/-- Threads: one call of `schedule()`, tests of all requests, nine steps of each worker. -/
def exRound : List WAct :=
  List.replicate 39 (.act .sched) ++ [.act (.testSend 0 true), .act (.testRecv 0 true)] ++
    (List.range 9).flatMap (fun _ => [.act (.wrk 0), .upd 0, .act (.wrk 1), .upd 1])

def exRun (share : Nat → Nat → Nat → List Nat) (l : List WAct) : WState := l.foldl (wstep exP share) ⟨Demo.s0, fun _ => [], []⟩

theorem exRun_reach (share : Nat → Nat → Nat → List Nat) (l : List WAct) : WReach exP share (exRun share l) := by
  have : ∀ (l : List WAct) x, WReach exP share x → WReach exP share (l.foldl (wstep exP share) x) := by
    intro l
    induction l with
    | nil => intro s h; exact h
    | cons a l ih => intro s h; exact ih _ (WReach.step a h)
  exact this l _ (.init Demo.init_s0)

/-- Elements 0 and 1 of groups 0 and 1 belong to the workers 0 and 1; worker 1 performs the neighboring steps of element 0. -/
def exShare (g r w : Nat) : List Nat := if r = 0 ∧ w = g ∨ r = 4 ∧ w = 1 then [g] else []

theorem exShare_shares : Shares exP (fun el => el) 2 exShare := by
  refine ⟨fun el h => h, fun g r w => ?_, fun g r w el hg hw hr hel => ?_, fun el hel => ⟨0, by omega, el, hel, by simp [exShare]⟩,
    fun el hel => ⟨4, by omega, by omega, 1, by decide, by simp [exShare]⟩, fun g r r' w w' el hg hw hw' hr hel hel' => ?_⟩
  · unfold exShare; split <;> simp
  · have hg : g < 2 := hg
    unfold exShare at hel
    split at hel
    · rw [List.mem_singleton] at hel; omega
    · simp at hel
  · unfold exShare at hel hel'
    split at hel <;> split at hel' <;> simp at hel hel'
    omega

/-- C103_rhythm, C103_complete, C103_interval: an interval which the threads complete. -/
theorem exRan : Ran exP (fun el => el) 2 (exRun exShare ((List.range 11).flatMap (fun _ => exRound))).out :=
  ⟨exP_wf, exShare, _, exShare_shares, exRun_reach _ _, by decide +kernel, rfl⟩

example : (exRun exShare ((List.range 11).flatMap (fun _ => exRound))).out =
    [.loc 0, .loc 1, .nei 0, .loc 0, .nei 1, .nei 0] := by decide +kernel

end Edge.Work
