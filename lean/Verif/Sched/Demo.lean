import Verif.Sched.Model
/-! A concrete configuration, used to show that the hypotheses of the scheduler theorems are met by actual executions: two time groups, two
workers, one channel from group 0 to a remote group 1; group 0 performs four steps, group 1 two. -/
namespace Edge.Sched.Demo

def p : Params where
  nTgs := 2
  nWrk := 2
  nCh := 1
  N g := if g = 0 then 4 else 2
  tgL _ := 0
  tgR _ := 1
  order := [(0,1),(0,3),(0,5),(1,1),(1,3),(1,5),(0,0),(0,2),(0,4),(1,0),(1,2),(1,4)]

def s0 : State where
  tg _ := TgState.reset
  st _ _ _ := .WAI
  wk _ := .idle
  exec _ _ _ := 0
  sPend _ := false
  rPend _ := false
  sTest _ := false
  rTest _ := false
  sBegun _ := 0
  rBegun _ := 0
  todo := []
  nFin := 0
  finished := false
  abort := false

theorem init_s0 : Init s0 := by constructor <;> intros <;> rfl

theorem wf : p.WF := by
  refine ⟨by decide, ?_, ?_, ?_⟩
  · intro g hg
    have : g = 0 ∨ g = 1 := by simp only [p] at hg; omega
    rcases this with rfl | rfl <;> decide
  · intro g hg
    have : g = 0 := by simp only [p] at hg; omega
    subst this; decide
  · intro g r
    constructor
    · intro h
      simp only [p, List.mem_cons, Prod.mk.injEq, List.not_mem_nil, or_false] at h ⊢
      omega
    · intro ⟨h1, h2⟩
      have : g = 0 ∨ g = 1 := by simp only [p] at h1; omega
      have : r = 0 ∨ r = 1 ∨ r = 2 ∨ r = 3 ∨ r = 4 ∨ r = 5 := by omega
      rcases ‹g = 0 ∨ g = 1› with rfl | rfl <;>
        rcases ‹r = 0 ∨ _› with rfl | rfl | rfl | rfl | rfl | rfl <;> decide

/-- One call of `schedule()`, tests of all requests, five steps of each worker. -/
def round : List Action :=
  List.replicate 41 .sched ++ [.testSend 0 true, .testRecv 0 true] ++
    (List.range 5).flatMap (fun _ => [.wrk 0, .wrk 1])

def exe (l : List Action) : State := l.foldl (step p) s0

theorem reach (l : List Action) : Reachable p (exe l) := by
  have : ∀ (l : List Action) s, Reachable p s → Reachable p (l.foldl (step p) s) := by
    intro l
    induction l with
    | nil => intro s h; exact h
    | cons a l ih => intro s h; exact ih _ (Reachable.step a h)
  exact this l s0 (.init init_s0)

/-- The state after `n` rounds and the additional actions `l`. -/
def at' (n : Nat) (l : List Action) : State := exe ((List.range n).flatMap (fun _ => round) ++ l)

end Edge.Sched.Demo
