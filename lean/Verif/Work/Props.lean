import Verif.Work.Rhythm
import Verif.Work.Packages
import Verif.Rate.Schedule
/-!
C103: the threads of a rank update the elements in the rhythm of local time stepping, and the results do not depend on the threads.
-/
namespace Edge.Work
open Edge Edge.Sched Edge.Shared Edge.Rate Edge.Step Edge.Gen

/-- `evs` are the updates of the elements in a synchronization interval which the threads complete: any interleaving of the scheduling, the communication and any number of workers. -/
def Ran (p : Params) (tg : Nat → Nat) (N : Nat) (evs : List Ev) : Prop :=
  p.WF ∧ ∃ share x, Shares p tg N share ∧ WReach p share x ∧ x.s.finished = true ∧ evs = x.out

/-- C103: the updates of an interval have the rhythm of local time stepping and are complete. -/
theorem C103_interval {K : Type} {e : Map.Ent} {F : Nat → Nat → MFace K} {p : Params} {tg : Nat → Nat} {N : Nat} {evs : List Ev} (h : Ran p tg N evs)
    (hF : ∀ el < N, ∀ fa < e.nFa, (F el fa).outflow = false → (F el fa).nb el < N) : Ordered e tg F N evs ∧ Complete tg N evs (p.N 0) := by
  obtain ⟨wf, share, x, hs, hx, hf, rfl⟩ := h
  exact ⟨C103_rhythm wf hs hF hx, C103_complete wf hs hx hf⟩

/-- C103: the state of all elements at the synchronizations does not depend on the interleaving of the threads, the number of workers, the priorities and the distribution of the elements to the workers,
which may differ between the intervals: identical operations, no law of arithmetic is used. -/
theorem C103_threads {K : Type} [Field K] [LinearOrder K] {c : Dg.Cfg} {e : Map.Ent} {lT lV LN FT : List (List K)} {els : List (REl K)} {sc0 sc1 : List K} {tg : Nat → Nat} {F : Nat → Nat → MFace K}
    (hm : Meets e tg F els) (hF : ∀ el < els.length, ∀ fa < e.nFa, (F el fa).outflow = false → (F el fa).nb el < els.length)
    {ivs ivs' : List ((Nat → Nat → K) × List Ev)} {st a b : List (RSt K)} (hst : st.length = els.length)
    (h : List.Forall₂ (fun iv iv' => iv.1 = iv'.1 ∧ ∃ p p' : Params, p.N 0 = p'.N 0 ∧ Ran p tg els.length iv.2 ∧ Ran p' tg els.length iv'.2) ivs ivs')
    (ha : runSync c lT lV LN FT els sc0 sc1 ivs st = some a) (hb : runSync c lT lV LN FT els sc0 sc1 ivs' st = some b) : a = b := by
  refine C101_intervals hm hst (h.imp ?_) ha hb
  rintro iv iv' ⟨h1, p, p', h2, h3, h4⟩
  obtain ⟨a1, a2⟩ := C103_interval (F := F) h3 hF
  obtain ⟨b1, b2⟩ := C103_interval (F := F) h4 hF
  exact ⟨h1, a1, b1, p.N 0, a2, h2 ▸ b2⟩

end Edge.Work
