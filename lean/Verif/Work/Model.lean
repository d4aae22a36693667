import Verif.Rate.Model
import Verif.Sched.Model
/-!
Model of the updates of the elements during a synchronization interval: the threads of a rank (`Verif.Sched`) and the elements of their work packages.
-/
namespace Edge.Work
open Edge.Sched Edge.Rate

/-- Updates of element `el` in work region `r` of a time group (src/impl/seismic/setup.inc:337-399, src/impl/seismic/steps.inc:24-77): regions 0 and 1 are the local steps of inner and send elements,
4 and 5 their neighboring steps. The point sources (regions 2 and 3) are left out. -/
def evOf (r el : Nat) : List Ev := if r < 2 then [.loc el] else if r < 4 then [] else [.nei el]

/-- State of a rank: threads, the elements which remain to be updated in the current package of a worker, and all updates until now (a history variable, not in the code). -/
structure WState where
  s : State
  rest : Nat → List Nat
  out : List Ev

/-- Actions: those of the threads, and the update of the next element of a worker's package. -/
inductive WAct where
  | act (a : Action)
  | upd (w : Nat)
deriving DecidableEq

/-- One action. `share g r w` are the elements of the package of worker `w` in region `r` of group `g` (`l_first`, `l_size` of src/time/Manager.cpp:108-113; claim C13), in the order of the loops of
`AderDg::local` and `AderDg::neigh` (src/impl/seismic/solvers/AderDg.hpp:396, 605). Between the calls of `setStatusTd` (src/time/Manager.cpp:117, 192) a worker updates the elements of its package one
after the other (`computeStep`, src/time/Manager.cpp:158). -/
def wstep (p : Params) (share : Nat → Nat → Nat → List Nat) (x : WState) : WAct → WState
  | .upd w =>
    if w < p.nWrk then
      match x.s.wk w, x.rest w with
      | .run _ r, el :: l => { x with rest := fun v => if v = w then l else x.rest v, out := x.out ++ evOf r el }
      | _, _ => x
    else x
  | .act (.wrk w) =>
    if w < p.nWrk then
      match x.s.wk w with
      | .idle => { x with s := step p x.s (.wrk w) }
      | .got g r => { x with s := step p x.s (.wrk w), rest := fun v => if v = w then share g r w else x.rest v }
      | .run _ _ => if x.rest w = [] then { x with s := step p x.s (.wrk w) } else x
    else x
  | .act a => { x with s := step p x.s a }

/-- States reachable by any interleaving. -/
inductive WReach (p : Params) (share : Nat → Nat → Nat → List Nat) : WState → Prop
  | init {s} : Init s → WReach p share ⟨s, fun _ => [], []⟩
  | step {x} (a : WAct) : WReach p share x → WReach p share (wstep p share x a)

end Edge.Work
