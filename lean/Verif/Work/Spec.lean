import Verif.Work.Model
/-!
Specification: distribution of the elements to the workers.
-/
namespace Edge.Work
open Edge.Sched Edge.Rate

/-- Elements `0 .. N-1` with time groups `tg` are distributed to the workers: every element is in one package of the local steps and in one package of the neighboring steps of its group, either among
the inner or among the send elements. The packages of the steps are independent of each other. -/
structure Shares (p : Params) (tg : Nat → Nat) (N : Nat) (share : Nat → Nat → Nat → List Nat) : Prop where
  groups : ∀ el < N, tg el < p.nTgs
  nodup : ∀ g r w, (share g r w).Nodup
  mem : ∀ g r w el, g < p.nTgs → w < p.nWrk → (r < 2 ∨ 4 ≤ r ∧ r < 6) → el ∈ share g r w → el < N ∧ tg el = g
  loc : ∀ el < N, ∃ r < 2, ∃ w < p.nWrk, el ∈ share (tg el) r w
  nei : ∀ el < N, ∃ r, 4 ≤ r ∧ r < 6 ∧ ∃ w < p.nWrk, el ∈ share (tg el) r w
  once : ∀ g r r' w w' el, g < p.nTgs → w < p.nWrk → w' < p.nWrk → (r < 2 ∧ r' < 2 ∨ (4 ≤ r ∧ r < 6) ∧ 4 ≤ r' ∧ r' < 6) → el ∈ share g r w → el ∈ share g r' w' → r = r' ∧ w = w'

end Edge.Work
