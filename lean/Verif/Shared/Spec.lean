import Verif.Shared.Lemmas
/-!
Specification side of the worker table: histories of calls.

A history is described by the list of registrations in the order of the calls and by the status every worker has last
been given for every region id. Both are ghost data, written from the calls alone, without looking at the table the
code keeps.
-/
namespace Edge.Shared
open Edge.Sparse

/-- Arguments of a call of `regWrkRgn` (src/parallel/Shared.h:178-231). -/
structure Reg where
  tg : Nat
  step : Nat
  id : Nat
  first : Nat
  size : Nat
  prio : Int
  types : List Nat
  chars : List Nat
deriving Repr

/-- The characteristics cover the region (or there are no sparse types, then they are not read). -/
def Reg.Wf (r : Reg) : Prop := r.types = [] ∨ r.first + r.size ≤ r.chars.length

/-- The call. -/
def Reg.call (A : Arith) (fuel : Nat) (s : Sh) (r : Reg) : Option Sh :=
  s.regWrkRgn A fuel r.tg r.step r.id r.first r.size r.prio r.types r.chars

/-- `Reach A sep n regs st s`: starting from `init` with `n` threads, some sequence of registrations (with distinct
ids), load balancings and status changes in which every call succeeded leads to `s`; `regs` are the registrations in
call order and `st id w` is the status last given to worker `w` for the region with this id. -/
inductive Reach (A : Arith) (sep : Bool) (n : Nat) : List Reg → (Nat → Nat → Status) → Sh → Prop
  | init {s} (h : init sep n = some s) : Reach A sep n [] (fun _ _ => .WAI) s
  | reg {regs st s s'} (fuel : Nat) (r : Reg) (h : Reach A sep n regs st s) (hw : r.Wf)
      (hid : ∀ q, q ∈ regs → q.id ≠ r.id) (hc : r.call A fuel s = some s') :
      Reach A sep n (regs ++ [r]) (fun id w => if id = r.id then .WAI else st id w) s'
  | balance {regs st s s'} (fuel : Nat) (ela : List (List Rat)) (h : Reach A sep n regs st s)
      (hc : s.balance A fuel ela = some s') : Reach A sep n regs st s'
  | setAll {regs st s s'} (x : Status) (id : Nat) (h : Reach A sep n regs st s)
      (hc : s.setStatusAll x id = some s') :
      Reach A sep n regs (fun i w => if i = id then x else st i w) s'
  | reset {regs st s} (x : Status) (h : Reach A sep n regs st s) :
      Reach A sep n regs (fun _ _ => x) (s.resetStatus x)
  | setTd {regs st s s'} (thread : Nat) (x : Status) (id : Nat) (h : Reach A sep n regs st s)
      (hc : s.setStatusTd thread x id = some s') :
      Reach A sep n regs (fun i w => if i = id ∧ (w : Int) = s.worker thread then x else st i w) s'

/-- Registration `k` is more urgent than registration `k'`: higher priority, or equal priority and earlier. -/
def Urgent (regs : List Reg) (k k' : Nat) : Prop :=
  ∃ a b, regs[k]? = some a ∧ regs[k']? = some b ∧ (b.prio < a.prio ∨ (a.prio = b.prio ∧ k < k'))

/-- The package of a worker in the region with the given id, as the table stores it: the region's position in the
worker table is also its position in the table of the load balancing. -/
def Sh.pkgOf (s : Sh) (id w : Nat) : Option Pkg := do
  let rg ← findRgn id s.rgns
  let l ← rd s.lb rg
  rd l.pkgs w

end Edge.Shared
