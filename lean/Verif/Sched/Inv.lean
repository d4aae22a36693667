import Verif.Sched.Model
/-! Inductive invariant of the scheduler model (helper definitions; the properties are in `Verif.Sched.Props`). -/
namespace Edge.Sched

/-- Index of the step a group works on (the last one, if the group is finished). -/
def TgState.k (t : TgState) : Nat := if t.c4 = 4 then t.ts - 1 else t.ts

/-- Control flow entry of a work region. -/
def TgState.cf (t : TgState) (r : Nat) : Nat :=
  match r with
  | 0 => t.c0 | 1 => t.c1 | 2 => t.c2 | 3 => t.c3 | 4 => t.c4 | _ => t.c5

/-- Relations between the entries of an initialised group in its step `k` of `N`. -/
structure GI (N k : Nat) (t : TgState) : Prop where
  lt : k < N
  d1 : t.c4 = 4 → t.c5 = 4 ∧ t.ts = k + 1 ∧ k + 1 = N
  d2 : t.c4 ≠ 4 → t.c5 ≠ 4 ∧ t.ts = k
  v0 : t.c0 ≤ 5 ∧ t.c0 ≠ 3
  v1 : t.c1 ≤ 5
  v2 : t.c2 ≤ 3
  v3 : t.c3 ≤ 3
  v4 : t.c4 ≤ 4 ∧ t.c4 ≠ 3
  v5 : t.c5 ≤ 4
  r2 : t.c2 = 0 ↔ t.c0 < 4
  r3 : t.c3 = 0 ↔ t.c1 < 4
  r4 : (1 ≤ t.c4 ↔ t.c0 = 5) ∧ (t.c2 = 3 ↔ t.c0 = 5)
  r5 : (1 ≤ t.c5 ↔ t.c1 = 5) ∧ (t.c3 = 3 ↔ t.c1 = 5)
  x4 : 1 ≤ t.c4 → 4 ≤ t.c1
  x5 : 1 ≤ t.c5 → 4 ≤ t.c0
  pI : (t.c0 < 2 → t.tpI = k) ∧ (2 ≤ t.c0 → t.tpI = k + 1)
  pS : (t.c1 < 2 → t.tpS = k) ∧ (2 ≤ t.c1 → t.tpS = k + 1)
  uI : (t.c4 < 2 → t.duI = k) ∧ (2 ≤ t.c4 → t.duI = k + 1)
  uS : (t.c5 < 2 → t.duS = k) ∧ (2 ≤ t.c5 → t.duS = k + 1)
  s6 : t.c6 ≤ 2 ∧ (t.c6 = 0 ↔ (t.c1 = 1 ∨ t.c1 = 2))
  sN : (t.c1 < 3 → t.c6 ≠ 1 → t.nS = k) ∧ (t.c1 < 3 → t.c6 = 1 → t.nS + 1 = k) ∧
       (3 ≤ t.c1 → t.c6 ≠ 1 → t.nS = k + 1) ∧ (3 ≤ t.c1 → t.c6 = 1 → t.nS = k)
  r7 : t.c7 ≤ 3 ∧ (t.c7 = 0 ↔ (t.c5 = 1 ∨ t.c5 = 2)) ∧ (t.c7 = 3 ↔ (3 ≤ t.c5 ∧ k + 1 = N))
  rN : (t.c5 = 0 → t.c7 = 1 → t.nR = k) ∧ (t.c5 = 0 → t.c7 = 2 → t.nR = k + 1) ∧
       (t.c7 = 0 → t.nR = k + 1) ∧ (t.c7 = 3 → t.nR = k + 1) ∧
       (3 ≤ t.c5 → t.c7 = 1 → t.nR = k + 1) ∧ (3 ≤ t.c5 → t.c7 = 2 → t.nR = k + 2)

theorem GI.k_eq {N k : Nat} {t : TgState} (h : GI N k t) : t.k = k := by
  unfold TgState.k
  have := h.d1; have := h.d2
  split <;> omega

/-- Status and number of executions of a worker's package, depending on the step `k` and the control flow entry `c`. -/
structure RI (k c : Nat) (st : Status) (e : Nat) : Prop where
  a : c = 0 → e = k ∧ (st = .FIN ∨ st = .WAI)
  b : c = 1 → (e = k ∧ (st = .RDY ∨ st = .IPR)) ∨ (e = k + 1 ∧ st = .FIN)
  d : 2 ≤ c → e = k + 1 ∧ st = .FIN

/-- Relations between a group `a` and the next slower one `b`. -/
structure Pair (a b : TgState) : Prop where
  i : (1 ≤ a.c4 ∧ a.c4 ≤ 4) ∨ (1 ≤ a.c5 ∧ a.c5 ≤ 4) → a.k + 1 ≤ 2 * b.tpI ∧ a.k + 1 ≤ 2 * b.tpS
  i' : a.duI ≤ 2 * b.tpI ∧ a.duI ≤ 2 * b.tpS ∧ a.duS ≤ 2 * b.tpI ∧ a.duS ≤ 2 * b.tpS
  ii : a.ts ≤ 2 * b.duI + 1 ∧ a.ts ≤ 2 * b.duS + 1
  iii : 2 * b.ts ≤ a.duI ∧ 2 * b.ts ≤ a.duS
  iv : (1 ≤ b.c4 ∧ b.c4 ≤ 4) ∨ (1 ≤ b.c5 ∧ b.c5 ≤ 4) → 2 * (b.k + 1) ≤ a.tpI ∧ 2 * (b.k + 1) ≤ a.tpS

/-- A group before its first visit by the scheduler. -/
def Uninit (p : Params) (s : State) (g : Nat) : Prop :=
  s.tg g = TgState.reset ∧ ∀ r w, r < 6 → w < p.nWrk → s.st g r w = .WAI ∧ s.exec g r w = 0

/-- Invariant of a group. -/
def Grp (p : Params) (s : State) (g : Nat) : Prop :=
  Uninit p s g ∨
  (GI (p.N g) (s.tg g).k (s.tg g) ∧
    ∀ r w, r < 6 → w < p.nWrk → RI (s.tg g).k ((s.tg g).cf r) (s.st g r w) (s.exec g r w))

/-- Number of send rounds a group has begun. -/
def TgState.sRounds (t : TgState) : Nat := if t.c6 = 1 then t.nS + 1 else t.nS
/-- Number of receive rounds a group has begun. -/
def TgState.rRounds (t : TgState) : Nat := if t.c7 = 1 then t.nR + 1 else t.nR

/-- Invariant of the send request of a channel. -/
structure SCh (p : Params) (s : State) (ch : Nat) : Prop where
  t : s.sPend ch = true → s.sTest ch = false
  c : s.sPend ch = true → (s.tg (p.tgL ch)).c6 = 1 ∧ p.isMatch ch ((s.tg (p.tgL ch)).nS % 2 == 1) (p.tgL ch) = true
  n : s.sBegun ch = if p.tgL ch < p.tgR ch then (s.tg (p.tgL ch)).sRounds / 2 else (s.tg (p.tgL ch)).sRounds

/-- Invariant of the receive request of a channel. -/
structure RCh (p : Params) (s : State) (ch : Nat) : Prop where
  t : s.rPend ch = true → s.rTest ch = false
  c : s.rPend ch = true → (s.tg (p.tgL ch)).c7 = 1 ∧ p.isMatch ch ((s.tg (p.tgL ch)).nR % 2 == 0) (p.tgL ch) = true
  n : s.rBegun ch = if p.tgL ch < p.tgR ch then ((s.tg (p.tgL ch)).rRounds + 1) / 2 else (s.tg (p.tgL ch)).rRounds

/-- Worker control matches the status table. -/
structure WkI (p : Params) (s : State) (w : Nat) : Prop where
  got : ∀ g r, s.wk w = .got g r → g < p.nTgs ∧ r < 6 ∧ s.st g r w = .RDY
  run : ∀ g r, s.wk w = .run g r → g < p.nTgs ∧ r < 6 ∧ s.st g r w = .IPR
  ipr : ∀ g r, g < p.nTgs → r < 6 → s.st g r w = .IPR → s.wk w = .run g r

/-- What `count` tests. -/
def FinG (p : Params) (s : State) (g : Nat) : Prop :=
  (s.tg g).ts = p.N g ∧ 2 ≤ (s.tg g).c6 ∧ 2 ≤ (s.tg g).c7

def Instr.isCount : Instr → Bool
  | .count _ => true
  | _ => false

/-- Invariant of the counter of finished groups. -/
def CntI (p : Params) (s : State) : Prop :=
  .zeroCnt ∈ s.todo ∨ s.todo = [] ∨
  (s.nFin + s.todo.countP Instr.isCount ≤ p.nTgs ∧
    (s.nFin + s.todo.countP Instr.isCount = p.nTgs → ∀ g, g < p.nTgs → .count g ∉ s.todo → FinG p s g))

/-- Part of the invariant that is independent of the scheduler's position. -/
structure Core (p : Params) (s : State) : Prop where
  grp : ∀ g, g < p.nTgs → Grp p s g
  pair : ∀ g, g + 1 < p.nTgs → Pair (s.tg g) (s.tg (g + 1))
  sch : ∀ ch, ch < p.nCh → p.tgL ch < p.nTgs → SCh p s ch
  rch : ∀ ch, ch < p.nCh → p.tgL ch < p.nTgs → RCh p s ch
  wki : ∀ w, w < p.nWrk → WkI p s w
  noabort : s.abort = false

/-- The inductive invariant. -/
structure Inv (p : Params) (s : State) : Prop where
  core : Core p s
  todo : s.todo <:+ prog p.nTgs
  cnt : CntI p s
  fin : s.finished = true → ∀ g, g < p.nTgs → FinG p s g

/-! ### Per-group preservation of `GI` -/
section GIstep
variable {N k : Nat} {t : TgState}

local macro "gi" h:ident : tactic =>
  `(tactic| (obtain ⟨lt,d1,d2,v0,v1,v2,v3,v4,v5,r2,r3,r4,r5,x4,x5,pI,pS,uI,uS,s6,sN,r7,rN⟩ := $h
             constructor <;> grind))

theorem gi_init (hN : 0 < N) : GI N 0 { TgState.reset with c0 := 0, c1 := 0, c2 := 0, c3 := 0, c4 := 0, c5 := 0, c6 := 2, c7 := 1 } := by
  constructor <;> grind [TgState.reset]

theorem gi_f0 (h : GI N k t) (c : t.c0 = 1) : GI N k { t with c0 := 2, tpI := t.tpI + 1 } := by gi h
theorem gi_f1 (h : GI N k t) (c : t.c1 = 1) : GI N k { t with c1 := 2, tpS := t.tpS + 1 } := by gi h
theorem gi_f2 (h : GI N k t) (c : t.c2 = 1) : GI N k { t with c2 := 2 } := by gi h
theorem gi_f3 (h : GI N k t) (c : t.c3 = 1) : GI N k { t with c3 := 2 } := by gi h
theorem gi_f4 (h : GI N k t) (c : t.c4 = 1) : GI N k { t with c4 := 2, duI := t.duI + 1 } := by gi h
theorem gi_f5 (h : GI N k t) (c : t.c5 = 1) : GI N k { t with c5 := 2, duS := t.duS + 1 } := by gi h
theorem gi_f6 (h : GI N k t) (c : t.c6 = 1) : GI N k { t with c6 := 2, nS := t.nS + 1 } := by gi h
theorem gi_f7 (h : GI N k t) (c : t.c7 = 1) : GI N k { t with c7 := 2, nR := t.nR + 1 } := by gi h
theorem gi_locSe (h : GI N k t) (c : t.c1 = 0) (c' : t.c6 = 2) : GI N k { t with c1 := 1, c6 := 0 } := by gi h
theorem gi_locIn (h : GI N k t) (c : t.c0 = 0) : GI N k { t with c0 := 1 } := by gi h
theorem gi_send (h : GI N k t) (c : t.c1 = 2) (c' : t.c6 = 0) : GI N k { t with c1 := 3, c6 := 1 } := by gi h
theorem gi_srcSe (h : GI N k t) (c : t.c1 = 3) : GI N k { t with c1 := 4, c3 := 1 } := by gi h
theorem gi_srcIn (h : GI N k t) (c : t.c0 = 2) : GI N k { t with c0 := 4, c2 := 1 } := by gi h
theorem gi_neSe (h : GI N k t) (a : t.c7 = 2) (b : t.c0 ≥ 4) (c : t.c1 ≥ 4) (d : t.c3 = 2) (e : t.c5 = 0) :
    GI N k { t with c1 := 5, c3 := 3, c5 := 1, c7 := 0 } := by gi h
theorem gi_neIn (h : GI N k t) (b : t.c0 ≥ 4) (c : t.c1 ≥ 4) (d : t.c2 = 2) (e : t.c4 = 0) :
    GI N k { t with c0 := 5, c2 := 3, c4 := 1 } := by gi h
theorem gi_recvLast (h : GI N k t) (b : t.c5 = 2) (c : t.c7 = 0) (d : t.ts = N - 1) :
    GI N k { t with c7 := 3, c5 := 3 } := by gi h
theorem gi_recv (h : GI N k t) (b : t.c5 = 2) (c : t.c7 = 0) (d : t.ts ≠ N - 1) :
    GI N k { t with c7 := 1, c5 := 3 } := by gi h
theorem gi_completeLast (h : GI N k t) (b : t.c4 = 2) (c : t.c5 = 3) (d : t.ts + 1 = N) :
    GI N k { t with ts := t.ts + 1, c4 := 4, c5 := 4 } := by gi h
theorem gi_complete (h : GI N k t) (b : t.c4 = 2) (c : t.c5 = 3) (d : t.ts + 1 ≠ N) :
    GI N (k + 1) { t with ts := t.ts + 1, c0 := 0, c1 := 0, c2 := 0, c3 := 0, c4 := 0, c5 := 0 } := by gi h
end GIstep

end Edge.Sched
