import Verif.Shared.Spec
/-! The invariant of the worker table. -/
namespace Edge.Shared
open Edge.Sparse

/-- The row of the table of a registration. -/
def row (nW : Nat) (st : Nat → Nat → Status) (r : Reg) : WrkRgn :=
  { id := r.id, step := r.step, tg := r.tg, prio := r.prio, status := (List.range nW).map (st r.id) }

/-- Order of the table. -/
def Lt (a b : Nat × Reg) : Prop := b.2.prio < a.2.prio ∨ (a.2.prio = b.2.prio ∧ a.1 < b.1)

structure Inv (sep : Bool) (n : Nat) (regs : List Reg) (st : Nat → Nat → Status) (s : Sh)
    (tab : List (Nat × Reg)) : Prop where
  ini : ∃ s0, init sep n = some s0 ∧ s.nWrks = s0.nWrks ∧ s.wrkOff = s0.wrkOff
  nW : 0 < s.nWrks
  rgns : s.rgns = tab.map (fun x => row s.nWrks st x.2)
  sorted : tab.Pairwise Lt
  mem : ∀ k r, (k, r) ∈ tab ↔ regs[k]? = some r
  ids : tab.Pairwise (fun a b => a.2.id ≠ b.2.id)
  len : s.lb.length = tab.length
  lb : ∀ (i : Nat) (x : Nat × Reg) (l : Rgn), tab[i]? = some x → s.lb[i]? = some l → l.first = x.2.first ∧
    l.size = x.2.size ∧ RInv s.nWrks x.2.types x.2.chars l

theorem init_nW {sep : Bool} {n : Nat} {s : Sh} (h : init sep n = some s) :
    0 < s.nWrks ∧ s.rgns = [] ∧ s.lb = [] ∧
    ((s.nWrks = n ∧ s.wrkOff = 0) ∨ (s.nWrks + 1 = n ∧ s.wrkOff = -1)) := by
  unfold init at h
  simp only [Option.bind_eq_bind, Option.bind_eq_some_iff, Option.pure_def, Option.some.injEq] at h
  obtain ⟨_, hc, rfl⟩ := h
  have := check_some.1 hc
  simp only [gt_iff_lt, decide_eq_true_eq] at this
  refine ⟨this, rfl, rfl, ?_⟩
  simp only
  by_cases hh : sep = true ∧ n > 1
  · simp only [hh, and_self, if_true]
    right
    have : ¬ (n - 1 = n) := by omega
    simp [this]; omega
  · simp only [hh, if_false]
    left; simp

theorem isSp_drop (chars : List Nat) (t first i : Nat) : isSp (chars.drop first) t i = isSp chars t (first + i) := by
  unfold isSp; rw [List.getElem?_drop]

theorem mkRgn_ok (nW : Nat) {r : Reg} (hw : r.Wf) :
    ∃ l, mkRgn nW r.first r.size r.types r.chars = some l ∧ l.first = r.first ∧ l.size = r.size ∧
      Shape nW r.types r.chars l := by
  unfold mkRgn
  obtain ⟨s, hs, h1, h2, h3⟩ : ∃ s, forN r.types.length (fun ty (s : List Nat × List (List Nat)) => do
    let t ← rd r.types ty
    let firstSp ← nSp r.first t r.chars
    let nSp ← nSp r.size t (r.chars.drop r.first)
    let link ← linkSpDe r.size t (r.chars.drop r.first) (List.replicate nSp 0)
    return (s.1 ++ [firstSp], s.2 ++ [link.map (· + r.first)])) ([], []) = some s ∧
    (s.1.length = r.types.length ∧ s.2.length = r.types.length ∧ ∀ ty (h : ty < r.types.length),
      ty < r.types.length →
      s.1[ty]? = some (rank (isSp r.chars r.types[ty]) r.first) ∧
      s.2[ty]? = some (((List.range r.size).filter (fun i => isSp r.chars r.types[ty] (r.first + i))).map
        (· + r.first))) := by
    refine forN_inv (fun n (s : List Nat × List (List Nat)) => s.1.length = n ∧ s.2.length = n ∧
      ∀ ty (h : ty < r.types.length), ty < n →
      s.1[ty]? = some (rank (isSp r.chars r.types[ty]) r.first) ∧
      s.2[ty]? = some (((List.range r.size).filter (fun i => isSp r.chars r.types[ty] (r.first + i))).map
        (· + r.first))) ⟨rfl, rfl, by intro _ _ h; omega⟩ ?_
    rintro ty ⟨a, b⟩ hty ⟨i1, i2, i3⟩
    simp only at i1 i2 i3
    have hlen : r.first + r.size ≤ r.chars.length := by
      rcases hw with h | h
      · rw [h] at hty; simp at hty
      · exact h
    have hn : r.first ≤ r.chars.length := by omega
    have hd : r.size ≤ (r.chars.drop r.first).length := by rw [List.length_drop]; omega
    have e1 := C21_count (ty := r.types[ty]) hn
    have e2 := C21_count (ty := r.types[ty]) hd
    obtain ⟨e3, _⟩ := C21_links (ty := r.types[ty]) (o := List.replicate
      ((List.range r.size).filter (isSp (r.chars.drop r.first) r.types[ty])).length 0) hd e2 (by simp)
    have hfun : isSp (r.chars.drop r.first) r.types[ty] = (fun i => isSp r.chars r.types[ty] (r.first + i)) := by
      funext i; exact isSp_drop _ _ _ _
    refine ⟨(a ++ [rank (isSp r.chars r.types[ty]) r.first],
      b ++ [((List.range r.size).filter (fun i => isSp r.chars r.types[ty] (r.first + i))).map (· + r.first)]),
      ?_, by simp [i1], by simp [i2], ?_⟩
    · simp only [rd_some hty, Option.bind_eq_bind, Option.bind_some, e1, e2, e3]
      rw [hfun]
      rfl
    · intro ty' hty' hlt
      simp only
      by_cases h : ty' = ty
      · subst h
        rw [List.getElem?_append_right (by omega), List.getElem?_append_right (by omega)]
        simp [i1, i2]
      · rw [List.getElem?_append_left (by omega), List.getElem?_append_left (by omega)]
        exact i3 ty' hty' (by omega)
  simp only [Option.bind_eq_bind] at hs ⊢
  rw [hs]
  refine ⟨_, rfl, rfl, rfl, ⟨by simp, ⟨h1, h2, fun ty h => h3 ty h h⟩, ?_⟩⟩
  intro q hq
  simp only [List.mem_replicate] at hq
  rw [hq.2]; simp

theorem fresh_zero {A : Arith} {n : Nat} (hz : 0 < A.zeroTime) (hn : 0 < n) : Fresh A (List.replicate n 0) := by
  unfold Fresh
  refine lt_of_le_of_lt' ((foldMin_le _ _).2 0 ?_) hz
  simp; omega

/-- Insertion. -/
theorem insertAt_get {α : Type _} (l : List α) (p : Nat) (a : α) (hp : p ≤ l.length) (i : Nat) :
    (insertAt l p a)[i]? = if i < p then l[i]? else if i = p then some a else l[i - 1]? := by
  unfold insertAt
  by_cases h : i < p
  · rw [if_pos h, List.getElem?_append_left (by simp; omega), List.getElem?_take_of_lt h]
  · rw [if_neg h, List.getElem?_append_right (by simp; omega)]
    have hl : (l.take p).length = p := by simp; omega
    rw [hl]
    by_cases h' : i = p
    · subst h'; simp
    · rw [if_neg h', show i - p = (i - p - 1) + 1 by omega, List.getElem?_cons_succ, List.getElem?_drop]
      congr 1; omega

theorem insertAt_length {α : Type _} (l : List α) (p : Nat) (a : α) : (insertAt l p a).length = l.length + 1 := by
  unfold insertAt; simp; omega

theorem insertAt_perm {α : Type _} (l : List α) (p : Nat) (a : α) : (insertAt l p a).Perm (a :: l) := by
  unfold insertAt
  have := List.perm_middle (a := a) (l₁ := l.take p) (l₂ := l.drop p)
  rwa [List.take_append_drop] at this

theorem insertAt_map {α β : Type _} (g : α → β) (l : List α) (p : Nat) (a : α) :
    (insertAt l p a).map g = insertAt (l.map g) p (g a) := by
  unfold insertAt; simp [List.map_take, List.map_drop]

theorem findPos_le (prio : Int) (l : List WrkRgn) : findPos prio l ≤ l.length := by
  induction l with
  | nil => simp [findPos]
  | cons a l ih => unfold findPos; split <;> simp <;> omega

theorem sorted_insert {nW : Nat} {st : Nat → Nat → Status} (x : Nat × Reg) : ∀ (tab : List (Nat × Reg)),
    tab.Pairwise Lt → (∀ y, y ∈ tab → y.1 < x.1) →
    (insertAt tab (findPos x.2.prio (tab.map (fun y => row nW st y.2))) x).Pairwise Lt
  | [], _, _ => by simp [insertAt]
  | a :: t, hs, hk => by
    rw [List.pairwise_cons] at hs
    simp only [List.map_cons, findPos, row]
    split
    · rename_i hlt
      simp only [insertAt, List.take_zero, List.drop_zero, List.nil_append]
      rw [List.pairwise_cons]
      refine ⟨?_, List.pairwise_cons.2 hs⟩
      intro b hb
      rcases List.mem_cons.1 hb with rfl | hb
      · exact Or.inl hlt
      · have := hs.1 b hb
        unfold Lt at this ⊢
        omega
    · rename_i hge
      have : insertAt (a :: t) (findPos x.2.prio (t.map (fun y => row nW st y.2)) + 1) x =
          a :: insertAt t (findPos x.2.prio (t.map (fun y => row nW st y.2))) x := by simp [insertAt]
      simp only [row] at this
      rw [this, List.pairwise_cons]
      refine ⟨?_, sorted_insert x t hs.2 (fun y hy => hk y (List.mem_cons_of_mem _ hy))⟩
      intro b hb
      have hb' := (insertAt_perm _ _ _).mem_iff.1 hb
      rcases List.mem_cons.1 hb' with rfl | hb'
      · have := hk a List.mem_cons_self
        unfold Lt; omega
      · exact hs.1 b hb'

theorem findRgn_some {id : Nat} : ∀ {l : List WrkRgn} {i : Nat}, findRgn id l = some i →
    ∀ r, l[i]? = some r → r.id = id
  | [], i, h, r, hr => by simp at hr
  | [a], i, h, r, hr => by
    unfold findRgn at h
    split at h
    · cases h; simp at hr; subst hr; assumption
    · cases h
  | a :: b :: l, i, h, r, hr => by
    unfold findRgn at h
    split at h
    · cases h; simp at hr; subst hr; assumption
    · rw [Option.map_eq_some_iff] at h
      obtain ⟨j, hj, rfl⟩ := h
      rw [List.getElem?_cons_succ] at hr
      exact findRgn_some hj r hr

theorem findRgn_ok {id : Nat} : ∀ {l : List WrkRgn} {i : Nat} {r : WrkRgn},
    l.Pairwise (fun a b => a.id ≠ b.id) → l[i]? = some r → r.id = id → findRgn id l = some i
  | [], i, r, _, hr, _ => by simp at hr
  | [a], i, r, _, hr, h => by
    cases i with
    | zero => simp at hr; subst hr; simp [findRgn, h]
    | succ i => simp at hr
  | a :: b :: l, i, r, hp, hr, h => by
    rw [List.pairwise_cons] at hp
    unfold findRgn
    cases i with
    | zero => simp at hr; subst hr; simp [h]
    | succ i =>
      rw [List.getElem?_cons_succ] at hr
      have := hp.1 r (List.mem_of_getElem? hr)
      rw [if_neg (by omega), findRgn_ok hp.2 hr h]; rfl

/-- Updating one row of the table. -/
theorem rgns_set {nW : Nat} {st st' : Nat → Nat → Status} {tab : List (Nat × Reg)} {rg id : Nat} {stat : List Status}
    {x : Nat × Reg} (hids : tab.Pairwise (fun a b => a.2.id ≠ b.2.id)) (hx : tab[rg]? = some x) (hid : x.2.id = id)
    (h1 : stat = (List.range nW).map (st' id)) (h2 : ∀ i w, i ≠ id → st' i w = st i w) :
    (tab.map (fun y => row nW st y.2)).set rg { row nW st x.2 with status := stat } =
      tab.map (fun y => row nW st' y.2) := by
  apply List.ext_getElem?
  intro j
  have hrg : rg < tab.length := (List.getElem?_eq_some_iff.1 hx).1
  by_cases h : j = rg
  · subst h
    rw [List.getElem?_set_self (by simpa using hrg), List.getElem?_map, hx]
    simp [row, h1, hid]
  · rw [List.getElem?_set_ne (by omega), List.getElem?_map, List.getElem?_map]
    cases hy : tab[j]? with
    | none => rfl
    | some y =>
      have hj : j < tab.length := (List.getElem?_eq_some_iff.1 hy).1
      have hne : y.2.id ≠ id := by
        have hp := List.pairwise_iff_getElem.1 hids
        have e1 := (List.getElem?_eq_some_iff.1 hy).2
        have e2 := (List.getElem?_eq_some_iff.1 hx).2
        rcases Nat.lt_or_ge j rg with h' | h'
        · have := hp j rg hj hrg h'
          rw [e1, e2, hid] at this; exact this
        · have := hp rg j hrg hj (by omega)
          rw [e1, e2, hid] at this; exact fun h => this h.symm
      simp only [Option.map_some, row, Option.some.injEq, WrkRgn.mk.injEq, true_and]
      apply List.map_congr_left
      intro w _
      exact (h2 _ w hne).symm

theorem inv_update {sep : Bool} {n : Nat} {regs : List Reg} {st st' : Nat → Nat → Status} {s : Sh}
    {tab : List (Nat × Reg)} (h : Inv sep n regs st s tab) {rgns : List WrkRgn}
    (hr : rgns = tab.map (fun x => row s.nWrks st' x.2)) :
    Inv sep n regs st' { s with rgns := rgns } tab :=
  ⟨h.ini, h.nW, hr, h.sorted, h.mem, h.ids, h.len, h.lb⟩

theorem inv_reg {A : Arith} {sep : Bool} {n fuel : Nat} {regs : List Reg} {st : Nat → Nat → Status} {s s' : Sh}
    {tab : List (Nat × Reg)} {r : Reg} (hz : 0 < A.zeroTime) (h : Inv sep n regs st s tab) (hw : r.Wf)
    (hid : ∀ q, q ∈ regs → q.id ≠ r.id) (hc : r.call A fuel s = some s') :
    Inv sep n (regs ++ [r]) (fun id w => if id = r.id then .WAI else st id w) s'
      (insertAt tab (findPos r.prio s.rgns) (regs.length, r)) := by
  unfold Reg.call Sh.regWrkRgn at hc
  obtain ⟨l, hl, l1, l2, l3⟩ := mkRgn_ok s.nWrks hw
  simp only [hl, Option.bind_eq_bind, Option.bind_some, Option.bind_eq_some_iff] at hc
  obtain ⟨_, hck, l', hb, rfl'⟩ := hc
  simp only [Option.pure_def, Option.some.injEq] at rfl'
  subst rfl'
  have hpos : findPos r.prio s.rgns ≤ tab.length := by
    have := findPos_le r.prio s.rgns
    rw [h.rgns] at this ⊢
    simpa using this
  have hbal := (balance_ok hz h.nW (by simp) l3 (Or.inr (fresh_zero hz h.nW))).2 fuel l' hb
  have hmem : ∀ y, y ∈ tab → y.1 < regs.length := by
    intro y hy
    have := (h.mem y.1 y.2).1 hy
    exact (List.getElem?_eq_some_iff.1 this).1
  refine ⟨h.ini, h.nW, ?_, ?_, ?_, ?_, ?_, ?_⟩
  · simp only
    rw [insertAt_map]
    have e1 : s.rgns = tab.map (fun x => row s.nWrks (fun id w => if id = r.id then .WAI else st id w) x.2) := by
      rw [h.rgns]
      apply List.map_congr_left
      intro y hy
      have hy' := List.mem_of_getElem? ((h.mem y.1 y.2).1 hy)
      simp [row, hid _ hy']
    rw [← e1]
    congr 1
    simp only [row, WrkRgn.mk.injEq, true_and, if_true]
    rw [List.map_const']; simp
  · have := sorted_insert (nW := s.nWrks) (st := st) (regs.length, r) tab h.sorted hmem
    simp only at this
    rwa [h.rgns]
  · intro k q
    rw [(insertAt_perm _ _ _).mem_iff, List.mem_cons, h.mem, List.getElem?_append]
    constructor
    · rintro (h' | h')
      · cases h'; simp
      · rw [if_pos (List.getElem?_eq_some_iff.1 h').1]; exact h'
    · intro h'
      split at h'
      · exact Or.inr h'
      · rename_i hk
        left
        have : k - regs.length = 0 := by
          have := (List.getElem?_eq_some_iff.1 h').1
          simp at this; omega
        rw [this] at h'
        simp at h'
        rw [h', show k = regs.length by omega]
  · rw [(insertAt_perm _ _ _).pairwise_iff (fun {a b} h => Ne.symm h), List.pairwise_cons]
    refine ⟨?_, h.ids⟩
    intro y hy
    exact (hid _ (List.mem_of_getElem? ((h.mem y.1 y.2).1 hy))).symm
  · simp only [insertAt_length, h.len]
  · intro i x lx hx hlx
    rw [insertAt_get _ _ _ hpos] at hx
    simp only at hlx
    rw [insertAt_get _ _ _ (by rw [h.len]; exact hpos)] at hlx
    split at hx
    · rename_i hi
      rw [if_pos hi] at hlx
      exact h.lb i x lx hx hlx
    · rename_i hi
      rw [if_neg hi] at hlx
      split at hx
      · rename_i hi'
        rw [if_pos hi'] at hlx
        cases hx; cases hlx
        exact ⟨by rw [hbal.1, l1], by rw [hbal.2.1, l2], hbal.2.2.1⟩
      · rename_i hi'
        rw [if_neg hi'] at hlx
        exact h.lb _ x lx hx hlx

theorem rinv_shape {nW : Nat} {types chars : List Nat} {r : Rgn} (h : RInv nW types chars r) :
    Shape nW types chars r := ⟨h.len, h.tab, h.flen⟩

theorem inv_balance {A : Arith} {sep : Bool} {n fuel : Nat} {regs : List Reg} {st : Nat → Nat → Status} {s s' : Sh}
    {tab : List (Nat × Reg)} {ela : List (List Rat)} (hz : 0 < A.zeroTime) (h : Inv sep n regs st s tab)
    (hc : s.balance A fuel ela = some s') : Inv sep n regs st s' tab := by
  unfold Sh.balance at hc
  simp only [Option.bind_eq_bind, Option.bind_eq_some_iff, Option.pure_def, Option.some.injEq] at hc
  obtain ⟨lb, hlb, rfl⟩ := hc
  have := forN_post (fun _ (lb : List Rgn) => lb.length = tab.length ∧
    ∀ (i : Nat) (x : Nat × Reg) (l : Rgn), tab[i]? = some x → lb[i]? = some l → l.first = x.2.first ∧
    l.size = x.2.size ∧ RInv s.nWrks x.2.types x.2.chars l) ⟨h.len, h.lb⟩ ?_ hlb
  · exact ⟨h.ini, h.nW, h.rgns, h.sorted, h.mem, h.ids, this.1, this.2⟩
  · rintro i lb lb' hi ⟨a1, a2⟩ hb
    simp only [Option.bind_eq_some_iff] at hb
    obtain ⟨l, hl, e, he, l', hl', hw⟩ := hb
    rw [h.len] at hi
    have hil : i < lb.length := by omega
    rw [wr_some hil] at hw
    cases hw
    rw [rd_some hil] at hl
    cases hl
    have hti : tab[i]? = some tab[i] := List.getElem?_eq_getElem hi
    have hli : lb[i]? = some lb[i] := List.getElem?_eq_getElem hil
    obtain ⟨b1, b2, b3⟩ := a2 i _ _ hti hli
    have hel : e.length = s.nWrks := by
      unfold balanceWrkRgn at hl'
      simp only [Option.bind_eq_bind, Option.bind_eq_some_iff] at hl'
      obtain ⟨_, hck, _⟩ := hl'
      have := check_some.1 hck
      simp at this
      rw [this, b3.len]
    obtain ⟨c1, c2, c3, _⟩ := (balance_ok hz h.nW hel (rinv_shape b3) (Or.inl b3)).2 fuel l' hl'
    refine ⟨by simpa using a1, ?_⟩
    intro j x lx hx hlx
    by_cases hj : j = i
    · subst hj
      rw [List.getElem?_set_self hil] at hlx
      rw [hti] at hx
      cases hx; cases hlx
      exact ⟨by rw [c1, b1], by rw [c2, b2], c3⟩
    · rw [List.getElem?_set_ne (by omega)] at hlx
      exact a2 j x lx hx hlx

theorem rgns_pairwise {sep : Bool} {n : Nat} {regs : List Reg} {st : Nat → Nat → Status} {s : Sh}
    {tab : List (Nat × Reg)} (h : Inv sep n regs st s tab) : s.rgns.Pairwise (fun a b => a.id ≠ b.id) := by
  rw [h.rgns, List.pairwise_map]
  exact h.ids

theorem inv_row {sep : Bool} {n : Nat} {regs : List Reg} {st : Nat → Nat → Status} {s : Sh}
    {tab : List (Nat × Reg)} (h : Inv sep n regs st s tab) {rg : Nat} {r : WrkRgn} (hr : s.rgns[rg]? = some r) :
    ∃ x, tab[rg]? = some x ∧ r = row s.nWrks st x.2 := by
  rw [h.rgns, List.getElem?_map, Option.map_eq_some_iff] at hr
  obtain ⟨x, hx, rfl⟩ := hr
  exact ⟨x, hx, rfl⟩

theorem inv_setAll {sep : Bool} {n : Nat} {regs : List Reg} {st : Nat → Nat → Status} {s s' : Sh}
    {tab : List (Nat × Reg)} {x : Status} {id : Nat} (h : Inv sep n regs st s tab)
    (hc : s.setStatusAll x id = some s') : Inv sep n regs (fun i w => if i = id then x else st i w) s' tab := by
  unfold Sh.setStatusAll at hc
  simp only [Option.bind_eq_bind, Option.bind_eq_some_iff, Option.pure_def, Option.some.injEq] at hc
  obtain ⟨rg, hrg, r, hr, _, _, _, _, _, _, rgns, hw, rfl⟩ := hc
  have hr' : s.rgns[rg]? = some r := hr
  obtain ⟨y, hy, rfl⟩ := inv_row h hr'
  have hid := findRgn_some hrg _ hr'
  have hlt : rg < s.rgns.length := (List.getElem?_eq_some_iff.1 hr').1
  rw [wr_some hlt] at hw
  cases hw
  apply inv_update h
  rw [← rgns_set (nW := s.nWrks) (st := st) (st' := fun i w => if i = id then x else st i w)
    (id := id) h.ids hy hid rfl (fun i w hi => by simp [hi]), ← h.rgns]
  congr 2
  simp [row]

theorem inv_setTd {sep : Bool} {n : Nat} {regs : List Reg} {st : Nat → Nat → Status} {s s' : Sh}
    {tab : List (Nat × Reg)} {x : Status} {id thread : Nat} (h : Inv sep n regs st s tab)
    (hc : s.setStatusTd thread x id = some s') :
    Inv sep n regs (fun i w => if i = id ∧ (w : Int) = s.worker thread then x else st i w) s' tab := by
  unfold Sh.setStatusTd at hc
  simp only [Option.bind_eq_bind, Option.bind_eq_some_iff, Option.pure_def, Option.some.injEq] at hc
  obtain ⟨_, hck, rg, hrg, r, hr, old, ho, _, _, stat, hst, rgns, hw, rfl⟩ := hc
  have hge : s.worker thread ≥ 0 := by simpa using check_some.1 hck
  have hr' : s.rgns[rg]? = some r := hr
  obtain ⟨y, hy, rfl⟩ := inv_row h hr'
  have hid := findRgn_some hrg _ hr'
  have hlt : rg < s.rgns.length := (List.getElem?_eq_some_iff.1 hr').1
  rw [wr_some hlt] at hw
  cases hw
  have hwl : (s.worker thread).toNat < (row s.nWrks st y.2).status.length := by
    have ho' : (row s.nWrks st y.2).status[(s.worker thread).toNat]? = some old := ho
    exact (List.getElem?_eq_some_iff.1 ho').1
  rw [wr_some hwl] at hst
  cases hst
  apply inv_update h
  rw [← rgns_set (nW := s.nWrks) (st := st)
    (st' := fun i w => if i = id ∧ (w : Int) = s.worker thread then x else st i w)
    (id := id) h.ids hy hid rfl (fun i w hi => by simp [hi]), ← h.rgns]
  congr 2
  apply List.ext_getElem?
  intro j
  simp only [row, List.length_map, List.length_range] at hwl ⊢
  by_cases hj : j = (s.worker thread).toNat
  · subst hj
    rw [List.getElem?_set_self (by simpa using hwl)]
    simp [hwl, Int.toNat_of_nonneg hge]
  · rw [List.getElem?_set_ne (by omega), List.getElem?_map, List.getElem?_map]
    simp only [row] at hid
    rw [hid]
    cases hjj : (List.range s.nWrks)[j]? with
    | none => rfl
    | some k =>
      have : k = j := by
        have := (List.getElem?_eq_some_iff.1 hjj).2
        simpa using this.symm
      subst this
      have : ¬ ((k : Int) = s.worker thread) := by omega
      simp [this]

theorem inv_reset {sep : Bool} {n : Nat} {regs : List Reg} {st : Nat → Nat → Status} {s : Sh}
    {tab : List (Nat × Reg)} (x : Status) (h : Inv sep n regs st s tab) :
    Inv sep n regs (fun _ _ => x) (s.resetStatus x) tab := by
  unfold Sh.resetStatus
  apply inv_update h
  rw [h.rgns, List.map_map]
  apply List.map_congr_left
  intro y _
  simp [row]

theorem reach_inv {A : Arith} {sep : Bool} {n : Nat} {regs : List Reg} {st : Nat → Nat → Status} {s : Sh}
    (hz : 0 < A.zeroTime) (h : Reach A sep n regs st s) : ∃ tab, Inv sep n regs st s tab := by
  induction h with
  | init h =>
    obtain ⟨a, b, c, d⟩ := init_nW h
    refine ⟨[], ⟨⟨_, h, rfl, rfl⟩, a, by simp [b], by simp, by simp, by simp, by simp [c], by simp⟩⟩
  | reg fuel r _ hw hid hc ih =>
    obtain ⟨tab, h⟩ := ih
    exact ⟨_, inv_reg hz h hw hid hc⟩
  | balance fuel ela _ hc ih =>
    obtain ⟨tab, h⟩ := ih
    exact ⟨_, inv_balance hz h hc⟩
  | setAll x id _ hc ih =>
    obtain ⟨tab, h⟩ := ih
    exact ⟨_, inv_setAll h hc⟩
  | reset x _ ih =>
    obtain ⟨tab, h⟩ := ih
    exact ⟨_, inv_reset x h⟩
  | setTd thread x id _ hc ih =>
    obtain ⟨tab, h⟩ := ih
    exact ⟨_, inv_setTd h hc⟩

end Edge.Shared
