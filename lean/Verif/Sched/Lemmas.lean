import Verif.Sched.Inv
/-! Preservation of the scheduler invariant. -/
namespace Edge.Sched

theorem Uninit.k {p : Params} {s : State} {g : Nat} (h : Uninit p s g) : (s.tg g).k = 0 := by
  rw [h.1]; rfl

/-- Frame rule: only group `g` (and its statuses and channels) changes. -/
theorem core_upd {p : Params} {s s' : State} {g : Nat} {t : TgState} (hi : Core p s)
    (e_tg : ∀ h, s'.tg h = if h = g then t else s.tg h)
    (e_st : ∀ h r w, h ≠ g → s'.st h r w = s.st h r w)
    (e_exec : s'.exec = s.exec) (e_wk : s'.wk = s.wk) (e_ab : s'.abort = false)
    (st_rdy : ∀ r w, s.st g r w = .RDY → s'.st g r w = .RDY)
    (st_ipr : ∀ r w, r < 6 → w < p.nWrk → (s'.st g r w = .IPR ↔ s.st g r w = .IPR))
    (hG : GI (p.N g) t.k t)
    (hR : ∀ r w, r < 6 → w < p.nWrk → RI t.k (t.cf r) (s'.st g r w) (s.exec g r w))
    (hPl : ∀ h, h + 1 = g → Pair (s.tg h) (s.tg g) → Pair (s.tg h) t)
    (hPr : g + 1 < p.nTgs → Pair (s.tg g) (s.tg (g + 1)) → Pair t (s.tg (g + 1)))
    (hS : ∀ ch, ch < p.nCh → p.tgL ch < p.nTgs → SCh p s' ch)
    (hRc : ∀ ch, ch < p.nCh → p.tgL ch < p.nTgs → RCh p s' ch) : Core p s' := by
  have eg : s'.tg g = t := by rw [e_tg, if_pos rfl]
  have eh : ∀ h, h ≠ g → s'.tg h = s.tg h := fun h hh => by rw [e_tg, if_neg hh]
  refine ⟨?_, ?_, hS, hRc, ?_, e_ab⟩
  · intro h hh
    by_cases hhg : h = g
    · subst hhg
      right
      rw [eg]
      exact ⟨hG, fun r w hr hw => by rw [e_exec]; exact hR r w hr hw⟩
    · rcases hi.grp h hh with hu | ⟨h1, h2⟩
      · left
        refine ⟨by rw [eh h hhg]; exact hu.1, fun r w hr hw => ?_⟩
        rw [e_st h r w hhg, e_exec]; exact hu.2 r w hr hw
      · right
        rw [eh h hhg]
        refine ⟨h1, fun r w hr hw => ?_⟩
        rw [e_st h r w hhg, e_exec]; exact h2 r w hr hw
  · intro h hh
    have hp := hi.pair h hh
    by_cases h1 : h = g
    · subst h1
      rw [eg, eh (h + 1) (by omega)]
      exact hPr hh hp
    · rw [eh h h1]
      by_cases h2 : h + 1 = g
      · subst h2; rw [eg]; exact hPl h rfl hp
      · rw [eh _ h2]; exact hp
  · intro w hw
    have hk := hi.wki w hw
    refine ⟨?_, ?_, ?_⟩
    · intro h r he
      rw [e_wk] at he
      obtain ⟨a, b, c⟩ := hk.got h r he
      refine ⟨a, b, ?_⟩
      by_cases hh : h = g
      · subst hh; exact st_rdy r w c
      · rw [e_st h r w hh]; exact c
    · intro h r he
      rw [e_wk] at he
      obtain ⟨a, b, c⟩ := hk.run h r he
      refine ⟨a, b, ?_⟩
      by_cases hh : h = g
      · subst hh; exact (st_ipr r w b hw).2 c
      · rw [e_st h r w hh]; exact c
    · intro h r hn hr he
      rw [e_wk]
      by_cases hh : h = g
      · subst hh; exact hk.ipr h r hn hr ((st_ipr r w hr hw).1 he)
      · rw [e_st h r w hh] at he; exact hk.ipr h r hn hr he

/-- Send requests: nothing but the entry of group `g` changes, and its entries `c6`, `nS` do not change. -/
theorem sch_frame {p : Params} {s s' : State} {g : Nat} {t : TgState} {ch : Nat}
    (e_tg : ∀ h, s'.tg h = if h = g then t else s.tg h)
    (e1 : s'.sPend ch = s.sPend ch) (e2 : s'.sTest ch = s.sTest ch) (e3 : s'.sBegun ch = s.sBegun ch)
    (ht : p.tgL ch = g → t.c6 = (s.tg g).c6 ∧ t.nS = (s.tg g).nS) (h : SCh p s ch) : SCh p s' ch := by
  obtain ⟨a, b, c⟩ := h
  have : (s'.tg (p.tgL ch)).c6 = (s.tg (p.tgL ch)).c6 ∧ (s'.tg (p.tgL ch)).nS = (s.tg (p.tgL ch)).nS := by
    rw [e_tg]; split
    · rename_i hh; rw [hh]; exact ht hh
    · exact ⟨rfl, rfl⟩
  refine ⟨by rw [e1, e2]; exact a, by rw [e1, this.1, this.2]; exact b, ?_⟩
  rw [e3, c]; unfold TgState.sRounds; rw [this.1, this.2]

theorem rch_frame {p : Params} {s s' : State} {g : Nat} {t : TgState} {ch : Nat}
    (e_tg : ∀ h, s'.tg h = if h = g then t else s.tg h)
    (e1 : s'.rPend ch = s.rPend ch) (e2 : s'.rTest ch = s.rTest ch) (e3 : s'.rBegun ch = s.rBegun ch)
    (ht : p.tgL ch = g → t.c7 = (s.tg g).c7 ∧ t.nR = (s.tg g).nR) (h : RCh p s ch) : RCh p s' ch := by
  obtain ⟨a, b, c⟩ := h
  have : (s'.tg (p.tgL ch)).c7 = (s.tg (p.tgL ch)).c7 ∧ (s'.tg (p.tgL ch)).nR = (s.tg (p.tgL ch)).nR := by
    rw [e_tg]; split
    · rename_i hh; rw [hh]; exact ht hh
    · exact ⟨rfl, rfl⟩
  refine ⟨by rw [e1, e2]; exact a, by rw [e1, this.1, this.2]; exact b, ?_⟩
  rw [e3, c]; unfold TgState.rRounds; rw [this.1, this.2]

theorem RI.ge {k c c' : Nat} {st : Status} {e : Nat} (h : RI k c st e) (hc : 2 ≤ c) (hc' : 2 ≤ c') : RI k c' st e :=
  ⟨by omega, by omega, fun _ => h.d hc⟩

theorem RI.done {k c : Nat} {st : Status} {e : Nat} (h : RI k 1 st e) (hf : st = .FIN) (hc' : 2 ≤ c) : RI k c st e := by
  refine ⟨by omega, by omega, fun _ => ?_⟩
  rcases h.b rfl with ⟨_, h1⟩ | h1
  · subst hf; rcases h1 with h1 | h1 <;> cases h1
  · exact h1

theorem RI.rdy {k : Nat} {st : Status} {e : Nat} (h : RI k 0 st e) : RI k 1 .RDY e :=
  ⟨by omega, fun _ => Or.inl ⟨(h.a rfl).1, Or.inl rfl⟩, by omega⟩

theorem RI.next {k c : Nat} {st : Status} {e : Nat} (h : RI k c st e) (hc : 2 ≤ c) : RI (k + 1) 0 st e :=
  ⟨fun _ => ⟨(h.d hc).1, Or.inl (h.d hc).2⟩, by omega, by omega⟩

theorem allFin_iff {p : Params} {s : State} {g r : Nat} :
    s.allFin p g r = true ↔ ∀ w, w < p.nWrk → s.st g r w = .FIN := by
  simp [State.allFin]

/-- No check of `setStatusAll` fires if all packages have status `FIN` or `WAI`. -/
theorem setRdy_abort {p : Params} {s : State} {g r : Nat} (ha : s.abort = false)
    (h : ∀ w, w < p.nWrk → s.st g r w = .FIN ∨ s.st g r w = .WAI) : (s.setRdy p g r).abort = false := by
  simp only [State.setRdy, ha, Bool.false_or]
  rw [List.any_eq_false]
  intro w hw
  have := h w (List.mem_range.mp hw)
  rcases this with h | h <;> simp [h]

/-- An uninitialised group is not touched by any statement except `initCf`. -/
theorem grp_init {p : Params} {s : State} {g : Nat} (h : Grp p s g) (hc : (s.tg g).c0 ≠ umax) :
    GI (p.N g) (s.tg g).k (s.tg g) ∧
    ∀ r w, r < 6 → w < p.nWrk → RI (s.tg g).k ((s.tg g).cf r) (s.st g r w) (s.exec g r w) := by
  rcases h with h | h
  · exact absurd (by rw [h.1]; rfl) hc
  · exact h

/-- Same, for a group one of whose entries is known to be small. -/
theorem grp_init' {p : Params} {s : State} {g : Nat} (h : Grp p s g)
    (hc : (s.tg g).c0 < 6 ∨ (s.tg g).c1 < 6 ∨ (s.tg g).c2 < 6 ∨ (s.tg g).c3 < 6 ∨ (s.tg g).c4 < 6 ∨ (s.tg g).c5 < 6 ∨
      (s.tg g).c6 < 6 ∨ (s.tg g).c7 < 6) :
    GI (p.N g) (s.tg g).k (s.tg g) ∧
    ∀ r w, r < 6 → w < p.nWrk → RI (s.tg g).k ((s.tg g).cf r) (s.st g r w) (s.exec g r w) := by
  rcases h with h | h
  · rw [h.1] at hc; simp [TgState.reset, umax] at hc
  · exact h

theorem forall_lt6 {P : Nat → Prop} (h0 : P 0) (h1 : P 1) (h2 : P 2) (h3 : P 3) (h4 : P 4) (h5 : P 5) :
    ∀ r, r < 6 → P r := by
  intro r hr
  match r, hr with
  | 0, _ => exact h0
  | 1, _ => exact h1
  | 2, _ => exact h2
  | 3, _ => exact h3
  | 4, _ => exact h4
  | 5, _ => exact h5

/-- Statements that only change the entry of one group. -/
theorem core_setTg {p : Params} {s : State} {g k' : Nat} {t : TgState} (hi : Core p s)
    (hG : GI (p.N g) k' t)
    (hR : ∀ r, r < 6 → ∀ w, w < p.nWrk → RI k' (t.cf r) (s.st g r w) (s.exec g r w))
    (hPl : ∀ h, h + 1 = g → Pair (s.tg h) (s.tg g) → Pair (s.tg h) t)
    (hPr : g + 1 < p.nTgs → Pair (s.tg g) (s.tg (g + 1)) → Pair t (s.tg (g + 1)))
    (hS : ∀ ch, ch < p.nCh → p.tgL ch < p.nTgs → p.tgL ch = g → SCh p s ch → SCh p (s.setTg g t) ch)
    (hRc : ∀ ch, ch < p.nCh → p.tgL ch < p.nTgs → p.tgL ch = g → RCh p s ch → RCh p (s.setTg g t) ch) :
    Core p (s.setTg g t) := by
  have hk := hG.k_eq
  subst hk
  refine core_upd (t := t) hi (fun _ => rfl) (fun _ _ _ _ => rfl) rfl rfl hi.noabort (fun _ _ h => h) (fun _ _ _ _ => Iff.rfl) hG
    (fun r w hr hw => hR r hr w hw) hPl hPr ?_ ?_
  · intro ch h1 h2
    by_cases hh : p.tgL ch = g
    · exact hS ch h1 h2 hh (hi.sch ch h1 h2)
    · exact sch_frame (fun _ => rfl) rfl rfl rfl (fun h => absurd h hh) (hi.sch ch h1 h2)
  · intro ch h1 h2
    by_cases hh : p.tgL ch = g
    · exact hRc ch h1 h2 hh (hi.rch ch h1 h2)
    · exact rch_frame (fun _ => rfl) rfl rfl rfl (fun h => absurd h hh) (hi.rch ch h1 h2)

/-- Statements that make a region ready and change the entry of its group. -/
theorem core_setRdy {p : Params} {s : State} {g q : Nat} {t : TgState} (hi : Core p s)
    (hR0 : ∀ r w, r < 6 → w < p.nWrk → RI (s.tg g).k ((s.tg g).cf r) (s.st g r w) (s.exec g r w))
    (hq : q < 6) (hc0 : (s.tg g).cf q = 0) (hc1 : t.cf q = 1)
    (hcr : ∀ r, r < 6 → r ≠ q → t.cf r = (s.tg g).cf r ∨ (2 ≤ (s.tg g).cf r ∧ 2 ≤ t.cf r))
    (hG : GI (p.N g) (s.tg g).k t)
    (hPl : ∀ h, h + 1 = g → Pair (s.tg h) (s.tg g) → Pair (s.tg h) t)
    (hPr : g + 1 < p.nTgs → Pair (s.tg g) (s.tg (g + 1)) → Pair t (s.tg (g + 1)))
    (hS : ∀ ch, ch < p.nCh → p.tgL ch < p.nTgs → p.tgL ch = g → SCh p s ch → SCh p ((s.setRdy p g q).setTg g t) ch)
    (hRc : ∀ ch, ch < p.nCh → p.tgL ch < p.nTgs → p.tgL ch = g → RCh p s ch → RCh p ((s.setRdy p g q).setTg g t) ch) :
    Core p ((s.setRdy p g q).setTg g t) := by
  have hk := hG.k_eq
  have hst : ∀ w, w < p.nWrk → s.st g q w = .FIN ∨ s.st g q w = .WAI := by
    intro w hw
    have := hR0 q w hq hw
    rw [hc0] at this
    exact (this.a rfl).2
  refine core_upd (t := t) hi (fun _ => rfl) ?_ rfl rfl ?_ ?_ ?_ (by rw [hk]; exact hG) ?_ hPl hPr ?_ ?_
  · intro h r w hh
    simp [State.setTg, State.setRdy, hh]
  · exact setRdy_abort hi.noabort hst
  · intro r w h
    simp only [State.setTg, State.setRdy]
    split
    · rfl
    · exact h
  · intro r w hr hw
    simp only [State.setTg, State.setRdy]
    by_cases hrq : r = q
    · subst hrq
      rw [if_pos (by simp [hw])]
      rcases hst w hw with h | h <;> simp [h]
    · rw [if_neg (by simp [hrq])]
  · intro r w hr hw
    rw [hk]
    simp only [State.setTg, State.setRdy]
    by_cases hrq : r = q
    · subst hrq
      rw [if_pos (by simp [hw]), hc1]
      have := hR0 r w hr hw
      rw [hc0] at this
      exact this.rdy
    · rw [if_neg (by simp [hrq])]
      have := hR0 r w hr hw
      rcases hcr r hr hrq with h | ⟨h, h'⟩
      · rw [h]; exact this
      · exact this.ge h h'
  · intro ch h1 h2
    by_cases hh : p.tgL ch = g
    · exact hS ch h1 h2 hh (hi.sch ch h1 h2)
    · exact sch_frame (s := s) (t := t) (fun _ => rfl) rfl rfl rfl (fun h => absurd h hh) (hi.sch ch h1 h2)
  · intro ch h1 h2
    by_cases hh : p.tgL ch = g
    · exact hRc ch h1 h2 hh (hi.rch ch h1 h2)
    · exact rch_frame (s := s) (t := t) (fun _ => rfl) rfl rfl rfl (fun h => absurd h hh) (hi.rch ch h1 h2)


/-! ### Instruction by instruction -/

local macro "regs" h:ident w:ident hw:ident : tactic =>
  `(tactic| (refine forall_lt6 ?_ ?_ ?_ ?_ ?_ ?_ <;> (intro $w $hw) <;> first
      | exact $h 0 $w (by omega) $hw | exact $h 1 $w (by omega) $hw | exact $h 2 $w (by omega) $hw
      | exact $h 3 $w (by omega) $hw | exact $h 4 $w (by omega) $hw | exact $h 5 $w (by omega) $hw | skip))

theorem sch_same {p : Params} {s : State} {g : Nat} {t : TgState} (h6 : t.c6 = (s.tg g).c6) (hn : t.nS = (s.tg g).nS) :
    ∀ ch, ch < p.nCh → p.tgL ch < p.nTgs → p.tgL ch = g → SCh p s ch → SCh p (s.setTg g t) ch :=
  fun _ _ _ _ h => sch_frame (s := s) (t := t) (fun _ => rfl) rfl rfl rfl (fun _ => ⟨h6, hn⟩) h

theorem rch_same {p : Params} {s : State} {g : Nat} {t : TgState} (h7 : t.c7 = (s.tg g).c7) (hn : t.nR = (s.tg g).nR) :
    ∀ ch, ch < p.nCh → p.tgL ch < p.nTgs → p.tgL ch = g → RCh p s ch → RCh p (s.setTg g t) ch :=
  fun _ _ _ _ h => rch_frame (s := s) (t := t) (fun _ => rfl) rfl rfl rfl (fun _ => ⟨h7, hn⟩) h


theorem available_l {p : Params} {s : State} {g h : Nat} (ha : s.available p g = true) (hh : h + 1 = g) :
    (s.tg h).tpI = (s.tg g).tpI * 2 ∧ (s.tg h).tpS = (s.tg g).tpS * 2 := by
  subst hh
  simp [State.available] at ha
  exact ha.1

theorem available_r {p : Params} {s : State} {g : Nat} (ha : s.available p g = true) (hh : g + 1 < p.nTgs) :
    (s.tg g).tpI ≤ (s.tg (g+1)).tpI * 2 ∧ (s.tg g).tpS ≤ (s.tg (g+1)).tpS * 2 := by
  simp [State.available] at ha
  rcases ha.2 with h | h
  · omega
  · exact h

theorem consumed_l {p : Params} {s : State} {g h : Nat} (ha : s.consumed p g = true) (hh : h + 1 = g) :
    (s.tg h).duI = (s.tg g).tpI * 2 ∧ (s.tg h).duS = (s.tg g).tpS * 2 := by
  subst hh
  simp [State.consumed] at ha
  exact ha.1

theorem consumed_r {p : Params} {s : State} {g : Nat} (ha : s.consumed p g = true) (hh : g + 1 < p.nTgs) :
    (s.tg g).ts % 2 = 0 ∨ ((s.tg g).tpI = (s.tg (g+1)).duI * 2 ∧ (s.tg g).tpS = (s.tg (g+1)).duS * 2) := by
  simp [State.consumed] at ha
  rcases ha.2 with (h | h) | h
  · omega
  · exact Or.inl h
  · exact Or.inr h

theorem core_finLocIn {p : Params} {s : State} {g : Nat} (hi : Core p s) (hg : g < p.nTgs) :
    Core p (exec1 p s (.finLocIn g)) := by
  simp only [exec1]
  split
  · rename_i h
    obtain ⟨hc, hf⟩ := h
    rw [allFin_iff] at hf
    obtain ⟨hG, hR⟩ := grp_init' (hi.grp g hg) (by omega)
    have hG' := gi_f0 hG hc
    refine core_setTg hi hG' ?_ ?_ ?_ (sch_same rfl rfl) (rch_same rfl rfl)
    · regs hR w hw
      have := hR 0 w (by omega) hw
      simp only [TgState.cf, hc] at this
      exact this.done (hf w hw) (by simp [TgState.cf])
    · intro h _ hp
      constructor <;> grind [Pair, TgState.k, GI]
    · intro h hp
      constructor <;> grind [Pair, TgState.k, GI]
  · exact hi

theorem core_finLocSe {p : Params} {s : State} {g : Nat} (hi : Core p s) (hg : g < p.nTgs) :
    Core p (exec1 p s (.finLocSe g)) := by
  simp only [exec1]
  split
  · rename_i h
    obtain ⟨hc, hf⟩ := h
    rw [allFin_iff] at hf
    obtain ⟨hG, hR⟩ := grp_init' (hi.grp g hg) (by omega)
    have hG' := gi_f1 hG hc
    refine core_setTg hi hG' ?_ ?_ ?_ (sch_same rfl rfl) (rch_same rfl rfl)
    · regs hR w hw
      have := hR 1 w (by omega) hw
      simp only [TgState.cf, hc] at this
      exact this.done (hf w hw) (by simp [TgState.cf])
    · intro h _ hp
      constructor <;> grind [Pair, TgState.k, GI]
    · intro h hp
      constructor <;> grind [Pair, TgState.k, GI]
  · exact hi

theorem core_finSrcIn {p : Params} {s : State} {g : Nat} (hi : Core p s) (hg : g < p.nTgs) :
    Core p (exec1 p s (.finSrcIn g)) := by
  simp only [exec1]
  split
  · rename_i h
    obtain ⟨hc, hf⟩ := h
    rw [allFin_iff] at hf
    obtain ⟨hG, hR⟩ := grp_init' (hi.grp g hg) (by omega)
    have hG' := gi_f2 hG hc
    refine core_setTg hi hG' ?_ ?_ ?_ (sch_same rfl rfl) (rch_same rfl rfl)
    · regs hR w hw
      have := hR 2 w (by omega) hw
      simp only [TgState.cf, hc] at this
      exact this.done (hf w hw) (by simp [TgState.cf])
    · intro h _ hp
      constructor <;> grind [Pair, TgState.k, GI]
    · intro h hp
      constructor <;> grind [Pair, TgState.k, GI]
  · exact hi

theorem core_finSrcSe {p : Params} {s : State} {g : Nat} (hi : Core p s) (hg : g < p.nTgs) :
    Core p (exec1 p s (.finSrcSe g)) := by
  simp only [exec1]
  split
  · rename_i h
    obtain ⟨hc, hf⟩ := h
    rw [allFin_iff] at hf
    obtain ⟨hG, hR⟩ := grp_init' (hi.grp g hg) (by omega)
    have hG' := gi_f3 hG hc
    refine core_setTg hi hG' ?_ ?_ ?_ (sch_same rfl rfl) (rch_same rfl rfl)
    · regs hR w hw
      have := hR 3 w (by omega) hw
      simp only [TgState.cf, hc] at this
      exact this.done (hf w hw) (by simp [TgState.cf])
    · intro h _ hp
      constructor <;> grind [Pair, TgState.k, GI]
    · intro h hp
      constructor <;> grind [Pair, TgState.k, GI]
  · exact hi

theorem core_finNeIn {p : Params} {s : State} {g : Nat} (hi : Core p s) (hg : g < p.nTgs) :
    Core p (exec1 p s (.finNeIn g)) := by
  simp only [exec1]
  split
  · rename_i h
    obtain ⟨hc, hf⟩ := h
    rw [allFin_iff] at hf
    obtain ⟨hG, hR⟩ := grp_init' (hi.grp g hg) (by omega)
    have hG' := gi_f4 hG hc
    refine core_setTg hi hG' ?_ ?_ ?_ (sch_same rfl rfl) (rch_same rfl rfl)
    · regs hR w hw
      have := hR 4 w (by omega) hw
      simp only [TgState.cf, hc] at this
      exact this.done (hf w hw) (by simp [TgState.cf])
    · intro h _ hp
      constructor <;> grind [Pair, TgState.k, GI]
    · intro h hp
      constructor <;> grind [Pair, TgState.k, GI]
  · exact hi

theorem core_finNeSe {p : Params} {s : State} {g : Nat} (hi : Core p s) (hg : g < p.nTgs) :
    Core p (exec1 p s (.finNeSe g)) := by
  simp only [exec1]
  split
  · rename_i h
    obtain ⟨hc, hf⟩ := h
    rw [allFin_iff] at hf
    obtain ⟨hG, hR⟩ := grp_init' (hi.grp g hg) (by omega)
    have hG' := gi_f5 hG hc
    refine core_setTg hi hG' ?_ ?_ ?_ (sch_same rfl rfl) (rch_same rfl rfl)
    · regs hR w hw
      have := hR 5 w (by omega) hw
      simp only [TgState.cf, hc] at this
      exact this.done (hf w hw) (by simp [TgState.cf])
    · intro h _ hp
      constructor <;> grind [Pair, TgState.k, GI]
    · intro h hp
      constructor <;> grind [Pair, TgState.k, GI]
  · exact hi


theorem finSends_iff {p : Params} {s : State} {lt : Bool} {g : Nat} :
    s.finSends p lt g = true ↔ ∀ ch, ch < p.nCh → p.isMatch ch lt g = true → s.sTest ch = true := by
  simp only [State.finSends, List.all_eq_true, List.mem_range]
  constructor
  · intro h ch hc hm; have := h ch hc; simp [hm] at this; exact this
  · intro h ch hc
    cases hm : p.isMatch ch lt g
    · simp
    · simp [h ch hc hm]

theorem finRecvs_iff {p : Params} {s : State} {lt : Bool} {g : Nat} :
    s.finRecvs p lt g = true ↔ ∀ ch, ch < p.nCh → p.isMatch ch lt g = true → s.rTest ch = true := by
  simp only [State.finRecvs, List.all_eq_true, List.mem_range]
  constructor
  · intro h ch hc hm; have := h ch hc; simp [hm] at this; exact this
  · intro h ch hc
    cases hm : p.isMatch ch lt g
    · simp
    · simp [h ch hc hm]

theorem core_finSend {p : Params} {s : State} {g : Nat} (hi : Core p s) (hg : g < p.nTgs) :
    Core p (exec1 p s (.finSend g)) := by
  simp only [exec1]
  split
  · rename_i h
    obtain ⟨hc, hf⟩ := h
    rw [finSends_iff] at hf
    obtain ⟨hG, hR⟩ := grp_init' (hi.grp g hg) (by omega)
    have hG' := gi_f6 hG hc
    refine core_setTg hi hG' ?_ ?_ ?_ ?_ (rch_same rfl rfl)
    · regs hR w hw
    · intro h _ hp
      constructor <;> grind [Pair, TgState.k]
    · intro h hp
      constructor <;> grind [Pair, TgState.k]
    · intro ch h1 h2 h3 hs
      subst h3
      have hnp : s.sPend ch = false := by
        cases hp : s.sPend ch
        · rfl
        · have h4 := hs.t hp
          rw [hf ch h1 (hs.c hp).2] at h4
          cases h4
      refine ⟨?_, ?_, ?_⟩
      · simp [State.setTg, hnp]
      · simp [State.setTg, hnp]
      · have := hs.n
        simp only [State.setTg, if_pos, TgState.sRounds, hc] at this ⊢
        simpa using this
  · exact hi

theorem core_finRecv {p : Params} {s : State} {g : Nat} (hi : Core p s) (hg : g < p.nTgs) :
    Core p (exec1 p s (.finRecv g)) := by
  simp only [exec1]
  split
  · rename_i h
    obtain ⟨hc, hf⟩ := h
    rw [finRecvs_iff] at hf
    obtain ⟨hG, hR⟩ := grp_init' (hi.grp g hg) (by omega)
    have hG' := gi_f7 hG hc
    refine core_setTg hi hG' ?_ ?_ ?_ (sch_same rfl rfl) ?_
    · regs hR w hw
    · intro h _ hp
      constructor <;> grind [Pair, TgState.k]
    · intro h hp
      constructor <;> grind [Pair, TgState.k]
    · intro ch h1 h2 h3 hs
      subst h3
      have hnp : s.rPend ch = false := by
        cases hp : s.rPend ch
        · rfl
        · have h4 := hs.t hp
          rw [hf ch h1 (hs.c hp).2] at h4
          cases h4
      refine ⟨?_, ?_, ?_⟩
      · simp [State.setTg, hnp]
      · simp [State.setTg, hnp]
      · have := hs.n
        simp only [State.setTg, if_pos, TgState.rRounds, hc] at this ⊢
        simpa using this
  · exact hi

theorem core_locSe {p : Params} {s : State} {g : Nat} (hi : Core p s) (hg : g < p.nTgs) :
    Core p (exec1 p s (.locSe g)) := by
  simp only [exec1]
  split
  · rename_i h
    obtain ⟨hc, hc'⟩ := h
    obtain ⟨hG, hR⟩ := grp_init' (hi.grp g hg) (by omega)
    refine core_setRdy hi hR (q := 1) (by omega) hc rfl ?_ (gi_locSe hG hc hc') ?_ ?_ ?_ ?_
    · refine forall_lt6 ?_ ?_ ?_ ?_ ?_ ?_ <;> simp [TgState.cf]
    · intro h _ hp
      constructor <;> grind [Pair, TgState.k]
    · intro h hp
      constructor <;> grind [Pair, TgState.k]
    · intro ch h1 h2 h3 hs
      subst h3
      have hnp : s.sPend ch = false := by
        cases hp : s.sPend ch
        · rfl
        · have h4 := (hs.c hp).1
          omega
      refine ⟨?_, ?_, ?_⟩
      · simp [State.setTg, State.setRdy, hnp]
      · simp [State.setTg, State.setRdy, hnp]
      · have := hs.n
        simp only [State.setTg, State.setRdy, if_pos, TgState.sRounds, hc'] at this ⊢
        simpa using this
    · intro ch h1 h2 h3 hs
      exact rch_frame (s := s) (g := g) (fun _ => rfl) rfl rfl rfl (fun _ => ⟨rfl, rfl⟩) hs
  · exact hi

theorem core_locIn {p : Params} {s : State} {g : Nat} (hi : Core p s) (hg : g < p.nTgs) :
    Core p (exec1 p s (.locIn g)) := by
  simp only [exec1]
  split
  · rename_i h
    have hc := h
    obtain ⟨hG, hR⟩ := grp_init' (hi.grp g hg) (by omega)
    refine core_setRdy hi hR (q := 0) (by omega) (by simpa [TgState.cf] using hc) rfl ?_ (gi_locIn hG hc) ?_ ?_ ?_ ?_
    · have := hG.r2; have := hG.r3
      refine forall_lt6 ?_ ?_ ?_ ?_ ?_ ?_ <;> simp [TgState.cf] <;> omega
    · intro h hh hp
      constructor <;> grind [Pair, TgState.k, GI]
    · intro h hp
      constructor <;> grind [Pair, TgState.k, GI]
    · intro ch h1 h2 h3 hs
      exact sch_frame (s := s) (g := g) (fun _ => rfl) rfl rfl rfl (fun _ => ⟨rfl, rfl⟩) hs
    · intro ch h1 h2 h3 hs
      exact rch_frame (s := s) (g := g) (fun _ => rfl) rfl rfl rfl (fun _ => ⟨rfl, rfl⟩) hs
  · exact hi

theorem core_srcSe {p : Params} {s : State} {g : Nat} (hi : Core p s) (hg : g < p.nTgs) :
    Core p (exec1 p s (.srcSe g)) := by
  simp only [exec1]
  split
  · rename_i h
    obtain ⟨hc, hc'⟩ := h
    obtain ⟨hG, hR⟩ := grp_init' (hi.grp g hg) (by omega)
    refine core_setRdy hi hR (q := 3) (by omega) (hc') rfl ?_ (gi_srcSe hG hc) ?_ ?_ ?_ ?_
    · have := hG.r2; have := hG.r3
      refine forall_lt6 ?_ ?_ ?_ ?_ ?_ ?_ <;> simp [TgState.cf] <;> omega
    · intro h hh hp
      constructor <;> grind [Pair, TgState.k, GI]
    · intro h hp
      constructor <;> grind [Pair, TgState.k, GI]
    · intro ch h1 h2 h3 hs
      exact sch_frame (s := s) (g := g) (fun _ => rfl) rfl rfl rfl (fun _ => ⟨rfl, rfl⟩) hs
    · intro ch h1 h2 h3 hs
      exact rch_frame (s := s) (g := g) (fun _ => rfl) rfl rfl rfl (fun _ => ⟨rfl, rfl⟩) hs
  · exact hi

theorem core_srcIn {p : Params} {s : State} {g : Nat} (hi : Core p s) (hg : g < p.nTgs) :
    Core p (exec1 p s (.srcIn g)) := by
  simp only [exec1]
  split
  · rename_i h
    obtain ⟨hc, hc'⟩ := h
    obtain ⟨hG, hR⟩ := grp_init' (hi.grp g hg) (by omega)
    refine core_setRdy hi hR (q := 2) (by omega) (hc') rfl ?_ (gi_srcIn hG hc) ?_ ?_ ?_ ?_
    · have := hG.r2; have := hG.r3
      refine forall_lt6 ?_ ?_ ?_ ?_ ?_ ?_ <;> simp [TgState.cf] <;> omega
    · intro h hh hp
      constructor <;> grind [Pair, TgState.k, GI]
    · intro h hp
      constructor <;> grind [Pair, TgState.k, GI]
    · intro ch h1 h2 h3 hs
      exact sch_frame (s := s) (g := g) (fun _ => rfl) rfl rfl rfl (fun _ => ⟨rfl, rfl⟩) hs
    · intro ch h1 h2 h3 hs
      exact rch_frame (s := s) (g := g) (fun _ => rfl) rfl rfl rfl (fun _ => ⟨rfl, rfl⟩) hs
  · exact hi

theorem core_neIn {p : Params} {s : State} {g : Nat} (hi : Core p s) (hg : g < p.nTgs) :
    Core p (exec1 p s (.neIn g)) := by
  simp only [exec1]
  split
  · rename_i h
    obtain ⟨a, b, c, d, e⟩ := h
    obtain ⟨hG, hR⟩ := grp_init' (hi.grp g hg) (by omega)
    refine core_setRdy hi hR (q := 4) (by omega) (d) rfl ?_ (gi_neIn hG a b c d) ?_ ?_ ?_ ?_
    · have := hG.r2; have := hG.r3
      refine forall_lt6 ?_ ?_ ?_ ?_ ?_ ?_ <;> simp [TgState.cf] <;> omega
    · intro h hh hp
      have hal := available_l e hh
      constructor <;> grind [Pair, TgState.k, GI]
    · intro h hp
      have har := available_r e h
      constructor <;> grind [Pair, TgState.k, GI]
    · intro ch h1 h2 h3 hs
      exact sch_frame (s := s) (g := g) (fun _ => rfl) rfl rfl rfl (fun _ => ⟨rfl, rfl⟩) hs
    · intro ch h1 h2 h3 hs
      exact rch_frame (s := s) (g := g) (fun _ => rfl) rfl rfl rfl (fun _ => ⟨rfl, rfl⟩) hs
  · exact hi

theorem core_neSe {p : Params} {s : State} {g : Nat} (hi : Core p s) (hg : g < p.nTgs) :
    Core p (exec1 p s (.neSe g)) := by
  simp only [exec1]
  split
  · rename_i h
    obtain ⟨z, a, b, c, d, e⟩ := h
    obtain ⟨hG, hR⟩ := grp_init' (hi.grp g hg) (by omega)
    refine core_setRdy hi hR (q := 5) (by omega) (d) rfl ?_ (gi_neSe hG z a b c d) ?_ ?_ ?_ ?_
    · have := hG.r2; have := hG.r3
      refine forall_lt6 ?_ ?_ ?_ ?_ ?_ ?_ <;> simp [TgState.cf] <;> omega
    · intro h hh hp
      have hal := available_l e hh
      constructor <;> grind [Pair, TgState.k, GI]
    · intro h hp
      have har := available_r e h
      constructor <;> grind [Pair, TgState.k, GI]
    · intro ch h1 h2 h3 hs
      exact sch_frame (s := s) (g := g) (fun _ => rfl) rfl rfl rfl (fun _ => ⟨rfl, rfl⟩) hs
    · intro ch h1 h2 h3 hs
      subst h3
      have hnp : s.rPend ch = false := by
        cases hp : s.rPend ch
        · rfl
        · have h4 := (hs.c hp).1
          omega
      refine ⟨?_, ?_, ?_⟩
      · simp [State.setTg, State.setRdy, hnp]
      · simp [State.setTg, State.setRdy, hnp]
      · have := hs.n
        simp only [State.setTg, State.setRdy, if_pos, TgState.rRounds, z] at this ⊢
        simpa using this
  · exact hi


theorem isMatch_self {p : Params} {ch : Nat} {lt : Bool} :
    p.isMatch ch lt (p.tgL ch) = true ↔ (p.tgL ch < p.tgR ch → lt = true) := by
  unfold Params.isMatch
  split
  · rename_i h; simp [h]
  · rename_i h; simp [h]

theorem isMatch_tg {p : Params} {ch g : Nat} {lt : Bool} (h : p.isMatch ch lt g = true) : p.tgL ch = g := by
  unfold Params.isMatch at h
  simp at h; exact h.1

/-- Begin of a receive round in a state without active receive request of the group. -/
theorem rch_begin {p : Params} {s : State} {g : Nat} {t : TgState} (hc : (s.tg g).c7 ≠ 1) (ht : t.c7 = 1)
    (hn : t.nR = (s.tg g).nR) (ch : Nat) (h1 : ch < p.nCh) (hs : RCh p s ch) :
    RCh p ((s.beginRecvs p ((s.tg g).nR % 2 == 0) g).setTg g t) ch := by
  by_cases hg : p.tgL ch = g
  · subst hg
    have hnp : s.rPend ch = false := by
      cases hp : s.rPend ch
      · rfl
      · exact absurd (hs.c hp).1 hc
    have hb := hs.n
    have hm := @isMatch_self p ch ((s.tg (p.tgL ch)).nR % 2 == 0)
    simp only [TgState.rRounds, hc, if_false] at hb
    by_cases hx : p.isMatch ch ((s.tg (p.tgL ch)).nR % 2 == 0) (p.tgL ch) = true
    · refine ⟨?_, ?_, ?_⟩
      · simp [State.setTg, State.beginRecvs, h1, hx]
      · intro _; simp [State.setTg, ht, hn, hx]
      · simp only [State.setTg, State.beginRecvs, h1, hx, and_self, if_pos, TgState.rRounds, ht, hn, hb]
        have := hm.1 hx
        simp at this
        split <;> omega
    · refine ⟨?_, ?_, ?_⟩
      · simp [State.setTg, State.beginRecvs, hx, hnp]
      · simp [State.setTg, State.beginRecvs, hx, hnp]
      · simp only [State.setTg, State.beginRecvs, hx, and_false, if_false, if_pos, TgState.rRounds, ht, hn, hb, Bool.false_eq_true]
        rw [hm] at hx
        simp at hx
        split <;> omega
  · have hx : ∀ lt, p.isMatch ch lt g = false := by
      intro lt; cases h : p.isMatch ch lt g
      · rfl
      · exact absurd (isMatch_tg h) hg
    refine rch_frame (s := s) (g := g) (t := t) (fun _ => rfl) ?_ ?_ ?_ (fun h => absurd h hg) hs <;>
      simp [State.setTg, State.beginRecvs, hx]

/-- Begin of a send round in a state without active send request of the group. -/
theorem sch_begin {p : Params} {s : State} {g : Nat} {t : TgState} (hc : (s.tg g).c6 ≠ 1) (ht : t.c6 = 1)
    (hn : t.nS = (s.tg g).nS) (ch : Nat) (h1 : ch < p.nCh) (hs : SCh p s ch) :
    SCh p ((s.beginSends p ((s.tg g).nS % 2 == 1) g).setTg g t) ch := by
  by_cases hg : p.tgL ch = g
  · subst hg
    have hnp : s.sPend ch = false := by
      cases hp : s.sPend ch
      · rfl
      · exact absurd (hs.c hp).1 hc
    have hb := hs.n
    have hm := @isMatch_self p ch ((s.tg (p.tgL ch)).nS % 2 == 1)
    simp only [TgState.sRounds, hc, if_false] at hb
    by_cases hx : p.isMatch ch ((s.tg (p.tgL ch)).nS % 2 == 1) (p.tgL ch) = true
    · refine ⟨?_, ?_, ?_⟩
      · simp [State.setTg, State.beginSends, h1, hx]
      · intro _; simp [State.setTg, ht, hn, hx]
      · simp only [State.setTg, State.beginSends, h1, hx, and_self, if_pos, TgState.sRounds, ht, hn, hb]
        have := hm.1 hx
        simp at this
        split <;> omega
    · refine ⟨?_, ?_, ?_⟩
      · simp [State.setTg, State.beginSends, hx, hnp]
      · simp [State.setTg, State.beginSends, hx, hnp]
      · simp only [State.setTg, State.beginSends, hx, and_false, if_false, if_pos, TgState.sRounds, ht, hn, hb, Bool.false_eq_true]
        rw [hm] at hx
        simp at hx
        split <;> omega
  · have hx : ∀ lt, p.isMatch ch lt g = false := by
      intro lt; cases h : p.isMatch ch lt g
      · rfl
      · exact absurd (isMatch_tg h) hg
    refine sch_frame (s := s) (g := g) (t := t) (fun _ => rfl) ?_ ?_ ?_ (fun h => absurd h hg) hs <;>
      simp [State.setTg, State.beginSends, hx]

theorem core_send {p : Params} {s : State} {g : Nat} (hi : Core p s) (hg : g < p.nTgs) :
    Core p (exec1 p s (.send g)) := by
  simp only [exec1]
  split
  · rename_i h
    obtain ⟨hc, hc'⟩ := h
    obtain ⟨hG, hR⟩ := grp_init' (hi.grp g hg) (by omega)
    have hG' := gi_send hG hc hc'
    refine core_upd hi (fun _ => rfl) (fun _ _ _ _ => rfl) rfl rfl hi.noabort (fun _ _ h => h) (fun _ _ _ _ => Iff.rfl)
      (by rw [hG'.k_eq]; exact hG') ?_ ?_ ?_ ?_ ?_
    · intro r w hr
      rw [hG'.k_eq]
      revert w
      revert r
      refine forall_lt6 ?_ ?_ ?_ ?_ ?_ ?_ <;> intro w hw
      · exact hR 0 w (by omega) hw
      · have := hR 1 w (by omega) hw
        exact this.ge (by simp [TgState.cf, hc]) (by simp [TgState.cf])
      · exact hR 2 w (by omega) hw
      · exact hR 3 w (by omega) hw
      · exact hR 4 w (by omega) hw
      · exact hR 5 w (by omega) hw
    · intro h _ hp
      constructor <;> grind [Pair, TgState.k]
    · intro h hp
      constructor <;> grind [Pair, TgState.k]
    · intro ch h1 h2
      exact sch_begin (g := g) (by omega) (by rfl) (by rfl) ch h1 (hi.sch ch h1 h2)
    · intro ch h1 h2
      exact rch_frame (s := s) (g := g) (fun _ => rfl) rfl rfl rfl (fun _ => ⟨rfl, rfl⟩) (hi.rch ch h1 h2)
  · exact hi

theorem core_recv {p : Params} {s : State} {g : Nat} (hi : Core p s) (hg : g < p.nTgs) :
    Core p (exec1 p s (.recv g)) := by
  simp only [exec1]
  split
  · rename_i h
    obtain ⟨hc, hc'⟩ := h
    obtain ⟨hG, hR⟩ := grp_init' (hi.grp g hg) (by omega)
    split
    · rename_i hl
      have hG' := gi_recvLast hG hc hc' hl
      refine core_setTg hi hG' ?_ ?_ ?_ (sch_same rfl rfl) ?_
      · regs hR w hw
        have := hR 5 w (by omega) hw
        exact this.ge (by simp [TgState.cf, hc]) (by simp [TgState.cf])
      · intro h _ hp
        constructor <;> grind [Pair, TgState.k]
      · intro h hp
        constructor <;> grind [Pair, TgState.k]
      · intro ch h1 h2 h3 hs
        subst h3
        have hnp : s.rPend ch = false := by
          cases hp : s.rPend ch
          · rfl
          · have h4 := (hs.c hp).1
            omega
        refine ⟨?_, ?_, ?_⟩
        · simp [State.setTg, hnp]
        · simp [State.setTg, hnp]
        · have := hs.n
          simp only [State.setTg, if_pos, TgState.rRounds, hc'] at this ⊢
          simpa using this
    · rename_i hl
      have hG' := gi_recv hG hc hc' hl
      refine core_upd hi (fun _ => rfl) (fun _ _ _ _ => rfl) rfl rfl hi.noabort (fun _ _ h => h) (fun _ _ _ _ => Iff.rfl)
        (by rw [hG'.k_eq]; exact hG') ?_ ?_ ?_ ?_ ?_
      · intro r w hr
        rw [hG'.k_eq]
        revert w
        revert r
        refine forall_lt6 ?_ ?_ ?_ ?_ ?_ ?_ <;> intro w hw
        · exact hR 0 w (by omega) hw
        · exact hR 1 w (by omega) hw
        · exact hR 2 w (by omega) hw
        · exact hR 3 w (by omega) hw
        · exact hR 4 w (by omega) hw
        · have := hR 5 w (by omega) hw
          exact this.ge (by simp [TgState.cf, hc]) (by simp [TgState.cf])
      · intro h _ hp
        constructor <;> grind [Pair, TgState.k]
      · intro h hp
        constructor <;> grind [Pair, TgState.k]
      · intro ch h1 h2
        exact sch_frame (s := s) (g := g) (fun _ => rfl) rfl rfl rfl (fun _ => ⟨rfl, rfl⟩) (hi.sch ch h1 h2)
      · intro ch h1 h2
        exact rch_begin (g := g) (by omega) (by rfl) (by rfl) ch h1 (hi.rch ch h1 h2)
  · exact hi

theorem core_complete {p : Params} {s : State} {g : Nat} (hi : Core p s) (hg : g < p.nTgs) :
    Core p (exec1 p s (.complete g)) := by
  simp only [exec1]
  split
  · rename_i h
    obtain ⟨hc, hc', hcon⟩ := h
    obtain ⟨hG, hR⟩ := grp_init' (hi.grp g hg) (by omega)
    have hge : 2 ≤ (s.tg g).c0 ∧ 2 ≤ (s.tg g).c1 ∧ 2 ≤ (s.tg g).c2 ∧ 2 ≤ (s.tg g).c3 := by
      have := hG.r4; have := hG.r5; omega
    split
    · rename_i hl
      have hG' := gi_completeLast hG hc hc' hl
      refine core_setTg hi hG' ?_ ?_ ?_ (sch_same rfl rfl) (rch_same rfl rfl)
      · refine forall_lt6 ?_ ?_ ?_ ?_ ?_ ?_ <;> intro w hw
        · exact hR 0 w (by omega) hw
        · exact hR 1 w (by omega) hw
        · exact hR 2 w (by omega) hw
        · exact hR 3 w (by omega) hw
        · exact (hR 4 w (by omega) hw).ge (by simp [TgState.cf, hc]) (by simp [TgState.cf])
        · exact (hR 5 w (by omega) hw).ge (by simp [TgState.cf, hc']) (by simp [TgState.cf])
      · intro h hh hp
        have hcl := consumed_l hcon hh
        constructor <;> grind [Pair, TgState.k, GI]
      · intro h hp
        have hcr := consumed_r hcon h
        constructor <;> grind [Pair, TgState.k, GI]
    · rename_i hl
      have hG' := gi_complete hG hc hc' hl
      refine core_setTg hi hG' ?_ ?_ ?_ (sch_same rfl rfl) (rch_same rfl rfl)
      · refine forall_lt6 ?_ ?_ ?_ ?_ ?_ ?_ <;> intro w hw
        · exact (hR 0 w (by omega) hw).next (by simp [TgState.cf]; omega)
        · exact (hR 1 w (by omega) hw).next (by simp [TgState.cf]; omega)
        · exact (hR 2 w (by omega) hw).next (by simp [TgState.cf]; omega)
        · exact (hR 3 w (by omega) hw).next (by simp [TgState.cf]; omega)
        · exact (hR 4 w (by omega) hw).next (by simp [TgState.cf]; omega)
        · exact (hR 5 w (by omega) hw).next (by simp [TgState.cf]; omega)
      · intro h hh hp
        have hcl := consumed_l hcon hh
        constructor <;> grind [Pair, TgState.k, GI]
      · intro h hp
        have hcr := consumed_r hcon h
        constructor <;> grind [Pair, TgState.k, GI]
  · exact hi

theorem core_initCf {p : Params} (wf : p.WF) {s : State} {g : Nat} (hi : Core p s) (hg : g < p.nTgs) :
    Core p (exec1 p s (.initCf g)) := by
  simp only [exec1]
  split
  · rename_i hc
    have hu : Uninit p s g := by
      rcases hi.grp g hg with h | h
      · exact h
      · have := h.1.v0; rw [hc] at this; simp [umax] at this
    have ht := hu.1
    have hG' := gi_init (wf.one g hg)
    refine core_upd hi (fun _ => rfl) (fun _ _ _ _ => rfl) rfl rfl hi.noabort (fun _ _ h => h) (fun _ _ _ _ => Iff.rfl)
      (by rw [ht, hG'.k_eq]; exact hG') ?_ ?_ ?_ ?_ ?_
    · intro r w hr hw
      have := hu.2 r w hr hw
      have h0 : ((s.setTg g { s.tg g with c0 := 0, c1 := 0, c2 := 0, c3 := 0, c4 := 0, c5 := 0, c6 := 2, c7 := 1 }).tg g).k = 0 := by
        rw [ht]; simp [State.setTg, TgState.k, TgState.reset]
      rw [ht, hG'.k_eq, this.2]
      show RI _ _ (s.st g r w) _
      rw [this.1]
      revert r
      refine forall_lt6 ?_ ?_ ?_ ?_ ?_ ?_ <;> intro _ <;> exact ⟨fun _ => ⟨rfl, Or.inr rfl⟩, by simp [TgState.cf], by simp [TgState.cf]⟩
    · intro h _ hp
      rw [ht] at hp ⊢
      constructor <;> grind [Pair, TgState.k, TgState.reset]
    · intro h hp
      rw [ht] at hp ⊢
      constructor <;> grind [Pair, TgState.k, TgState.reset]
    · intro ch h1 h2
      have hs := hi.sch ch h1 h2
      by_cases hh : p.tgL ch = g
      · subst hh
        have hnp : s.sPend ch = false := by
          cases hp : s.sPend ch
          · rfl
          · have h4 := (hs.c hp).1
            rw [ht] at h4; simp [TgState.reset, umax] at h4
        refine ⟨?_, ?_, ?_⟩
        · simp [State.setTg, State.beginRecvs, hnp]
        · simp [State.setTg, State.beginRecvs, hnp]
        · have := hs.n
          rw [ht] at this ⊢
          simp only [State.setTg, State.beginRecvs, if_pos, TgState.sRounds, TgState.reset, umax] at this ⊢
          simpa using this
      · exact sch_frame (s := s) (g := g) (fun _ => rfl) rfl rfl rfl (fun h => absurd h hh) hs
    · intro ch h1 h2
      exact rch_begin (by rw [ht]; simp [TgState.reset, umax]) (by rfl) (by rfl) ch h1 (hi.rch ch h1 h2)
  · exact hi

end Edge.Sched
