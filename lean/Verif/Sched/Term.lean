import Verif.Sched.Live
/-! Termination: a state in which nothing can happen is a finished one. -/
namespace Edge.Sched

/-- Nothing can happen: no guard is true, no package is ready or in progress, all tests have been successful. -/
structure Stuck (p : Params) (s : State) : Prop where
  en : ∀ i g, i.grp = some g → g < p.nTgs → ¬ Enabled p s i
  st : ∀ g r w, g < p.nTgs → r < 6 → w < p.nWrk → s.st g r w ≠ .RDY ∧ s.st g r w ≠ .IPR
  sT : ∀ ch, ch < p.nCh → s.sTest ch = true
  rT : ∀ ch, ch < p.nCh → s.rTest ch = true

theorem stuck_group {p : Params} {s : State} (hi : Core p s) (hs : Stuck p s) {g : Nat} (hg : g < p.nTgs) :
    GI (p.N g) (s.tg g).k (s.tg g) ∧ 4 ≤ (s.tg g).c0 ∧ 4 ≤ (s.tg g).c1 ∧ (s.tg g).c6 = 2 ∧
    ((s.tg g).c4 = 4 ∨ (((s.tg g).c4 = 0 ∨ (s.tg g).c5 = 0) ∧ s.available p g = false) ∨
      ((s.tg g).c4 = 2 ∧ (s.tg g).c5 = 3 ∧ s.consumed p g = false)) := by
  have hen := fun i (h : i.grp = some g) => hs.en i g h hg
  rcases hi.grp g hg with hu | ⟨hG, hR⟩
  · exact absurd (by simp only [Enabled]; rw [hu.1]; rfl) (hen (.initCf g) rfl)
  have fin : ∀ r, r < 6 → (s.tg g).cf r = 1 → s.allFin p g r = true := by
    intro r hr6 hc
    rw [allFin_iff]
    intro w hw
    have := hs.st g r w hg hr6 hw
    rcases (hR r w hr6 hw).b hc with h | h
    · rcases h.2 with h | h
      · exact absurd h this.1
      · exact absurd h this.2
    · exact h.2
  have n0 : (s.tg g).c0 ≠ 1 := fun h => hen (.finLocIn g) rfl ⟨h, fin 0 (by decide) h⟩
  have n1 : (s.tg g).c1 ≠ 1 := fun h => hen (.finLocSe g) rfl ⟨h, fin 1 (by decide) h⟩
  have n2 : (s.tg g).c2 ≠ 1 := fun h => hen (.finSrcIn g) rfl ⟨h, fin 2 (by decide) h⟩
  have n3 : (s.tg g).c3 ≠ 1 := fun h => hen (.finSrcSe g) rfl ⟨h, fin 3 (by decide) h⟩
  have n4 : (s.tg g).c4 ≠ 1 := fun h => hen (.finNeIn g) rfl ⟨h, fin 4 (by decide) h⟩
  have n5 : (s.tg g).c5 ≠ 1 := fun h => hen (.finNeSe g) rfl ⟨h, fin 5 (by decide) h⟩
  have n6 : (s.tg g).c6 ≠ 1 := fun h => hen (.finSend g) rfl
    ⟨h, by rw [finSends_iff]; intro ch hc _; exact hs.sT ch hc⟩
  have n7 : (s.tg g).c7 ≠ 1 := fun h => hen (.finRecv g) rfl
    ⟨h, by rw [finRecvs_iff]; intro ch hc _; exact hs.rT ch hc⟩
  have e1 := hen (.locSe g) rfl
  have e2 := hen (.locIn g) rfl
  have e3 := hen (.send g) rfl
  have e4 := hen (.srcSe g) rfl
  have e5 := hen (.srcIn g) rfl
  have e6 := hen (.neSe g) rfl
  have e7 := hen (.neIn g) rfl
  have e8 := hen (.recv g) rfl
  have e9 := hen (.complete g) rfl
  simp only [Enabled] at e1 e2 e3 e4 e5 e6 e7 e8 e9
  refine ⟨hG, ?_⟩
  obtain ⟨lt,d1,d2,v0,v1,v2,v3,v4,v5,r2,r3,r4,r5,x4,x5,pI,pS,uI,uS,s6,sN,r7,rN⟩ := hG
  clear fin hen hR hs hi
  generalize s.tg g = t at *
  generalize s.available p g = av at *
  generalize s.consumed p g = co at *
  have a1 : 4 ≤ t.c1 := by grind
  have a0 : 4 ≤ t.c0 := by grind
  have a6 : t.c6 = 2 := by grind
  refine ⟨a0, a1, a6, ?_⟩
  have n5' : t.c5 ≠ 2 := by grind
  have q4 : t.c4 = 0 → av = false := by grind
  have q5 : t.c5 = 0 → av = false := by grind
  grind

/-- Potential of a group: the end of its current step (in units of the smallest time step), then whether the step waits for its consumers. -/
def pot (s : State) (g : Nat) : Nat :=
  2 * (2 ^ g * ((s.tg g).k + 1)) + (if (s.tg g).c4 ≠ 0 ∧ (s.tg g).c5 ≠ 0 then 1 else 0)

theorem pot_lt_of {s : State} {g h : Nat} (hlt : 2 ^ h * ((s.tg h).k + 1) < 2 ^ g * ((s.tg g).k + 1)) :
    pot s h < pot s g := by
  unfold pot
  split <;> split <;> omega

theorem pot_lt_of_eq {s : State} {g h : Nat} (hle : 2 ^ h * ((s.tg h).k + 1) ≤ 2 ^ g * ((s.tg g).k + 1))
    (h1 : (s.tg h).c4 = 0 ∨ (s.tg h).c5 = 0) (h2 : (s.tg g).c4 ≠ 0 ∧ (s.tg g).c5 ≠ 0) : pot s h < pot s g := by
  unfold pot
  rw [if_pos h2, if_neg (by omega)]
  omega

/-- Every unfinished group of a stuck state waits for an unfinished group with smaller potential. -/
theorem stuck_waits {p : Params} (wf : p.WF) {s : State} (hi : Core p s) (hs : Stuck p s) {g : Nat} (hg : g < p.nTgs)
    (hn : (s.tg g).c4 ≠ 4) : ∃ h, h < p.nTgs ∧ (s.tg h).c4 ≠ 4 ∧ pot s h < pot s g := by
  obtain ⟨hG, a0, a1, a6, hcase⟩ := stuck_group hi hs hg
  have tp : (s.tg g).tpI = (s.tg g).k + 1 ∧ (s.tg g).tpS = (s.tg g).k + 1 :=
    ⟨hG.pI.2 (by omega), hG.pS.2 (by omega)⟩
  have hts := (hG.d2 hn).2
  have hlt := hG.lt
  -- facts on an adjacent group
  have adj : ∀ h, h < p.nTgs → (s.tg h).tpI = (s.tg h).k + 1 ∧ (s.tg h).tpS = (s.tg h).k + 1 ∧
      ((s.tg h).c4 = 4 → (s.tg h).k + 1 = p.N h ∧ (s.tg h).duI = p.N h ∧ (s.tg h).duS = p.N h ∧ (s.tg h).ts = p.N h) ∧
      ((s.tg h).c4 ≠ 4 → (s.tg h).ts = (s.tg h).k) ∧ (s.tg h).k < p.N h ∧
      ((s.tg h).duI = (s.tg h).k ∨ (s.tg h).duI = (s.tg h).k + 1) ∧
      ((s.tg h).duS = (s.tg h).k ∨ (s.tg h).duS = (s.tg h).k + 1) ∧
      ((s.tg h).duI = (s.tg h).k → (s.tg h).c4 = 0) ∧
      ((s.tg h).duS = (s.tg h).k → (s.tg h).c5 = 0) ∧
      ((s.tg h).c4 = 0 → (s.tg h).duI = (s.tg h).k) ∧
      ((s.tg h).c5 = 0 → (s.tg h).duS = (s.tg h).k) := by
    intro h hh
    obtain ⟨hH, b0, b1, _, hc⟩ := stuck_group hi hs hh
    have hfin : ∀ i, i.grp = some h → ¬ Enabled p s i := fun i hi' => hs.en i h hi' hh
    have hst := hs.st h
    have n4 : (s.tg h).c4 = 0 ∨ 2 ≤ (s.tg h).c4 := by
      rcases Nat.lt_or_ge (s.tg h).c4 2 with hx | hx
      · left
        apply Classical.byContradiction
        intro hne
        have h1 : (s.tg h).c4 = 1 := by omega
        apply hfin (.finNeIn h) rfl
        refine ⟨h1, ?_⟩
        rw [allFin_iff]
        intro w hw
        rcases hi.grp h hh with hu | ⟨_, hR⟩
        · rw [hu.1] at h1; simp [TgState.reset, umax] at h1
        · have := hst 4 w hh (by decide) hw
          rcases (hR 4 w (by decide) hw).b h1 with h | h
          · rcases h.2 with h | h
            · exact absurd h this.1
            · exact absurd h this.2
          · exact h.2
      · right; exact hx
    have n5 : (s.tg h).c5 = 0 ∨ 2 ≤ (s.tg h).c5 := by
      rcases Nat.lt_or_ge (s.tg h).c5 2 with hx | hx
      · left
        apply Classical.byContradiction
        intro hne
        have h1 : (s.tg h).c5 = 1 := by omega
        apply hfin (.finNeSe h) rfl
        refine ⟨h1, ?_⟩
        rw [allFin_iff]
        intro w hw
        rcases hi.grp h hh with hu | ⟨_, hR⟩
        · rw [hu.1] at h1; simp [TgState.reset, umax] at h1
        · have := hst 5 w hh (by decide) hw
          rcases (hR 5 w (by decide) hw).b h1 with h | h
          · rcases h.2 with h | h
            · exact absurd h this.1
            · exact absurd h this.2
          · exact h.2
      · right; exact hx
    have p1 := hH.pI.2 (by omega)
    have p2 := hH.pS.2 (by omega)
    have u := hH.uI; have v := hH.uS; have d1 := hH.d1; have d2 := hH.d2; have l := hH.lt
    refine ⟨p1, p2, fun h4 => ?_, fun h4 => (d2 h4).2, l, by omega, by omega, by omega, by omega, by omega, by omega⟩
    have := d1 h4; omega
  have pow : ∀ n, 2 ^ (n + 1) = 2 * 2 ^ n := fun n => by rw [Nat.pow_succ]; omega
  have pos : ∀ n, 0 < 2 ^ n := fun n => Nat.pow_pos (by decide)
  -- comparison of potentials of adjacent groups
  have cmpF : ∀ f, f + 1 = g → (s.tg f).k + 1 < 2 * ((s.tg g).k + 1) → pot s f < pot s g := by
    rintro f rfl h
    apply pot_lt_of
    rw [pow f, Nat.mul_comm 2, Nat.mul_assoc]
    exact Nat.mul_lt_mul_of_pos_left h (pos f)
  have cmpFe : ∀ f, f + 1 = g → (s.tg f).k + 1 ≤ 2 * ((s.tg g).k + 1) → ((s.tg f).c4 = 0 ∨ (s.tg f).c5 = 0) →
      ((s.tg g).c4 ≠ 0 ∧ (s.tg g).c5 ≠ 0) → pot s f < pot s g := by
    rintro f rfl h h1 h2
    refine pot_lt_of_eq ?_ h1 h2
    rw [pow f, Nat.mul_comm 2, Nat.mul_assoc]
    exact Nat.mul_le_mul_left _ h
  have cmpS : 2 * ((s.tg (g+1)).k + 1) < (s.tg g).k + 1 → pot s (g+1) < pot s g := by
    intro h
    apply pot_lt_of
    rw [pow g, Nat.mul_comm 2, Nat.mul_assoc]
    exact Nat.mul_lt_mul_of_pos_left h (pos g)
  have cmpSe : 2 * ((s.tg (g+1)).k + 1) ≤ (s.tg g).k + 1 → ((s.tg (g+1)).c4 = 0 ∨ (s.tg (g+1)).c5 = 0) →
      ((s.tg g).c4 ≠ 0 ∧ (s.tg g).c5 ≠ 0) → pot s (g+1) < pot s g := by
    intro h h1 h2
    refine pot_lt_of_eq ?_ h1 h2
    rw [pow g, Nat.mul_comm 2, Nat.mul_assoc]
    exact Nat.mul_le_mul_left _ h
  have hself := adj g hg
  rcases hcase with h4 | ⟨h0, hav⟩ | ⟨c4, c5, hco⟩
  · exact absurd h4 hn
  · -- waits for predictions
    simp only [State.available, Bool.and_eq_false_iff, Bool.or_eq_false_iff, beq_eq_false_iff_ne,
      decide_eq_false_iff_not] at hav
    rcases hav with ⟨hg0, hA⟩ | ⟨hgn, hB⟩
    · -- faster group lags
      obtain ⟨f, hf⟩ : ∃ f, f + 1 = g := ⟨g - 1, by omega⟩
      have hfg : g - 1 = f := by omega
      rw [hfg] at hA
      have hfn : f < p.nTgs := by omega
      have hp := hi.pair f (by omega)
      rw [hf] at hp
      have h2 := wf.two f (by omega)
      rw [hf] at h2
      obtain ⟨q1, q2, q3, q4, q5, q6, q7, q8, q9, q10, q11⟩ := adj f hfn
      obtain ⟨r1, r2, r3, r4, r5, r6, r7, r8, r9, r10, r11⟩ := hself
      have ii := hp.ii
      have hts' : (s.tg f).k ≤ (s.tg f).ts := by unfold TgState.k; split <;> omega
      have hle : (s.tg f).k + 1 < 2 * ((s.tg g).k + 1) := by
        rcases h0 with h | h
        · have := r10 h; omega
        · have := r11 h; omega
      refine ⟨f, hfn, ?_, cmpF f hf hle⟩
      intro h4; have := q3 h4; omega
    · -- slower group lags
      have hgn' : g + 1 < p.nTgs := by omega
      have h2 := wf.two g hgn'
      obtain ⟨q1, q2, q3, q4, q5, q6, q7, q8, q9, q10, q11⟩ := adj (g+1) hgn'
      have hle : 2 * ((s.tg (g+1)).k + 1) < (s.tg g).k + 1 := by omega
      refine ⟨g + 1, hgn', ?_, cmpS hle⟩
      intro h4; have := q3 h4; omega
  · -- waits for consumers
    simp only [State.consumed, Bool.and_eq_false_iff, Bool.or_eq_false_iff, beq_eq_false_iff_ne] at hco
    have hne : (s.tg g).c4 ≠ 0 ∧ (s.tg g).c5 ≠ 0 := by omega
    obtain ⟨r1, r2, r3, r4, r5, r6, r7, r8, r9, r10, r11⟩ := hself
    rcases hco with ⟨hg0, hA⟩ | ⟨⟨hgn, hodd⟩, hB⟩
    · obtain ⟨f, hf⟩ : ∃ f, f + 1 = g := ⟨g - 1, by omega⟩
      have hfg : g - 1 = f := by omega
      rw [hfg] at hA
      have hfn : f < p.nTgs := by omega
      have hp := hi.pair f (by omega)
      rw [hf] at hp
      have h2 := wf.two f (by omega)
      rw [hf] at h2
      obtain ⟨q1, q2, q3, q4, q5, q6, q7, q8, q9, q10, q11⟩ := adj f hfn
      have i' := hp.i'
      have hnd : (s.tg f).c4 ≠ 4 := by
        intro h4; have := q3 h4; omega
      refine ⟨f, hfn, hnd, ?_⟩
      rcases Nat.lt_or_ge ((s.tg f).k + 1) (2 * ((s.tg g).k + 1)) with hl | hl
      · exact cmpF f hf hl
      · refine cmpFe f hf (by omega) (by omega) hne
    · have hgn' : g + 1 < p.nTgs := by omega
      have h2 := wf.two g hgn'
      obtain ⟨q1, q2, q3, q4, q5, q6, q7, q8, q9, q10, q11⟩ := adj (g+1) hgn'
      have hp := hi.pair g hgn'
      have ii := hp.ii; have iii := hp.iii
      have iv : (s.tg (g+1)).c4 ≠ 0 ∨ (s.tg (g+1)).c5 ≠ 0 → 2 * ((s.tg (g+1)).k + 1) ≤ (s.tg g).k + 1 := by
        intro h
        obtain ⟨hH, _⟩ := stuck_group hi hs hgn'
        have := hH.v4; have := hH.v5
        have := hp.iv (by omega)
        omega
      have hnd : (s.tg (g+1)).c4 ≠ 4 := by
        intro h4; have := q3 h4; omega
      refine ⟨g + 1, hgn', hnd, ?_⟩
      rcases Nat.lt_or_ge (2 * ((s.tg (g+1)).k + 1)) ((s.tg g).k + 1) with hl | hl
      · exact cmpS hl
      · refine cmpSe ?_ ?_ hne
        · omega
        · omega

/-- A stuck state is finished. -/
theorem stuck_done {p : Params} (wf : p.WF) {s : State} (hi : Core p s) (hs : Stuck p s) {g : Nat} (hg : g < p.nTgs) :
    FinG p s g := by
  have h4 : (s.tg g).c4 = 4 := by
    suffices h : ∀ n g, pot s g ≤ n → g < p.nTgs → (s.tg g).c4 = 4 from h _ g (Nat.le_refl _) hg
    intro n
    induction n with
    | zero =>
      intro g hp hg
      apply Classical.byContradiction
      intro hn
      obtain ⟨h, _, _, hlt⟩ := stuck_waits wf hi hs hg hn
      omega
    | succ n ih =>
      intro g hp hg
      apply Classical.byContradiction
      intro hn
      obtain ⟨h, hh, hnd, hlt⟩ := stuck_waits wf hi hs hg hn
      exact hnd (ih h (by omega) hh)
  obtain ⟨hG, a0, a1, a6, _⟩ := stuck_group hi hs hg
  have := hG.d1 h4; have := hG.r7
  exact ⟨by omega, by omega, by omega⟩

end Edge.Sched
