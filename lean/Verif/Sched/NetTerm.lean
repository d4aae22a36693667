import Verif.Sched.Net
/-! No distributed run gets stuck (lemmas for C84). -/
namespace Edge.Sched

/-- Nothing can happen on a rank without an answer of the message layer: no guard is true, no package is ready or in progress. -/
structure Frozen (p : Params) (s : State) : Prop where
  en : ∀ i g, i.grp = some g → g < p.nTgs → ¬ Enabled p s i
  st : ∀ g r w, g < p.nTgs → r < 6 → w < p.nWrk → s.st g r w ≠ .RDY ∧ s.st g r w ≠ .IPR

/-- Entries of a group of a frozen rank. -/
structure FzG (p : Params) (s : State) (g : Nat) : Prop where
  gi : GI (p.N g) (s.tg g).k (s.tg g)
  c0 : 4 ≤ (s.tg g).c0
  c1 : ((s.tg g).c1 = 0 ∧ (s.tg g).c6 = 1) ∨ 4 ≤ (s.tg g).c1
  c4 : (s.tg g).c4 = 0 ∨ 2 ≤ (s.tg g).c4
  c5 : (s.tg g).c5 = 0 ∨ 2 ≤ (s.tg g).c5

theorem fz_0 {c : Nat} (h : c ≠ 1) : c = 0 ∨ 2 ≤ c := by omega
theorem fz_c1 {c1 c3 c6 : Nat} (n1 : c1 ≠ 1) (e1 : ¬(c1 = 0 ∧ c6 = 2)) (e3 : ¬(c1 = 2 ∧ c6 = 0)) (e4 : ¬(c1 = 3 ∧ c3 = 0))
    (r3 : c3 = 0 ↔ c1 < 4) (s6 : c6 ≤ 2 ∧ (c6 = 0 ↔ (c1 = 1 ∨ c1 = 2))) : (c1 = 0 ∧ c6 = 1) ∨ 4 ≤ c1 := by omega
theorem fz_c0 {c0 c2 : Nat} (n0 : c0 ≠ 1) (e2 : ¬c0 = 0) (e5 : ¬(c0 = 2 ∧ c2 = 0)) (r2 : c2 = 0 ↔ c0 < 4) (v0 : c0 ≤ 5 ∧ c0 ≠ 3) :
    4 ≤ c0 := by omega
theorem fz_c5 {c5 c7 : Nat} (e8 : ¬(c5 = 2 ∧ c7 = 0)) (r7 : c7 = 0 ↔ (c5 = 1 ∨ c5 = 2)) : c5 ≠ 2 := by omega
theorem fz_45 {c4 c5 : Nat} (n4 : c4 ≠ 1) (n5 : c5 ≠ 1) (n5' : c5 ≠ 2) (v4 : c4 ≤ 4 ∧ c4 ≠ 3) (v5 : c5 ≤ 4) (h4 : c4 ≠ 4)
    (d2 : c5 ≠ 4) (q4 : c4 ≠ 0) (q5 : c5 ≠ 0) : c4 = 2 ∧ c5 = 3 := by omega
theorem fz_c2 {c0 c2 c4 : Nat} (a0 : 4 ≤ c0) (n2 : c2 ≠ 1) (v2 : c2 ≤ 3) (r2 : c2 = 0 ↔ c0 < 4) (r4 : (1 ≤ c4 ↔ c0 = 5) ∧ (c2 = 3 ↔ c0 = 5))
    (h : c4 = 0) : c2 = 2 := by omega
theorem fz_c7 {c5 c7 N k : Nat} (h7 : ¬(c5 = 0 ∧ c7 = 1)) (h : c5 = 0)
    (r7 : c7 ≤ 3 ∧ (c7 = 0 ↔ (c5 = 1 ∨ c5 = 2)) ∧ (c7 = 3 ↔ (3 ≤ c5 ∧ k + 1 = N))) : c7 = 2 := by omega

/-- What a group of a frozen rank waits for. -/
theorem frozen_group {p : Params} {s : State} (hi : Core p s) (hs : Frozen p s) {g : Nat} (hg : g < p.nTgs) :
    FzG p s g ∧
    ((s.tg g).c6 = 1 → ∃ ch, ch < p.nCh ∧ p.tgL ch = g ∧ p.isMatch ch ((s.tg g).nS % 2 == 1) g = true ∧ s.sTest ch = false) ∧
    ((s.tg g).c4 = 4 ∨ ((s.tg g).c1 = 0 ∧ (s.tg g).c6 = 1) ∨
      (4 ≤ (s.tg g).c1 ∧ (s.tg g).c5 = 0 ∧ (s.tg g).c7 = 1 ∧ ∃ ch, ch < p.nCh ∧ p.tgL ch = g ∧ s.rTest ch = false) ∨
      (4 ≤ (s.tg g).c1 ∧ ((s.tg g).c4 = 0 ∨ (s.tg g).c5 = 0) ∧ s.available p g = false) ∨
      ((s.tg g).c4 = 2 ∧ (s.tg g).c5 = 3 ∧ s.consumed p g = false)) := by
  have hen := fun i (h : i.grp = some g) => hs.en i g h hg
  rcases hi.grp g hg with hu | ⟨hG, hR⟩
  · exact absurd (by simp only [Enabled]; rw [hu.1]; rfl) (hen (.initCf g) rfl)
  have fin : ∀ r, r < 6 → (s.tg g).cf r = 1 → s.allFin p g r = true := by
    intro r hr6 hc
    rw [allFin_iff]
    intro w hw
    have := hs.st g r w hg hr6 hw
    rcases (hR r w hr6 hw).b hc with h | h
    · rcases h.2 with h | h
      · exact absurd h this.1
      · exact absurd h this.2
    · exact h.2
  have n0 : (s.tg g).c0 ≠ 1 := fun h => hen (.finLocIn g) rfl ⟨h, fin 0 (by decide) h⟩
  have n1 : (s.tg g).c1 ≠ 1 := fun h => hen (.finLocSe g) rfl ⟨h, fin 1 (by decide) h⟩
  have n2 : (s.tg g).c2 ≠ 1 := fun h => hen (.finSrcIn g) rfl ⟨h, fin 2 (by decide) h⟩
  have n3 : (s.tg g).c3 ≠ 1 := fun h => hen (.finSrcSe g) rfl ⟨h, fin 3 (by decide) h⟩
  have n4 : (s.tg g).c4 ≠ 1 := fun h => hen (.finNeIn g) rfl ⟨h, fin 4 (by decide) h⟩
  have n5 : (s.tg g).c5 ≠ 1 := fun h => hen (.finNeSe g) rfl ⟨h, fin 5 (by decide) h⟩
  have n6 : (s.tg g).c6 = 1 → ∃ ch, ch < p.nCh ∧ p.tgL ch = g ∧ p.isMatch ch ((s.tg g).nS % 2 == 1) g = true ∧ s.sTest ch = false := by
    intro h
    apply Classical.byContradiction
    intro hne
    refine hen (.finSend g) rfl ⟨h, ?_⟩
    rw [finSends_iff]
    intro ch hc hm
    cases ht : s.sTest ch with
    | true => rfl
    | false => exact absurd ⟨ch, hc, isMatch_tg hm, hm, ht⟩ hne
  have n7 : (s.tg g).c7 = 1 → ∃ ch, ch < p.nCh ∧ p.tgL ch = g ∧ s.rTest ch = false := by
    intro h
    apply Classical.byContradiction
    intro hne
    refine hen (.finRecv g) rfl ⟨h, ?_⟩
    rw [finRecvs_iff]
    intro ch hc hm
    cases ht : s.rTest ch with
    | true => rfl
    | false => exact absurd ⟨ch, hc, isMatch_tg hm, ht⟩ hne
  have e1 := hen (.locSe g) rfl
  have e2 := hen (.locIn g) rfl
  have e3 := hen (.send g) rfl
  have e4 := hen (.srcSe g) rfl
  have e5 := hen (.srcIn g) rfl
  have e6 := hen (.neSe g) rfl
  have e7 := hen (.neIn g) rfl
  have e8 := hen (.recv g) rfl
  have e9 := hen (.complete g) rfl
  simp only [Enabled] at e1 e2 e3 e4 e5 e6 e7 e8 e9
  have hG' := hG
  obtain ⟨lt,d1,d2,v0,v1,v2,v3,v4,v5,r2,r3,r4,r5,x4,x5,pI,pS,uI,uS,s6,sN,r7,rN⟩ := hG
  have a1 := fz_c1 n1 e1 e3 e4 r3 s6
  have a0 := fz_c0 n0 e2 e5 r2 v0
  have n5' := fz_c5 e8 r7.2.1
  refine ⟨⟨hG', a0, a1, fz_0 n4, fz_0 n5⟩, n6, ?_⟩
  rcases a1 with a1 | a1
  · exact Or.inr (Or.inl a1)
  by_cases h4 : (s.tg g).c4 = 4
  · exact Or.inl h4
  by_cases h7 : (s.tg g).c5 = 0 ∧ (s.tg g).c7 = 1
  · exact Or.inr (Or.inr (Or.inl ⟨a1, h7.1, h7.2, n7 h7.2⟩))
  right; right; right
  by_cases h0 : (s.tg g).c4 = 0 ∨ (s.tg g).c5 = 0
  · left
    refine ⟨a1, h0, ?_⟩
    cases hav : s.available p g with
    | false => rfl
    | true =>
      exfalso
      rcases h0 with h | h
      · exact e7 ⟨a0, a1, fz_c2 a0 n2 v2 r2 r4 h, h, hav⟩
      · exact e6 ⟨fz_c7 h7 h r7, a0, a1, fz_c2 a1 n3 v3 r3 r5 h, h, hav⟩
  · right
    have h2 := fz_45 n4 n5 n5' v4 v5 h4 (d2 h4).1 (fun h => h0 (Or.inl h)) (fun h => h0 (Or.inr h))
    refine ⟨h2.1, h2.2, ?_⟩
    cases hco : s.consumed p g with
    | false => rfl
    | true => exact absurd ⟨h2.1, h2.2, hco⟩ e9

/-- Potential: how far the send elements of a group have been predicted (in units of the smallest time step), then whether the step waits for its
consumers. -/
def npot (s : State) (g : Nat) : Nat :=
  2 * (2 ^ g * (s.tg g).tpS) + (if (s.tg g).c4 ≠ 0 ∧ (s.tg g).c5 ≠ 0 then 1 else 0)

theorem npot_lt {s t : State} {g h : Nat} (hlt : 2 ^ h * (t.tg h).tpS < 2 ^ g * (s.tg g).tpS) : npot t h < npot s g := by
  unfold npot
  split <;> split <;> omega

theorem npot_lt_eq {s : State} {g h : Nat} (hle : 2 ^ h * (s.tg h).tpS ≤ 2 ^ g * (s.tg g).tpS)
    (h1 : (s.tg h).c4 = 0 ∨ (s.tg h).c5 = 0) (h2 : (s.tg g).c4 ≠ 0 ∧ (s.tg g).c5 ≠ 0) : npot s h < npot s g := by
  unfold npot
  rw [if_pos h2, if_neg (by omega)]
  omega

theorem two_pow_succ' (n : Nat) : 2 ^ (n + 1) = 2 * 2 ^ n := by rw [Nat.pow_succ]; omega

theorem scale_f {f a b : Nat} (h : a < 2 * b) : 2 ^ f * a < 2 ^ (f + 1) * b := by
  rw [two_pow_succ', Nat.mul_comm 2, Nat.mul_assoc]
  exact Nat.mul_lt_mul_of_pos_left h (Nat.pow_pos (by decide))
theorem scale_f' {f a b : Nat} (h : a ≤ 2 * b) : 2 ^ f * a ≤ 2 ^ (f + 1) * b := by
  rw [two_pow_succ', Nat.mul_comm 2, Nat.mul_assoc]
  exact Nat.mul_le_mul_left _ h
theorem scale_s {g a b : Nat} (h : 2 * a < b) : 2 ^ (g + 1) * a < 2 ^ g * b := by
  rw [two_pow_succ', Nat.mul_comm 2, Nat.mul_assoc]
  exact Nat.mul_lt_mul_of_pos_left h (Nat.pow_pos (by decide))
theorem scale_s' {g a b : Nat} (h : 2 * a ≤ b) : 2 ^ (g + 1) * a ≤ 2 ^ g * b := by
  rw [two_pow_succ', Nat.mul_comm 2, Nat.mul_assoc]
  exact Nat.mul_le_mul_left _ h

/-- Consequences of `FzG` in terms of the counters. -/
theorem FzG.facts {p : Params} {s : State} {h : Nat} (hz : FzG p s h) :
    (s.tg h).tpI = (s.tg h).k + 1 ∧
    (((s.tg h).c1 = 0 ∧ (s.tg h).tpS = (s.tg h).k ∧ (s.tg h).c4 = 0 ∧ (s.tg h).c5 = 0) ∨
      (4 ≤ (s.tg h).c1 ∧ (s.tg h).tpS = (s.tg h).k + 1)) ∧
    ((s.tg h).c4 = 4 → (s.tg h).k + 1 = p.N h ∧ (s.tg h).duI = p.N h ∧ (s.tg h).duS = p.N h ∧ (s.tg h).ts = p.N h ∧ (s.tg h).tpS = p.N h) ∧
    ((s.tg h).c4 ≠ 4 → (s.tg h).ts = (s.tg h).k) ∧ (s.tg h).k < p.N h ∧
    ((s.tg h).duI = (s.tg h).k ∨ (s.tg h).duI = (s.tg h).k + 1) ∧
    ((s.tg h).duS = (s.tg h).k ∨ (s.tg h).duS = (s.tg h).k + 1) ∧
    ((s.tg h).duI = (s.tg h).k → (s.tg h).c4 = 0) ∧
    ((s.tg h).duS = (s.tg h).k → (s.tg h).c5 = 0) ∧
    ((s.tg h).c4 = 0 → (s.tg h).duI = (s.tg h).k) ∧
    ((s.tg h).c5 = 0 → (s.tg h).duS = (s.tg h).k) := by
  obtain ⟨hG, a0, a1, a4, a5⟩ := hz
  have p1 := hG.pI; have p2 := hG.pS; have u := hG.uI; have v := hG.uS; have d1 := hG.d1; have d2 := hG.d2; have l := hG.lt
  have x4 := hG.x4; have r5 := hG.r5
  refine ⟨by omega, by omega, fun h4 => ?_, fun h4 => (d2 h4).2, l, by omega, by omega, by omega, by omega, by omega, by omega⟩
  have := d1 h4; omega

/-- A group that waits for another group of its rank waits for an unfinished one with smaller potential. -/
theorem frozen_waits {p : Params} (wf : p.WF) {s : State} (hi : Core p s) (hs : Frozen p s) {g : Nat} (hg : g < p.nTgs)
    (hn : (s.tg g).c4 ≠ 4)
    (hcase : (4 ≤ (s.tg g).c1 ∧ ((s.tg g).c4 = 0 ∨ (s.tg g).c5 = 0) ∧ s.available p g = false) ∨
      ((s.tg g).c4 = 2 ∧ (s.tg g).c5 = 3 ∧ s.consumed p g = false)) :
    ∃ h, h < p.nTgs ∧ (s.tg h).c4 ≠ 4 ∧ npot s h < npot s g := by
  have adj := fun h hh => (frozen_group hi hs (g := h) hh).1.facts
  have hgi := (frozen_group hi hs hg).1
  obtain ⟨r1, rP, r3, r4, r5, r6, r7, r8, r9, r10, r11⟩ := adj g hg
  have hts := r4 hn
  rcases hcase with ⟨h1, h0, hav⟩ | ⟨c4, c5, hco⟩
  · have r2 : (s.tg g).tpS = (s.tg g).k + 1 := by omega
    simp only [State.available, Bool.and_eq_false_iff, Bool.or_eq_false_iff, beq_eq_false_iff_ne,
      decide_eq_false_iff_not] at hav
    rcases hav with ⟨hg0, hA⟩ | ⟨hgn, hB⟩
    · obtain ⟨f, rfl⟩ : ∃ f, g = f + 1 := ⟨g - 1, by omega⟩
      rw [Nat.add_sub_cancel] at hA
      have hfn : f < p.nTgs := by omega
      have hp := hi.pair f hg
      have h2 := wf.two f hg
      obtain ⟨q1, qP, q3, q4, q5, q6, q7, q8, q9, q10, q11⟩ := adj f hfn
      have ii := hp.ii
      have hts' : (s.tg f).k ≤ (s.tg f).ts := by unfold TgState.k; split <;> omega
      have hle : (s.tg f).tpS < 2 * (s.tg (f+1)).tpS := by
        rcases h0 with h | h
        · have := r10 h; omega
        · have := r11 h; omega
      refine ⟨f, hfn, ?_, npot_lt (scale_f hle)⟩
      intro h4; have := q3 h4; omega
    · have hgn' : g + 1 < p.nTgs := by omega
      have h2 := wf.two g hgn'
      obtain ⟨q1, qP, q3, q4, q5, q6, q7, q8, q9, q10, q11⟩ := adj (g+1) hgn'
      have hle : 2 * (s.tg (g+1)).tpS < (s.tg g).tpS := by omega
      refine ⟨g + 1, hgn', ?_, npot_lt (scale_s hle)⟩
      intro h4; have := q3 h4; omega
  · have hne : (s.tg g).c4 ≠ 0 ∧ (s.tg g).c5 ≠ 0 := by omega
    have r2 : (s.tg g).tpS = (s.tg g).k + 1 := by omega
    simp only [State.consumed, Bool.and_eq_false_iff, Bool.or_eq_false_iff, beq_eq_false_iff_ne] at hco
    rcases hco with ⟨hg0, hA⟩ | ⟨⟨hgn, hodd⟩, hB⟩
    · obtain ⟨f, rfl⟩ : ∃ f, g = f + 1 := ⟨g - 1, by omega⟩
      rw [Nat.add_sub_cancel] at hA
      have hfn : f < p.nTgs := by omega
      have hp := hi.pair f hg
      have h2 := wf.two f hg
      obtain ⟨q1, qP, q3, q4, q5, q6, q7, q8, q9, q10, q11⟩ := adj f hfn
      have i' := hp.i'
      have hnd : (s.tg f).c4 ≠ 4 := by
        intro h4; have := q3 h4; omega
      refine ⟨f, hfn, hnd, ?_⟩
      rcases Nat.lt_or_ge (s.tg f).tpS (2 * (s.tg (f+1)).tpS) with hl | hl
      · exact npot_lt (scale_f hl)
      · exact npot_lt_eq (scale_f' (by omega)) (by omega) hne
    · have hgn' : g + 1 < p.nTgs := by omega
      have h2 := wf.two g hgn'
      obtain ⟨q1, qP, q3, q4, q5, q6, q7, q8, q9, q10, q11⟩ := adj (g+1) hgn'
      have hp := hi.pair g hgn'
      have ii := hp.ii; have iii := hp.iii
      have hH := (frozen_group hi hs hgn').1.gi
      have v4 := hH.v4; have v5 := hH.v5
      have iv : (s.tg (g+1)).c4 ≠ 0 ∨ (s.tg (g+1)).c5 ≠ 0 → 2 * ((s.tg (g+1)).k + 1) ≤ (s.tg g).tpI := by
        intro h
        exact (hp.iv (by omega)).1
      have hnd : (s.tg (g+1)).c4 ≠ 4 := by
        intro h4; have := q3 h4; omega
      refine ⟨g + 1, hgn', hnd, ?_⟩
      rcases Nat.lt_or_ge (2 * (s.tg (g+1)).tpS) (s.tg g).tpS with hl | hl
      · exact npot_lt (scale_s hl)
      · exact npot_lt_eq (scale_s' (by omega)) (by omega) hne

/-! ### Rounds of messages -/

theorem GI.rRounds_ge {N k : Nat} {t : TgState} (h : GI N k t) : k + 1 ≤ t.rRounds := by
  have := h.rN; have := h.r7; have := h.v5
  unfold TgState.rRounds
  split <;> omega

theorem GI.sRounds_eq {N k : Nat} {t : TgState} (h : GI N k t) : t.sRounds = if t.c1 < 3 then k else k + 1 := by
  have := h.sN
  unfold TgState.sRounds
  split <;> split <;> omega

/-! ### Every rank becomes quiet -/
section
variable {p : Params} {σ : Nat → State} {a : Nat → Action}

theorem quiet_begun (wf : p.WF) (hx : Exec p σ a) {T i : Nat} (hq : Quiet p σ T) (hi : T ≤ i) :
    (σ (i+1)).sBegun = (σ i).sBegun ∧ (σ (i+1)).rBegun = (σ i).rBegun := by
  cases ha : a i with
  | sched => obtain ⟨l, n, f, e, _⟩ := quiet_sched wf hx hq hi ha; rw [e]; exact ⟨rfl, rfl⟩
  | wrk w =>
    rw [hx.next, ha]; simp only [step]; split
    · unfold stepWrk
      split
      · split
        · exact ⟨rfl, rfl⟩
        · split <;> exact ⟨rfl, rfl⟩
      · exact ⟨rfl, rfl⟩
      · exact ⟨rfl, rfl⟩
    · exact ⟨rfl, rfl⟩
  | testSend ch b => rw [hx.next, ha]; simp only [step, stepTestSend]; split <;> exact ⟨rfl, rfl⟩
  | testRecv ch b => rw [hx.next, ha]; simp only [step, stepTestRecv]; split <;> exact ⟨rfl, rfl⟩

theorem quiet_const (wf : p.WF) (hx : Exec p σ a) {T : Nat} (hq : Quiet p σ T) {i j : Nat} (hi : T ≤ i) (hj : i ≤ j) :
    (σ j).tg = (σ i).tg ∧ (σ j).sBegun = (σ i).sBegun ∧ (σ j).rBegun = (σ i).rBegun := by
  induction hj with
  | refl => exact ⟨rfl, rfl, rfl⟩
  | @step m h ih =>
    have hm : T ≤ m := Nat.le_trans hi h
    have h1 := quiet_tg wf hx hq hm
    have h2 := quiet_begun wf hx hq hm
    rw [h1, h2.1, h2.2]; exact ih

theorem ev_tests_const (wf : p.WF) (hx : Exec p σ a) {T : Nat} (hq : Quiet p σ T) :
    ∃ T', T ≤ T' ∧ ∀ i, T' ≤ i → ∀ ch, ch < p.nCh → (σ (i+1)).sTest ch = (σ i).sTest ch ∧ (σ (i+1)).rTest ch = (σ i).rTest ch := by
  refine fin_eventually p.nCh T (fun ch i => (σ (i+1)).sTest ch = (σ i).sTest ch ∧ (σ (i+1)).rTest ch = (σ i).rTest ch) ?_
  intro ch hc
  have aux : ∀ f : Nat → Bool, (∀ i, T ≤ i → f i = true → f (i+1) = true) → ∃ T', T ≤ T' ∧ ∀ i, T' ≤ i → f (i+1) = f i := by
    intro f hf
    obtain ⟨T', h1, h2⟩ := mono_stable (fun i => (f i).toNat) 1 T (fun i hi => by
      cases h : f i with
      | false => simp
      | true => simp [hf i hi h]) (fun i _ => Bool.toNat_le _)
    refine ⟨T', h1, fun i hi => ?_⟩
    have e1 := h2 i hi
    have e2 := h2 (i+1) (by omega)
    have e3 : (f (i+1)).toNat = (f i).toNat := Eq.trans e2 e1.symm
    revert e3
    cases f i <;> cases f (i+1) <;> simp
  obtain ⟨T1, a1, b1⟩ := aux (fun i => (σ i).sTest ch) (fun i hi h => quiet_sTest wf hx hq hi h)
  obtain ⟨T2, a2, b2⟩ := aux (fun i => (σ i).rTest ch) (fun i hi h => quiet_rTest wf hx hq hi h)
  exact ⟨T1 + T2, by omega, fun i hi => ⟨b1 i (by omega), b2 i (by omega)⟩⟩

/-- Without completion, a rank freezes. -/
theorem ev_frozen (wf : p.WF) (hx : Exec p σ a) (hf : FairT p a) (hnf : ∀ i, (σ i).finished = false) :
    ∃ T, Quiet p σ T ∧ (∀ i, T ≤ i → Frozen p (σ i)) ∧
      ∀ i, T ≤ i → ∀ ch, ch < p.nCh → (σ (i+1)).sTest ch = (σ i).sTest ch ∧ (σ (i+1)).rTest ch = (σ i).rTest ch := by
  obtain ⟨T1, hq⟩ := ev_quiet wf hx
  obtain ⟨T2, hT2, he⟩ := ev_exec wf hx T1
  have hq2 : Quiet p σ T2 := fun i hi => hq i (by omega)
  obtain ⟨T3, hT3, ht⟩ := ev_tests_const wf hx hq2
  have hidle := fun i hi w hw => ev_idle wf hx hf hnf hq2 he (i := i) hi (w := w) hw
  have htest : ∀ i j, T3 ≤ i → i ≤ j → ∀ ch, ch < p.nCh → (σ j).sTest ch = (σ i).sTest ch ∧ (σ j).rTest ch = (σ i).rTest ch := by
    intro i j hi hj ch hc
    induction hj with
    | refl => exact ⟨rfl, rfl⟩
    | @step m h ih =>
      have := ht m (Nat.le_trans hi h) ch hc
      rw [this.1, this.2]; exact ih
  refine ⟨T3, fun i hi => hq i (by omega), fun i hi => ⟨?_, ?_⟩, ht⟩
  · intro x g hgr hg hen
    obtain ⟨j, xs, hj, haj, htj⟩ := reach_instr hx hf hnf i (instr_mem_prog hgr hg)
    obtain ⟨l, n, f, e, hd, _⟩ := quiet_sched wf hx hq2 (by omega : T2 ≤ j) haj
    apply (hd x xs htj).2
    have etg : (σ j).tg = (σ i).tg := (quiet_const wf hx hq2 (by omega) hj).1
    have hfin : ∀ k, T3 ≤ k → ∀ r, r < 6 → ((σ k).tg g).cf r = 1 → (σ k).allFin p g r = true := by
      intro k hk r hr hc
      rw [allFin_iff]
      intro w hw
      have hid := (hidle k (by omega) w hw).2 g r hg hr
      rcases (reachable_inv wf (exec_reach hx k)).core.grp g hg with hu | ⟨_, hR⟩
      · rw [hu.1] at hc
        have : r = 0 ∨ r = 1 ∨ r = 2 ∨ r = 3 ∨ r = 4 ∨ r = 5 := by omega
        rcases this with rfl | rfl | rfl | rfl | rfl | rfl <;> simp [TgState.cf, TgState.reset, umax] at hc
      · rcases (hR r w hr hw).b hc with h | h
        · rcases h.2 with h | h
          · exact absurd h hid.1
          · exact absurd h hid.2
        · exact h.2
    have hsend : ∀ lt, (σ i).finSends p lt g = true → (σ j).finSends p lt g = true := by
      intro lt; rw [finSends_iff, finSends_iff]; intro h ch hc hm
      rw [(htest i j hi hj ch hc).1]; exact h ch hc hm
    have hrecv : ∀ lt, (σ i).finRecvs p lt g = true → (σ j).finRecvs p lt g = true := by
      intro lt; rw [finRecvs_iff, finRecvs_iff]; intro h ch hc hm
      rw [(htest i j hi hj ch hc).2]; exact h ch hc hm
    have hav : (σ j).available p g = (σ i).available p g := by simp only [State.available, etg]
    have hco : (σ j).consumed p g = (σ i).consumed p g := by simp only [State.consumed, etg]
    cases x <;> simp only [Instr.grp, Option.some.injEq, reduceCtorEq] at hgr <;> subst hgr <;>
      simp only [Enabled, etg, hav, hco] at hen ⊢ <;> first
      | exact hen
      | exact ⟨hen.1, hfin j (by omega) _ (by decide) (by rw [etg]; exact hen.1)⟩
      | exact ⟨hen.1, hsend _ hen.2⟩
      | exact ⟨hen.1, hrecv _ hen.2⟩
  · intro g r w hg hr hw
    exact (hidle i (by omega) w hw).2 g r hg hr
end

/-! ### Stuck networks -/

/-- Every rank is finished, or frozen with all incomplete requests waiting for the other side. -/
structure NStuck (n : Net) (s : NState) : Prop where
  core : ∀ r, r < n.nRk → Core (n.p r) (s.rk r)
  rk : ∀ r, r < n.nRk → (∀ g, g < (n.p r).nTgs → FinG (n.p r) (s.rk r) g) ∨ (Frozen (n.p r) (s.rk r) ∧
    (∀ ch, ch < (n.p r).nCh → (s.rk r).sTest ch = false → ¬ s.posted n r ch) ∧
    (∀ ch, ch < (n.p r).nCh → (s.rk r).rTest ch = false → ¬ s.arrived n r ch))

theorem FinG.fz {p : Params} (wf : p.WF) {s : State} (hi : Core p s) {g : Nat} (hg : g < p.nTgs) (h : FinG p s g) :
    GI (p.N g) (s.tg g).k (s.tg g) ∧ (s.tg g).c4 = 4 ∧ (s.tg g).c1 = 5 := by
  obtain ⟨c0, c1, c2, c3, c4, c5, c6, c7⟩ := finG_vals wf hi hg h
  rcases hi.grp g hg with hu | ⟨hG, _⟩
  · rw [hu.1] at c0; simp [TgState.reset, umax] at c0
  · exact ⟨hG, c4, c1⟩

/-- Facts on any group of a stuck network. -/
theorem nstuck_grp {n : Net} (wf : n.WF) {s : NState} (hs : NStuck n s) {r g : Nat} (hr : r < n.nRk) (hg : g < (n.p r).nTgs) :
    GI ((n.p r).N g) ((s.rk r).tg g).k ((s.rk r).tg g) ∧ ((s.rk r).tg g).sRounds = ((s.rk r).tg g).tpS ∧
    ((s.rk r).tg g).tpS ≤ ((s.rk r).tg g).k + 1 ∧ ((s.rk r).tg g).k + 1 ≤ ((s.rk r).tg g).rRounds ∧
    (((s.rk r).tg g).c4 = 4 → ((s.rk r).tg g).tpS = (n.p r).N g ∧ ((s.rk r).tg g).k + 1 = (n.p r).N g) := by
  have key : ∀ (hG : GI ((n.p r).N g) ((s.rk r).tg g).k ((s.rk r).tg g)),
      ((s.rk r).tg g).c1 = 0 ∨ 4 ≤ ((s.rk r).tg g).c1 → _ := fun hG h1 => by
    have e1 := hG.sRounds_eq; have e2 := hG.rRounds_ge
    have p2 := hG.pS; have x4 := hG.x4; have d1 := hG.d1
    have q : ((s.rk r).tg g).sRounds = ((s.rk r).tg g).tpS := by
      rw [e1]; split <;> omega
    exact (⟨hG, q, by omega, e2, fun h4 => by have := d1 h4; omega⟩ :
      GI ((n.p r).N g) ((s.rk r).tg g).k ((s.rk r).tg g) ∧ ((s.rk r).tg g).sRounds = ((s.rk r).tg g).tpS ∧
    ((s.rk r).tg g).tpS ≤ ((s.rk r).tg g).k + 1 ∧ ((s.rk r).tg g).k + 1 ≤ ((s.rk r).tg g).rRounds ∧
    (((s.rk r).tg g).c4 = 4 → ((s.rk r).tg g).tpS = (n.p r).N g ∧ ((s.rk r).tg g).k + 1 = (n.p r).N g))
  rcases hs.rk r hr with hF | ⟨hz, _⟩
  · obtain ⟨hG, _, h1⟩ := (hF g hg).fz (wf.wf r hr) (hs.core r hr) hg
    exact key hG (by omega)
  · have h := (frozen_group (hs.core r hr) hz hg).1
    exact key h.gi (by have := h.c1; omega)

/-- Every unfinished group of a stuck network waits for an unfinished one with smaller potential. -/
theorem nstuck_waits {n : Net} (wf : n.WF) {s : NState} (hs : NStuck n s) {r g : Nat} (hr : r < n.nRk) (hg : g < (n.p r).nTgs)
    (hn : ((s.rk r).tg g).c4 ≠ 4) :
    ∃ q h, q < n.nRk ∧ h < (n.p q).nTgs ∧ ((s.rk q).tg h).c4 ≠ 4 ∧ npot (s.rk q) h < npot (s.rk r) g := by
  rcases hs.rk r hr with hF | ⟨hz, hS, hR⟩
  · exact absurd ((hF g hg).fz (wf.wf r hr) (hs.core r hr) hg).2.1 hn
  -- comparison with the other side of a channel
  have other : ∀ ch, ch < (n.p r).nCh → (n.p r).tgL ch = g →
      (let q := (n.peer r ch).1; let h := (n.p r).tgR ch
       q < n.nRk ∧ h < (n.p q).nTgs ∧ (n.p q).tgL (n.peer r ch).2 = h ∧ (n.p q).tgR (n.peer r ch).2 = g ∧
       (n.peer r ch).2 < (n.p q).nCh ∧
       (2 ^ h * ((s.rk q).tg h).tpS < 2 ^ g * ((s.rk r).tg g).tpS → ((s.rk q).tg h).c4 ≠ 4)) := by
    intro ch hc hL
    have h1 := wf.rk r ch hr hc
    have h2 := wf.ch r ch hr hc
    have h3 := wf.swap r ch hr hc
    have h4 := wf.back r ch hr hc
    have h5 := wf.swap _ _ h1 h2
    rw [h4] at h5
    simp only at h5
    have h6 := wf.tgL _ _ h1 h2
    rw [h3] at h6
    refine ⟨h1, h6, h3, by rw [← h5, hL], h2, ?_⟩
    intro hlt hc4
    obtain ⟨_, _, b1, _, b2⟩ := nstuck_grp wf hs h1 h6
    obtain ⟨gG, _, a1, _, _⟩ := nstuck_grp wf hs hr hg
    have gl := gG.lt
    obtain ⟨b3, b4⟩ := b2 hc4
    have hadj := wf.adj r ch hr hc
    rw [hL] at hadj
    have hnt := wf.nTgs r _ hr h1
    rw [wf.steps _ r _ h1 hr h6] at b3
    rcases hadj with e | e | e
    · rw [← e] at hlt b3
      have := Nat.lt_of_mul_lt_mul_left hlt
      omega
    · rw [← e] at hlt b3
      have hw := (wf.wf r hr).two g (by omega)
      have : ¬ (2 * ((s.rk (n.peer r ch).1).tg (g + 1)).tpS < ((s.rk r).tg g).tpS) := by omega
      have := Nat.mul_le_mul_left (2 ^ g) (Nat.not_lt.1 this)
      rw [two_pow_succ', Nat.mul_comm 2, Nat.mul_assoc] at hlt
      omega
    · have hw := (wf.wf r hr).two ((n.p r).tgR ch) (by omega)
      rw [e] at hw
      have h9 : ¬ (((s.rk (n.peer r ch).1).tg ((n.p r).tgR ch)).tpS < 2 * ((s.rk r).tg g).tpS) := by omega
      have h10 := Nat.mul_le_mul_left (2 ^ ((n.p r).tgR ch)) (Nat.not_lt.1 h9)
      have h11 : 2 ^ g = 2 ^ ((n.p r).tgR ch) * 2 := by rw [← e, Nat.pow_succ]
      rw [h11, Nat.mul_assoc] at hlt
      omega
  obtain ⟨hfz, h6, hcase⟩ := frozen_group (hs.core r hr) hz hg
  obtain ⟨hG, eS, le1, le2, _⟩ := nstuck_grp wf hs hr hg
  rcases hcase with h4 | ⟨c1, c6⟩ | ⟨c1, c5, c7, ch, hc, hL, hT⟩ | hloc
  · exact absurd h4 hn
  · -- the previous message has not been received yet
    obtain ⟨ch, hc, hL, hm, hT⟩ := h6 c6
    obtain ⟨o1, o2, o3, o4, o5, o6⟩ := other ch hc hL
    have hnp := hS ch hc hT
    simp only [NState.posted] at hnp
    have n1 := ((hs.core r hr).sch ch hc (by omega)).n
    have n2 := ((hs.core _ o1).rch _ o5 (by omega)).n
    rw [o3, o4] at n2
    rw [hL] at n1
    rw [n1, n2] at hnp
    obtain ⟨gG, q1, q2, q3, _⟩ := nstuck_grp wf hs o1 o2
    have hadj := wf.adj r ch hr hc
    rw [hL] at hadj
    have hlt : 2 ^ ((n.p r).tgR ch) * ((s.rk (n.peer r ch).1).tg ((n.p r).tgR ch)).tpS < 2 ^ g * ((s.rk r).tg g).tpS := by
      rcases hadj with e | e | e
      · rw [← e] at hnp q1 q2 q3 ⊢
        simp only [Nat.lt_irrefl, if_false] at hnp
        exact Nat.mul_lt_mul_of_pos_left (by omega) (Nat.pow_pos (by decide))
      · rw [← e] at hnp q1 q2 q3 ⊢
        rw [if_pos (by omega), if_neg (by omega)] at hnp
        exact scale_s (by omega)
      · rw [if_neg (by omega), if_pos (by omega)] at hnp
        have := scale_f (f := (n.p r).tgR ch) (a := ((s.rk (n.peer r ch).1).tg ((n.p r).tgR ch)).tpS)
          (b := ((s.rk r).tg g).tpS) (by omega)
        rwa [e] at this
    exact ⟨_, _, o1, o2, o6 hlt, npot_lt hlt⟩
  · -- the message of the other side has not been sent yet
    obtain ⟨o1, o2, o3, o4, o5, o6⟩ := other ch hc hL
    have hnp := hR ch hc hT
    simp only [NState.arrived] at hnp
    have n1 := ((hs.core r hr).rch ch hc (by omega)).n
    have n2 := ((hs.core _ o1).sch _ o5 (by omega)).n
    rw [o3, o4] at n2
    rw [hL] at n1
    rw [n1, n2] at hnp
    obtain ⟨gG, q1, q2, q3, _⟩ := nstuck_grp wf hs o1 o2
    have hp := hG.pS.2 (by omega)
    have hr' : ((s.rk r).tg g).rRounds = ((s.rk r).tg g).k + 1 := by
      have := hG.rN.1 c5 c7
      simp [TgState.rRounds, c7, this]
    have hadj := wf.adj r ch hr hc
    rw [hL] at hadj
    have hlt : 2 ^ ((n.p r).tgR ch) * ((s.rk (n.peer r ch).1).tg ((n.p r).tgR ch)).tpS < 2 ^ g * ((s.rk r).tg g).tpS := by
      rcases hadj with e | e | e
      · rw [← e] at hnp q1 q2 q3 ⊢
        simp only [Nat.lt_irrefl, if_false] at hnp
        exact Nat.mul_lt_mul_of_pos_left (by omega) (Nat.pow_pos (by decide))
      · rw [← e] at hnp q1 q2 q3 ⊢
        rw [if_pos (by omega), if_neg (by omega)] at hnp
        exact scale_s (by omega)
      · rw [if_neg (by omega), if_pos (by omega)] at hnp
        have := scale_f (f := (n.p r).tgR ch) (a := ((s.rk (n.peer r ch).1).tg ((n.p r).tgR ch)).tpS)
          (b := ((s.rk r).tg g).tpS) (by omega)
        rwa [e] at this
    exact ⟨_, _, o1, o2, o6 hlt, npot_lt hlt⟩
  · obtain ⟨h, hh, hn', hlt⟩ := frozen_waits (wf.wf r hr) (hs.core r hr) hz hg hn hloc
    exact ⟨r, h, hr, hh, hn', hlt⟩

/-- A stuck network is finished. -/
theorem nstuck_done {n : Net} (wf : n.WF) {s : NState} (hs : NStuck n s) {r g : Nat} (hr : r < n.nRk) (hg : g < (n.p r).nTgs) :
    FinG (n.p r) (s.rk r) g := by
  have all4 : ∀ m r g, npot (s.rk r) g ≤ m → r < n.nRk → g < (n.p r).nTgs → ((s.rk r).tg g).c4 = 4 := by
    intro m
    induction m with
    | zero =>
      intro r g hp hr hg
      apply Classical.byContradiction
      intro hn
      obtain ⟨_, _, _, _, _, hlt⟩ := nstuck_waits wf hs hr hg hn
      omega
    | succ m ih =>
      intro r g hp hr hg
      apply Classical.byContradiction
      intro hn
      obtain ⟨q, h, hq, hh, hnd, hlt⟩ := nstuck_waits wf hs hr hg hn
      exact hnd (ih q h (by omega) hq hh)
  rcases hs.rk r hr with hF | ⟨hz, hS, hR⟩
  · exact hF g hg
  have h4 := all4 _ r g (Nat.le_refl _) hr hg
  obtain ⟨hG, eS, le1, le2, hN⟩ := nstuck_grp wf hs hr hg
  obtain ⟨_, h6, _⟩ := frozen_group (hs.core r hr) hz hg
  have d1 := hG.d1 h4; have r7 := hG.r7; have s6 := hG.s6; have r5 := hG.r5
  obtain ⟨hN1, hN2⟩ := hN h4
  refine ⟨by omega, ?_, by omega⟩
  apply Classical.byContradiction
  intro hc6
  obtain ⟨ch, hc, hL, hm, hT⟩ := h6 (by omega)
  have hnp := hS ch hc hT
  simp only [NState.posted] at hnp
  have h1 := wf.rk r ch hr hc
  have h2 := wf.ch r ch hr hc
  have h3 := wf.swap r ch hr hc
  have h5 := wf.swap _ _ h1 h2
  rw [wf.back r ch hr hc] at h5
  simp only at h5
  have h7 := wf.tgL _ _ h1 h2
  have n1 := ((hs.core r hr).sch ch hc (by omega)).n
  have n2 := ((hs.core _ h1).rch _ h2 h7).n
  rw [h3] at n2 h7
  rw [← h5, hL] at n2
  rw [hL] at n1
  rw [n1, n2] at hnp
  obtain ⟨_, _, _, q3, q4⟩ := nstuck_grp wf hs h1 h7
  obtain ⟨_, q5⟩ := q4 (all4 _ _ _ (Nat.le_refl _) h1 h7)
  rw [wf.steps _ r _ h1 hr h7] at q5
  have hnt := wf.nTgs r _ hr h1
  have hadj := wf.adj r ch hr hc
  rw [hL] at hadj
  rcases hadj with e | e | e
  · rw [← e] at hnp q3 q5
    simp only [Nat.lt_irrefl, if_false] at hnp
    omega
  · rw [← e] at hnp q3 q5
    have hw := (wf.wf r hr).two g (by omega)
    rw [if_pos (by omega), if_neg (by omega)] at hnp
    omega
  · have hw := (wf.wf r hr).two ((n.p r).tgR ch) (by omega)
    rw [e] at hw
    rw [if_neg (by omega), if_pos (by omega)] at hnp
    omega

end Edge.Sched
