import Verif.Sched.Reach
/-! Lemmas for the termination theorem C08. -/
namespace Edge.Sched

/-! ### Generic lemmas on sequences -/

theorem mono_stable (f : Nat → Nat) (B T : Nat) (hm : ∀ i, T ≤ i → f i ≤ f (i + 1)) (hb : ∀ i, T ≤ i → f i ≤ B) :
    ∃ T', T ≤ T' ∧ ∀ i, T' ≤ i → f i = f T' := by
  suffices h : ∀ d T, B - f T ≤ d → (∀ i, T ≤ i → f i ≤ f (i + 1)) → (∀ i, T ≤ i → f i ≤ B) →
      ∃ T', T ≤ T' ∧ ∀ i, T' ≤ i → f i = f T' from h _ T (Nat.le_refl _) hm hb
  intro d
  induction d with
  | zero =>
    intro T h hm hb
    refine ⟨T, Nat.le_refl _, ?_⟩
    intro i hi
    have hmono : ∀ i, T ≤ i → f T ≤ f i := by
      intro i hi
      induction hi with
      | refl => exact Nat.le_refl _
      | step h ih => exact Nat.le_trans ih (hm _ h)
    have := hmono i hi; have := hb i hi; have := hb T (Nat.le_refl _)
    omega
  | succ d ih =>
    intro T h hm hb
    by_cases hc : ∀ i, T ≤ i → f i = f T
    · exact ⟨T, Nat.le_refl _, hc⟩
    · have ⟨i, hi, hne⟩ : ∃ i, T ≤ i ∧ f i ≠ f T := by
        apply Classical.byContradiction
        intro hn
        apply hc
        intro i hi
        apply Classical.byContradiction
        intro hne
        exact hn ⟨i, hi, hne⟩
      have hmono : f T ≤ f i := by
        clear hne
        induction hi with
        | refl => exact Nat.le_refl _
        | step h ih => exact Nat.le_trans ih (hm _ h)
      obtain ⟨T', h1, h2⟩ := ih i (by have := hb i hi; omega) (fun j hj => hm j (by omega)) (fun j hj => hb j (by omega))
      exact ⟨T', by omega, h2⟩

theorem fin_eventually (n T : Nat) (P : Nat → Nat → Prop) (h : ∀ g, g < n → ∃ T', T ≤ T' ∧ ∀ i, T' ≤ i → P g i) :
    ∃ T', T ≤ T' ∧ ∀ i, T' ≤ i → ∀ g, g < n → P g i := by
  induction n with
  | zero => exact ⟨T, Nat.le_refl _, fun i _ g hg => absurd hg (by omega)⟩
  | succ n ih =>
    obtain ⟨T1, a1, h1⟩ := ih (fun g hg => h g (by omega))
    obtain ⟨T2, a2, h2⟩ := h n (by omega)
    refine ⟨T1 + T2, by omega, fun i hi g hg => ?_⟩
    by_cases hgn : g = n
    · subst hgn; exact h2 i (by omega)
    · exact h1 i (by omega) g (by omega)

/-- A property which only the events in `X` may destroy still holds at the next such event. -/
theorem persist (P : Nat → Prop) (X : Nat → Prop) (i : Nat) (hP : P i)
    (hstep : ∀ l, i ≤ l → P l → ¬ X l → P (l + 1)) (hX : ∃ j, i ≤ j ∧ X j) : ∃ j, i ≤ j ∧ X j ∧ P j := by
  obtain ⟨j, hj, hx⟩ := hX
  suffices h : ∀ d i, j = i + d → P i → (∀ l, i ≤ l → P l → ¬ X l → P (l + 1)) → ∃ j, i ≤ j ∧ X j ∧ P j from
    h (j - i) i (by omega) hP hstep
  intro d
  induction d with
  | zero => intro i h hP _; exact ⟨i, Nat.le_refl _, by rw [h] at hx; exact hx, hP⟩
  | succ d ih =>
    intro i h hP hs
    by_cases hxi : X i
    · exact ⟨i, Nat.le_refl _, hxi, hP⟩
    · obtain ⟨j', h1, h2, h3⟩ := ih (i + 1) (by omega) (hs i (Nat.le_refl _) hP hxi) (fun l hl => hs l (by omega))
      exact ⟨j', by omega, h2, h3⟩

/-! ### Guards -/

/-- The guard of a statement. -/
def Enabled (p : Params) (s : State) : Instr → Prop
  | .initCf g => (s.tg g).c0 = umax
  | .finLocIn g => (s.tg g).c0 = 1 ∧ s.allFin p g 0
  | .finLocSe g => (s.tg g).c1 = 1 ∧ s.allFin p g 1
  | .finSrcIn g => (s.tg g).c2 = 1 ∧ s.allFin p g 2
  | .finSrcSe g => (s.tg g).c3 = 1 ∧ s.allFin p g 3
  | .finNeIn g => (s.tg g).c4 = 1 ∧ s.allFin p g 4
  | .finNeSe g => (s.tg g).c5 = 1 ∧ s.allFin p g 5
  | .finSend g => (s.tg g).c6 = 1 ∧ s.finSends p ((s.tg g).nS % 2 == 1) g
  | .finRecv g => (s.tg g).c7 = 1 ∧ s.finRecvs p ((s.tg g).nR % 2 == 0) g
  | .locSe g => (s.tg g).c1 = 0 ∧ (s.tg g).c6 = 2
  | .locIn g => (s.tg g).c0 = 0
  | .send g => (s.tg g).c1 = 2 ∧ (s.tg g).c6 = 0
  | .srcSe g => (s.tg g).c1 = 3 ∧ (s.tg g).c3 = 0
  | .srcIn g => (s.tg g).c0 = 2 ∧ (s.tg g).c2 = 0
  | .neSe g => (s.tg g).c7 = 2 ∧ (s.tg g).c0 ≥ 4 ∧ (s.tg g).c1 ≥ 4 ∧ (s.tg g).c3 = 2 ∧ (s.tg g).c5 = 0 ∧ s.available p g
  | .neIn g => (s.tg g).c0 ≥ 4 ∧ (s.tg g).c1 ≥ 4 ∧ (s.tg g).c2 = 2 ∧ (s.tg g).c4 = 0 ∧ s.available p g
  | .recv g => (s.tg g).c5 = 2 ∧ (s.tg g).c7 = 0
  | .complete g => (s.tg g).c4 = 2 ∧ (s.tg g).c5 = 3 ∧ s.consumed p g
  | .count _ | .zeroCnt | .check => False

theorem enabled_congr {p : Params} {s s' : State} (i : Instr) (h1 : s'.tg = s.tg) (h2 : s'.st = s.st)
    (h3 : s'.sTest = s.sTest) (h4 : s'.rTest = s.rTest) : Enabled p s' i ↔ Enabled p s i := by
  cases i <;> simp only [Enabled, State.allFin, State.finSends, State.finRecvs, State.available, State.consumed, h1, h2, h3, h4]

/-- Progress of a group. -/
def TgState.phi (t : TgState) : Nat :=
  if t.c0 = umax then 0 else 1 + t.ts * 100 + t.c0 + t.c1 + t.c2 + t.c3 + t.c4 + t.c5 + t.nS + t.nR

theorem phi_of {t : TgState} (h : t.c0 < 65535) :
    t.phi = 1 + t.ts * 100 + t.c0 + t.c1 + t.c2 + t.c3 + t.c4 + t.c5 + t.nS + t.nR := by
  unfold TgState.phi
  rw [if_neg (by simp only [umax]; omega)]

/-- Statements whose guard is false only change the counter and the completion flag. -/
theorem exec1_disabled {p : Params} {s : State} (i : Instr) (h : ¬ Enabled p s i) :
    ∃ n f, exec1 p s i = { s with nFin := n, finished := f } := by
  cases i <;> simp only [Enabled] at h
  case zeroCnt => exact ⟨0, s.finished, rfl⟩
  case count g =>
    simp only [exec1]; split
    · exact ⟨s.nFin + 1, s.finished, rfl⟩
    · exact ⟨s.nFin, s.finished, rfl⟩
  case check =>
    simp only [exec1]; split
    · exact ⟨s.nFin, true, rfl⟩
    · exact ⟨s.nFin, s.finished, rfl⟩
  all_goals
    refine ⟨s.nFin, s.finished, ?_⟩
    simp only [exec1]
    rw [if_neg h]

/-- Every statement whose guard is true advances its group. -/
theorem exec1_enabled {p : Params} {s : State} (hi : Core p s) (i : Instr) (g : Nat)
    (hgr : i.grp = some g) (hg : g < p.nTgs) (h : Enabled p s i) : (s.tg g).phi < ((exec1 p s i).tg g).phi := by
  have hG : (s.tg g).c0 = umax ∨ GI (p.N g) (s.tg g).k (s.tg g) := by
    rcases hi.grp g hg with hu | ⟨hG, _⟩
    · left; rw [hu.1]; rfl
    · right; exact hG
  have hu0 : (s.tg g).c0 = umax → s.tg g = TgState.reset := by
    intro h0
    rcases hi.grp g hg with hu | ⟨hG, _⟩
    · exact hu.1
    · have := hG.v0; simp only [umax] at h0; omega
  cases i <;> simp only [Instr.grp, Option.some.injEq, reduceCtorEq] at hgr <;> subst hgr <;>
    simp only [Enabled] at h
  case initCf g =>
    have h1 : (s.tg g).phi = 0 := by unfold TgState.phi; rw [if_pos h]
    simp only [exec1]
    rw [if_pos h, h1, phi_of (by simp [State.setTg])]
    omega
  all_goals
    rcases hG with h0 | hG
    · rw [hu0 h0] at h; simp [TgState.reset, umax] at h; done
    have := hG.v0; have := hG.v1; have := hG.v2; have := hG.v3; have := hG.r4; have := hG.r5
    simp only [exec1]
    rw [if_pos h]
    (try split) <;>
    · rw [phi_of (t := s.tg _) (by omega), phi_of (by simp [State.setTg] <;> omega)]
      simp only [State.setTg, if_true]
      omega

/-- The progress of a group is bounded. -/
theorem phi_bound {p : Params} {s : State} (hi : Core p s) {g : Nat} (hg : g < p.nTgs) :
    (s.tg g).phi ≤ 200 + 200 * p.N g := by
  rcases hi.grp g hg with hu | ⟨hG, _⟩
  · rw [hu.1]; simp [TgState.phi, TgState.reset]
  · obtain ⟨lt,d1,d2,v0,v1,v2,v3,v4,v5,r2,r3,r4,r5,x4,x5,pI,pS,uI,uS,s6,sN,r7,rN⟩ := hG
    have h1 : (s.tg g).ts ≤ (s.tg g).k + 1 := by
      by_cases h4 : (s.tg g).c4 = 4
      · have := d1 h4; omega
      · have := d2 h4; omega
    have h2 : (s.tg g).nS ≤ (s.tg g).k + 1 := by
      rcases Nat.lt_or_ge (s.tg g).c1 3 with h | h <;> by_cases h6 : (s.tg g).c6 = 1
      · have := sN.2.1 h h6; omega
      · have := sN.1 h h6; omega
      · have := sN.2.2.2 h h6; omega
      · have := sN.2.2.1 h h6; omega
    have h3 : (s.tg g).nR ≤ (s.tg g).k + 2 := by
      by_cases h7 : (s.tg g).c7 = 0
      · have := rN.2.2.1 h7; omega
      by_cases h7' : (s.tg g).c7 = 3
      · have := rN.2.2.2.1 h7'; omega
      by_cases h7'' : (s.tg g).c7 = 1
      · rcases Nat.lt_or_ge (s.tg g).c5 3 with h | h
        · have := rN.1 (by omega) h7''; omega
        · have := rN.2.2.2.2.1 h h7''; omega
      · rcases Nat.lt_or_ge (s.tg g).c5 3 with h | h
        · have := rN.2.1 (by omega) (by omega); omega
        · have := rN.2.2.2.2.2 h (by omega); omega
    unfold TgState.phi
    split <;> omega

end Edge.Sched
