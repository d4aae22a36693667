import Verif.Time.Lemmas
/-!
Properties C01–C04: time groups of rate-2 local time stepping.

Specification used below, independent of the model's helpers: a *history* of a group is a list of
`(dtFun, T)` pairs, one per call of `Manager::simulate`; simulating one pair means `setUp` followed by
`updateTsInfo` until `finished` first becomes true.
-/
namespace Edge.Time

/-- `Runs g n g'`: started in `g`, the scheduler completes exactly `n` steps, stopping at the first state in
which `finished()` holds (`man_sched.inc:178-198`), which is `g'`. -/
def Runs (g : Group) (n : ℕ) (g' : Group) : Prop :=
  g' = g.after n ∧ g'.finished = true ∧ ∀ k < n, (g.after k).finished = false

/-- `Reach nTgs tg cov g`: `g` is the group `tg` of `nTgs` after some history of completed `simulate` calls whose
durations sum to `cov` (`src/time/Manager.cpp:198-239`). -/
inductive Reach (big : ℚ) (nTgs tg : ℕ) : ℚ → Group → Prop
  | init : Reach big nTgs tg 0 (Group.mk' big nTgs tg)
  | sim {c g} (dtFun T : ℚ) {n g'} : Reach big nTgs tg c g → 0 < dtFun → 0 ≤ T →
      Runs (g.setUp dtFun T) n g' → Reach big nTgs tg (c + T) g'

theorem reach_mul {big : ℚ} {nTgs tg : ℕ} {c : ℚ} {g : Group} (h : Reach big nTgs tg c g) :
    g.funMul = doubleShort tg ∧ g.maxDiv = doubleShort (nTgs - (tg + 1)) := by
  induction h with
  | init => exact ⟨rfl, rfl⟩
  | sim dtFun T _ _ _ hr ih => rw [hr.1]; simpa using ih

/-- **C01** (one interval): from any reachable state, `setUp(dtFun,T)` is followed by a run that finishes after a
positive, finite number of steps; the lengths of the steps sum to exactly `T`, and so the covered simulation time
grows by exactly `T`. -/
theorem C01_interval_covered {big c : ℚ} {nTgs tg : ℕ} (htg : tg < nTgs) (h16 : nTgs ≤ 16)
    {g : Group} (hg : Reach big nTgs tg c g) (dtFun T : ℚ) (hd : 0 < dtFun) (hT : 0 ≤ T) :
    ∃ n g', 0 < n ∧ Runs (g.setUp dtFun T) n g' ∧
      g'.covSimTime = g.covSimTime + T ∧
      ((List.range n).map (fun k => ((g.setUp dtFun T).after k).dt)).sum = T := by
  obtain ⟨hf, hm⟩ := reach_mul hg
  have hf0 : 0 < g.funMul := hf ▸ funMul_pos htg h16
  have hm0 : 0 < g.maxDiv := hm ▸ maxDiv_pos htg h16
  have hf' : (0 : ℚ) < g.funMul := by exact_mod_cast hf0
  have hm' : (0 : ℚ) < g.maxDiv := by exact_mod_cast hm0
  set s := g.setUp dtFun T with hs
  have hsum : ∀ n, (s.after n).covSimTime =
      s.covSimTime + ((List.range n).map (fun k => (s.after k).dt)).sum := by
    intro n
    induction n with
    | zero => simp [Group.after]
    | succ n ih =>
      rw [List.range_succ, List.map_append, List.sum_append]
      simp [Group.after, Group.updateTsInfo, ih, add_assoc]
  have hcov : (s.after (s.nTsReqFull + s.maxDiv)).covSimTime = g.covSimTime + T := by
    rw [after_cov s (setUp_dtSet g dtFun T) (setUp_nTsSync g dtFun T)]
    rw [show min (s.nTsReqFull + s.maxDiv) s.nTsReqFull = s.nTsReqFull by omega,
      show s.nTsReqFull + s.maxDiv - s.nTsReqFull = s.maxDiv by omega]
    rw [hs, dtSync_eq g dtFun T hd hT hf0 hm0, setUp_nTsReqFull, setUp_maxDiv, setUp_dtFull, setUp_cov]
    push_cast
    field_simp
    ring
  refine ⟨s.nTsReqFull + s.maxDiv, s.after (s.nTsReqFull + s.maxDiv), ?_, ⟨rfl, ?_, ?_⟩, hcov, ?_⟩
  · simp [hs]; omega
  · simp [Group.finished, hs]
  · intro k hk
    simp [Group.finished, hs] at hk ⊢
    omega
  · have := hsum (s.nTsReqFull + s.maxDiv)
    rw [hcov] at this
    simp only [hs, setUp_cov] at this ⊢
    linarith

/-- **C01** (all groups, all histories): after any history of `simulate` calls every group has covered exactly the sum of
the requested durations; in particular all groups are at the same time. -/
theorem C01_history_covered {big c : ℚ} {nTgs tg : ℕ} (htg : tg < nTgs) (h16 : nTgs ≤ 16)
    {g : Group} (hg : Reach big nTgs tg c g) : g.covSimTime = c := by
  induction hg with
  | init => rfl
  | @sim c g dtFun T n g' hg hd hT hr ih =>
    obtain ⟨n', g'', _, hr', hc, _⟩ := C01_interval_covered htg h16 hg dtFun T hd hT
    have hn : n = n' := by
      rcases Nat.lt_trichotomy n n' with h | h | h
      · have := hr'.2.2 n h; rw [← hr.1, hr.2.1] at this; cases this
      · exact h
      · have := hr.2.2 n' h; rw [← hr'.1, hr'.2.1] at this; cases this
    subst hn
    rw [hr.1, ← hr'.1, hc, ih]

example : ∃ g, Reach 1000 3 1 (7/2 + 2) g := by
  obtain ⟨n, g, _, hr, _⟩ := C01_interval_covered (by decide) (by decide) (Reach.init (big := 1000) (nTgs := 3) (tg := 1))
    (1/4) (7/2) (by norm_num) (by norm_num)
  have h1 := Reach.sim _ _ Reach.init (by norm_num) (by norm_num) hr
  obtain ⟨n, g, _, hr, _⟩ := C01_interval_covered (by decide) (by decide) h1 (1/4) 2 (by norm_num) (by norm_num)
  have h2 := Reach.sim _ _ h1 (by norm_num) (by norm_num) hr
  exact ⟨g, by simpa using h2⟩

/-- **C02**: every step taken in an interval has a length in `[0, dtFun * 2^tg]`. -/
theorem C02_step_bounds {big c : ℚ} {nTgs tg : ℕ} (htg : tg < nTgs) (h16 : nTgs ≤ 16)
    {g : Group} (hg : Reach big nTgs tg c g) (dtFun T : ℚ) (hd : 0 < dtFun) (hT : 0 ≤ T) (k : ℕ) :
    0 ≤ ((g.setUp dtFun T).after k).dt ∧ ((g.setUp dtFun T).after k).dt ≤ dtFun * 2 ^ tg := by
  obtain ⟨hf, hm⟩ := reach_mul hg
  have hf0 : 0 < g.funMul := hf ▸ funMul_pos htg h16
  have hm0 : 0 < g.maxDiv := hm ▸ maxDiv_pos htg h16
  have hf' : (0 : ℚ) < g.funMul := by exact_mod_cast hf0
  have hm' : (0 : ℚ) < g.maxDiv := by exact_mod_cast hm0
  have hfe : (g.funMul : ℚ) = 2 ^ tg := by rw [hf, doubleShort_eq _ (by omega)]; push_cast; rfl
  have hdt := dtSet_after _ (setUp_dtSet g dtFun T) k
  unfold DtSet at hdt
  rw [hdt, after_dtFull, after_dtSync, setUp_dtFull, dtSync_eq g dtFun T hd hT hf0 hm0, ← hfe]
  obtain ⟨r1, r2⟩ := floor_rem T (dtFun * ((g.funMul * g.maxDiv : ℕ) : ℚ)) hT (by push_cast; positivity)
  split
  · exact ⟨by positivity, le_refl _⟩
  · refine ⟨by positivity, ?_⟩
    rw [div_le_iff₀ hm']
    push_cast at r2 ⊢
    nlinarith

/-- **C02** (progress): as long as more than one maximal step of the slowest group remains, the step is the full one, i.e.
the first `floor(T / (dtFun*2^(nTgs-1))) * 2^(nTgs-1-tg)` steps of group `tg` have length exactly `dtFun * 2^tg`. -/
theorem C02_full_steps {big c : ℚ} {nTgs tg : ℕ} (htg : tg < nTgs) (h16 : nTgs ≤ 16)
    {g : Group} (hg : Reach big nTgs tg c g) (dtFun T : ℚ) (k : ℕ)
    (hk : k < ⌊T / (dtFun * 2 ^ (nTgs - 1))⌋₊ * 2 ^ (nTgs - 1 - tg)) :
    ((g.setUp dtFun T).after k).dt = dtFun * 2 ^ tg := by
  obtain ⟨hf, hm⟩ := reach_mul hg
  have hdt := dtSet_after _ (setUp_dtSet g dtFun T) k
  unfold DtSet at hdt
  have e1 : g.funMul = 2 ^ tg := by rw [hf, doubleShort_eq _ (by omega)]
  have e2 : g.maxDiv = 2 ^ (nTgs - 1 - tg) := by
    rw [hm, doubleShort_eq _ (by omega)]; congr 1; omega
  have e3 : ((g.funMul * g.maxDiv : ℕ) : ℚ) = 2 ^ (nTgs - 1) := by
    rw [e1, e2, ← pow_add, show tg + (nTgs - 1 - tg) = nTgs - 1 by omega]; push_cast; rfl
  rw [hdt, after_dtFull, after_nTsSync, after_nTsReqFull, setUp_nTsReqFull, e3, setUp_dtFull, setUp_nTsSync, if_pos, e1]
  · push_cast; rfl
  · rw [e2]; omega

/-- **C03** (counts): in one interval group `tg` performs exactly twice as many steps as group `tg+1`. -/
theorem C03_twice_as_many {big big' c c' : ℚ} {nTgs tg : ℕ} (htg : tg + 1 < nTgs) (h16 : nTgs ≤ 16)
    {a b : Group} (ha : Reach big nTgs tg c a) (hb : Reach big' nTgs (tg + 1) c' b) (dtFun T : ℚ)
    {n m : ℕ} {a' b' : Group} (hra : Runs (a.setUp dtFun T) n a') (hrb : Runs (b.setUp dtFun T) m b') :
    n = 2 * m := by
  obtain ⟨hf, hm⟩ := reach_mul ha
  obtain ⟨hf2, hm2⟩ := reach_mul hb
  rw [doubleShort_eq _ (by omega)] at hf hm hf2 hm2
  have hmm : a.maxDiv = 2 * b.maxDiv := by
    rw [hm, hm2, show nTgs - (tg + 1) = (nTgs - (tg + 1 + 1)) + 1 by omega, pow_succ]; ring
  have hprod : a.funMul * a.maxDiv = b.funMul * b.maxDiv := by
    rw [hmm, hf, hf2, pow_succ]; ring
  have h1 := hra.2.1
  have h2 := hrb.2.1
  rw [hra.1] at h1
  rw [hrb.1] at h2
  simp only [Group.finished, after_nTsSync, setUp_nTsSync, after_nTsReqFull, after_maxDiv, setUp_maxDiv,
    setUp_nTsReqFull, beq_iff_eq, Nat.zero_add] at h1 h2
  rw [h1, h2, hprod, hmm]; ring

/-- **C03** (alignment): after `2k` steps of group `tg` and `k` steps of group `tg+1` both have advanced by the same
time, for every `k` up to (and beyond) the number of steps of the interval. -/
theorem C03_aligned {big big' c c' : ℚ} {nTgs tg : ℕ} (htg : tg + 1 < nTgs) (h16 : nTgs ≤ 16)
    {a b : Group} (ha : Reach big nTgs tg c a) (hb : Reach big' nTgs (tg + 1) c' b) (dtFun T : ℚ)
    (hd : 0 < dtFun) (hT : 0 ≤ T) (k : ℕ) :
    ((a.setUp dtFun T).after (2 * k)).covSimTime - a.covSimTime =
      ((b.setUp dtFun T).after k).covSimTime - b.covSimTime := by
  obtain ⟨hf, hm⟩ := reach_mul ha
  obtain ⟨hf2, hm2⟩ := reach_mul hb
  have pa := maxDiv_pos (show tg < nTgs by omega) h16
  have pb := maxDiv_pos htg h16
  have qa := funMul_pos (show tg < nTgs by omega) h16
  have qb := funMul_pos htg h16
  rw [← hm] at pa; rw [← hm2] at pb; rw [← hf] at qa; rw [← hf2] at qb
  rw [doubleShort_eq _ (by omega)] at hf hm hf2 hm2
  have hff : b.funMul = 2 * a.funMul := by rw [hf, hf2, pow_succ]; ring
  have hmm : a.maxDiv = 2 * b.maxDiv := by
    rw [hm, hm2, show nTgs - (tg + 1) = (nTgs - (tg + 1 + 1)) + 1 by omega, pow_succ]; ring
  have hprod : a.funMul * a.maxDiv = b.funMul * b.maxDiv := by
    rw [hmm, hff]; ring
  rw [after_cov _ (setUp_dtSet a dtFun T) (setUp_nTsSync a dtFun T),
    after_cov _ (setUp_dtSet b dtFun T) (setUp_nTsSync b dtFun T),
    dtSync_eq a dtFun T hd hT qa pa, dtSync_eq b dtFun T hd hT qb pb]
  simp only [setUp_nTsReqFull, setUp_dtFull, setUp_cov, hprod]
  set F := ⌊T / (dtFun * ((b.funMul * b.maxDiv : ℕ) : ℚ))⌋₊
  rw [hmm]
  have e1 : min (2 * k) (F * (2 * b.maxDiv)) = 2 * min k (F * b.maxDiv) := by
    rw [show F * (2 * b.maxDiv) = 2 * (F * b.maxDiv) by ring]; omega
  have e2 : 2 * k - F * (2 * b.maxDiv) = 2 * (k - F * b.maxDiv) := by
    rw [show F * (2 * b.maxDiv) = 2 * (F * b.maxDiv) by ring]; omega
  have hb' : (b.maxDiv : ℚ) ≠ 0 := by exact_mod_cast (Nat.pos_iff_ne_zero.mp pb)
  rw [e1, e2, hff]
  push_cast
  field_simp
  ring

/-- Non-vacuity of C03: a reachable pair of groups together with a run of both. -/
example : ∃ a b n m a' b', Reach 1 4 1 0 a ∧ Reach 1 4 2 0 b ∧ Runs (a.setUp (1/8) 3) n a' ∧
    Runs (b.setUp (1/8) 3) m b' ∧ 0 < m := by
  obtain ⟨n, a', _, hra, _⟩ := C01_interval_covered (by decide) (by decide)
    (Reach.init (big := 1) (nTgs := 4) (tg := 1)) (1/8) 3 (by norm_num) (by norm_num)
  obtain ⟨m, b', hm, hrb, _⟩ := C01_interval_covered (by decide) (by decide)
    (Reach.init (big := 1) (nTgs := 4) (tg := 2)) (1/8) 3 (by norm_num) (by norm_num)
  exact ⟨_, _, n, m, a', b', Reach.init, Reach.init, hra, hrb, hm⟩

/-- The last step is flagged as such: `lastTimeStep()` holds exactly before the step that finishes the interval. -/
theorem C03_lastTimeStep {big c : ℚ} {nTgs tg : ℕ} (htg : tg < nTgs) (h16 : nTgs ≤ 16)
    {g : Group} (hg : Reach big nTgs tg c g) (dtFun T : ℚ) (k : ℕ) :
    ((g.setUp dtFun T).after k).lastTimeStep = ((g.setUp dtFun T).after (k + 1)).finished := by
  have hm := (reach_mul hg).2
  have hm0 : 0 < g.maxDiv := hm ▸ maxDiv_pos htg h16
  simp only [Group.lastTimeStep, Group.finished, after_nTsSync, setUp_nTsSync, after_nTsReqFull, after_maxDiv,
    setUp_maxDiv]
  rw [Bool.eq_iff_iff, beq_iff_eq, beq_iff_eq]
  omega

/-- **C04**, the part which holds: for the first sixteen groups the multiplier is `2^tg`. The full statement
(`∀ nTgs tg, tg < nTgs → funMul = 2^tg`) is refuted below. -/
theorem C04_multiplier_partial (big : ℚ) (nTgs tg : ℕ) (h : tg < 16) : (Group.mk' big nTgs tg).funMul = 2 ^ tg :=
  doubleShort_eq tg h

/-- **C04** fails for every group id from 16 on: the `unsigned short` multiplier wraps to zero, so that the group would never
advance in full steps. -/
theorem C04_multiplier_wraps (big : ℚ) (nTgs tg : ℕ) (h : 16 ≤ tg) :
    (Group.mk' big nTgs tg).funMul = 0 ∧ (Group.mk' big nTgs tg).funMul ≠ 2 ^ tg := by
  have : (Group.mk' big nTgs tg).funMul = 0 := doubleShort_wrap tg h
  exact ⟨this, by rw [this]; positivity⟩

/-- C04 refuted as stated. -/
theorem C04_refuted : ¬ ∀ (big : ℚ) (nTgs tg : ℕ), tg < nTgs → nTgs < 2 ^ 16 → (Group.mk' big nTgs tg).funMul = 2 ^ tg := by
  intro h
  exact (C04_multiplier_wraps 0 17 16 (le_refl _)).2 (h 0 17 16 (by norm_num) (by norm_num))

end Edge.Time
