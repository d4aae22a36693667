import Verif.Run.Model
import Verif.Time.Props
import Mathlib.Tactic.Linarith
import Mathlib.Tactic.Ring
import Mathlib.Tactic.NormNum
import Mathlib.Data.List.Induction
/-!
C86: a run covers the requested time and writes one wave field per interval.
-/
namespace Edge.Run
open Edge Edge.Time

/-! ### Specification -/

/-- What a complete run has to look like: the calls of `simulate` have positive durations of at most the maximum interval, together
they cover the run up to the tolerance and never more; wave field `k` is the state at time `k * wfInt`, up to the tolerance and
never later, one for each multiple of the interval in the run. `first` is the number of the first file after the setup. -/
structure Complete (tol : ℚ) (c : Config) (first : ℕ) (steps : List ℚ) (files : List (ℕ × ℚ)) : Prop where
  pos : ∀ d ∈ steps, 0 < d ∧ d ≤ c.syncMax
  le : steps.sum ≤ c.endTime
  end_le : c.endTime - steps.sum ≤ tol
  count : (files.length : ℚ) * c.wfInt < steps.sum + tol ∧ steps.sum + tol ≤ (files.length + 1) * c.wfInt
  file : ∀ i n t, files[i]? = some (n, t) → n = first + i ∧ t ≤ (i + 1) * c.wfInt ∧ (i + 1) * c.wfInt - t < tol
  /-- a file is written at a synchronisation point -/
  point : ∀ n t, (n, t) ∈ files → ∃ k, t = (steps.take k).sum

/-! ### Invariant -/

structure Inv (tol : ℚ) (c : Config) (s0 : List (ℕ × ℚ)) (s : St) (files : List (ℕ × ℚ)) : Prop where
  all : s.files = s0 ++ files
  num : s.file = s0.length + files.length
  wf : s.wf = files.length
  sim : s.sim = s.steps.sum
  simle : s.sim ≤ c.endTime
  pos : ∀ d ∈ s.steps, tol ≤ d ∧ d ≤ c.syncMax
  next : s.sim + tol ≤ (s.wf + 1) * c.wfInt
  sync : c.endTime - s.sim > tol → tol ≤ s.sync ∧ s.sync ≤ c.syncMax ∧ s.sync ≤ (s.wf + 1) * c.wfInt - s.sim
  last : (files.length : ℚ) * c.wfInt < s.sim + tol
  file : ∀ i n t, files[i]? = some (n, t) → n = s0.length + i ∧ t ≤ (i + 1) * c.wfInt ∧ (i + 1) * c.wfInt - t < tol
  point : ∀ n t, (n, t) ∈ files → ∃ k, k ≤ s.steps.length ∧ t = (s.steps.take k).sum

theorem inv_step {tol : ℚ} {c : Config} (htol : 0 < tol) (hw : tol < c.wfInt) (hs : tol < c.syncMax) {s0 files : List (ℕ × ℚ)} {s : St}
    (h : Inv tol c s0 s files) (hc : c.endTime - s.sim > tol) :
    ∃ files', Inv tol c s0 (step tol c s) files' ∧ s.sim + tol ≤ (step tol c s).sim := by
  obtain ⟨y1, y2, y3⟩ := h.sync hc
  have hmax : max 0 (c.endTime - s.sim) = c.endTime - s.sim := max_eq_right (by linarith)
  obtain ⟨d, hd⟩ : ∃ d, d = min (c.endTime - s.sim) s.sync := ⟨_, rfl⟩
  have d1 : d ≤ c.endTime - s.sim := hd ▸ min_le_left _ _
  have d2 : d ≤ s.sync := hd ▸ min_le_right _ _
  have d3 : tol ≤ d := by
    rw [hd]
    exact le_min (le_of_lt hc) y1
  have hpt : ∀ n t, (n, t) ∈ files → ∃ k, k ≤ (s.steps ++ [d]).length ∧ t = ((s.steps ++ [d]).take k).sum := by
    intro n t hnt
    obtain ⟨k, k1, k2⟩ := h.point n t hnt
    refine ⟨k, by simp; omega, ?_⟩
    rw [List.take_append_of_le_length k1, k2]
  have hsum : s.sim + d = (s.steps ++ [d]).sum := by simp [h.sim]
  have hpos : ∀ x ∈ s.steps ++ [d], tol ≤ x ∧ x ≤ c.syncMax := by
    intro x hx
    rw [List.mem_append, List.mem_singleton] at hx
    rcases hx with hx | rfl
    · exact h.pos x hx
    · exact ⟨d3, by linarith⟩
  by_cases hwr : s.sim + d + tol > (s.wf + 1) * c.wfInt
  · have e : step tol c s = ⟨s.sim + d, if min (min ((((s.wf + 1 : ℕ) : ℚ) + 1) * c.wfInt - (s.sim + d)) c.syncMax)
          (c.endTime - (s.sim + d)) < tol then c.endTime else min (min ((((s.wf + 1 : ℕ) : ℚ) + 1) * c.wfInt - (s.sim + d)) c.syncMax)
          (c.endTime - (s.sim + d)), s.wf + 1, s.file + 1, s.steps ++ [d], s.files ++ [(s.file, s.sim + d)]⟩ := by
      simp only [step, hmax, ← hd, St.write, if_pos hwr]
    have hn : s.sim + d + tol ≤ ((s.wf : ℚ) + 1 + 1) * c.wfInt := by linarith
    refine ⟨files ++ [(s.file, s.sim + d)], ?_, by rw [e]; simp only; linarith⟩
    rw [e]
    refine ⟨by simp [h.all], by simp [h.num]; omega, by simp [h.wf], hsum, by simp only; linarith, hpos,
      by push_cast; exact hn, ?_, ?_, ?_, ?_⟩
    · intro hc'
      simp only at hc' ⊢
      push_cast
      have : ¬ min (min (((s.wf : ℚ) + 1 + 1) * c.wfInt - (s.sim + d)) c.syncMax) (c.endTime - (s.sim + d)) < tol := by
        rw [not_lt]
        exact le_min (le_min (by linarith) (le_of_lt hs)) (le_of_lt hc')
      rw [if_neg this]
      exact ⟨not_lt.1 this, le_trans (min_le_left _ _) (min_le_right _ _), le_trans (min_le_left _ _) (min_le_left _ _)⟩
    · rw [h.wf] at hwr
      simp only [List.length_append, List.length_singleton]
      push_cast
      linarith
    · intro i n t hi
      by_cases hlt : i < files.length
      · rw [List.getElem?_append_left hlt] at hi
        exact h.file i n t hi
      · have hlen := (List.getElem?_eq_some_iff.1 hi).1
        simp only [List.length_append, List.length_singleton] at hlen
        have : i = files.length := by omega
        subst this
        rw [List.getElem?_append_right (le_refl _)] at hi
        simp only [Nat.sub_self, List.getElem?_cons_zero, Option.some.injEq, Prod.mk.injEq] at hi
        obtain ⟨rfl, rfl⟩ := hi
        rw [h.wf] at hwr y3
        exact ⟨h.num, by linarith, by linarith⟩
    · intro n t hnt
      rw [List.mem_append, List.mem_singleton] at hnt
      rcases hnt with hnt | hnt
      · exact hpt n t hnt
      · cases hnt
        exact ⟨(s.steps ++ [d]).length, le_refl _, by rw [List.take_length]; exact hsum⟩
  · have e : step tol c s = ⟨s.sim + d, if min (min (((s.wf : ℚ) + 1) * c.wfInt - (s.sim + d)) c.syncMax)
          (c.endTime - (s.sim + d)) < tol then c.endTime else min (min (((s.wf : ℚ) + 1) * c.wfInt - (s.sim + d)) c.syncMax)
          (c.endTime - (s.sim + d)), s.wf, s.file, s.steps ++ [d], s.files⟩ := by
      simp only [step, hmax, ← hd, if_neg hwr]
    have hn : s.sim + d + tol ≤ ((s.wf : ℚ) + 1) * c.wfInt := not_lt.1 hwr
    refine ⟨files, ?_, by rw [e]; simp only; linarith⟩
    rw [e]
    refine ⟨h.all, h.num, h.wf, hsum, by simp only; linarith, hpos, hn, ?_, ?_, h.file, hpt⟩
    · intro hc'
      simp only at hc' ⊢
      have : ¬ min (min (((s.wf : ℚ) + 1) * c.wfInt - (s.sim + d)) c.syncMax) (c.endTime - (s.sim + d)) < tol := by
        rw [not_lt]
        exact le_min (le_min (by linarith) (le_of_lt hs)) (le_of_lt hc')
      rw [if_neg this]
      exact ⟨not_lt.1 this, le_trans (min_le_left _ _) (min_le_right _ _), le_trans (min_le_left _ _) (min_le_left _ _)⟩
    · have := h.last
      simp only
      linarith

theorem loop_inv {tol : ℚ} {c : Config} (htol : 0 < tol) (hw : tol < c.wfInt) (hs : tol < c.syncMax) {s0 : List (ℕ × ℚ)} (fuel : ℕ) :
    ∀ {s : St} {files : List (ℕ × ℚ)}, Inv tol c s0 s files → c.endTime - s.sim ≤ (fuel + 1) * tol →
      ∃ s' files', loop tol c fuel s = some s' ∧ Inv tol c s0 s' files' ∧ c.endTime - s'.sim ≤ tol := by
  induction fuel with
  | zero =>
    intro s files h hf
    refine ⟨s, files, ?_, h, by simpa using hf⟩
    rw [loop, if_neg (not_lt.2 (by simpa using hf))]
  | succ n ih =>
    intro s files h hf
    rw [loop]
    by_cases hc : c.endTime - s.sim > tol
    · rw [if_pos hc]
      obtain ⟨files', i1, i2⟩ := inv_step htol hw hs h hc
      refine ih i1 ?_
      push_cast at hf
      linarith
    · rw [if_neg hc]
      exact ⟨s, files, rfl, h, not_lt.1 hc⟩

/-- C86: with settings accepted by the library, the loop over synchronisation points ends (after at most `endTime / tol` calls of
`simulate`), the calls cover the requested time, and the files written after the setup are the wave fields at the multiples of
the interval. The setup is written as file 0 exactly if the interval is smaller than the run. -/
theorem C86_run {tol big endTime : ℚ} (htol : 0 < tol) (hend : 0 ≤ endTime) {wf sync : Option ℚ} {c : Config}
    (hc : config tol big endTime wf sync = some c) :
    c.endTime = endTime ∧ c.wfInt = wf.getD big ∧ (∀ m, sync = some m → c.syncMax = m) ∧
    ∃ s files, (∃ n : ℕ, n * tol ≤ endTime ∧ loop tol c n (start tol c) = some s) ∧
      s.files = (if c.wfInt < endTime then [(0, 0)] else []) ++ files ∧
      Complete tol c (if c.wfInt < endTime then 1 else 0) s.steps files := by
  obtain ⟨c1, c2, c3, c4, c5⟩ : c.endTime = endTime ∧ c.wfInt = wf.getD big ∧ (∀ m, sync = some m → c.syncMax = m) ∧
      tol < c.wfInt ∧ tol < c.syncMax := by
    unfold config at hc
    by_cases h1 : wf.getD big > tol
    · cases sync with
      | some m =>
        by_cases h2 : m > tol
        · simp only [check, decide_eq_true h1, decide_eq_true h2, if_true, Option.pure_def, Option.bind_eq_bind, Option.bind_some,
            Option.some.injEq] at hc
          subst hc
          refine ⟨rfl, rfl, ?_, h1, h2⟩
          rintro _ ⟨⟩
          rfl
        · simp [check, h2] at hc
      | none =>
        by_cases h2 : min (5 / 100 * endTime) (wf.getD big) > tol
        · simp only [check, decide_eq_true h1, decide_eq_true h2, if_true, Option.pure_def, Option.bind_eq_bind, Option.bind_some,
            Option.some.injEq] at hc
          subst hc
          exact ⟨rfl, rfl, fun m hm => by simp at hm, h1, h2⟩
        · simp only [check, decide_eq_true h1, decide_eq_false h2, if_true, Option.bind_eq_bind, Option.bind_some] at hc
          simp at hc
    · simp [check, h1] at hc
  refine ⟨c1, c2, c3, ?_⟩
  have hm : tol < min c.wfInt c.syncMax := lt_min c4 c5
  have hsync : (if |min c.wfInt c.syncMax| < tol then c.endTime else min c.wfInt c.syncMax) = min c.wfInt c.syncMax := by
    rw [if_neg]
    rw [not_lt]
    exact le_trans (le_of_lt hm) (le_abs_self _)
  have h0 : Inv tol c (if c.wfInt < endTime then [(0, 0)] else []) (start tol c) [] := by
    unfold start
    simp only [hsync]
    rw [c1]
    by_cases hlt : c.wfInt < endTime
    · simp only [if_pos hlt, St.write]
      refine ⟨by simp, by simp, rfl, by simp, by simpa [c1] using hend, by simp, by simpa using le_of_lt c4, ?_, by simpa using htol, by simp, by simp⟩
      intro _
      refine ⟨le_of_lt hm, min_le_right c.wfInt c.syncMax, ?_⟩
      have := min_le_left c.wfInt c.syncMax
      simp only [Nat.cast_zero]
      linarith
    · simp only [if_neg hlt]
      refine ⟨by simp, by simp, rfl, by simp, by simpa [c1] using hend, by simp, by simpa using le_of_lt c4, ?_, by simpa using htol, by simp, by simp⟩
      intro _
      refine ⟨le_of_lt hm, min_le_right c.wfInt c.syncMax, ?_⟩
      have := min_le_left c.wfInt c.syncMax
      simp only [Nat.cast_zero]
      linarith
  have hsim : (start tol c).sim = 0 := by
    unfold start
    simp only
    split <;> rfl
  have hfl : endTime ≤ ((⌊endTime / tol⌋₊ : ℕ) + 1) * tol := by
    have := Nat.lt_floor_add_one (endTime / tol)
    rw [div_lt_iff₀ htol] at this
    exact le_of_lt this
  have hfl' : (⌊endTime / tol⌋₊ : ℕ) * tol ≤ endTime := by
    have := Nat.floor_le (div_nonneg hend (le_of_lt htol))
    rwa [le_div_iff₀ htol] at this
  obtain ⟨s, files, k1, k2, k3⟩ := loop_inv htol c4 c5 ⌊endTime / tol⌋₊ h0 (by rw [hsim, c1]; simpa using hfl)
  refine ⟨s, files, ⟨_, hfl', k1⟩, k2.all, ?_⟩
  have hlen : (if c.wfInt < endTime then [((0 : ℕ), (0 : ℚ))] else []).length = if c.wfInt < endTime then 1 else 0 := by
    split <;> rfl
  refine ⟨fun d hd => ⟨lt_of_lt_of_le htol (k2.pos d hd).1, (k2.pos d hd).2⟩, by rw [← k2.sim]; exact k2.simle,
    by rw [← k2.sim]; exact k3, by rw [← k2.sim]; exact ⟨k2.last, by rw [← k2.wf]; exact k2.next⟩, ?_, ?_⟩
  · rw [← hlen]
    exact k2.file
  · intro n t hnt
    obtain ⟨k, -, hk⟩ := k2.point n t hnt
    exact ⟨k, hk⟩

/-- C86: the number of wave fields after the setup is the number of multiples of the interval in the run, except within the tolerance of
its end; in particular, none is skipped and none is written twice. -/
theorem C86_one_per_interval {tol : ℚ} (htol : 0 < tol) {c : Config} {first : ℕ} {steps : List ℚ} {files : List (ℕ × ℚ)}
    (h : Complete tol c first steps files) (hw : 0 < c.wfInt) (k : ℕ) (hk : 1 ≤ k) :
    (k * c.wfInt ≤ c.endTime - tol → ∃ t, files[k - 1]? = some (first + (k - 1), t) ∧ t ≤ k * c.wfInt ∧ k * c.wfInt - t < tol) ∧
    (c.endTime + tol ≤ k * c.wfInt → files[k - 1]? = none) := by
  obtain ⟨h1, h2⟩ := h.count
  have hle := h.le
  have hend := h.end_le
  constructor
  · intro hkt
    have hlt : k - 1 < files.length := by
      by_contra hcon
      have : (files.length : ℚ) + 1 ≤ k := by
        have : files.length + 1 ≤ k := by omega
        exact_mod_cast this
      have hmul : ((files.length : ℚ) + 1) * c.wfInt ≤ k * c.wfInt := mul_le_mul_of_nonneg_right this (le_of_lt hw)
      linarith
    obtain ⟨f1, f2, f3⟩ := h.file (k - 1) files[k - 1].1 files[k - 1].2 (List.getElem?_eq_getElem hlt)
    have hk' : (((k - 1 : ℕ) : ℚ) + 1) = k := by
      have : k - 1 + 1 = k := by omega
      exact_mod_cast this
    rw [hk'] at f2 f3
    exact ⟨files[k - 1].2, by rw [List.getElem?_eq_getElem hlt, ← f1], f2, f3⟩
  · intro hkt
    rw [List.getElem?_eq_none_iff]
    by_contra hcon
    have : (k : ℚ) ≤ files.length := by
      have : k ≤ files.length := by omega
      exact_mod_cast this
    have hmul : (k : ℚ) * c.wfInt ≤ files.length * c.wfInt := mul_le_mul_of_nonneg_right this (le_of_lt hw)
    linarith

/-! ### Time groups -/

theorem reach_steps {big : ℚ} {nTgs tg : ℕ} (htg : tg < nTgs) (h16 : nTgs ≤ 16) {dtFun : ℚ} (hd : 0 < dtFun) (steps : List ℚ) :
    (∀ d ∈ steps, 0 < d) → ∃ g, Reach big nTgs tg steps.sum g := by
  induction steps using List.reverseRecOn with
  | nil => exact fun _ => ⟨_, Reach.init⟩
  | append_singleton l d ih =>
    intro h
    obtain ⟨g, hg⟩ := ih (fun x hx => h x (by simp [hx]))
    have hdpos : 0 < d := h d (by simp)
    obtain ⟨n, g', -, hr, -⟩ := C01_interval_covered htg h16 hg dtFun d hd (le_of_lt hdpos)
    refine ⟨g', ?_⟩
    rw [List.sum_append, List.sum_singleton]
    exact Reach.sim dtFun d hg hd (le_of_lt hdpos) hr

/-- C86 and C01: after the calls of `simulate` of a complete run, and after those before each wave field, every time group can only be
in states in which it has covered exactly the sum of the calls: the end of the run, and the time of the wave field. -/
theorem C86_groups {tol : ℚ} {c : Config} {first : ℕ} {steps : List ℚ} {files : List (ℕ × ℚ)} (h : Complete tol c first steps files)
    {big : ℚ} {nTgs tg : ℕ} (htg : tg < nTgs) (h16 : nTgs ≤ 16) {dtFun : ℚ} (hd : 0 < dtFun) :
    (∃ g, Reach big nTgs tg steps.sum g) ∧ (∀ g, Reach big nTgs tg steps.sum g → c.endTime - tol ≤ g.covSimTime ∧ g.covSimTime ≤ c.endTime) ∧
    ∀ (i n : ℕ) (t : ℚ), files[i]? = some (n, t) → (∃ g, Reach big nTgs tg t g) ∧
      ∀ g, Reach big nTgs tg t g → g.covSimTime ≤ (i + 1) * c.wfInt ∧ (i + 1) * c.wfInt - g.covSimTime < tol := by
  refine ⟨reach_steps htg h16 hd steps (fun d hd' => (h.pos d hd').1), fun g hg => ?_, fun i n t hi => ⟨?_, fun g hg => ?_⟩⟩
  · rw [C01_history_covered htg h16 hg]
    exact ⟨by linarith [h.end_le], h.le⟩
  · obtain ⟨k, rfl⟩ := h.point n t (List.mem_of_getElem? hi)
    exact reach_steps htg h16 hd _ (fun d hd' => (h.pos d (List.mem_of_mem_take hd')).1)
  · rw [C01_history_covered htg h16 hg]
    exact (h.file i n t hi).2

/-! ### Names of the files -/

/-- "File `k` holds the wave field at time `k * wfInt`" does not hold for an interval which equals the duration of the run: the setup is
not written, and file 0 holds the state at the end. -/
theorem C86_file_number_refuted : ∃ (c : Config) (s : St), config 1 1000 100 (some 100) none = some c ∧
    loop 1 c 100 (start 1 c) = some s ∧ s.files = [(0, 100)] := by
  refine ⟨⟨100, 100, 5⟩, ?_⟩
  have h : (loop 1 ⟨100, 100, 5⟩ 100 (start 1 ⟨100, 100, 5⟩)).map (·.files) = some [(0, 100)] := by decide +kernel
  cases e : loop 1 ⟨100, 100, 5⟩ 100 (start 1 ⟨100, 100, 5⟩) with
  | none => rw [e] at h; simp at h
  | some s =>
    rw [e] at h
    exact ⟨s, by decide +kernel, rfl, by simpa using h⟩

/-! ### Examples -/

/-- Default settings for a run of 10 seconds with a wave field every 3 seconds are accepted. -/
example : config (1 / 1000000000) 1000000 10 (some 3) none = some ⟨10, 3, 1 / 2⟩ := by decide +kernel

/-- Maximum interval of 2: synchronisation points at 2, 3, 5, 6, 8, 9 and 10, wave fields 0 to 3. -/
example : (loop (1 / 1000000000) ⟨10, 3, 2⟩ 100 (start (1 / 1000000000) ⟨10, 3, 2⟩)).map (fun s => (s.steps, s.files)) =
    some ([2, 1, 2, 1, 2, 1, 1], [(0, 0), (1, 3), (2, 6), (3, 9)]) := by decide +kernel

/-- A maximum interval which misses a multiple of the wave field's interval by less than the tolerance: the wave field is written early,
and the error does not accumulate. -/
example : (loop (1 / 100) ⟨7, 3, 2999 / 1000⟩ 1000 (start (1 / 100) ⟨7, 3, 2999 / 1000⟩)).map (fun s => (s.steps, s.files)) =
    some ([2999 / 1000, 2999 / 1000, 1002 / 1000], [(0, 0), (1, 2999 / 1000), (2, 5998 / 1000)]) := by decide +kernel

end Edge.Run
