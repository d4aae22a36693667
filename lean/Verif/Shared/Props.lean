import Verif.Shared.Table
import Verif.Shared.Numa
/-!
Properties C11–C14: work queue and load balancing of the shared memory parallelisation.

Vocabulary (Verif/Shared/Spec.lean): `Reach A sep n regs st s` — some sequence of successful calls after `init` with
`n` threads led to `s`; `regs` are the registrations in call order, `st id w` the status last given to worker `w` for
region `id`. `Urgent regs k k'` — registration `k` has the higher priority, or the same and was made earlier.
`Sh.pkgOf s id w` — the package of worker `w` in region `id`. `A` holds the two thresholds and the (arbitrary) rounding
of the floating point arithmetic.
-/
namespace Edge.Shared
open Edge.Sparse

variable {A : Arith} {sep : Bool} {n : Nat} {regs : List Reg} {st : Nat → Nat → Status} {s : Sh}

/-- Arithmetic used in the examples: thresholds of the code, exact floor. -/
def demoA : Arith := { zeroTime := 1 / 1000, maxImb := 1 / 20, big := 1000000000000, trunc := fun _ x => x.floor.toNat }

/-- Three regions; the second one is the most urgent, the first and third one have equal priority. -/
def demoRegs : List Reg :=
  [⟨0, 0, 10, 0, 5, 1, [1], [1, 0, 1, 1, 0, 1, 1]⟩, ⟨0, 1, 11, 5, 2, 3, [1], [1, 0, 1, 1, 0, 1, 1]⟩,
   ⟨1, 0, 12, 7, 9, 1, [], []⟩]

/-- The history used in the examples: three threads of which two are workers, the registrations, regions 10 and 12
ready, a load balancing with measured times. -/
def demo : Option Sh := do
  let s ← init true 3
  let s ← forN 3 (fun i s => do let r ← rd demoRegs i; r.call demoA 20 s) s
  let s ← s.setStatusAll .RDY 10
  let s ← s.setStatusAll .RDY 12
  s.balance demoA 20 [[0, 0], [3, 1], [2, 7]]

example : demo.isSome = true := by decide +kernel

theorem demo_reach : ∃ s, demo = some s ∧ s.nWrks = 2 ∧ s.worker 2 = 1 ∧
    Reach demoA true 3 demoRegs
      (fun i _ => if i = 12 then .RDY else if i = 10 then .RDY else if i = 12 then .WAI else if i = 11 then .WAI
        else if i = 10 then .WAI else .WAI) s := by
  have hs : demo.isSome = true := by decide +kernel
  obtain ⟨s, hs⟩ := Option.isSome_iff_exists.1 hs
  refine ⟨s, hs, ?_, ?_, ?_⟩
  · have : demo.map (·.nWrks) = some 2 := by decide +kernel
    rw [hs] at this; simpa using this
  · have : demo.map (·.worker 2) = some 1 := by decide +kernel
    rw [hs] at this; simpa using this
  · unfold demo at hs
    simp only [forN, Option.bind_eq_bind, Option.bind_eq_some_iff, Option.bind_some] at hs
    obtain ⟨s0, h0, s3, ⟨s2, ⟨s1, ⟨r1, hr1, h1⟩, r2, hr2, h2⟩, r3, hr3, h3⟩, s4, h4, s5, h5, h6⟩ := hs
    cases hr1; cases hr2; cases hr3
    have e1 := Reach.reg 20 _ (Reach.init (A := demoA) h0) (by right; decide) (by simp) h1
    have e2 := Reach.reg 20 _ e1 (by right; decide) (by decide) h2
    have e3 := Reach.reg 20 _ e2 (by left; rfl) (by decide) h3
    exact Reach.balance 20 _ (Reach.setAll .RDY 12 (Reach.setAll .RDY 10 e3 h4) h5) h6

/-! ### C11 -/

/-- **C11** (workers): the threads that are workers are numbered bijectively by `0, …, nWrks-1`; a thread that is not a
worker is the separate scheduling thread 0. -/
theorem C11_worker_ids (h : init sep n = some s) :
    (∀ w, w < s.nWrks → ∃ t, t < n ∧ s.worker t = w ∧ ∀ t', t' < n → s.worker t' = w → t' = t) ∧
    (∀ t, t < n → s.isWrk t = true → ∃ w, w < s.nWrks ∧ s.worker t = w) ∧
    (∀ t, t < n → s.isWrk t = false → t = 0) := by
  obtain ⟨h1, _, _, h4⟩ := init_nW h
  unfold Sh.isWrk Sh.worker
  rcases h4 with ⟨h4, h5⟩ | ⟨h4, h5⟩
  · rw [h5]
    refine ⟨fun w hw => ⟨w, by omega, by omega, by intro t' _ h; omega⟩, ?_, ?_⟩
    · intro t ht _; exact ⟨t, by omega, by omega⟩
    · intro t ht hd; simp only [decide_eq_false_iff_not] at hd; omega
  · rw [h5]
    refine ⟨fun w hw => ⟨w + 1, by omega, by omega, by intro t' _ h; omega⟩, ?_, ?_⟩
    · intro t ht hd; simp only [decide_eq_true_eq] at hd; exact ⟨t - 1, by omega, by omega⟩
    · intro t ht hd; simp only [decide_eq_false_iff_not] at hd; omega

example : ∃ s, init true 3 = some s := ⟨_, rfl⟩

theorem scan_ok {nW w : Nat} (hw : w < nW) : ∀ (tab : List (Nat × Reg)) (lb : List Rgn), lb.length = tab.length →
    (∀ l, l ∈ lb → l.pkgs.length = nW) →
    (scan w (tab.map (fun x => row nW st x.2)) lb = some none ∧ ∀ x, x ∈ tab → st x.2.id w ≠ .RDY) ∨
    ∃ (i : Nat) (x : Nat × Reg) (l : Rgn) (p : Pkg), tab[i]? = some x ∧ lb[i]? = some l ∧ l.pkgs[w]? = some p ∧
      st x.2.id w = .RDY ∧
      (∀ (j : Nat) (y : Nat × Reg), j < i → tab[j]? = some y → st y.2.id w ≠ .RDY) ∧
      scan w (tab.map (fun x => row nW st x.2)) lb =
        some (some ⟨x.2.tg, x.2.step, x.2.id, p.first, p.size, p.firstSp⟩)
  | [], lb, _, _ => by simp [scan]
  | a :: tab, [], h, _ => by simp at h
  | a :: tab, l :: lb, h, hp => by
    have hst : rd (row nW st a.2).status w = some (st a.2.id w) := by simp [rd, row, hw]
    simp only [List.map_cons, scan, hst, Option.bind_eq_bind, Option.bind_some]
    by_cases hr : st a.2.id w = .RDY
    · right
      have hwl : w < l.pkgs.length := by rw [hp l List.mem_cons_self]; exact hw
      refine ⟨0, a, l, l.pkgs[w], rfl, rfl, by simp [hwl], hr, by intro j y hj; omega, ?_⟩
      simp [hr, rd, hwl, row]
    · simp only [hr, if_false, List.drop_succ_cons, List.drop_zero]
      rcases scan_ok hw tab lb (by simpa using h) (fun l' hl' => hp l' (List.mem_cons_of_mem _ hl')) with
        ⟨h1, h2⟩ | ⟨i, x, l', p, e1, e2, e3, e4, e5, e6⟩
      · left
        refine ⟨h1, ?_⟩
        intro x hx
        rcases List.mem_cons.1 hx with rfl | hx
        · exact hr
        · exact h2 x hx
      · right
        refine ⟨i + 1, x, l', p, by simpa using e1, by simpa using e2, e3, e4, ?_, e6⟩
        intro j y hj hy
        cases j with
        | zero => simp at hy; subst hy; exact hr
        | succ j => rw [List.getElem?_cons_succ] at hy; exact e5 j y (by omega) hy

theorem inv_find {tab : List (Nat × Reg)} (h : Inv sep n regs st s tab) {i : Nat} {x : Nat × Reg}
    (hx : tab[i]? = some x) : findRgn x.2.id s.rgns = some i := by
  refine findRgn_ok (r := row s.nWrks st x.2) (rgns_pairwise h) ?_ rfl
  rw [h.rgns, List.getElem?_map, hx]; rfl

theorem inv_pkgOf {tab : List (Nat × Reg)} (h : Inv sep n regs st s tab) {i : Nat} {x : Nat × Reg} {l : Rgn}
    (hx : tab[i]? = some x) (hl : s.lb[i]? = some l) (w : Nat) : s.pkgOf x.2.id w = l.pkgs[w]? := by
  unfold Sh.pkgOf
  simp [inv_find h hx, rd, hl]

/-- **C11**: a worker that asks for work gets nothing exactly if no registered region is ready for it; otherwise it
gets a registered region that is ready for it, described by the values of its registration and by the worker's package
of this very region, and every other region that is ready for the worker is less urgent (lower priority, or equal
priority and registered later). The call never fails. -/
theorem C11_most_urgent (hz : 0 < A.zeroTime) (h : Reach A sep n regs st s) {t w : Nat} (hw : w < s.nWrks)
    (ht : s.worker t = w) :
    (s.getWrkTd t = some none ∧ ∀ r, r ∈ regs → st r.id w ≠ .RDY) ∨
    ∃ k r p, regs[k]? = some r ∧ st r.id w = .RDY ∧ s.pkgOf r.id w = some p ∧
      s.getWrkTd t = some (some ⟨r.tg, r.step, r.id, p.first, p.size, p.firstSp⟩) ∧
      ∀ k' r', regs[k']? = some r' → st r'.id w = .RDY → k' = k ∨ Urgent regs k k' := by
  obtain ⟨tab, hi⟩ := reach_inv hz h
  have hget : s.getWrkTd t = scan w (tab.map (fun x => row s.nWrks st x.2)) s.lb := by
    unfold Sh.getWrkTd
    rw [ht, ← hi.rgns]
    simp
  rw [hget]
  rcases scan_ok (st := st) hw tab s.lb hi.len (by
      intro l hl
      obtain ⟨i, hil, rfl⟩ := List.getElem_of_mem hl
      have hit : i < tab.length := by rw [← hi.len]; exact hil
      exact (hi.lb i _ _ (List.getElem?_eq_getElem hit) (List.getElem?_eq_getElem hil)).2.2.len) with
    ⟨h1, h2⟩ | ⟨i, x, l, p, e1, e2, e3, e4, e5, e6⟩
  · left
    refine ⟨h1, ?_⟩
    intro r hr
    obtain ⟨k, hk, rfl⟩ := List.getElem_of_mem hr
    exact h2 (k, regs[k]) ((hi.mem k _).2 (List.getElem?_eq_getElem hk))
  · right
    have hx := (hi.mem x.1 x.2).1 (List.mem_of_getElem? e1)
    refine ⟨x.1, x.2, p, hx, e4, by rw [inv_pkgOf hi e1 e2]; exact e3, e6, ?_⟩
    intro k' r' hk' hr'
    obtain ⟨j, hj, hjx⟩ := List.getElem_of_mem ((hi.mem k' r').2 hk')
    have hil := (List.getElem?_eq_some_iff.1 e1)
    rcases Nat.lt_trichotomy j i with hlt | heq | hgt
    · exact absurd hr' (e5 j (k', r') hlt (by rw [List.getElem?_eq_getElem hj, hjx]))
    · left
      subst heq
      have := hil.2
      rw [hjx] at this
      rw [← this]
    · right
      have := List.pairwise_iff_getElem.1 hi.sorted i j hil.1 hj hgt
      rw [hil.2, hjx] at this
      exact ⟨x.2, r', hx, hk', this⟩

/-- The hypotheses are met: worker 1 (thread 2) is served region 10, which is ready and was registered before the
equally urgent region 12; its package consists of the entities 2, 3 and 4, the first sparse id of type 1 is 1. -/
example : ∃ s, demo = some s ∧ s.getWrkTd 2 = some (some ⟨0, 0, 10, 2, 3, [1]⟩) ∧
    ∃ st, Reach demoA true 3 demoRegs st s ∧ s.worker 2 = (1 : Nat) ∧ 1 < s.nWrks := by
  obtain ⟨s, h1, h2, h3, h4⟩ := demo_reach
  refine ⟨s, h1, ?_, _, h4, h3, by omega⟩
  have : demo.map (·.getWrkTd 2) = some (some (some ⟨0, 0, 10, 2, 3, [1]⟩)) := by decide +kernel
  rw [h1] at this; simpa using this

/-- **C11** (status queries): the answer to "do all workers have status `x` for the region" is the conjunction over all
workers of the statuses last given. -/
theorem C11_status (hz : 0 < A.zeroTime) (h : Reach A sep n regs st s) {r : Reg} (hr : r ∈ regs) (x : Status) :
    ∃ b, s.getStatusAll x r.id = some b ∧ (b = true ↔ ∀ w, w < s.nWrks → st r.id w = x) := by
  obtain ⟨tab, hi⟩ := reach_inv hz h
  obtain ⟨k, hk, rfl⟩ := List.getElem_of_mem hr
  obtain ⟨i, hil, hix⟩ := List.getElem_of_mem ((hi.mem k _).2 (List.getElem?_eq_getElem hk))
  have hx : tab[i]? = some (k, regs[k]) := by rw [List.getElem?_eq_getElem hil, hix]
  have hrow : s.rgns[i]? = some (row s.nWrks st regs[k]) := by rw [hi.rgns, List.getElem?_map, hx]; rfl
  have hf := inv_find hi hx
  simp only at hf
  refine ⟨(row s.nWrks st regs[k]).status.all (· = x), ?_, ?_⟩
  · unfold Sh.getStatusAll
    simp [hf, rd, hrow]
  · simp [row]

/-- **C11** (work is released again only when all workers are done): releasing a region succeeds exactly if no worker
still has the region ready or in progress. -/
theorem C11_release (hz : 0 < A.zeroTime) (h : Reach A sep n regs st s) {r : Reg} (hr : r ∈ regs) :
    (∃ s', s.setStatusAll .RDY r.id = some s') ↔ ∀ w, w < s.nWrks → st r.id w = .FIN ∨ st r.id w = .WAI := by
  obtain ⟨tab, hi⟩ := reach_inv hz h
  obtain ⟨k, hk, rfl⟩ := List.getElem_of_mem hr
  obtain ⟨i, hil, hix⟩ := List.getElem_of_mem ((hi.mem k _).2 (List.getElem?_eq_getElem hk))
  have hx : tab[i]? = some (k, regs[k]) := by rw [List.getElem?_eq_getElem hil, hix]
  have hrow : s.rgns[i]? = some (row s.nWrks st regs[k]) := by rw [hi.rgns, List.getElem?_map, hx]; rfl
  have hf := inv_find hi hx
  simp only at hf
  have hlt : i < s.rgns.length := (List.getElem?_eq_some_iff.1 hrow).1
  unfold Sh.setStatusAll
  simp only [hf, rd, hrow, Option.bind_eq_bind, Option.bind_some, wr_some hlt]
  have hl : ((row s.nWrks st regs[k]).status.length == s.nWrks) = true := by simp [row]
  simp only [hl, decide_true, check_true, Option.bind_some]
  constructor
  · rintro ⟨s', hs'⟩
    rw [Option.bind_eq_some_iff] at hs'
    obtain ⟨_, hc, _⟩ := hs'
    have := check_some.1 hc
    simpa [row] using this
  · intro hall
    have : ((row s.nWrks st regs[k]).status.all (fun x => decide (x = .FIN ∨ x = .WAI))) = true := by
      simpa [row] using hall
    rw [this]
    exact ⟨_, rfl⟩

/-- **C11** (a worker only moves its own status, ready → in progress → finished). -/
theorem C11_worker_moves (hz : 0 < A.zeroTime) (h : Reach A sep n regs st s) {r : Reg} (hr : r ∈ regs) {t w : Nat}
    (hw : w < s.nWrks) (ht : s.worker t = w) (x : Status) :
    (∃ s', s.setStatusTd t x r.id = some s') ↔
      ((x = .IPR ∧ st r.id w = .RDY) ∨ (x = .FIN ∧ st r.id w = .IPR)) := by
  obtain ⟨tab, hi⟩ := reach_inv hz h
  obtain ⟨k, hk, rfl⟩ := List.getElem_of_mem hr
  obtain ⟨i, hil, hix⟩ := List.getElem_of_mem ((hi.mem k _).2 (List.getElem?_eq_getElem hk))
  have hx : tab[i]? = some (k, regs[k]) := by rw [List.getElem?_eq_getElem hil, hix]
  have hrow : s.rgns[i]? = some (row s.nWrks st regs[k]) := by rw [hi.rgns, List.getElem?_map, hx]; rfl
  have hf := inv_find hi hx
  simp only at hf
  have hlt : i < s.rgns.length := (List.getElem?_eq_some_iff.1 hrow).1
  have hst : (row s.nWrks st regs[k]).status[w]? = some (st regs[k].id w) := by simp [row, hw]
  have hwl : w < (row s.nWrks st regs[k]).status.length := by simp [row, hw]
  unfold Sh.setStatusTd
  simp only [ht, hf, rd, hrow, Option.bind_eq_bind, Option.bind_some, wr_some hlt, Int.toNat_natCast, hst,
    wr_some hwl]
  have : decide ((w : Int) ≥ 0) = true := by simp
  simp only [this, check_true, Option.bind_some]
  constructor
  · rintro ⟨s', hs'⟩
    rw [Option.bind_eq_some_iff] at hs'
    obtain ⟨_, hc, _⟩ := hs'
    simpa using check_some.1 hc
  · intro hall
    have : decide ((x = .IPR ∧ st regs[k].id w = .RDY) ∨ (x = .FIN ∧ st regs[k].id w = .IPR)) = true := by
      simpa using hall
    rw [this]
    exact ⟨_, rfl⟩

example : ∃ s s' s'', demo = some s ∧ s.setStatusTd 2 .IPR 10 = some s' ∧ s'.setStatusTd 2 .FIN 10 = some s'' ∧
    s'.setStatusTd 2 .IPR 10 = none ∧ s''.getStatusAll .FIN 10 = some false ∧ s''.setStatusAll .RDY 10 = none := by
  obtain ⟨s, h1, -⟩ := demo_reach
  have : (do let s ← demo; let s' ← s.setStatusTd 2 .IPR 10; let s'' ← s'.setStatusTd 2 .FIN 10
             check (s'.setStatusTd 2 .IPR 10 = none ∧ s''.getStatusAll .FIN 10 = some false ∧
               s''.setStatusAll .RDY 10 = none)).isSome = true := by decide +kernel
  rw [h1] at this
  obtain ⟨u, this⟩ := Option.isSome_iff_exists.1 this
  simp only [Option.bind_eq_bind, Option.bind_some, Option.bind_eq_some_iff] at this
  obtain ⟨s', e1, s'', e2, e3⟩ := this
  have := check_some.1 e3
  exact ⟨s, s', s'', h1, e1, e2, by simpa using this⟩

/-! ### C12 -/

/-- **C12**: in the static split of `n` entries over `nW` workers, worker `w` gets a contiguous block; the first block
starts at 0, each further block where the previous one ends, the last one ends at `n`; block sizes differ by at most
one; every entry is in exactly one block. -/
theorem C12_static_split {nW : Nat} (h : 0 < nW) (n : Nat) :
    ∃ start cnt : Nat → Nat, (∀ w, numaBlock nW n w = some (start w, cnt w)) ∧
      start 0 = 0 ∧ (∀ w, start (w + 1) = start w + cnt w) ∧ start nW = n ∧
      (∀ w w', w < nW → w' < nW → cnt w ≤ cnt w' + 1) ∧
      ∀ e, e < n → ∃ w, w < nW ∧ (start w ≤ e ∧ e < start w + cnt w) ∧
        ∀ w', w' < nW → start w' ≤ e ∧ e < start w' + cnt w' → w' = w := by
  have hm := bs_mono nW n
  refine ⟨bs nW n, fun w => bs nW n (w + 1) - bs nW n w, numaBlock_eq h n, bs_zero _ _, ?_, bs_end h n, ?_, ?_⟩
  · intro w; have := hm w; simp only; omega
  · intro w w' _ _
    simp only [bs, Nat.mul_add_one]
    generalize n / nW = q
    generalize n % nW = r
    omega
  · intro e he
    rw [← bs_end h n] at he
    obtain ⟨w, a, b, c⟩ := cover (bs nW n) (bs_zero _ _) nW e he
    refine ⟨w, a, ⟨b, by simp only; have := hm w; omega⟩, ?_⟩
    intro w' hw' hin
    have := hm w'
    have := hm w
    simp only at hin
    rcases Nat.lt_trichotomy w w' with hlt | heq | hgt
    · have := bs_mono' nW n (show w + 1 ≤ w' by omega)
      omega
    · exact heq.symm
    · have := bs_mono' nW n (show w' + 1 ≤ w by omega)
      omega

example : (List.range 4).map (numaBlock 4 10) = [some (0, 3), some (3, 3), some (6, 2), some (8, 2)] ∧
    (List.range 3).map (numaBlock 3 2) = [some (0, 1), some (1, 1), some (2, 0)] := by decide

/-- **C12** (first-touch initialisation): for every array with at least `off + n` entries and every order in which the
workers run — any sequence of workers — no access leaves the array, entries outside of `[off, off+n)` are unchanged,
and if every worker runs all entries in `[off, off+n)` are zero. -/
theorem C12_numa_init {nW n off : Nat} (h : 0 < nW) {arr : List Int} (ha : off + n ≤ arr.length) (ws : List Nat)
    (hws : ∀ w, w ∈ ws → w < nW) :
    ∃ arr', runAll (numaInit nW n off) ws arr = some arr' ∧ arr'.length = arr.length ∧
      (∀ i, i < off ∨ off + n ≤ i → arr'[i]? = arr[i]?) ∧
      ((∀ w, w < nW → w ∈ ws) → ∀ i, off ≤ i → i < off + n → arr'[i]? = some 0) := by
  classical
  obtain ⟨a, e, l, g⟩ := runAll_ok (f := numaInit nW n off) (nW := nW) (L := arr.length)
    (Z := fun w i => off + bs nW n w ≤ i ∧ i < off + bs nW n (w + 1)) (by
      intro w b hw hb
      obtain ⟨b', e, l, g⟩ := numaInit_ok (n := n) (off := off) (arr := b) h hw (by omega)
      refine ⟨b', e, by omega, ?_⟩
      intro i; rw [g i]; congr) ws arr hws rfl
  refine ⟨a, e, l, ?_, ?_⟩
  · intro i hi
    rw [g i, if_neg]
    rintro ⟨w, hw, h1, h2⟩
    have := bs_mono' nW n (show w + 1 ≤ nW from hws w hw)
    rw [bs_end h] at this
    omega
  · intro hall i h1 h2
    obtain ⟨w, a1, a2, a3⟩ := cover (bs nW n) (bs_zero _ _) nW (i - off) (by rw [bs_end h]; omega)
    rw [g i, if_pos ⟨w, hall w a1, by omega, by omega⟩]

example : runAll (numaInit 2 3 1) [1, 0] [7, 7, 7, 7, 7] = some [7, 0, 0, 0, 7] := by decide

/-- **C12** (first-touch initialisation by time groups): inner and send entities of every group, `nVas` values each; for
every order in which the workers run, all values of all entities are zero afterwards, everything behind is unchanged,
and every value is written by exactly one worker. -/
theorem C12_numa_init_groups {nW nTgs nVas : Nat} {nIn nSe : List Nat} (h : 0 < nW) (h1 : nIn.length = nTgs)
    (h2 : nSe.length = nTgs) {arr : List Int} (ha : (nIn.sum + nSe.sum) * nVas ≤ arr.length) (ws : List Nat)
    (hws : ∀ w, w ∈ ws → w < nW) :
    ∃ own : Nat → Nat → Prop,
      (∀ i, i < (nIn.sum + nSe.sum) * nVas → ∃ w, w < nW ∧ own w i ∧ ∀ w', w' < nW → own w' i → w' = w) ∧
      (∀ w i, w < nW → own w i → i < (nIn.sum + nSe.sum) * nVas) ∧
      (∀ w, w < nW → ∃ b, numaInitTgs nW nTgs nVas w nIn nSe arr = some b ∧
        ∀ i, (own w i → b[i]? = some 0) ∧ (¬ own w i → b[i]? = arr[i]?)) ∧
      ∃ arr', runAll (fun w => numaInitTgs nW nTgs nVas w nIn nSe) ws arr = some arr' ∧ arr'.length = arr.length ∧
        (∀ i, (nIn.sum + nSe.sum) * nVas ≤ i → arr'[i]? = arr[i]?) ∧
        ((∀ w, w < nW → w ∈ ws) → ∀ i, i < (nIn.sum + nSe.sum) * nVas → arr'[i]? = some 0) := by
  classical
  have hsum : ∀ l : List Nat, (l.map (· * nVas)).sum = l.sum * nVas := by
    intro l
    induction l with
    | nil => simp
    | cons a l ih => simp [ih, Nat.add_mul]
  have hA := hsum nIn
  have hB := hsum nSe
  rw [Nat.add_mul] at ha ⊢
  have hr : ∀ w i, w < nW → mineTgs nW w nVas nIn nSe i → i < nIn.sum * nVas + nSe.sum * nVas := by
    rintro w i hw (hm | hm)
    · have := mine_range h hw hm; omega
    · have := mine_range h hw hm; omega
  have hex : ∀ i, i < nIn.sum * nVas + nSe.sum * nVas → ∃ w, w < nW ∧ mineTgs nW w nVas nIn nSe i ∧
      ∀ w', w' < nW → mineTgs nW w' nVas nIn nSe i → w' = w := by
    intro i hi
    rcases Nat.lt_or_ge i (nIn.map (· * nVas)).sum with hlt | hge
    · obtain ⟨w, a, b, c⟩ := mine_unique (ns := nIn.map (· * nVas)) h 0 i (by omega) (by omega)
      refine ⟨w, a, Or.inl b, ?_⟩
      rintro w' hw' (hm | hm)
      · exact c w' hw' hm
      · have := mine_range h hw' hm; omega
    · obtain ⟨w, a, b, c⟩ := mine_unique (ns := nSe.map (· * nVas)) h (nIn.map (· * nVas)).sum i hge (by omega)
      refine ⟨w, a, Or.inr b, ?_⟩
      rintro w' hw' (hm | hm)
      · have := mine_range h hw' hm; omega
      · exact c w' hw' hm
  obtain ⟨a, e, l, g⟩ := runAll_ok (f := fun w => numaInitTgs nW nTgs nVas w nIn nSe) (nW := nW) (L := arr.length)
    (Z := fun w i => mineTgs nW w nVas nIn nSe i) (by
      intro w b hw hb
      obtain ⟨b', e, l, g⟩ := numaInitTgs_ok (nVas := nVas) (arr := b) h hw h1 h2 (by omega)
      exact ⟨b', e, by omega, g⟩) ws arr hws rfl
  refine ⟨fun w i => mineTgs nW w nVas nIn nSe i, hex, hr, ?_, a, e, l, ?_, ?_⟩
  · intro w hw
    obtain ⟨b', e, l, g⟩ := numaInitTgs_ok (nVas := nVas) (arr := arr) h hw h1 h2 (by omega)
    refine ⟨b', e, ?_⟩
    intro i
    exact ⟨fun ho => by rw [g i, if_pos ho], fun ho => by rw [g i, if_neg ho]⟩
  · intro i hi
    rw [g i, if_neg]
    rintro ⟨w, hw, hm⟩
    have := hr w i (hws w hw) hm
    omega
  · intro hall i hi
    obtain ⟨w, a1, a2, _⟩ := hex i hi
    rw [g i, if_pos ⟨w, hall w a1, a2⟩]

example : runAll (fun w => numaInitTgs 2 2 1 w [2, 1] [1, 0]) [0, 1] [7, 7, 7, 7, 7] = some [0, 0, 0, 0, 7] := by decide

/-- **C12** (initial split of a work region): right after its registration the packages of a region differ in size by
at most one entity, provided that the rounding of the sizes is the same for equal operands. -/
theorem C12_initial_packages (hz : 0 < A.zeroTime) (hA : ∀ w w' x, A.trunc w x = A.trunc w' x)
    (h : Reach A sep n regs st s) {r : Reg} (hw : r.Wf) (hid : ∀ q, q ∈ regs → q.id ≠ r.id) {fuel : Nat} {s' : Sh}
    (hc : r.call A fuel s = some s') {w w' : Nat} {p p' : Pkg} (hp : s'.pkgOf r.id w = some p)
    (hp' : s'.pkgOf r.id w' = some p') : p.size ≤ p'.size + 1 := by
  obtain ⟨tab, hi⟩ := reach_inv hz h
  have hi' := inv_reg hz hi hw hid hc
  have hpos : findPos r.prio s.rgns ≤ tab.length := by
    have := findPos_le r.prio s.rgns
    rw [hi.rgns] at this ⊢
    simpa using this
  have hx : (insertAt tab (findPos r.prio s.rgns) (regs.length, r))[findPos r.prio s.rgns]? = some (regs.length, r) := by
    rw [insertAt_get _ _ _ hpos]; simp
  unfold Reg.call Sh.regWrkRgn at hc
  obtain ⟨l, hl, l1, l2, l3⟩ := mkRgn_ok s.nWrks hw
  simp only [hl, Option.bind_eq_bind, Option.bind_some, Option.bind_eq_some_iff] at hc
  obtain ⟨_, hck, l', hb, rfl'⟩ := hc
  simp only [Option.pure_def, Option.some.injEq] at rfl'
  subst rfl'
  have hfr := fresh_zero hz hi.nW
  obtain ⟨-, -, hri, hs⟩ := (balance_ok hz hi.nW (by simp) l3 (Or.inr hfr)).2 fuel l' hb
  obtain ⟨t, s1, s2, ht, e1, e2, e3⟩ := hs hfr
  have hlb : (insertAt s.lb (findPos r.prio s.rgns) l')[findPos r.prio s.rgns]? = some l' := by
    rw [insertAt_get _ _ _ (by rw [hi.len]; exact hpos)]; simp
  have k1 := inv_pkgOf hi' hx hlb w
  have k2 := inv_pkgOf hi' hx hlb w'
  simp only at k1 k2
  rw [hp] at k1
  rw [hp'] at k2
  have ht' := throughputs_rep _ _ _ ht
  subst ht'
  rw [rawSizes_rep A hA] at e1
  have hev : Even l.size l.pkgs.length s2 := by
    have h0 : ∀ v, Even l.size l.pkgs.length (List.replicate l.pkgs.length v, (List.replicate l.pkgs.length v).sum) :=
      fun v => Or.inl ⟨v, by rw [List.sum_replicate_nat]⟩
    exact grow_even _ _ _ _ _ (shrink_even _ _ _ _ _ (h0 _) e1) e2
  have m1 : p.size ∈ s2.1 := by
    rw [← e3]; exact List.mem_map_of_mem (List.mem_of_getElem? k1.symm)
  have m2 : p'.size ∈ s2.1 := by
    rw [← e3]; exact List.mem_map_of_mem (List.mem_of_getElem? k2.symm)
  rcases hev with ⟨v, rfl⟩ | ⟨_, h2⟩
  · simp only [List.mem_replicate] at m1 m2
    omega
  · exact h2 _ _ m1 m2

/-! ### C13 -/

/-- **C13**: after any history, the packages of the workers in a registered region are contiguous and ascending, start at
the region's first entity and end with its last one; so every entity of the region is in the package of exactly one
worker and no package contains any other entity. -/
theorem C13_partition (hz : 0 < A.zeroTime) (h : Reach A sep n regs st s) {r : Reg} (hr : r ∈ regs) :
    ∃ pkg : Nat → Pkg, (∀ w, w < s.nWrks → s.pkgOf r.id w = some (pkg w)) ∧
      (pkg 0).first = r.first ∧
      (∀ w, w + 1 < s.nWrks → (pkg (w + 1)).first = (pkg w).first + (pkg w).size) ∧
      (pkg (s.nWrks - 1)).first + (pkg (s.nWrks - 1)).size = r.first + r.size ∧
      (∀ e, r.first ≤ e ∧ e < r.first + r.size ↔
        ∃ w, w < s.nWrks ∧ (pkg w).first ≤ e ∧ e < (pkg w).first + (pkg w).size) ∧
      (∀ e w w', w < s.nWrks → w' < s.nWrks → (pkg w).first ≤ e ∧ e < (pkg w).first + (pkg w).size →
        (pkg w').first ≤ e ∧ e < (pkg w').first + (pkg w').size → w = w') := by
  obtain ⟨tab, hi⟩ := reach_inv hz h
  obtain ⟨k, hk, rfl⟩ := List.getElem_of_mem hr
  obtain ⟨i, hil, hix⟩ := List.getElem_of_mem ((hi.mem k _).2 (List.getElem?_eq_getElem hk))
  have hx : tab[i]? = some (k, regs[k]) := by rw [List.getElem?_eq_getElem hil, hix]
  have hil' : i < s.lb.length := by rw [hi.len]; exact hil
  have hlb : s.lb[i]? = some s.lb[i] := List.getElem?_eq_getElem hil'
  generalize hl : s.lb[i] = l at hlb
  obtain ⟨f1, f2, f3⟩ := hi.lb i _ _ hx hlb
  simp only at f1 f2 f3
  have hlen := f3.len
  have hp := f3.part
  have hnW := hi.nW
  let pkg : Nat → Pkg := fun w => if h : w < l.pkgs.length then l.pkgs[w] else ⟨0, 0, []⟩
  have hpkg : ∀ w (h : w < l.pkgs.length), pkg w = l.pkgs[w] := fun w h => by simp [pkg, h]
  have hfirst : ∀ w (h : w < l.pkgs.length), (pkg w).first = regs[k].first + offs (l.pkgs.map (·.size)) w := by
    intro w hw
    rw [hpkg w hw, hp.1 w hw, f1]
  have hnext : ∀ w (h : w < l.pkgs.length), (pkg w).first + (pkg w).size =
      regs[k].first + offs (l.pkgs.map (·.size)) (w + 1) := by
    intro w hw
    have hw' : w < (l.pkgs.map (·.size)).length := by simpa using hw
    rw [hfirst w hw, hpkg w hw, offs_succ hw']
    simp; omega
  have hend : offs (l.pkgs.map (·.size)) s.nWrks = regs[k].size := by
    have := offs_total (l := l.pkgs.map (·.size))
    rw [hp.2, List.length_map, hlen] at this
    rw [this, f2]
  refine ⟨pkg, ?_, ?_, ?_, ?_, ?_, ?_⟩
  · intro w hw
    have := inv_pkgOf hi hx hlb w
    simp only at this
    rw [this, hpkg w (by omega), List.getElem?_eq_getElem]
  · rw [hfirst 0 (by omega)]; simp [offs]
  · intro w hw
    rw [hnext w (by omega), hfirst (w + 1) (by omega)]
  · rw [hnext (s.nWrks - 1) (by omega), show s.nWrks - 1 + 1 = s.nWrks by omega, hend]
  · intro e
    constructor
    · rintro ⟨h1, h2⟩
      obtain ⟨w, a, b, c⟩ := cover (offs (l.pkgs.map (·.size))) (by simp [offs]) s.nWrks (e - regs[k].first)
        (by rw [hend]; omega)
      refine ⟨w, a, ?_, ?_⟩
      · rw [hfirst w (by omega)]; omega
      · rw [hnext w (by omega)]; omega
    · rintro ⟨w, a, b, c⟩
      rw [hfirst w (by omega)] at b
      rw [hnext w (by omega)] at c
      have := offs_mono (l := l.pkgs.map (·.size)) (show w + 1 ≤ s.nWrks by omega)
      omega
  · intro e w w' hw hw' h1 h2
    rw [hnext w (by omega), hfirst w (by omega)] at h1
    rw [hnext w' (by omega), hfirst w' (by omega)] at h2
    rcases Nat.lt_trichotomy w w' with hlt | heq | hgt
    · have := offs_mono (l := l.pkgs.map (·.size)) (show w + 1 ≤ w' by omega)
      omega
    · exact heq
    · have := offs_mono (l := l.pkgs.map (·.size)) (show w' + 1 ≤ w by omega)
      omega

example : ∃ s st, Reach demoA true 3 demoRegs st s ∧ (⟨1, 0, 12, 7, 9, 1, [], []⟩ : Reg) ∈ demoRegs ∧
    (s.pkgOf 12 0).map (fun p => (p.first, p.size)) = some (7, 8) ∧
    (s.pkgOf 12 1).map (fun p => (p.first, p.size)) = some (15, 1) := by
  obtain ⟨s, h1, h2, h3, h4⟩ := demo_reach
  refine ⟨s, _, h4, by simp [demoRegs], ?_⟩
  have : demo.map (fun s => ((s.pkgOf 12 0).map (fun p => (p.first, p.size)),
      (s.pkgOf 12 1).map (fun p => (p.first, p.size)))) = some (some (7, 8), some (15, 1)) := by decide +kernel
  rw [h1] at this
  simpa using this

theorem uniform_bound {P : Nat → Nat → Prop} : ∀ k, (∀ i, i < k → ∃ N, ∀ f, N ≤ f → P i f) →
    ∃ N, ∀ i, i < k → ∀ f, N ≤ f → P i f
  | 0, _ => ⟨0, by intro i hi; omega⟩
  | k + 1, h => by
    obtain ⟨N, hN⟩ := uniform_bound k (fun i hi => h i (by omega))
    obtain ⟨M, hM⟩ := h k (by omega)
    refine ⟨max N M, ?_⟩
    intro i hi f hf
    rcases Nat.lt_or_ge i k with h' | h'
    · exact hN i h' f (by omega)
    · have : i = k := by omega
      subst this; exact hM f (by omega)

/-- **C13** (termination, no failure): for every history and all measured times — one per region and worker — the load
balancing terminates, i.e. some number of passes of its correction loops suffices, and no check in it fails. -/
theorem C13_balance_terminates (hz : 0 < A.zeroTime) (h : Reach A sep n regs st s) {ela : List (List Rat)}
    (h1 : ela.length = regs.length) (h2 : ∀ e, e ∈ ela → e.length = s.nWrks) :
    ∃ N, ∀ fuel, N ≤ fuel → ∃ s', s.balance A fuel ela = some s' := by
  obtain ⟨tab, hi⟩ := reach_inv hz h
  have hlenT : tab.length = regs.length := by
    have hnd : (tab.map (·.1)).Nodup := by
      rw [List.Nodup, List.pairwise_map]
      refine List.Pairwise.imp_of_mem ?_ hi.ids
      intro a b ha hb hne heq
      have e1 := (hi.mem a.1 a.2).1 ha
      have e2 := (hi.mem b.1 b.2).1 hb
      rw [heq, e2] at e1
      exact hne (by rw [Option.some.inj e1])
    have hperm : (tab.map (·.1)).Perm (List.range regs.length) := by
      rw [List.perm_ext_iff_of_nodup hnd List.nodup_range]
      intro k
      simp only [List.mem_map, List.mem_range]
      constructor
      · rintro ⟨x, hx, rfl⟩
        exact (List.getElem?_eq_some_iff.1 ((hi.mem x.1 x.2).1 hx)).1
      · intro hk
        exact ⟨(k, regs[k]), (hi.mem k _).2 (List.getElem?_eq_getElem hk), rfl⟩
    have := hperm.length_eq
    simpa using this
  have hpos : ∀ i, i < s.lb.length → ∃ N, ∀ f, N ≤ f → ∀ (hi : i < s.lb.length) (he : i < ela.length),
      ∃ r', balanceWrkRgn A f ela[i] s.lb[i] = some r' := by
    intro i hil
    have hit : i < tab.length := by rw [← hi.len]; exact hil
    have hie : i < ela.length := by omega
    obtain ⟨_, _, f3⟩ := hi.lb i _ _ (List.getElem?_eq_getElem hit) (List.getElem?_eq_getElem hil)
    obtain ⟨N, hN⟩ := (balance_ok hz hi.nW (h2 _ (List.getElem_mem hie)) (rinv_shape f3) (Or.inl f3)).1
    exact ⟨N, fun f hf _ _ => hN f hf⟩
  obtain ⟨N, hN⟩ := uniform_bound s.lb.length hpos
  refine ⟨N, ?_⟩
  intro fuel hf
  obtain ⟨t, ht, _⟩ := forN_inv (n := s.lb.length) (s := s.lb) (body := fun rg lb => do
    let r ← rd lb rg
    let e ← rd ela rg
    let r ← balanceWrkRgn A fuel e r
    wr lb rg r) (fun k (lb : List Rgn) => lb.length = s.lb.length ∧ ∀ j, k ≤ j → lb[j]? = s.lb[j]?)
    ⟨rfl, fun _ _ => rfl⟩ (by
      rintro i lb hil ⟨a1, a2⟩
      have hie : i < ela.length := by rw [h1, ← hlenT, ← hi.len]; exact hil
      have hl : i < lb.length := by omega
      obtain ⟨r', hr'⟩ := hN i hil fuel hf hil hie
      have hg : rd lb i = some s.lb[i] := by
        simp [rd, a2 i (Nat.le_refl _), hil]
      refine ⟨lb.set i r', ?_, by simpa using a1, ?_⟩
      · simp only [hg, rd_some hie, hr', Option.bind_eq_bind, Option.bind_some, wr_some hl]
      · intro j hj
        rw [List.getElem?_set_ne (by omega)]
        exact a2 j (by omega))
  unfold Sh.balance
  rw [ht]
  exact ⟨_, rfl⟩

/-- **C13** (registration): registering a region whose characteristics cover it terminates and no check fails. -/
theorem C13_register_terminates (hz : 0 < A.zeroTime) (h : Reach A sep n regs st s) {r : Reg} (hw : r.Wf) :
    ∃ N, ∀ fuel, N ≤ fuel → ∃ s', r.call A fuel s = some s' := by
  obtain ⟨tab, hi⟩ := reach_inv hz h
  obtain ⟨l, hl, l1, l2, l3⟩ := mkRgn_ok s.nWrks hw
  obtain ⟨N, hN⟩ := (balance_ok hz hi.nW (by simp) l3 (Or.inr (fresh_zero hz hi.nW))).1
  refine ⟨N, ?_⟩
  intro fuel hf
  obtain ⟨l', hl'⟩ := hN fuel hf
  unfold Reg.call Sh.regWrkRgn
  have hpos : decide (findPos r.prio s.rgns ≤ s.lb.length) = true := by
    have := findPos_le r.prio s.rgns
    rw [hi.rgns] at this ⊢
    rw [hi.len]
    simpa using this
  simp only [hl, hl', hpos, Option.bind_eq_bind, Option.bind_some, check_true]
  exact ⟨_, rfl⟩

example : (0 : Rat) < demoA.zeroTime := by decide +kernel

/-! ### C14 -/

/-- **C14**: after any history, the first sparse id of a sparse type in a worker's package of a registered region is
the number of entities with the type's bits in front of the package. -/
theorem C14_sparse_offsets (hz : 0 < A.zeroTime) (h : Reach A sep n regs st s) {r : Reg} (hr : r ∈ regs) {w : Nat}
    {p : Pkg} (hp : s.pkgOf r.id w = some p) :
    p.firstSp.length = r.types.length ∧
    ∀ ty (hty : ty < r.types.length),
      p.firstSp[ty]? = some ((List.range p.first).filter (isSp r.chars r.types[ty])).length := by
  obtain ⟨tab, hi⟩ := reach_inv hz h
  obtain ⟨k, hk, rfl⟩ := List.getElem_of_mem hr
  obtain ⟨i, hil, hix⟩ := List.getElem_of_mem ((hi.mem k _).2 (List.getElem?_eq_getElem hk))
  have hx : tab[i]? = some (k, regs[k]) := by rw [List.getElem?_eq_getElem hil, hix]
  have hil' : i < s.lb.length := by rw [hi.len]; exact hil
  have hlb : s.lb[i]? = some s.lb[i] := List.getElem?_eq_getElem hil'
  have h1 := inv_pkgOf hi hx hlb w
  simp only at h1
  rw [hp] at h1
  obtain ⟨_, _, f3⟩ := hi.lb i _ _ hx hlb
  have hm := List.mem_of_getElem? h1.symm
  exact ⟨f3.flen p hm, f3.sp p hm⟩

/-- In the example history: package 1 of region 10 starts at entity 2; the only member of type 1 before it is entity 0. -/
example : ∃ s st p, Reach demoA true 3 demoRegs st s ∧
    (⟨0, 0, 10, 0, 5, 1, [1], [1, 0, 1, 1, 0, 1, 1]⟩ : Reg) ∈ demoRegs ∧
    s.pkgOf 10 1 = some p ∧ p.first = 2 ∧ p.firstSp = [1] := by
  obtain ⟨s, h1, h2, h3, h4⟩ := demo_reach
  have : demo.map (fun s => s.pkgOf 10 1) = some (some ⟨2, 3, [1]⟩) := by decide +kernel
  rw [h1] at this
  exact ⟨s, _, ⟨2, 3, [1]⟩, h4, by simp [demoRegs], by simpa using this, rfl, rfl⟩

end Edge.Shared
