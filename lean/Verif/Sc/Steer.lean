import Verif.Sc.Model
/-!
C56: the buffers of the limiter alternate without mixing old and new data, over any number of time steps and synchronisations.
-/
namespace Edge.Sc
open Edge

/-! ### Labels -/

/-- C56, labels of consecutive steps: the label of the previous solution is the one of the (first copy of the) limited solution one
step before, and the labels within a step are pairwise different and name all buffers. -/
theorem C56_labels (n : Nat) :
    (getAdmIds (n + 1))[0]? = (getAdmIds n)[2]? ∧ (getExtIds (n + 1))[0]? = (getExtIds n)[1]? ∧
    (getAdmIds n).Nodup ∧ (getExtIds n).Nodup ∧ (∀ i : Nat, i ∈ getAdmIds n ↔ i < 4) ∧ ∀ i : Nat, i ∈ getExtIds n ↔ i < 2 := by
  rcases Nat.mod_two_eq_zero_or_one n with h | h
  · have h' : (n + 1) % 2 = 1 := by omega
    simp only [getAdmIds, getExtIds, h, h']
    refine ⟨rfl, rfl, by decide, by decide, fun i => ?_, fun i => ?_⟩ <;> simp <;> omega
  · have h' : (n + 1) % 2 = 0 := by omega
    simp only [getAdmIds, getExtIds, h, h']
    refine ⟨rfl, rfl, by decide, by decide, fun i => ?_, fun i => ?_⟩ <;> simp <;> omega

/-! ### Histories

The memory maps a buffer to the number of the last time step which wrote it as limited solution (`g + 1` for step `g`, `0` is the
initial solution) or to `none` for data which is no final solution of a step. -/

/-- Memory of buffers. -/
abbrev Mem := Nat → Option Nat

/-- One time step with local number `nTs` since the last synchronisation and global number `g`.  `rdL` is the position of the previous
solution in the labels, `wrL` are the positions written with the final solution, `scL` those written with intermediate data.  Returns the content read as
previous solution. -/
def step (ids : List Nat) (rdL : Nat) (scL wrL : List Nat) (g : Nat) (ptrs : List Nat) (m : Mem) : Option (Option Nat × Mem) := do
  let i ← rd ids rdL
  let p ← rd ptrs i
  let m' ← scL.foldlM (fun m k => do
    let i ← rd ids k
    let p ← rd ptrs i
    some (Function.update m p none)) m
  let m'' ← wrL.foldlM (fun m k => do
    let i ← rd ids k
    let p ← rd ptrs i
    some (Function.update m p (some (g + 1)))) m'
  some (m p, m'')

/-- `n` time steps since a synchronisation, from global number `g`; collects what was read. -/
def steps (ids : Nat → List Nat) (rdL : Nat) (scL wrL : List Nat) (ptrs : List Nat) (g : Nat) :
    Nat → List (Option Nat) × Mem → Option (List (Option Nat) × Mem) :=
  fun n s => forN n (fun k s => do
    let (r, m) ← step (ids k) rdL scL wrL (g + k) ptrs s.2
    some (s.1 ++ [r], m)) s

/-- Intervals between synchronisations with the given numbers of steps; every synchronisation resets the pointers. -/
def intervals (ids : Nat → List Nat) (rdL : Nat) (scL wrL : List Nat) :
    List Nat → List Nat × Nat × List (Option Nat) × Mem → Option (List Nat × Nat × List (Option Nat) × Mem)
  | [], s => some s
  | n :: ns, (ptrs, g, rs, m) => do
    let (rs', m') ← steps ids rdL scL wrL ptrs g n (rs, m)
    let ptrs' ← resetPtrs (ids n) ptrs
    intervals ids rdL scL wrL ns (ptrs', g + n, rs', m')

/-- Pointers to four/two different buffers. -/
def Four (ptrs : List Nat) : Prop := ∃ a b c d, ptrs = [a, b, c, d] ∧ ptrs.Nodup
def Two (ptrs : List Nat) : Prop := ∃ a b, ptrs = [a, b] ∧ ptrs.Nodup

theorem resetAdm_eq (n a b c d : Nat) : resetPtrs (getAdmIds n) [a, b, c, d] =
    some (if n % 2 = 0 then [a, b, c, d] else [c, d, a, b]) := by
  rcases Nat.mod_two_eq_zero_or_one n with h | h <;> simp [getAdmIds, h, resetPtrs, forN, rd, wr]

theorem resetExt_eq (n a b : Nat) : resetPtrs (getExtIds n) [a, b] = some (if n % 2 = 0 then [a, b] else [b, a]) := by
  rcases Nat.mod_two_eq_zero_or_one n with h | h
  · have h' : (n + 1) % 2 = 1 := by omega
    simp [getExtIds, h, h', resetPtrs, forN, rd, wr]
  · have h' : (n + 1) % 2 = 0 := by omega
    simp [getExtIds, h, h', resetPtrs, forN, rd, wr]

/-- `n` steps on the four buffers of the admissibility. -/
theorem stepsAdm {a b c d g n : Nat} (hnd : [a, b, c, d].Nodup) (m : Mem) (hm : m a = some g) :
    ∃ m', steps getAdmIds 0 [1] [2, 3] [a, b, c, d] g n ([], m) = some ((List.range n).map (fun k => some (g + k)), m') ∧
      m' (if n % 2 = 0 then a else c) = some (g + n) := by
  obtain ⟨⟨rs, m'⟩, h1, h2, h3⟩ := forN_inv (n := n) (body := fun k (s : List (Option Nat) × Mem) => do
      let (r, m) ← step (getAdmIds k) 0 [1] [2, 3] (g + k) [a, b, c, d] s.2
      some (s.1 ++ [r], m)) (s := ([], m))
    (P := fun k s => s.1 = (List.range k).map (fun k => some (g + k)) ∧ s.2 (if k % 2 = 0 then a else c) = some (g + k))
    ⟨rfl, by simpa using hm⟩
    (by
      rintro k ⟨rs, m⟩ hk ⟨p1, p2⟩
      simp only at p1 p2
      simp only [List.nodup_cons, List.mem_cons, List.not_mem_nil, or_false, not_or] at hnd
      obtain ⟨⟨n1, n2, n3⟩, ⟨n4, n5⟩, n6, -⟩ := hnd
      rcases Nat.mod_two_eq_zero_or_one k with h | h
      · have h' : (k + 1) % 2 = 1 := by omega
        rw [if_pos h] at p2
        refine ⟨(rs ++ [some (g + k)], Function.update (Function.update (Function.update m b none) c (some (g + k + 1))) d (some (g + k + 1))), ?_, ?_, ?_⟩
        · simp [step, getAdmIds, h, rd, p2]
        · simp [p1, List.range_succ]
        · simp [h', Function.update, n6, Nat.add_assoc]
      · have h' : (k + 1) % 2 = 0 := by omega
        rw [if_neg (by omega)] at p2
        refine ⟨(rs ++ [some (g + k)], Function.update (Function.update (Function.update m d none) a (some (g + k + 1))) b (some (g + k + 1))), ?_, ?_, ?_⟩
        · simp [step, getAdmIds, h, rd, p2]
        · simp [p1, List.range_succ]
        · simp [h', Function.update, n1, Nat.add_assoc])
  refine ⟨m', ?_, h3⟩
  simp only at h2
  subst h2
  exact h1

/-- `n` steps on the two buffers of the extrema or degrees of freedom. -/
theorem stepsExt {a b g n : Nat} (hnd : [a, b].Nodup) (m : Mem) (hm : m a = some g) :
    ∃ m', steps getExtIds 0 [1] [1] [a, b] g n ([], m) = some ((List.range n).map (fun k => some (g + k)), m') ∧
      m' (if n % 2 = 0 then a else b) = some (g + n) := by
  obtain ⟨⟨rs, m'⟩, h1, h2, h3⟩ := forN_inv (n := n) (body := fun k (s : List (Option Nat) × Mem) => do
      let (r, m) ← step (getExtIds k) 0 [1] [1] (g + k) [a, b] s.2
      some (s.1 ++ [r], m)) (s := ([], m))
    (P := fun k s => s.1 = (List.range k).map (fun k => some (g + k)) ∧ s.2 (if k % 2 = 0 then a else b) = some (g + k))
    ⟨rfl, by simpa using hm⟩
    (by
      rintro k ⟨rs, m⟩ hk ⟨p1, p2⟩
      simp only at p1 p2
      rcases Nat.mod_two_eq_zero_or_one k with h | h
      · have h' : (k + 1) % 2 = 1 := by omega
        rw [if_pos h] at p2
        refine ⟨(rs ++ [some (g + k)], Function.update (Function.update m b none) b (some (g + k + 1))), ?_, ?_, ?_⟩
        · simp [step, getExtIds, h, h', rd, p2]
        · simp [p1, List.range_succ]
        · simp [h', Nat.add_assoc]
      · have h' : (k + 1) % 2 = 0 := by omega
        rw [if_neg (by omega)] at p2
        refine ⟨(rs ++ [some (g + k)], Function.update (Function.update m a none) a (some (g + k + 1))), ?_, ?_, ?_⟩
        · simp [step, getExtIds, h, h', rd, p2]
        · simp [p1, List.range_succ]
        · simp [h', Nat.add_assoc])
  refine ⟨m', ?_, h3⟩
  simp only at h2
  subst h2
  exact h1

/-- The reads of earlier intervals are kept. -/
theorem steps_pre {ids : Nat → List Nat} {rdL : Nat} {scL wrL ptrs : List Nat} {g n : Nat} {m m' : Mem} {r : List (Option Nat)}
    (h : steps ids rdL scL wrL ptrs g n ([], m) = some (r, m')) (rs : List (Option Nat)) :
    steps ids rdL scL wrL ptrs g n (rs, m) = some (rs ++ r, m') := by
  induction n generalizing r m' with
  | zero =>
    simp only [steps, forN_zero, Option.some.injEq, Prod.mk.injEq] at h ⊢
    rw [← h.1, ← h.2]; simp
  | succ n ih =>
    simp only [steps] at ih h ⊢
    rw [forN_succ] at h ⊢
    obtain ⟨⟨r1, m1⟩, e1, e2⟩ := Option.bind_eq_some_iff.mp h
    rw [ih e1]
    simp only [Option.bind_eq_bind, Option.bind_some, Option.bind_eq_some_iff] at e2 ⊢
    obtain ⟨⟨x, y⟩, e3, e4⟩ := e2
    simp only [Option.some.injEq, Prod.mk.injEq] at e4
    refine ⟨(x, y), e3, ?_⟩
    rw [← e4.1, ← e4.2, List.append_assoc]

/-- C56, admissibility: in every history of synchronisation intervals with any numbers of steps, every step reads as previous solution
exactly what the step before wrote as limited solution (the first step reads the initial solution), and after every
synchronisation the first pointer holds the previous solution. -/
theorem C56_adm (ns : List Nat) {ptrs : List Nat} {p0 g : Nat} {m : Mem} (rs : List (Option Nat)) (hp : Four ptrs)
    (h0 : ptrs[0]? = some p0) (hm : m p0 = some g) :
    ∃ ptrs' p0' m', intervals getAdmIds 0 [1] [2, 3] ns (ptrs, g, rs, m) =
        some (ptrs', g + ns.sum, rs ++ (List.range ns.sum).map (fun k => some (g + k)), m') ∧
      Four ptrs' ∧ ptrs'.Perm ptrs ∧ ptrs'[0]? = some p0' ∧ m' p0' = some (g + ns.sum) := by
  induction ns generalizing ptrs p0 g m rs with
  | nil => exact ⟨ptrs, p0, m, by simp [intervals], hp, List.Perm.refl _, h0, by simpa using hm⟩
  | cons n ns ih =>
    obtain ⟨a, b, c, d, rfl, hnd⟩ := hp
    have ea : a = p0 := by simpa using h0
    subst ea
    obtain ⟨m1, e1, e2⟩ := stepsAdm (g := g) (n := n) hnd m hm
    have hperm : (if n % 2 = 0 then [a, b, c, d] else [c, d, a, b]).Perm [a, b, c, d] := by
      split
      · exact List.Perm.refl _
      · exact (List.perm_append_comm (l₁ := [c, d]) (l₂ := [a, b]))
    have hF : Four (if n % 2 = 0 then [a, b, c, d] else [c, d, a, b]) := by
      by_cases h : n % 2 = 0
      · rw [if_pos h]; exact ⟨a, b, c, d, rfl, hnd⟩
      · rw [if_neg h] at hperm ⊢; exact ⟨c, d, a, b, rfl, hperm.nodup_iff.mpr hnd⟩
    have hh0 : (if n % 2 = 0 then [a, b, c, d] else [c, d, a, b])[0]? = some (if n % 2 = 0 then a else c) := by
      split <;> rfl
    obtain ⟨q, p', m', f1, f2, f3, f4, f5⟩ := ih (rs ++ (List.range n).map (fun k => some (g + k))) hF hh0 e2
    refine ⟨q, p', m', ?_, f2, f3.trans hperm, f4, by rw [f5]; simp [Nat.add_assoc]⟩
    rw [intervals, steps_pre e1 rs, resetAdm_eq]
    simp only [Option.bind_eq_bind, Option.bind_some]
    rw [f1, List.sum_cons, List.range_add]
    simp [Nat.add_assoc, Function.comp_def]

/-- C56, extrema and degrees of freedom (same labels): as `C56_adm` with two buffers. -/
theorem C56_ext (ns : List Nat) {ptrs : List Nat} {p0 g : Nat} {m : Mem} (rs : List (Option Nat)) (hp : Two ptrs)
    (h0 : ptrs[0]? = some p0) (hm : m p0 = some g) :
    ∃ ptrs' p0' m', intervals getExtIds 0 [1] [1] ns (ptrs, g, rs, m) =
        some (ptrs', g + ns.sum, rs ++ (List.range ns.sum).map (fun k => some (g + k)), m') ∧
      Two ptrs' ∧ ptrs'.Perm ptrs ∧ ptrs'[0]? = some p0' ∧ m' p0' = some (g + ns.sum) := by
  induction ns generalizing ptrs p0 g m rs with
  | nil => exact ⟨ptrs, p0, m, by simp [intervals], hp, List.Perm.refl _, h0, by simpa using hm⟩
  | cons n ns ih =>
    obtain ⟨a, b, rfl, hnd⟩ := hp
    have ea : a = p0 := by simpa using h0
    subst ea
    obtain ⟨m1, e1, e2⟩ := stepsExt (g := g) (n := n) hnd m hm
    have hperm : (if n % 2 = 0 then [a, b] else [b, a]).Perm [a, b] := by
      split
      · exact List.Perm.refl _
      · exact List.Perm.swap _ _ _
    have hF : Two (if n % 2 = 0 then [a, b] else [b, a]) := by
      by_cases h : n % 2 = 0
      · rw [if_pos h]; exact ⟨a, b, rfl, hnd⟩
      · rw [if_neg h] at hperm ⊢; exact ⟨b, a, rfl, hperm.nodup_iff.mpr hnd⟩
    have hh0 : (if n % 2 = 0 then [a, b] else [b, a])[0]? = some (if n % 2 = 0 then a else b) := by
      split <;> rfl
    obtain ⟨q, p', m', f1, f2, f3, f4, f5⟩ := ih (rs ++ (List.range n).map (fun k => some (g + k))) hF hh0 e2
    refine ⟨q, p', m', ?_, f2, f3.trans hperm, f4, by rw [f5]; simp [Nat.add_assoc]⟩
    rw [intervals, steps_pre e1 rs, resetExt_eq]
    simp only [Option.bind_eq_bind, Option.bind_some]
    rw [f1, List.sum_cons, List.range_add]
    simp [Nat.add_assoc, Function.comp_def]

/-- The hypotheses are met by fresh buffers; three, two and five steps. -/
example : ∃ ptrs' p0' m', intervals getAdmIds 0 [1] [2, 3] [3, 2, 5] ([10, 11, 12, 13], 0, [], fun _ => some 0) =
      some (ptrs', 10, (List.range 10).map some, m') ∧ Four ptrs' ∧ ptrs'.Perm [10, 11, 12, 13] ∧
      ptrs'[0]? = some p0' ∧ m' p0' = some 10 := by
  have := C56_adm [3, 2, 5] (ptrs := [10, 11, 12, 13]) (p0 := 10) (g := 0) (m := fun _ => some 0) []
    ⟨10, 11, 12, 13, rfl, by decide⟩ rfl rfl
  simpa using this

end Edge.Sc
