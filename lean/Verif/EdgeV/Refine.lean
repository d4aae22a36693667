import Mathlib.Algebra.Order.Field.Basic
import Mathlib.Algebra.BigOperators.Group.Finset.Basic
import Mathlib.Algebra.BigOperators.Field
import Mathlib.Algebra.BigOperators.Fin
import Mathlib.Algebra.Field.Rat
import Mathlib.Algebra.Order.Ring.Rat
import Mathlib.Data.List.Perm.Basic
import Mathlib.Tactic.FieldSimp
import Mathlib.Tactic.Positivity
import Mathlib.Tactic.Linarith
import Mathlib.Tactic.NormNum

/-!
C118: velocity-based mesh refinement. Model of `edge_v::mesh::Refinement::init` (tools/edge_v/src/mesh/Refinement.cpp). Exact numbers replace floating point numbers.
-/

namespace Edge.EdgeV.Refine

set_option linter.unusedSectionVars false

variable {K : Type} [Field K] [LinearOrder K] [IsStrictOrderedRing K]

/-! ### Model -/

/-- The variables of the expression (tools/edge_v/src/mesh/Refinement.cpp:53-58). -/
structure Vars (K : Type) where
  crds : Fin 3 → K
  ratio : K
  freq : K
  epw : K

/-- The arguments of `init` (tools/edge_v/src/mesh/Refinement.cpp:36-42) apart from the expression: numbers of vertices per element and of elements, vertices of the elements, coordinates and minimum wave speeds of the vertices; `big` is the largest floating point number. -/
structure Mesh (K : Type) where
  nElVes : Nat
  nEls : Nat
  elVe : Nat → Nat → Nat
  veCrds : Nat → Fin 3 → K
  speed : Nat → K
  big : K

/-- Coordinates averaged over the vertices (tools/edge_v/src/mesh/Refinement.cpp:86, 90-94). -/
def avgCrds (m : Mesh K) (el : Nat) : Fin 3 → K := fun di => (List.range m.nElVes).foldl (fun a ve => a + m.veCrds (m.elVe el ve) di / (m.nElVes : K)) 0

/-- Ratio of the speeds (tools/edge_v/src/mesh/Refinement.cpp:87-88, 96-100). -/
def speedRatio (m : Mesh K) (el : Nat) : K :=
  let wsMin := (List.range m.nElVes).foldl (fun a ve => min a (m.speed (m.elVe el ve))) m.big
  let wsMax := (List.range m.nElVes).foldl (fun a ve => max a (m.speed (m.elVe el ve))) (-m.big)
  wsMax / wsMin

/-- Body of the first loop over the elements (tools/edge_v/src/mesh/Refinement.cpp:84-110): the expression reads and writes the variables of the thread, which keep their values from element to element. `none`: a check failed. -/
def elBody (expr : Vars K → Vars K) (m : Mesh K) (s : Vars K × (Nat → K)) (el : Nat) : Option (Vars K × (Nat → K)) :=
  let v := expr { s.1 with crds := avgCrds m el, ratio := speedRatio m el }
  if 0 < v.freq ∧ 0 < v.epw then some (v, Function.update s.2 el (1 / (v.freq * v.epw))) else none

/-- A thread: its own variables, initialised in the parallel region (tools/edge_v/src/mesh/Refinement.cpp:48-80), and the elements assigned to it. Entries of different elements are disjoint, so that the threads can be taken one after the other. -/
def thread (expr : Vars K → Vars K) (m : Mesh K) (refEl : Nat → K) (els : List Nat) : Option (Nat → K) :=
  (els.foldlM (elBody expr m) (⟨fun _ => m.big, m.big, m.big, m.big⟩, refEl)).map (·.2)

/-- Inner loop of the propagation (tools/edge_v/src/mesh/Refinement.cpp:120-128). -/
def veLoop (m : Mesh K) (r : K) (el : Nat) (s : (Nat → K) × K) (ve : Nat) : (Nat → K) × K :=
  let veId := m.elVe el ve
  let ws := m.speed veId
  (Function.update s.1 veId (min (s.1 veId) (ws * r)), s.2 + ws)

/-- Propagation of an element's refinement to its vertices (tools/edge_v/src/mesh/Refinement.cpp:118-132). -/
def propEl (m : Mesh K) (s : (Nat → K) × (Nat → K)) (el : Nat) : (Nat → K) × (Nat → K) :=
  let r := (List.range m.nElVes).foldl (veLoop m (s.2 el) el) (s.1, 0)
  (r.1, Function.update s.2 el (s.2 el * (r.2 / (m.nElVes : K))))

/-- `Refinement::init` (tools/edge_v/src/mesh/Refinement.cpp:36-133) for a schedule of the parallel loop: the lists of elements of the threads. The new memory is not initialised (`mem`). Result: refinement at the vertices and in the elements. -/
def init (expr : Vars K → Vars K) (m : Mesh K) (mem : Nat → K) (sched : List (List Nat)) : Option ((Nat → K) × (Nat → K)) := do
  let refEl ← sched.foldlM (thread expr m) mem
  some ((List.range m.nEls).foldl (propEl m) (fun _ => m.big, refEl))

/-! ### Specification -/

/-- The expression determines frequency and edges per wave length from position and speed ratio. -/
def Determined (expr : Vars K → Vars K) (freq epw : (Fin 3 → K) → K → K) : Prop := ∀ v, (expr v).freq = freq v.crds v.ratio ∧ (expr v).epw = epw v.crds v.ratio

/-- Every element is processed exactly once. -/
def Schedule (nEls : Nat) (sched : List (List Nat)) : Prop := sched.flatten.Perm (List.range nEls)

/-- Centre of an element. -/
def Centre (m : Mesh K) (el : Nat) : Fin 3 → K := fun di => (∑ ve : Fin m.nElVes, m.veCrds (m.elVe el ve) di) / (m.nElVes : K)

/-- `r` is the largest quotient of the speeds at two vertices of the element. -/
def MaxRatio (m : Mesh K) (el : Nat) (r : K) : Prop :=
  ∃ a < m.nElVes, ∃ b < m.nElVes, r = m.speed (m.elVe el a) / m.speed (m.elVe el b) ∧ ∀ ve < m.nElVes, m.speed (m.elVe el b) ≤ m.speed (m.elVe el ve) ∧ m.speed (m.elVe el ve) ≤ m.speed (m.elVe el a)

/-- Elements have vertices, speeds are positive and representable. -/
structure Valid (m : Mesh K) : Prop where
  ves : 0 < m.nElVes
  pos : ∀ ve, 0 < m.speed ve
  le : ∀ ve, m.speed ve ≤ m.big

/-! ### Proofs -/

theorem avg_eq (m : Mesh K) (el : Nat) : avgCrds m el = Centre m el := by
  funext di
  have : ∀ n, (List.range n).foldl (fun a ve => a + m.veCrds (m.elVe el ve) di / (m.nElVes : K)) 0 = (∑ ve : Fin n, m.veCrds (m.elVe el ve) di) / (m.nElVes : K) := by
    intro n
    induction n with
    | zero => simp
    | succ n ih => rw [List.range_succ, List.foldl_append, ih, Fin.sum_univ_castSucc]; simp [add_div]
  exact this _

theorem fold_min (f : Nat → K) (big : K) (hb : ∀ i, f i ≤ big) : ∀ n, 0 < n → ∃ b < n, (List.range n).foldl (fun a i => min a (f i)) big = f b ∧ ∀ i < n, f b ≤ f i := by
  intro n hn
  induction n, hn using Nat.le_induction with
  | base => exact ⟨0, Nat.one_pos, by simp [List.range_succ, hb], fun i hi => by rw [Nat.lt_one_iff.mp hi]⟩
  | succ n hn ih =>
    obtain ⟨b, hbn, e, h⟩ := ih
    rw [List.range_succ, List.foldl_append, e]
    rcases le_total (f b) (f n) with c | c
    · exact ⟨b, hbn.trans (Nat.lt_succ_self _), by simp [c], fun i hi => (Nat.lt_succ_iff_lt_or_eq.mp hi).elim (h i) fun e => e ▸ c⟩
    · exact ⟨n, Nat.lt_succ_self _, by simp [c], fun i hi => (Nat.lt_succ_iff_lt_or_eq.mp hi).elim (fun hi => c.trans (h i hi)) fun e => e ▸ le_refl _⟩

theorem fold_max (f : Nat → K) (big : K) (hb : ∀ i, big ≤ f i) : ∀ n, 0 < n → ∃ b < n, (List.range n).foldl (fun a i => max a (f i)) big = f b ∧ ∀ i < n, f i ≤ f b := by
  intro n hn
  induction n, hn using Nat.le_induction with
  | base => exact ⟨0, Nat.one_pos, by simp [List.range_succ, hb], fun i hi => by rw [Nat.lt_one_iff.mp hi]⟩
  | succ n hn ih =>
    obtain ⟨b, hbn, e, h⟩ := ih
    rw [List.range_succ, List.foldl_append, e]
    rcases le_total (f n) (f b) with c | c
    · exact ⟨b, hbn.trans (Nat.lt_succ_self _), by simp [c], fun i hi => (Nat.lt_succ_iff_lt_or_eq.mp hi).elim (h i) fun e => e ▸ c⟩
    · exact ⟨n, Nat.lt_succ_self _, by simp [c], fun i hi => (Nat.lt_succ_iff_lt_or_eq.mp hi).elim (fun hi => (h i hi).trans c) fun e => e ▸ le_refl _⟩

theorem ratio_max {m : Mesh K} (hm : Valid m) (el : Nat) : MaxRatio m el (speedRatio m el) := by
  obtain ⟨b, hb, eb, lb⟩ := fold_min (fun ve => m.speed (m.elVe el ve)) m.big (fun ve => hm.le _) _ hm.ves
  obtain ⟨a, ha, ea, la⟩ := fold_max (fun ve => m.speed (m.elVe el ve)) (-m.big) (fun ve => by have h1 := hm.pos (m.elVe el ve); have h2 := hm.le (m.elVe el ve); linarith) _ hm.ves
  refine ⟨a, ha, b, hb, ?_, fun ve h => ⟨lb ve h, la ve h⟩⟩
  unfold speedRatio
  simp only [ea, eb]

theorem ratio_unique {m : Mesh K} {el : Nat} {r r' : K} (h : MaxRatio m el r) (h' : MaxRatio m el r') : r = r' := by
  obtain ⟨a, ha, b, hb, rfl, h⟩ := h
  obtain ⟨a', ha', b', hb', rfl, h'⟩ := h'
  rw [le_antisymm (h' a ha).2 (h a' ha').2, le_antisymm (h b' hb').1 (h' b hb).1]

/-- Product of frequency and edges per wave length of an element. -/
def fe (freq epw : (Fin 3 → K) → K → K) (m : Mesh K) (el : Nat) : K := freq (Centre m el) (speedRatio m el) * epw (Centre m el) (speedRatio m el)

theorem els_run {expr : Vars K → Vars K} {freq epw : (Fin 3 → K) → K → K} (he : Determined expr freq epw) (m : Mesh K) (els : List Nat) :
    ∀ s : Vars K × (Nat → K), (∀ el ∈ els, 0 < freq (Centre m el) (speedRatio m el) ∧ 0 < epw (Centre m el) (speedRatio m el)) →
      ∃ v, els.foldlM (elBody expr m) s = some (v, fun el => if el ∈ els then 1 / fe freq epw m el else s.2 el) := by
  induction els with
  | nil => intro s _; exact ⟨s.1, by simp⟩
  | cons a l ih =>
    intro s h
    obtain ⟨e1, e2⟩ := he { s.1 with crds := avgCrds m a, ratio := speedRatio m a }
    simp only [avg_eq] at e1 e2
    have h1 := h a (by simp)
    have hb : elBody expr m s a = some (expr { s.1 with crds := Centre m a, ratio := speedRatio m a }, Function.update s.2 a (1 / fe freq epw m a)) := by
      unfold elBody
      simp only [avg_eq]
      rw [if_pos (by rw [e1, e2]; exact h1), e1, e2]
      rfl
    obtain ⟨v, hv⟩ := ih (expr { s.1 with crds := Centre m a, ratio := speedRatio m a }, Function.update s.2 a (1 / fe freq epw m a)) fun el hel => h el (by simp [hel])
    refine ⟨v, ?_⟩
    rw [List.foldlM_cons, hb]
    simp only [Option.bind_eq_bind, Option.bind_some]
    rw [hv]
    congr 2
    funext el
    by_cases c1 : el ∈ l
    · simp [c1]
    · by_cases c2 : el = a
      · subst c2; simp [c1]
      · simp [c1, c2]

theorem threads_run {expr : Vars K → Vars K} {freq epw : (Fin 3 → K) → K → K} (he : Determined expr freq epw) (m : Mesh K) (sched : List (List Nat)) :
    ∀ mem : Nat → K, (∀ el ∈ sched.flatten, 0 < freq (Centre m el) (speedRatio m el) ∧ 0 < epw (Centre m el) (speedRatio m el)) →
      sched.foldlM (thread expr m) mem = some (fun el => if el ∈ sched.flatten then 1 / fe freq epw m el else mem el) := by
  induction sched with
  | nil => intro mem _; simp
  | cons l t ih =>
    intro mem h
    obtain ⟨v, hv⟩ := els_run he m l (⟨fun _ => m.big, m.big, m.big, m.big⟩, mem) fun el hel => h el (by simp [hel])
    have ht : thread expr m mem l = some (fun el => if el ∈ l then 1 / fe freq epw m el else mem el) := by
      unfold thread; rw [hv]; rfl
    rw [List.foldlM_cons, ht]
    simp only [Option.bind_eq_bind, Option.bind_some]
    rw [ih _ fun el hel => h el (by rw [List.flatten_cons]; exact List.mem_append_right _ hel)]
    congr 1
    funext el
    by_cases c1 : el ∈ t.flatten
    · simp only [List.flatten_cons, List.mem_append, c1, or_true, if_true]
    · simp only [List.flatten_cons, List.mem_append, c1, or_false, if_false]

theorem veLoop_run (m : Mesh K) (r : K) (el : Nat) (s : Nat → K) : ∀ n,
    ((List.range n).foldl (veLoop m r el) (s, 0)).2 = ∑ ve : Fin n, m.speed (m.elVe el ve) ∧
    (∀ x, ((List.range n).foldl (veLoop m r el) (s, 0)).1 x ≤ s x) ∧
    (∀ ve < n, ((List.range n).foldl (veLoop m r el) (s, 0)).1 (m.elVe el ve) ≤ m.speed (m.elVe el ve) * r) ∧
    (∀ x, ((List.range n).foldl (veLoop m r el) (s, 0)).1 x = s x ∨ ∃ ve < n, m.elVe el ve = x ∧ ((List.range n).foldl (veLoop m r el) (s, 0)).1 x = m.speed x * r) := by
  intro n
  induction n with
  | zero => simp
  | succ n ih =>
    obtain ⟨i1, i2, i3, i4⟩ := ih
    rw [List.range_succ, List.foldl_append]
    set t := (List.range n).foldl (veLoop m r el) (s, 0) with ht
    simp only [List.foldl_cons, List.foldl_nil]
    have le1 : ∀ x, (veLoop m r el t n).1 x ≤ t.1 x := by
      intro x
      unfold veLoop
      by_cases c : x = m.elVe el n
      · subst c; simp
      · simp [c]
    refine ⟨?_, fun x => (le1 x).trans (i2 x), ?_, ?_⟩
    · unfold veLoop; simp only [i1]; rw [Fin.sum_univ_castSucc]; simp
    · intro ve hve
      rcases Nat.lt_succ_iff_lt_or_eq.mp hve with h | rfl
      · exact (le1 _).trans (i3 ve h)
      · unfold veLoop; simp
    · intro x
      by_cases c : m.elVe el n = x
      · subst c
        have e : (veLoop m r el t n).1 (m.elVe el n) = min (t.1 (m.elVe el n)) (m.speed (m.elVe el n) * r) := by unfold veLoop; simp
        rcases min_choice (t.1 (m.elVe el n)) (m.speed (m.elVe el n) * r) with h | h
        · rw [e, h]
          rcases i4 (m.elVe el n) with h' | ⟨ve, hve, h'⟩
          · exact .inl h'
          · exact .inr ⟨ve, hve.trans (Nat.lt_succ_self _), h'⟩
        · exact .inr ⟨n, Nat.lt_succ_self _, rfl, by rw [e, h]⟩
      · have e : (veLoop m r el t n).1 x = t.1 x := by unfold veLoop; simp [Function.update_of_ne (Ne.symm c)]
        rw [e]
        rcases i4 x with h' | ⟨ve, hve, h'⟩
        · exact .inl h'
        · exact .inr ⟨ve, hve.trans (Nat.lt_succ_self _), h'⟩

theorem prop_run (m : Mesh K) (s r : Nat → K) : ∀ n,
    (∀ el, ((List.range n).foldl (propEl m) (s, r)).2 el = if el < n then r el * ((∑ ve : Fin m.nElVes, m.speed (m.elVe el ve)) / (m.nElVes : K)) else r el) ∧
    (∀ el < n, ∀ ve < m.nElVes, ((List.range n).foldl (propEl m) (s, r)).1 (m.elVe el ve) ≤ m.speed (m.elVe el ve) * r el) ∧
    (∀ x, ((List.range n).foldl (propEl m) (s, r)).1 x = s x ∨ ∃ el < n, ∃ ve < m.nElVes, m.elVe el ve = x ∧ ((List.range n).foldl (propEl m) (s, r)).1 x = m.speed x * r el) := by
  intro n
  induction n with
  | zero => simp
  | succ n ih =>
    obtain ⟨i1, i2, i3⟩ := ih
    rw [List.range_succ, List.foldl_append]
    set t := (List.range n).foldl (propEl m) (s, r) with ht
    simp only [List.foldl_cons, List.foldl_nil]
    have hr : t.2 n = r n := by rw [i1]; simp
    obtain ⟨v1, v2, v3, v4⟩ := veLoop_run m (r n) n t.1 m.nElVes
    have hp : propEl m t n = (((List.range m.nElVes).foldl (veLoop m (r n) n) (t.1, 0)).1, Function.update t.2 n (r n * ((∑ ve : Fin m.nElVes, m.speed (m.elVe n ve)) / (m.nElVes : K)))) := by
      unfold propEl; simp only [hr, v1]
    rw [hp]
    refine ⟨?_, ?_, ?_⟩
    · intro el
      simp only
      by_cases c : el = n
      · subst c; simp
      · rw [Function.update_of_ne c, i1]
        have : el < n + 1 ↔ el < n := by omega
        simp only [this]
    · intro el hel ve hve
      rcases Nat.lt_succ_iff_lt_or_eq.mp hel with h | rfl
      · exact (v2 _).trans (i2 el h ve hve)
      · exact v3 ve hve
    · intro x
      rcases v4 x with h | ⟨ve, hve, h⟩
      · simp only [h]
        rcases i3 x with h' | ⟨el, hel, h'⟩
        · exact .inl h'
        · exact .inr ⟨el, hel.trans (Nat.lt_succ_self _), h'⟩
      · exact .inr ⟨n, Nat.lt_succ_self _, ve, hve, h⟩

/-- C118: if the expression determines frequency `f` and edges per wave length `e` of the elements from centre and speed ratio, then, for all schedules of the threads, the set-up succeeds with target edge lengths such that
(1) an edge of the target length of an element fits `e` times in the wave length of the element's mean speed,
(2) at every vertex, at least `e` edges of the target length fit in the wave length of the vertex, for all elements with this vertex, and
(3) the target length at a vertex, unless it is the initial value, is exactly that required by one of the vertex's elements, i.e., not smaller than necessary.
Missing: expressions which leave a variable unassigned in some elements (`C118_schedules_refuted`). -/
theorem C118_lengths_partial {expr : Vars K → Vars K} {freq epw : (Fin 3 → K) → K → K} (he : Determined expr freq epw) {m : Mesh K} (hm : Valid m) (mem : Nat → K) {sched : List (List Nat)} (hs : Schedule m.nEls sched)
    (f e : Nat → K) (hfe : ∀ el < m.nEls, ∃ r, MaxRatio m el r ∧ f el = freq (Centre m el) r ∧ e el = epw (Centre m el) r) (hpos : ∀ el < m.nEls, 0 < f el ∧ 0 < e el) :
    ∃ refVe refEl, init expr m mem sched = some (refVe, refEl) ∧
      (∀ el < m.nEls, refEl el * e el = (∑ ve : Fin m.nElVes, m.speed (m.elVe el ve)) / (m.nElVes : K) / f el) ∧
      (∀ el < m.nEls, ∀ ve < m.nElVes, refVe (m.elVe el ve) * e el ≤ m.speed (m.elVe el ve) / f el) ∧
      (∀ x, refVe x ≠ m.big → ∃ el < m.nEls, (∃ ve < m.nElVes, m.elVe el ve = x) ∧ refVe x * e el = m.speed x / f el) := by
  have hmem : ∀ el, el ∈ sched.flatten ↔ el < m.nEls := fun el => by rw [hs.mem_iff, List.mem_range]
  have hfe' : ∀ el < m.nEls, f el = freq (Centre m el) (speedRatio m el) ∧ e el = epw (Centre m el) (speedRatio m el) := by
    intro el hel
    obtain ⟨r, hr, h1, h2⟩ := hfe el hel
    rw [ratio_unique (ratio_max hm el) hr]
    exact ⟨h1, h2⟩
  have hrun := threads_run he m sched mem fun el hel => by
    rw [hmem] at hel
    rw [← (hfe' el hel).1, ← (hfe' el hel).2]
    exact hpos el hel
  obtain ⟨p1, p2, p3⟩ := prop_run m (fun _ => m.big) (fun el => if el ∈ sched.flatten then 1 / fe freq epw m el else mem el) m.nEls
  have hval : ∀ el < m.nEls, (if el ∈ sched.flatten then 1 / fe freq epw m el else mem el) = 1 / (f el * e el) := by
    intro el hel
    rw [if_pos ((hmem el).mpr hel), fe, ← (hfe' el hel).1, ← (hfe' el hel).2]
  refine ⟨_, _, by unfold init; rw [hrun]; rfl, ?_, ?_, ?_⟩
  · intro el hel
    obtain ⟨hf, hE⟩ := hpos el hel
    rw [p1, if_pos hel, hval el hel]
    field_simp
  · intro el hel ve hve
    obtain ⟨hf, hE⟩ := hpos el hel
    have := p2 el hel ve hve
    simp only [hval el hel] at this
    refine (mul_le_mul_of_nonneg_right this hE.le).trans (le_of_eq ?_)
    field_simp
  · intro x hne
    rcases p3 x with h | ⟨el, hel, ve, hve, hx, h⟩
    · exact absurd h hne
    · obtain ⟨hf, hE⟩ := hpos el hel
      refine ⟨el, hel, ⟨ve, hve, hx⟩, ?_⟩
      rw [h]
      simp only [hval el hel]
      field_simp

theorem els_fail {expr : Vars K → Vars K} {freq epw : (Fin 3 → K) → K → K} (he : Determined expr freq epw) (m : Mesh K) (els : List Nat) :
    ∀ s : Vars K × (Nat → K), (∃ el ∈ els, ¬(0 < freq (Centre m el) (speedRatio m el) ∧ 0 < epw (Centre m el) (speedRatio m el))) → els.foldlM (elBody expr m) s = none := by
  induction els with
  | nil => rintro s ⟨el, h, _⟩; cases h
  | cons a l ih =>
    rintro s ⟨el, hel, hbad⟩
    rw [List.foldlM_cons]
    rcases hb : elBody expr m s a with _ | s'
    · rfl
    · simp only [Option.bind_eq_bind, Option.bind_some]
      refine ih s' ⟨el, ?_, hbad⟩
      rcases List.mem_cons.mp hel with rfl | h
      · exfalso
        unfold elBody at hb
        obtain ⟨e1, e2⟩ := he { s.1 with crds := avgCrds m el, ratio := speedRatio m el }
        simp only [avg_eq] at e1 e2 hb
        rw [if_neg (by rw [e1, e2]; exact hbad)] at hb
        cases hb
      · exact h

theorem threads_fail {expr : Vars K → Vars K} {freq epw : (Fin 3 → K) → K → K} (he : Determined expr freq epw) (m : Mesh K) (sched : List (List Nat)) :
    ∀ mem : Nat → K, (∃ el ∈ sched.flatten, ¬(0 < freq (Centre m el) (speedRatio m el) ∧ 0 < epw (Centre m el) (speedRatio m el))) → sched.foldlM (thread expr m) mem = none := by
  induction sched with
  | nil => rintro mem ⟨el, h, _⟩; cases h
  | cons l t ih =>
    rintro mem ⟨el, hel, hbad⟩
    rw [List.foldlM_cons]
    rcases hb : thread expr m mem l with _ | s'
    · rfl
    · simp only [Option.bind_eq_bind, Option.bind_some]
      refine ih s' ⟨el, ?_, hbad⟩
      rw [List.flatten_cons] at hel
      rcases List.mem_append.mp hel with h | h
      · exfalso
        unfold thread at hb
        rw [els_fail he m l _ ⟨el, h, hbad⟩] at hb
        cases hb
      · exact h

/-- C118: a frequency or a number of edges per wave length which is not positive in some element stops the tool, for all schedules. -/
theorem C118_check {expr : Vars K → Vars K} {freq epw : (Fin 3 → K) → K → K} (he : Determined expr freq epw) {m : Mesh K} (hm : Valid m) (mem : Nat → K) {sched : List (List Nat)} (hs : Schedule m.nEls sched)
    {el : Nat} (hel : el < m.nEls) {r : K} (hr : MaxRatio m el r) (hbad : freq (Centre m el) r ≤ 0 ∨ epw (Centre m el) r ≤ 0) : init expr m mem sched = none := by
  unfold init
  rw [threads_fail he m sched mem ⟨el, by rw [hs.mem_iff, List.mem_range]; exact hel, ?_⟩]
  · rfl
  · rw [ratio_unique (ratio_max hm el) hr]
    rintro ⟨h1, h2⟩
    rcases hbad with h | h
    · exact absurd h1 (not_lt.mpr h)
    · exact absurd h2 (not_lt.mpr h)

/-- Two elements with one vertex each, at `x = 0` and `x = 1`. -/
def mesh2 : Mesh ℚ := ⟨1, 2, fun el _ => el, fun ve _ => ve, fun _ => 1, 1000⟩

/-- `if( x < 1 ) { frequency := 2; edges_per_wave_length := 5; }`. -/
def exprIf : Vars ℚ → Vars ℚ := fun v => if v.crds 0 < 1 then { v with freq := 2, epw := 5 } else v

/-- C118: if the expression assigns the variables in some elements only, the lengths depend on the schedule: the other elements use the values of the element which the thread processed before. -/
theorem C118_schedules_refuted : ¬ ∀ (expr : Vars ℚ → Vars ℚ) (m : Mesh ℚ) (mem : Nat → ℚ) (sched sched' : List (List Nat)), Valid m → Schedule m.nEls sched → Schedule m.nEls sched' →
    ∀ r r', init expr m mem sched = some r → init expr m mem sched' = some r' → r.2 1 = r'.2 1 := by
  intro h
  have s1 : init exprIf mesh2 (fun _ => 0) [[0, 1]] = some ((List.range 2).foldl (propEl mesh2) (fun _ => 1000, Function.update (Function.update (fun _ => 0) 0 (1 / (2 * 5))) 1 (1 / (2 * 5)))) := by
    simp [init, thread, elBody, exprIf, mesh2, avgCrds, speedRatio, List.range_succ]
  have s2 : init exprIf mesh2 (fun _ => 0) [[0], [1]] = some ((List.range 2).foldl (propEl mesh2) (fun _ => 1000, Function.update (Function.update (fun _ => 0) 0 (1 / (2 * 5))) 1 (1 / (1000 * 1000)))) := by
    simp [init, thread, elBody, exprIf, mesh2, avgCrds, speedRatio, List.range_succ]
  have := h exprIf mesh2 (fun _ => 0) [[0, 1]] [[0], [1]] ⟨by decide, fun _ => by norm_num [mesh2], fun _ => by norm_num [mesh2]⟩ (by simp [Schedule, mesh2, List.range_succ]) (by simp [Schedule, mesh2, List.range_succ]) _ _ s1 s2
  rw [(prop_run mesh2 _ _ 2).1 1, (prop_run mesh2 _ _ 2).1 1] at this
  norm_num [mesh2] at this

/-- The hypotheses of `C118_lengths_partial` hold for two threads and an expression which refines one side. -/
example : ∃ refVe refEl, init (fun v : Vars ℚ => { v with freq := if v.crds 0 < 1 then 2 else 1, epw := 5 }) mesh2 (fun _ => 0) [[1], [0]] = some (refVe, refEl) ∧ refEl 0 * 5 = 1 / 2 ∧ refVe 1 * 5 ≤ 1 := by
  have he : Determined (fun v : Vars ℚ => { v with freq := if v.crds 0 < 1 then 2 else 1, epw := 5 }) (fun x _ => if x 0 < 1 then 2 else 1) (fun _ _ => 5) := fun v => ⟨rfl, rfl⟩
  have hm : Valid mesh2 := ⟨by decide, fun _ => by norm_num [mesh2], fun _ => by norm_num [mesh2]⟩
  obtain ⟨a, b, h, h1, h2, _⟩ := C118_lengths_partial he hm (fun _ => 0) (sched := [[1], [0]]) (by show List.Perm [1, 0] [0, 1]; exact List.Perm.swap 0 1 []) (fun el => if (Centre mesh2 el) 0 < 1 then 2 else 1) (fun _ => 5)
    (fun el _ => ⟨_, ratio_max hm el, rfl, rfl⟩) (fun el _ => ⟨by split_ifs <;> norm_num, by norm_num⟩)
  refine ⟨a, b, h, ?_, ?_⟩
  · have := h1 0 (by decide)
    rw [this]
    norm_num [mesh2, Centre]
  · have := h2 1 (by decide) 0 (by decide)
    norm_num [mesh2, Centre] at this
    exact this

end Edge.EdgeV.Refine
