import Mathlib.Algebra.Field.Rat
import Mathlib.Algebra.Order.Ring.Rat
import Mathlib.Data.List.Perm.Basic
import Mathlib.Logic.Function.Basic
import Mathlib.Tactic.NormNum

/-!
C120: velocity models from gridded data. Model of `edge_v::models::GridExpression::init` and of its use in edge_v's main.
-/

namespace Edge.EdgeV.GridExpr

variable {K : Type}

/-! ### Model -/

/-- The variables of the expression (tools/edge_v/src/models/GridExpression.cpp:58-60). -/
structure Vars (K : Type) where
  crds : Fin 3 → K
  data : K
  speedMin : K
  speedMax : K

/-- Body of the loop over the points (tools/edge_v/src/models/GridExpression.cpp:81-89). State: variables of the thread and stored speeds. `none`: an entry outside of the grid's data is read. -/
def ptBody (expr : Vars K → Vars K) (data : List K) (pts : List (Fin 3 → K)) (s : Vars K × (Nat → K × K)) (pt : Nat) : Option (Vars K × (Nat → K × K)) := do
  let crds ← pts[pt]?
  let d ← data[pt]?
  let v := expr { s.1 with crds := crds, data := d }
  some (v, Function.update s.2 pt (v.speedMin, v.speedMax))

/-- A thread of the parallel region (tools/edge_v/src/models/GridExpression.cpp:52-91): its own variables, initially zero, and the points assigned to it. -/
def thread [Zero K] (expr : Vars K → Vars K) (data : List K) (pts : List (Fin 3 → K)) (speeds : Nat → K × K) (l : List Nat) : Option (Nat → K × K) :=
  (l.foldlM (ptBody expr data pts) (⟨fun _ => 0, 0, 0, 0⟩, speeds)).map (·.2)

/-- `GridExpression::init` (tools/edge_v/src/models/GridExpression.cpp:42-92) for a schedule of the loop over the points; `data` is what `getData` of the grid returns, `mem` the content of the fresh memory. -/
def init [Zero K] (expr : Vars K → Vars K) (data : List K) (pts : List (Fin 3 → K)) (mem : Nat → K × K) (sched : List (List Nat)) : Option (Nat → K × K) :=
  sched.foldlM (thread expr data pts) mem

/-- `Grid::init` (tools/edge_v/src/io/Grid.cpp:88-99; see `Verif/EdgeV/Grid.lean` for the lookup): `depth` is the value of the grid at a point. -/
def gridData (depth : (Fin 3 → K) → K) (pts : List (Fin 3 → K)) : List K := pts.map depth

/-- The steps of main before the time steps are computed (tools/edge_v/src/main.cpp:208-221, 263-267 and 419-434, 523-527): the grid is initialised at the vertices; the velocity model is initialised at the vertices and, if `cenCfl`, again at the centroids of the elements. -/
def mainSpeeds [Zero K] (expr : Vars K → Vars K) (depth : (Fin 3 → K) → K) (ves cens : List (Fin 3 → K)) (cenCfl : Bool) (mem : Nat → K × K) (schedVe schedEl : List (List Nat)) : Option (Nat → K × K) := do
  let data := gridData depth ves
  let speeds ← init expr data ves mem schedVe
  if cenCfl then init expr data cens mem schedEl else some speeds

/-! ### Specification -/

/-- The expression determines both speeds from the position and the value of the grid. -/
def Determined (expr : Vars K → Vars K) (f : (Fin 3 → K) → K → K × K) : Prop := ∀ v, ((expr v).speedMin, (expr v).speedMax) = f v.crds v.data

/-- Every point is processed exactly once. -/
def Schedule (n : Nat) (sched : List (List Nat)) : Prop := sched.flatten.Perm (List.range n)

/-! ### Proofs -/

theorem pts_run {expr : Vars K → Vars K} {f : (Fin 3 → K) → K → K × K} (he : Determined expr f) (data : List K) (pts : List (Fin 3 → K)) (l : List Nat) :
    ∀ s : Vars K × (Nat → K × K), (∀ pt ∈ l, pt < pts.length ∧ pt < data.length) →
      ∃ v r, l.foldlM (ptBody expr data pts) s = some (v, r) ∧ ∀ pt, (pt ∉ l → r pt = s.2 pt) ∧ (pt ∈ l → ∀ p d, pts[pt]? = some p → data[pt]? = some d → r pt = f p d) := by
  induction l with
  | nil => intro s _; exact ⟨s.1, s.2, rfl, fun pt => ⟨fun _ => rfl, fun h => by cases h⟩⟩
  | cons a l ih =>
    intro s h
    obtain ⟨h1, h2⟩ := h a (by simp)
    have e1 : pts[a]? = some pts[a] := List.getElem?_eq_getElem h1
    have e2 : data[a]? = some data[a] := List.getElem?_eq_getElem h2
    have hb : ptBody expr data pts s a = some (expr { s.1 with crds := pts[a], data := data[a] }, Function.update s.2 a (f pts[a] data[a])) := by
      unfold ptBody
      rw [e1, e2]
      simp only [Option.bind_eq_bind, Option.bind_some]
      rw [he { s.1 with crds := pts[a], data := data[a] }]
    obtain ⟨v, r, hr, hp⟩ := ih (expr { s.1 with crds := pts[a], data := data[a] }, Function.update s.2 a (f pts[a] data[a])) fun pt hpt => h pt (by simp [hpt])
    refine ⟨v, r, by rw [List.foldlM_cons, hb]; exact hr, fun pt => ⟨fun hn => ?_, fun hm p d hp' hd => ?_⟩⟩
    · rw [(hp pt).1 fun h => hn (by simp [h])]
      exact Function.update_of_ne (fun h => hn (by simp [h])) _ _
    · by_cases c : pt ∈ l
      · exact (hp pt).2 c p d hp' hd
      · have : pt = a := by simpa [c] using hm
        subst this
        rw [(hp pt).1 c]
        simp only [Function.update_self]
        rw [e1] at hp'
        rw [e2] at hd
        cases hp'
        cases hd
        rfl

theorem threads_run [Zero K] {expr : Vars K → Vars K} {f : (Fin 3 → K) → K → K × K} (he : Determined expr f) (data : List K) (pts : List (Fin 3 → K)) (sched : List (List Nat)) :
    ∀ mem : Nat → K × K, (∀ pt ∈ sched.flatten, pt < pts.length ∧ pt < data.length) →
      ∃ r, sched.foldlM (thread expr data pts) mem = some r ∧ ∀ pt, (pt ∉ sched.flatten → r pt = mem pt) ∧ (pt ∈ sched.flatten → ∀ p d, pts[pt]? = some p → data[pt]? = some d → r pt = f p d) := by
  induction sched with
  | nil => intro mem _; exact ⟨mem, rfl, fun pt => ⟨fun _ => rfl, fun h => by cases h⟩⟩
  | cons l t ih =>
    intro mem h
    obtain ⟨v, r, hr, hp⟩ := pts_run he data pts l (⟨fun _ => 0, 0, 0, 0⟩, mem) fun pt hpt => h pt (by rw [List.flatten_cons]; exact List.mem_append_left _ hpt)
    obtain ⟨r', hr', hp'⟩ := ih r fun pt hpt => h pt (by rw [List.flatten_cons]; exact List.mem_append_right _ hpt)
    have ht : thread expr data pts mem l = some r := by unfold thread; rw [hr]; rfl
    refine ⟨r', by rw [List.foldlM_cons, ht]; exact hr', fun pt => ⟨fun hn => ?_, fun hm => ?_⟩⟩
    · rw [List.flatten_cons, List.mem_append, not_or] at hn
      rw [(hp' pt).1 hn.2, (hp pt).1 hn.1]
    · by_cases c : pt ∈ t.flatten
      · exact (hp' pt).2 c
      · rw [List.flatten_cons, List.mem_append] at hm
        rw [(hp' pt).1 c]
        exact (hp pt).2 (hm.resolve_right c)

/-- C120: without centroid-based time steps, the speeds at the vertices are those of the expression at the vertex with the value of the grid at the vertex, for all schedules. Missing: centroid-based time steps (`C120_centroids_refuted`). -/
theorem C120_vertices_partial [Zero K] {expr : Vars K → Vars K} {f : (Fin 3 → K) → K → K × K} (he : Determined expr f) (depth : (Fin 3 → K) → K) (ves cens : List (Fin 3 → K)) (mem : Nat → K × K) {schedVe schedEl : List (List Nat)}
    (hs : Schedule ves.length schedVe) : ∃ r, mainSpeeds expr depth ves cens false mem schedVe schedEl = some r ∧ ∀ ve (h : ve < ves.length), r ve = f ves[ve] (depth ves[ve]) := by
  have hm : ∀ pt, pt ∈ schedVe.flatten ↔ pt < ves.length := fun pt => by rw [hs.mem_iff, List.mem_range]
  obtain ⟨r, hr, hp⟩ := threads_run he (gridData depth ves) ves schedVe mem fun pt h => by simpa [gridData] using (hm pt).mp h
  refine ⟨r, ?_, fun ve h => ?_⟩
  · unfold mainSpeeds init
    simp only [hr]
    rfl
  · exact (hp ve).2 ((hm ve).mpr h) _ _ (List.getElem?_eq_getElem h) (by simp [gridData, h])

/-- C120: with centroid-based time steps, the speeds of an element are those of the expression at the centroid with the value of the grid at the vertex with the element's id. -/
theorem C120_centroids [Zero K] {expr : Vars K → Vars K} {f : (Fin 3 → K) → K → K × K} (he : Determined expr f) (depth : (Fin 3 → K) → K) (ves cens : List (Fin 3 → K)) (mem : Nat → K × K) {schedVe schedEl : List (List Nat)}
    (hs : Schedule ves.length schedVe) (hs' : Schedule cens.length schedEl) (hl : cens.length ≤ ves.length) :
    ∃ r, mainSpeeds expr depth ves cens true mem schedVe schedEl = some r ∧ ∀ el (h : el < cens.length), r el = f cens[el] (depth (ves[el]'(Nat.lt_of_lt_of_le h hl))) := by
  have hm : ∀ pt, pt ∈ schedVe.flatten ↔ pt < ves.length := fun pt => by rw [hs.mem_iff, List.mem_range]
  have hm' : ∀ pt, pt ∈ schedEl.flatten ↔ pt < cens.length := fun pt => by rw [hs'.mem_iff, List.mem_range]
  obtain ⟨r, hr, _⟩ := threads_run he (gridData depth ves) ves schedVe mem fun pt h => by simpa [gridData] using (hm pt).mp h
  obtain ⟨r', hr', hp⟩ := threads_run he (gridData depth ves) cens schedEl mem fun pt h => ⟨(hm' pt).mp h, by simpa [gridData] using Nat.lt_of_lt_of_le ((hm' pt).mp h) hl⟩
  refine ⟨r', ?_, fun el h => ?_⟩
  · unfold mainSpeeds init
    simp only [hr, Option.bind_eq_bind, Option.bind_some, if_true]
    exact hr'
  · exact (hp el).2 ((hm' el).mpr h) _ _ (List.getElem?_eq_getElem h) (by simp [gridData, Nat.lt_of_lt_of_le h hl])

theorem pts_fail (expr : Vars K → Vars K) (data : List K) (pts : List (Fin 3 → K)) (l : List Nat) : ∀ s, (∃ pt ∈ l, data.length ≤ pt) → l.foldlM (ptBody expr data pts) s = none := by
  induction l with
  | nil => rintro s ⟨pt, h, _⟩; cases h
  | cons a l ih =>
    rintro s ⟨pt, hpt, hle⟩
    rw [List.foldlM_cons]
    rcases hb : ptBody expr data pts s a with _ | s'
    · rfl
    · refine ih s' ⟨pt, ?_, hle⟩
      rcases List.mem_cons.mp hpt with rfl | h
      · exfalso
        unfold ptBody at hb
        rw [List.getElem?_eq_none hle] at hb
        cases hp : pts[pt]? <;> simp [hp] at hb
      · exact h

/-- C120: with centroid-based time steps and more elements than vertices, data outside of the grid's memory is read, for all expressions and schedules. -/
theorem C120_bounds_refuted [Zero K] (expr : Vars K → Vars K) (depth : (Fin 3 → K) → K) (ves cens : List (Fin 3 → K)) (mem : Nat → K × K) {schedVe schedEl : List (List Nat)} (hs' : Schedule cens.length schedEl) (hl : ves.length < cens.length) :
    mainSpeeds expr depth ves cens true mem schedVe schedEl = none := by
  have key : ∀ (t : List (List Nat)) (mem : Nat → K × K), ves.length ∈ t.flatten → t.foldlM (thread expr (gridData depth ves) cens) mem = none := by
    intro t
    induction t with
    | nil => intro mem h; cases h
    | cons l t ih =>
      intro mem h
      rw [List.foldlM_cons]
      rcases hb : thread expr (gridData depth ves) cens mem l with _ | s'
      · rfl
      · refine ih s' ?_
        rw [List.flatten_cons] at h
        rcases List.mem_append.mp h with h | h
        · exfalso
          unfold thread at hb
          rw [pts_fail expr _ cens l _ ⟨_, h, by simp [gridData]⟩] at hb
          cases hb
        · exact h
  unfold mainSpeeds
  simp only [Option.bind_eq_bind, if_true]
  rcases init expr (gridData depth ves) ves mem schedVe with _ | r
  · rfl
  · simp only [Option.bind_some]
    exact key _ _ (by rw [hs'.mem_iff, List.mem_range]; exact hl)

/-- C120: with centroid-based time steps, the speeds of an element are not those of the expression with the value of the grid at the centroid, even if there are enough vertices. -/
theorem C120_centroids_refuted : ¬ ∀ (expr : Vars ℚ → Vars ℚ) (f : (Fin 3 → ℚ) → ℚ → ℚ × ℚ) (depth : (Fin 3 → ℚ) → ℚ) (ves cens : List (Fin 3 → ℚ)) (mem : Nat → ℚ × ℚ) (schedVe schedEl : List (List Nat)) (r : Nat → ℚ × ℚ),
    Determined expr f → Schedule ves.length schedVe → Schedule cens.length schedEl → cens.length ≤ ves.length → mainSpeeds expr depth ves cens true mem schedVe schedEl = some r →
    ∀ el (h : el < cens.length), r el = f cens[el] (depth cens[el]) := by
  intro h
  have he : Determined (fun v : Vars ℚ => { v with speedMin := v.data, speedMax := v.data }) (fun _ d => (d, d)) := fun v => rfl
  have s1 : Schedule [(fun _ => 0 : Fin 3 → ℚ), fun _ => 1, fun _ => 2].length [[0, 1, 2]] := by unfold Schedule; exact List.Perm.refl _
  have s2 : Schedule [(fun _ => 1 : Fin 3 → ℚ)].length [[0]] := by unfold Schedule; exact List.Perm.refl _
  obtain ⟨r, hr, hv⟩ := C120_centroids he (fun p => p 0) [fun _ => 0, fun _ => 1, fun _ => 2] [fun _ => 1] (fun _ => (0, 0)) s1 s2 (by decide)
  have := h _ _ _ _ _ _ _ _ r he s1 s2 (by decide) hr 0 (by decide)
  rw [hv 0 (by decide)] at this
  norm_num at this

/-- Speeds at two vertices by two threads. -/
example : ∃ r, mainSpeeds (fun v : Vars ℚ => { v with speedMin := v.data, speedMax := v.data + 1 }) (fun p => p 0) [fun _ => 3, fun _ => 5] [] false (fun _ => (0, 0)) [[1], [0]] [] = some r ∧ r 1 = (5, 6) := by
  obtain ⟨r, hr, h⟩ := C120_vertices_partial (expr := fun v : Vars ℚ => { v with speedMin := v.data, speedMax := v.data + 1 }) (f := fun _ d => (d, d + 1)) (fun v => rfl) (fun p => p 0) [fun _ => 3, fun _ => 5] [] (fun _ => (0, 0)) (schedVe := [[1], [0]]) (schedEl := [])
    (List.Perm.swap 0 1 [])
  refine ⟨r, hr, ?_⟩
  rw [h 1 (by decide)]
  norm_num

end Edge.EdgeV.GridExpr
