import Verif.Fused.Props
import Verif.Work.Results
/-!
C106: runs with local time stepping and simulations with the fused kernels. From equal states, the fused kernels yield the degrees of freedom, derivatives, time integrated degrees of freedom and numbers
of updates of the vanilla kernels; the scratch memory may have other contents.
-/
namespace Edge.Fused
open Edge Edge.Linalg Edge.Dg Edge.Step
open Edge.Rate (REl RSt Ev)

variable {K : Type} [Field K] [LinearOrder K]

/-- Local update of element `el` of a mesh with local time stepping, see `Rate.locEl`; the star matrices of the elements are sparse. -/
def locElF (c : Cfg) (ks : Kerns K) (dt : Nat → Nat → K) (els : List (REl K)) (sc0 sc1 : List K) (st : List (RSt K)) (el : Nat) : Option (List (RSt K)) := do
  let E ← rd els el
  let x ← rd st el
  let y ← localElF c ks (dt E.tg x.nl) E.starE [] [] E.fsL [] [] x.dofs [] x.mem sc0 sc1
  let t ← localLts c E.isLt E.isGt (x.nl % 2 == 0) (dt E.tg x.nl) y.2.2.derE ⟨y.2.2.tIntE, x.lt, x.gt⟩
  wr st el ⟨y.1, y.2.2, t.lt, t.gt, x.nl + 1, x.nn⟩

/-- Neighboring update of element `el`, see `Rate.neiEl`. -/
def neiElF (c : Cfg) (ks : Kerns K) (els : List (REl K)) (sc0 sc1 : List K) (st : List (RSt K)) (el : Nat) : Option (List (RSt K)) := do
  let E ← rd els el
  let x ← rd st el
  let fs ← Rate.facesIn (st.map (·.tDofs)) el E.faces E.ad
  let y ← neighElF c ks [] (x.nn % 2 == 0) fs x.dofs [] sc0 sc1
  wr st el { x with dofs := y.1, nn := x.nn + 1 }

/-- Execution of an update, see `Rate.exec`. -/
def execF (c : Cfg) (ks : Kerns K) (dt : Nat → Nat → K) (els : List (REl K)) (sc0 sc1 : List K) (st : List (RSt K)) : Ev → Option (List (RSt K))
  | .loc el => locElF c ks dt els sc0 sc1 st el
  | .nei el => neiElF c ks els sc0 sc1 st el

/-- Intervals between synchronizations with the updates of each interval, see `Rate.runSync`. -/
def runSyncF (c : Cfg) (ks : Kerns K) (els : List (REl K)) (sc0 sc1 : List K) (ivs : List ((Nat → Nat → K) × List Ev)) (st : List (RSt K)) : Option (List (RSt K)) :=
  ivs.foldlM (fun st iv => iv.2.foldlM (execF c ks iv.1 els sc0 sc1) (Rate.sync st)) st

/-! ### States -/

/-- Same state of an element, except for the contents of the scratch memory. -/
def SameEl (x y : RSt K) : Prop := ∃ s, y = { x with mem := { x.mem with scratch := s } } ∧ s.length = x.mem.scratch.length

omit [Field K] [LinearOrder K] in
theorem same_tDofs {st st' : List (RSt K)} (h : List.Forall₂ SameEl st st') : st'.map (·.tDofs) = st.map (·.tDofs) := by
  induction h with
  | nil => rfl
  | cons h1 _ ih =>
    obtain ⟨s, e, -⟩ := h1
    rw [List.map_cons, List.map_cons, ih, e]
    rfl

omit [Field K] [LinearOrder K] in
theorem same_sync {st st' : List (RSt K)} (h : List.Forall₂ SameEl st st') : List.Forall₂ SameEl (Rate.sync st) (Rate.sync st') := by
  induction h with
  | nil => exact .nil
  | cons h1 _ ih =>
    obtain ⟨s, rfl, e⟩ := h1
    exact .cons ⟨s, rfl, e⟩ ih

theorem rel_rd {α β : Type} {R : α → β → Prop} {l : List α} {l' : List β} (h : List.Forall₂ R l l') {i : Nat} {x : α} (hx : rd l i = some x) : ∃ y, rd l' i = some y ∧ R x y := by
  induction h generalizing i with
  | nil => simp [rd] at hx
  | cons h1 _ ih =>
    cases i with
    | zero => simp only [rd, List.getElem?_cons_zero, Option.some.injEq] at hx ⊢; subst hx; exact ⟨_, rfl, h1⟩
    | succ i => exact ih (by simpa [rd] using hx)

theorem rel_wr {α β : Type} {R : α → β → Prop} {l : List α} {l' : List β} (h : List.Forall₂ R l l') {i : Nat} {x : α} {y : β} (hR : R x y) {m : List α} (hx : wr l i x = some m) :
    ∃ m', wr l' i y = some m' ∧ List.Forall₂ R m m' := by
  have hi : i < l.length := by
    unfold wr at hx
    by_contra hn
    rw [if_neg hn] at hx
    cases hx
  rw [wr_some hi] at hx
  cases hx
  refine ⟨l'.set i y, wr_some (h.length_eq ▸ hi) y, ?_⟩
  clear hi
  induction h generalizing i with
  | nil => exact .nil
  | cons h1 h2 ih =>
    cases i with
    | zero => exact .cons hR h2
    | succ i => exact .cons h1 ih

theorem foldlM_rel {α β γ : Type} {R : β → γ → Prop} {f : β → α → Option β} {g : γ → α → Option γ} (hs : ∀ a x x' y, R x y → f x a = some x' → ∃ y', g y a = some y' ∧ R x' y') :
    ∀ {l : List α} {x x' : β} {y : γ}, R x y → l.foldlM f x = some x' → ∃ y', l.foldlM g y = some y' ∧ R x' y' := by
  intro l
  induction l with
  | nil => intro x x' y hR h; cases h; exact ⟨y, rfl, hR⟩
  | cons a l ih =>
    intro x x' y hR h
    simp only [List.foldlM_cons, Option.bind_eq_bind, Option.bind_eq_some_iff] at h ⊢
    obtain ⟨x1, h1, h2⟩ := h
    obtain ⟨y1, k1, k2⟩ := hs a x x1 y hR h1
    obtain ⟨y', k3, k4⟩ := ih k2 h2
    exact ⟨y', ⟨y1, k1, k3⟩, k4⟩

theorem mapM_mem {α β : Type} {f : α → Option β} {l : List α} : ∀ {r : List β}, l.mapM f = some r → ∀ y ∈ r, ∃ x ∈ l, f x = some y := by
  induction l with
  | nil => intro r h; simp at h; subst h; simp
  | cons a l ih =>
    intro r h
    simp only [List.mapM_cons, Option.bind_eq_bind, Option.pure_def, Option.bind_eq_some_iff] at h
    obtain ⟨y, h1, ys, h2, h3⟩ := h
    cases h3
    intro z hz
    rcases List.mem_cons.1 hz with rfl | hz
    · exact ⟨a, by simp, h1⟩
    · obtain ⟨x, k1, k2⟩ := ih h2 z hz
      exact ⟨x, by simp [k1], k2⟩

/-! ### Updates -/

/-- Setting of a mesh: the star matrices of element `el` in `els'` are the sparse versions of those in `els`; all other data is the same. -/
structure RateSet (c : Cfg) (els els' : List (REl K)) : Prop where
  len : els'.length = els.length
  get : ∀ el E, rd els el = some E → ∃ sE, rd els' el = some { E with starE := sE } ∧ SparseAll (starEPos c.nDis) c.nDis c.nQtsE c.nQtsE E.starE sE ∧
    (∀ f ∈ E.fsL, c.nQtsE * c.nQtsE ≤ f.length) ∧ ∀ f ∈ E.faces, c.nQtsE * c.nQtsE ≤ f.fsE.length

section
variable [IsStrictOrderedRing K] {c : Cfg} {ev : Env K} {pt : Pats} {dT dV fL fN fT stT stV LN FT : List (List K)} {GT GV A B : Nat → Nat → Nat → K} {ks : Kerns K}

theorem exec_eq (hr : c.nRms = 0) (hR : Ready c ev pt dT dV fL fN fT stT stV LN FT GT GV A B ks) {els els' : List (REl K)} (hM : RateSet c els els') {sc0 sc1 : List K} {dt : Nat → Nat → K}
    (e : Ev) {st r st' : List (RSt K)} (h0 : List.Forall₂ SameEl st st') (h : Rate.exec c dt stT stV LN FT els sc0 sc1 st e = some r) :
    ∃ r', execF c ks dt els' sc0 sc1 st' e = some r' ∧ List.Forall₂ SameEl r r' := by
  cases e with
  | loc el =>
    simp only [Rate.exec, Rate.locEl, Option.bind_eq_bind, Option.bind_eq_some_iff] at h
    obtain ⟨E, b1, x, b2, ⟨e', a', m'⟩, b3, t, b4, b5⟩ := h
    obtain ⟨sE, c1, c2, c3, c4⟩ := hM.get el E b1
    obtain ⟨y, d1, s, rfl, d2⟩ := rel_rd h0 b2
    obtain ⟨sc, g1, g2⟩ := localEl_eq (hR _ _ c2) (fsE := E.fsL) (fsA := []) ⟨fun fa _ f hf => c3 f (List.mem_of_getElem? hf), fun fa _ f hf => by simp [rd] at hf⟩ d2
      (fun h => absurd h (by omega)) b3
    obtain ⟨r', w1, w2⟩ := rel_wr h0 (y := ⟨e', { m' with scratch := sc }, t.lt, t.gt, x.nl + 1, x.nn⟩) ⟨sc, rfl, g2⟩ b5
    refine ⟨r', ?_, w2⟩
    simp only [execF, locElF, c1, d1, Option.bind_eq_bind, Option.bind_some, g1, b4]
    exact w1
  | nei el =>
    simp only [Rate.exec, Rate.neiEl, Option.bind_eq_bind, Option.bind_eq_some_iff] at h
    obtain ⟨E, b1, x, b2, fs, b3, ⟨e', a'⟩, b4, b5⟩ := h
    obtain ⟨sE, c1, c2, c3, c4⟩ := hM.get el E b1
    obtain ⟨y, d1, s, rfl, d2⟩ := rel_rd h0 b2
    have hfs : FaceSolvers c fs := by
      intro f hf _
      refine ⟨?_, fun h => absurd h (by omega)⟩
      obtain ⟨fa, -, k2⟩ := mapM_mem b3 f hf
      simp only [Option.bind_eq_bind, Option.bind_eq_some_iff] at k2
      obtain ⟨f', l1, a, l2, k3⟩ := k2
      have l4 : ∃ t, Rate.toIn f' a t = f := by
        split at k3
        · simp only [Option.bind_some, Option.some.injEq] at k3; exact ⟨_, k3⟩
        · simp only [Option.bind_eq_some_iff, Option.some.injEq] at k3; obtain ⟨t, -, k⟩ := k3; exact ⟨t, k⟩
      obtain ⟨t, rfl⟩ := l4
      exact c4 f' (List.mem_of_getElem? l1)
    have g1 := neighEl_eq (hR _ _ c2).sp (hR _ _ c2).nN hfs b4
    obtain ⟨r', w1, w2⟩ := rel_wr h0 (x := { x with dofs := e', nn := x.nn + 1 }) (y := { x with mem := { x.mem with scratch := s }, dofs := e', nn := x.nn + 1 }) ⟨s, rfl, d2⟩ b5
    refine ⟨r', ?_, w2⟩
    simp only [execF, neiElF, c1, d1, Option.bind_eq_bind, Option.bind_some, same_tDofs h0, b3, g1]
    exact w1

theorem runSync_eq (hr : c.nRms = 0) (hR : Ready c ev pt dT dV fL fN fT stT stV LN FT GT GV A B ks) {els els' : List (REl K)} (hM : RateSet c els els') {sc0 sc1 : List K}
    {ivs : List ((Nat → Nat → K) × List Ev)} {st r st' : List (RSt K)} (h0 : List.Forall₂ SameEl st st') (h : Rate.runSync c stT stV LN FT els sc0 sc1 ivs st = some r) :
    ∃ r', runSyncF c ks els' sc0 sc1 ivs st' = some r' ∧ List.Forall₂ SameEl r r' := by
  unfold Rate.runSync at h
  unfold runSyncF
  refine foldlM_rel (R := List.Forall₂ SameEl) ?_ h0 h
  intro iv s s' t hs hb
  unfold Rate.runEv at hb
  refine foldlM_rel (R := List.Forall₂ SameEl) ?_ (same_sync hs) hb
  intro e u u' v hu he
  exact exec_eq hr hR hM e hu he

end

/-! ### Results -/

section
variable [IsStrictOrderedRing K] {c : Cfg} (hc : Simplex c) {ev : Env K} {dT dV fL fN fT stT stV LN FT : List (List K)} (hD : Dense c ev dT dV fL fN fT stT stV LN FT) {ks : Kerns K}
  (hk : SetUp c ev dT dV fL fN fT ks)
include hc hD hk

/-- **Runs of a mesh with local time stepping**, without relaxation mechanisms: any updates of any elements in any intervals, in any order, from any contents of the scratch memory. -/
theorem C106_run (hr : c.nRms = 0) {els els' : List (REl K)} (hM : RateSet c els els') {sc0 sc1 : List K} {ivs : List ((Nat → Nat → K) × List Ev)} {st r st' : List (RSt K)}
    (h0 : List.Forall₂ SameEl st st') (h : Rate.runSync c stT stV LN FT els sc0 sc1 ivs st = some r) :
    ∃ r', runSyncF c ks els' sc0 sc1 ivs st' = some r' ∧ List.Forall₂ SameEl r r' := by
  obtain ⟨pt, H⟩ := stepSet hc hD hk
  exact runSync_eq hr (fun starE sE hE => H starE [] [] sE [] [] hE (by omega) (fun i hi => by omega)) hM h0 h

end

/-- **Simulations** of the code with its time steps, threads and work packages (claim C104). -/
theorem C106_sim {c : Cfg} (hc : Simplex c) {ev : Env ℝ} {dT dV fL fN fT stT stV LN FT : List (List ℝ)} (hD : Dense c ev dT dV fL fN fT stT stV LN FT) {ks : Kerns ℝ}
    (hk : SetUp c ev dT dV fL fN fT ks) (hr : c.nRms = 0) {els els' : List (REl ℝ)} (hM : RateSet c els els') {sc0 sc1 : List ℝ} {is : List Work.Itv} {st r st' : List (RSt ℝ)}
    (h0 : List.Forall₂ SameEl st st') (h : Work.simRun c stT stV LN FT els sc0 sc1 is st = some r) :
    ∃ r', runSyncF c ks els' sc0 sc1 (is.map (fun i => (i.dt, i.x.out))) st' = some r' ∧ r'.map (·.dofs) = r.map (·.dofs) ∧ r'.map (·.tDofs) = r.map (·.tDofs) := by
  obtain ⟨r', k1, k2⟩ := C106_run hc hD hk hr hM h0 h
  refine ⟨r', k1, ?_, same_tDofs k2⟩
  clear k1 h
  induction k2 with
  | nil => rfl
  | cons a _ ih =>
    obtain ⟨s, e, -⟩ := a
    rw [List.map_cons, List.map_cons, ih, e]

end Edge.Fused
