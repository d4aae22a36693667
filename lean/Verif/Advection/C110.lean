import Verif.Advection.Setup

/-! C110: simulations of the advection equation from the set-up to the last time step. -/
namespace Edge.Advection
open Edge Edge.Map Edge.Quad Edge.Basis Edge.Proj Edge.Gen Edge.Flux MvPolynomial

/-- C110, mass: with the star matrices and solvers of the set-up every simulation without outflow boundaries keeps the mass, for all velocities (which may differ in the
elements) and time steps. -/
theorem C110_mass {c : KCfg} {e : Ent} (he : e = .tria ∨ e = .tet) {o : Nat} (ho : 0 < o) (hc : KFit c e o) {lT lV LN FT : List (List ℝ)} (hst : KStored e o lT lV LN FT)
    {mem : Stack ℝ} (hmem : StackOk c mem) {tol : ℝ} (ht : 0 ≤ tol) {els : List (AEl ℝ)} {m : Mesh ℝ} {g : Desc ℝ} {ves : Nat → Nat → Nat → ℝ} {f : Nat → Nat → AFace}
    (h : SetupOk c e o tol els m g ves f) (hclosed : ∀ el < els.length, ∀ fa < e.nFa, (f el fa).outflow = false) (dts : List ℝ)
    {st : List (List ℝ × TDofs ℝ)} {u : Nat → Nat → Nat → ℝ} (hu : StateOk c els.length st u) :
    ∃ st' u', runMesh c lT lV LN FT mem els dts st = some st' ∧ StateOk c els.length st' u' ∧ ∀ r < c.nCrs, mass tol e o els.length ves u' r = mass tol e o els.length ves u r := by
  obtain ⟨J, hm⟩ := h.mesh he hc ht
  exact C109_run he ho hc hst hmem ht hm (fun el hel => by rw [← h.det el hel]; exact (h.valid.det el (by rw [h.size]; exact hel)).2) h.match_ h.balanced hclosed dts hu

/-- No inflow boundary is reached from element `el` by passing less than `k` faces: through the outflow boundaries the velocity `v` only leaves the domain. -/
def Clean (e : Ent) (g : Desc ℝ) (v : Nat → ℝ) (f : Nat → Nat → AFace) : Nat → Nat → Prop
  | 0, _ => True
  | k + 1, el => (∀ fa < e.nFa, (f el fa).outflow = true → 0 ≤ dot e.nDim v (outN g el fa)) ∧ Clean e g v f k el ∧ ∀ fa < e.nFa, Clean e g v f k (nb el (f el fa))

/-- Elements behind faces have the same vertices at the face, moved by `t` (zero except for periodic boundaries); `q` is invariant under this translation. -/
def Conform (e : Ent) (n : Nat) (ves : Nat → Nat → Nat → ℝ) (f : Nat → Nat → AFace) (q : (Nat → ℝ) → ℝ) : Prop :=
  ∀ el < n, ∀ fa < e.nFa, (f el fa).outflow = false → ∃ t : Nat → ℝ, (∀ x, q (fun d => x d + t d) = q x) ∧
    ∀ ve, (f el fa).vId = some ve → ∀ d < e.nDim, Opposite e ve (fun k => faCrd e (ves el) fa d k + t d) (faCrd e (ves (f el fa).ne) (f el fa).fId d)

theorem phys_ext {tol : ℝ} (ht : 0 ≤ tol) {e : Ent} (he : e = .tria ∨ e = .tet) {ves : Nat → Nat → ℝ} (hr : Regular tol e ves) {o : Nat} (u : Nat → ℝ) {x y : Nat → ℝ}
    (h : ∀ d < e.nDim, x d = y d) : physEval tol e o ves u x = physEval tol e o ves u y := by
  obtain ⟨xi, h1, h2, -⟩ := C88_inverse ht hr x
  have hx : ∀ d < e.nDim, refToPhy e ves (crd (fun i => xi i.val)) d = x d := by
    intro d hd
    rw [← h2 d hd]
    rcases he with rfl | rfl <;> simp only [Ent.nDim] at hd <;> interval_cases d <;> simp [refToPhy, crd, shTria, shTet, sumN_succ, sumN_zero]
  rw [Step.physEval_pt ht he hr u hx, Step.physEval_pt ht he hr u (fun d hd => (hx d hd).trans (h d hd))]

theorem back_back (x v : Nat → ℝ) (a b : ℝ) : back (back x v a) v b = back x v (a + b) := by
  funext d
  simp only [back]
  ring

theorem upwind_sum {c : KCfg} {e : Ent} (he : e = .tria ∨ e = .tet) {o : Nat} (h1 : ¬ (e = .tet ∧ o = 1)) {tol : ℝ} {els : List (AEl ℝ)} {m : Mesh ℝ} {g : Desc ℝ}
    {ves : Nat → Nat → Nat → ℝ} {f : Nat → Nat → AFace} (h : SetupOk c e o tol els m g ves f) {el : Nat} (hel : el < els.length) {J : Nat → Nat → ℝ}
    (hJ : ∀ d < e.nDim, ∀ d2 < e.nDim, ∑ di ∈ Finset.range e.nDim, J d di * evalJac e (ves el) di d2 = if d = d2 then 1 else 0) {v : Nat → ℝ} (hv : ∀ el < els.length, g.v el = v)
    {fa : Nat} (hfa : fa < e.nFa) (hin : (f el fa).outflow = true → 0 ≤ dot e.nDim v (outN g el fa)) :
    sol m g el fa + sol m g el (e.nFa + fa) = -∑ di : Fin 3, if di.val < e.nDim then refNormal e fa di * starOf e (g.v el) J di.val else 0 := by
  rw [hv el hel, ← h.normal he hel hfa hJ v]
  have hcd : codeDet m g el = g.det el := codeDet_eq (fun hh => h1 ⟨h.tet.1 hh.1, h.ord ▸ hh.2⟩) el
  have e2 : ∀ x : ℝ, -max x 0 + max (-x) 0 = -x := by
    intro x
    rcases le_total 0 x with h | h
    · rw [max_eq_left h, max_eq_right (by linarith)]; ring
    · rw [max_eq_right h, max_eq_left (by linarith)]; ring
  rw [sol, sol, h.nfa, if_pos hfa, if_neg (by omega), Nat.add_sub_cancel_left, outOwn, inNe, factor, hcd, hv el hel, outN_dot]
  by_cases hou : (f el fa).outflow = true
  · rw [h.outside el hel fa hfa hou]
    simp only [zero_mul, add_zero]
    rw [max_eq_left (by rw [h.dim]; exact hin hou)]
    ring
  · have hou' : (f el fa).outflow = false := by simpa using hou
    rw [(h.behind el hel fa hfa hou').1, hv _ (h.match_ el hel fa hfa hou').1]
    simp only [outN_dot]
    rw [← add_mul, e2]
    ring

/-- C110, exactness: with the star matrices and solvers of the set-up and a uniform velocity `v`, a function `q` which every element represents exactly (e.g. a
polynomial with a degree below the order) is moved exactly: after the time steps `dts` the elements hold `q (x - (Σ dts) v)`, if no inflow boundary is as close as the number
of time steps. Missing for the full claim: tetrahedra with order 1, for which the solvers are wrong (`C107_first_order_refuted`). -/
theorem C110_exact_partial {c : KCfg} {e : Ent} (he : e = .tria ∨ e = .tet) {o : Nat} (ho : 0 < o) (h1 : ¬ (e = .tet ∧ o = 1)) (hc : KFit c e o) {lT lV LN FT : List (List ℝ)}
    (hst : KStored e o lT lV LN FT) {mem : Stack ℝ} (hmem : StackOk c mem) {tol : ℝ} (ht : 0 ≤ tol) {els : List (AEl ℝ)} {m : Mesh ℝ} {g : Desc ℝ} {ves : Nat → Nat → Nat → ℝ}
    {f : Nat → Nat → AFace} (h : SetupOk c e o tol els m g ves f) {v : Nat → ℝ} (hv : ∀ el < els.length, g.v el = v) {q : Nat → (Nat → ℝ) → ℝ}
    (hq : ∀ r < c.nCrs, Conform e els.length ves f (q r)) (dts : List ℝ) {st : List (List ℝ × TDofs ℝ)} {u : Nat → Nat → Nat → ℝ} (hu : StateOk c els.length st u)
    (hu0 : ∀ el < els.length, ∀ r < c.nCrs, ∀ x, physEval tol e o (ves el) (fun md => u el md r) x = q r x) :
    ∃ st' u', runMesh c lT lV LN FT mem els dts st = some st' ∧ StateOk c els.length st' u' ∧ ∀ el < els.length, Clean e g v f dts.length el → ∀ r < c.nCrs, ∀ x,
      physEval tol e o (ves el) (fun md => u' el md r) x = q r (back x v dts.sum) := by
  obtain ⟨J, hm⟩ := h.mesh he hc ht
  have hl : e ≠ .line := by rcases he with rfl | rfl <;> decide
  have qext : ∀ el < els.length, ∀ r < c.nCrs, ∀ x y : Nat → ℝ, (∀ d < e.nDim, x d = y d) → q r x = q r y := fun el hel r hr x y hxy => by
    rw [← hu0 el hel r hr, ← hu0 el hel r hr]
    exact phys_ext ht he (h.reg el hel) _ hxy
  have key : ∀ (dts : List ℝ) (k : Nat) (T : ℝ) (st : List (List ℝ × TDofs ℝ)) (u : Nat → Nat → Nat → ℝ), StateOk c els.length st u →
      (∀ el < els.length, Clean e g v f k el → ∀ r < c.nCrs, ∀ x, physEval tol e o (ves el) (fun md => u el md r) x = q r (back x v T)) →
      ∃ st' u', runMesh c lT lV LN FT mem els dts st = some st' ∧ StateOk c els.length st' u' ∧ ∀ el < els.length, Clean e g v f (k + dts.length) el → ∀ r < c.nCrs, ∀ x,
        physEval tol e o (ves el) (fun md => u' el md r) x = q r (back x v (T + dts.sum)) := by
    intro dts
    induction dts with
    | nil => exact fun k T st u hu hT => ⟨st, u, rfl, hu, by simpa using hT⟩
    | cons dt dts ih =>
      intro k T st u hu hT
      obtain ⟨st1, u1, s1, s2, s3⟩ := C108_exact he ho hc hst hmem ht hm hu dt
      obtain ⟨st', u', r1, r2, r3⟩ := ih (k + 1) (T + dt) st1 u1 s2 (by
        intro el hel hcl r hr x
        obtain ⟨c1, c2, c3⟩ := hcl
        rw [s3 el hel r hr ?_ ?_ x, hT el hel c2 r hr, hv el hel, back_back, add_comm dt T]
        · intro fa hfa
          exact upwind_sum he h1 h hel (hm.star el _ (List.getElem?_eq_getElem hel)).1 hv hfa (c1 fa hfa)
        · intro fa hfa x y τ
          by_cases hou : (f el fa).outflow = true
          · simp only [nb, hou, if_true, facePt]
          · have hou' : (f el fa).outflow = false := by simpa using hou
            obtain ⟨m1, m2, ⟨ve, m3, m4⟩, -⟩ := h.match_ el hel fa hfa hou'
            have c4 := c3 fa hfa
            simp only [nb, hou', Bool.false_eq_true, if_false, facePt, m4] at c4 ⊢
            obtain ⟨t, t1, t2⟩ := hq r hr el hel fa hfa hou'
            have pt := C94_point hl m3 hfa m2 (ves el) (ves (f el fa).ne) t (t2 ve m4) x y
            rw [hT _ m1 c4 r hr, hT el hel c2 r hr, hv el hel, hv _ m1, back_back, back_back, ← t1 (back (refToPhy e (ves el) (crd (elPt e fa x y))) v (τ + T))]
            exact qext el hel r hr _ _ fun d hd => by
              simp only [back]
              rw [pt d hd]
              ring)
      refine ⟨st', u', ?_, r2, fun el hel hcl r hr x => ?_⟩
      · rw [runMesh, List.foldlM_cons, s1]
        exact r1
      · rw [r3 el hel (by rw [List.length_cons] at hcl; rw [show k + 1 + dts.length = k + (dts.length + 1) by omega]; exact hcl) r hr x, List.sum_cons, add_assoc]
  have e1 := key dts 0 0 st u hu (fun el hel _ r hr x => by rw [hu0 el hel r hr x]; exact qext el hel r hr _ _ fun d _ => by simp [back])
  simpa using e1

end Edge.Advection
