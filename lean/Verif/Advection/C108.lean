import Verif.Advection.Step
import Verif.Advection.Shift
import Verif.Linalg.Dense

/-! C108: theorems on the time steps of the advection equation. -/
namespace Edge.Advection
open Edge Edge.Map Edge.Quad Edge.Basis Edge.Proj Edge.Gen Edge.Flux MvPolynomial

/-- `J` is the inverse of the Jacobian of an element, and the star values are the velocity in reference coordinates. -/
def IsStar (e : Ent) (ves : Nat → Nat → ℝ) (v : Nat → ℝ) (J : Nat → Nat → ℝ) (star : List ℝ) : Prop :=
  (∀ d < e.nDim, ∀ d2 < e.nDim, ∑ di ∈ Finset.range e.nDim, J d di * evalJac e ves di d2 = if d = d2 then 1 else 0) ∧
    ∀ di < e.nDim, star[di]? = some (∑ d ∈ Finset.range e.nDim, J d di * v d)

/-- C108, star matrices of a triangle: the velocity times the inverse of the Jacobian; the set-up fails only for degenerate triangles. -/
theorem C108_star2 {tol : ℝ} (ht : 0 ≤ tol) (ves : Nat → Nat → ℝ) (v : Nat → ℝ) :
    ((starM2 tol ves (v 0) (v 1)).isSome ↔ |Matrix.det (Matrix.of fun i j : Fin 2 => evalJac .tria ves i j)| > tol) ∧
    ∀ star, starM2 tol ves (v 0) (v 1) = some star → ∃ J, IsStar .tria ves v J star := by
  refine ⟨?_, fun star hs => ?_⟩
  · rw [← (Linalg.C52_inv2 ht _).1, starM2]
    cases Linalg.inv2 tol (fun i j : Fin 2 => evalJac .tria ves i j) <;> simp
  · simp only [starM2, Option.bind_eq_bind, Option.bind_eq_some_iff] at hs
    obtain ⟨J, hJ, hs⟩ := hs
    have hst := Option.some.inj hs
    subst hst
    have hinv := ((Linalg.C52_inv2 ht _).2 _ hJ).2
    refine ⟨Gen.ext (Matrix.of J), ?_, ?_⟩
    · intro d hd d2 hd2
      simp only [Ent.nDim] at hd hd2
      have := congrFun (congrFun hinv ⟨d, hd⟩) ⟨d2, hd2⟩
      simp only [Matrix.mul_apply, Fin.sum_univ_two, Matrix.of_apply, Matrix.one_apply, Fin.mk.injEq] at this
      simpa [Finset.sum_range_succ, Ent.nDim, Gen.ext, hd] using this
    · intro di hdi
      simp only [Ent.nDim] at hdi
      interval_cases di <;> simp [List.finRange, Finset.sum_range_succ, Ent.nDim, Gen.ext, mul_comm]

/-- C108, star matrices of a tetrahedron. -/
theorem C108_star3 {tol : ℝ} (ht : 0 ≤ tol) (ves : Nat → Nat → ℝ) (v : Nat → ℝ) :
    ((starM3 tol ves (v 0) (v 1) (v 2)).isSome ↔ |Matrix.det (Matrix.of fun i j : Fin 3 => evalJac .tet ves i j)| > tol) ∧
    ∀ star, starM3 tol ves (v 0) (v 1) (v 2) = some star → ∃ J, IsStar .tet ves v J star := by
  refine ⟨?_, fun star hs => ?_⟩
  · rw [← (Linalg.C52_inv3 ht _).1, starM3]
    cases Linalg.inv3 tol (fun i j : Fin 3 => evalJac .tet ves i j) <;> simp
  · simp only [starM3, Option.bind_eq_bind, Option.bind_eq_some_iff] at hs
    obtain ⟨J, hJ, hs⟩ := hs
    have hst := Option.some.inj hs
    subst hst
    have hinv := ((Linalg.C52_inv3 ht _).2 _ hJ).2
    refine ⟨Gen.ext (Matrix.of J), ?_, ?_⟩
    · intro d hd d2 hd2
      simp only [Ent.nDim] at hd hd2
      have := congrFun (congrFun hinv ⟨d, hd⟩) ⟨d2, hd2⟩
      simp only [Matrix.mul_apply, Fin.sum_univ_three, Matrix.of_apply, Matrix.one_apply, Fin.mk.injEq] at this
      simpa [Finset.sum_range_succ, Ent.nDim, Gen.ext, hd] using this
    · intro di hdi
      simp only [Ent.nDim] at hdi
      interval_cases di <;> simp [List.finRange, Finset.sum_range_succ, Ent.nDim, Gen.ext, mul_comm]

/-- Data of an element for its neighbours: integral in time of the modes `P` from `a` to `b`. -/
def IntOf (c : KCfg) (l : List ℝ) (P : ℝ → Nat → Nat → ℝ) (a b : ℝ) : Prop := Vec c l (fun md r => ∫ τ in a..b, P τ md r)

/-- The polynomials with modes `P τ` start with those of modes `u`, solve the advection equation `∂q/∂t + v·∇q = 0` at all points and times, and
are the initial polynomials moved by `τ v`. -/
def Solves (tol : ℝ) (e : Ent) (o : Nat) (ves : Nat → Nat → ℝ) (v : Nat → ℝ) (u : Nat → Nat → ℝ) (P : ℝ → Nat → Nat → ℝ) : Prop :=
  P 0 = u ∧ (∀ md r, Continuous fun τ => P τ md r) ∧ (∀ r τ x, HasDerivAt (fun τ => physEval tol e o ves (fun md => P τ md r) x)
    (-∑ d ∈ Finset.range e.nDim, v d * dd d (physEval tol e o ves (fun md => P τ md r)) x) τ) ∧
    ∀ r τ x, physEval tol e o ves (fun md => P τ md r) x = physEval tol e o ves (fun md => u md r) (fun d => x d - τ * v d)

/-- Star values of an element. -/
noncomputable def starOf (e : Ent) (v : Nat → ℝ) (J : Nat → Nat → ℝ) (di : Nat) : ℝ := ∑ d ∈ Finset.range e.nDim, J d di * v d

theorem pred_solves {c : KCfg} {e : Ent} (he : e = .tria ∨ e = .tet) {o : Nat} (ho : 0 < o) {tol : ℝ} (ht : 0 ≤ tol) {ves : Nat → Nat → ℝ} (hr : Regular tol e ves) {v : Nat → ℝ}
    {J : Nat → Nat → ℝ} {star : List ℝ} (hs : IsStar e ves v J star) (u : Nat → Nat → ℝ) : Solves tol e o ves v u (pred c e o (starOf e v J) u) := by
  refine ⟨?_, fun md r => ?_, fun r τ x => pred_phys he ho ht hr hs.1 (fun di _ => rfl) u r x τ, fun r τ x => pred_moves he ho ht hr hs.1 (fun di _ => rfl) u r x τ⟩
  · funext md r
    rw [pred, Step.pred_zero ho]
    simp [emb]
  · simp only [pred, Step.pred, Dg.taylor]
    fun_prop

theorem tInt_int {c : KCfg} {e : Ent} {o : Nat} (hc : KFit c e o) (S : Nat → ℝ) (u : Nat → Nat → ℝ) (dt : ℝ) (md r : Nat) :
    tInt c S (GT e o) u dt md r = ∫ τ in (0:ℝ)..dt, pred c e o S u τ md r := by
  rw [tInt_emb hc, Step.tInt_pred]; rfl

/-- C108, prediction: `local` succeeds; the element stores the integral of its prediction, which solves the advection equation, over the time step. -/
theorem C108_predict {c : KCfg} {e : Ent} (he : e = .tria ∨ e = .tet) {o : Nat} (ho : 0 < o) (hc : KFit c e o) {lT lV LN FT : List (List ℝ)} (hst : KStored e o lT lV LN FT)
    {tol : ℝ} (ht : 0 ≤ tol) {ves : Nat → Nat → ℝ} (hr : Regular tol e ves) {v : Nat → ℝ} {J : Nat → Nat → ℝ} {star : List ℝ} (hs : IsStar e ves v J star)
    {mem : Stack ℝ} (hmem : StackOk c mem) {fs : List ℝ} (hfs : c.nFas ≤ fs.length) {dofs : List ℝ} {u : Nat → Nat → ℝ} (hu : Vec c dofs u) {t : TDofs ℝ}
    (h1 : t.eq.length = 1 * c.nMds * c.nCrs) (h2 : t.lt.length = 1 * c.nMds * c.nCrs) (h3 : t.gt.length = 1 * c.nMds * c.nCrs) (firstTs lt gt : Bool) (dt : ℝ) :
    ∃ P d' t', Solves tol e o ves v u P ∧ localEl c lT lV LN FT firstTs dt lt gt star fs mem dofs t = some (d', t') ∧ IntOf c t'.eq P 0 dt := by
  have hl : e ≠ .line := by rcases he with rfl | rfl <;> decide
  obtain ⟨L, hL⟩ := vec_of_length h2
  obtain ⟨d', t', a0, a1, a2, a3, a4, a5⟩ := localEl_spec (by rw [hc.ord]; exact ho) (kmats hl hc hst) (firstTs := firstTs) (lt := lt) (gt := gt) (dt := dt) (S := starOf e v J)
    (X := fun i => fs.getD i 0) (by rw [hc.dis]; exact hs.2) (fun i hi => by rw [List.getD_eq_getElem?_getD, List.getElem?_eq_getElem (by omega)]; rfl) hmem hu h1 hL h3
  exact ⟨_, d', t', pred_solves (c := c) he ho ht hr hs u, a0, a2.congr fun q md r _ _ _ => tInt_int hc _ u dt md r⟩

/-- C108, neighbours with smaller time steps: they use the integral over the first half of the element's time step in their first, over the
second half in their second step. -/
theorem C108_smaller {c : KCfg} {e : Ent} (he : e = .tria ∨ e = .tet) {o : Nat} (ho : 0 < o) (hc : KFit c e o) {lT lV LN FT : List (List ℝ)} (hst : KStored e o lT lV LN FT)
    {tol : ℝ} (ht : 0 ≤ tol) {ves : Nat → Nat → ℝ} (hr : Regular tol e ves) {v : Nat → ℝ} {J : Nat → Nat → ℝ} {star : List ℝ} (hs : IsStar e ves v J star)
    {mem : Stack ℝ} (hmem : StackOk c mem) {fs : List ℝ} (hfs : c.nFas ≤ fs.length) {dofs : List ℝ} {u : Nat → Nat → ℝ} (hu : Vec c dofs u) {t : TDofs ℝ}
    (h1 : t.eq.length = 1 * c.nMds * c.nCrs) (h2 : t.lt.length = 1 * c.nMds * c.nCrs) (h3 : t.gt.length = 1 * c.nMds * c.nCrs) (firstTs lt : Bool) (dt : ℝ) :
    ∃ P d' t' l1 l2, Solves tol e o ves v u P ∧ localEl c lT lV LN FT firstTs dt lt true star fs mem dofs t = some (d', t') ∧
      assemble c true .lt t' = some l1 ∧ IntOf c l1 P 0 (dt / 2) ∧ assemble c false .lt t' = some l2 ∧ IntOf c l2 P (dt / 2) dt := by
  have hl : e ≠ .line := by rcases he with rfl | rfl <;> decide
  obtain ⟨L, hL⟩ := vec_of_length h2
  obtain ⟨d', t', a0, a1, a2, a3, a4, a5⟩ := localEl_spec (by rw [hc.ord]; exact ho) (kmats hl hc hst) (firstTs := firstTs) (lt := lt) (gt := true) (dt := dt) (S := starOf e v J)
    (X := fun i => fs.getD i 0) (by rw [hc.dis]; exact hs.2) (fun i hi => by rw [List.getD_eq_getElem?_getD, List.getElem?_eq_getElem (by omega)]; rfl) hmem hu h1 hL h3
  have a6 := a5 rfl
  rw [one_div, inv_mul_eq_div] at a6
  obtain ⟨l1, b0, b1⟩ := assemble_spec (firstTs := true) (rel := .lt) a2 a3 a6
  obtain ⟨l2, b2, b3⟩ := assemble_spec (firstTs := false) (rel := .lt) a2 a3 a6
  have hsol := pred_solves (c := c) he ho ht hr hs u
  refine ⟨_, d', t', l1, l2, hsol, a0, b0, b1.congr fun q md r _ _ _ => ?_, b2, b3.congr fun q md r _ _ _ => ?_⟩
  · simp only [relData, if_true]
    exact tInt_int hc _ u _ md r
  · simp only [relData, Bool.false_eq_true, if_false]
    rw [tInt_int hc, tInt_int hc]
    have hi : ∀ a b, IntervalIntegrable (fun τ => pred c e o (starOf e v J) u τ md r) MeasureTheory.volume a b := fun a b => (hsol.2.1 md r).intervalIntegrable a b
    exact intervalIntegral.integral_interval_sub_left (hi 0 dt) (hi 0 (dt / 2))

/-- C108, neighbours with a larger time step: after two steps of the element, they use the sum of the integrals of both steps. -/
theorem C108_larger {c : KCfg} {e : Ent} (he : e = .tria ∨ e = .tet) {o : Nat} (ho : 0 < o) (hc : KFit c e o) {lT lV LN FT : List (List ℝ)} (hst : KStored e o lT lV LN FT)
    {tol : ℝ} (ht : 0 ≤ tol) {ves : Nat → Nat → ℝ} (hr : Regular tol e ves) {v : Nat → ℝ} {J : Nat → Nat → ℝ} {star : List ℝ} (hs : IsStar e ves v J star)
    {mem : Stack ℝ} (hmem : StackOk c mem) {fs : List ℝ} (hfs : c.nFas ≤ fs.length) {dofs dofs2 : List ℝ} {u u2 : Nat → Nat → ℝ} (hu : Vec c dofs u) (hu2 : Vec c dofs2 u2)
    {t : TDofs ℝ} (h1 : t.eq.length = 1 * c.nMds * c.nCrs) (h2 : t.lt.length = 1 * c.nMds * c.nCrs) (h3 : t.gt.length = 1 * c.nMds * c.nCrs) (gt firstTs : Bool) (dt dt2 : ℝ) :
    ∃ P P2 d1 t1 d2 t2 l, Solves tol e o ves v u P ∧ Solves tol e o ves v u2 P2 ∧ localEl c lT lV LN FT true dt true gt star fs mem dofs t = some (d1, t1) ∧
      localEl c lT lV LN FT false dt2 true gt star fs mem dofs2 t1 = some (d2, t2) ∧ assemble c firstTs .gt t2 = some l ∧
      Vec c l (fun md r => (∫ τ in (0:ℝ)..dt, P τ md r) + ∫ τ in (0:ℝ)..dt2, P2 τ md r) := by
  have hl : e ≠ .line := by rcases he with rfl | rfl <;> decide
  obtain ⟨L, hL⟩ := vec_of_length h2
  have hX : ∀ i < c.nFas, fs[i]? = some (fs.getD i 0) := fun i hi => by rw [List.getD_eq_getElem?_getD, List.getElem?_eq_getElem (by omega)]; rfl
  obtain ⟨d1, t1, a0, a1, a2, a3, a4, -⟩ := localEl_spec (by rw [hc.ord]; exact ho) (kmats hl hc hst) (firstTs := true) (lt := true) (gt := gt) (dt := dt) (S := starOf e v J)
    (by rw [hc.dis]; exact hs.2) hX hmem hu h1 hL h3
  obtain ⟨d2, t2, b0, b1, b2, b3, b4, -⟩ := localEl_spec (by rw [hc.ord]; exact ho) (kmats hl hc hst) (firstTs := false) (lt := true) (gt := gt) (dt := dt2) (S := starOf e v J)
    (by rw [hc.dis]; exact hs.2) hX hmem hu2 a2.1 a3 a4
  obtain ⟨G, hG⟩ := vec_of_length b4
  obtain ⟨l, c0, c1⟩ := assemble_spec (firstTs := firstTs) (rel := .gt) b2 b3 hG
  refine ⟨_, _, d1, t1, d2, t2, l, pred_solves (c := c) he ho ht hr hs u, pred_solves (c := c) he ho ht hr hs u2, a0, b0, c0, c1.congr fun q md r _ _ _ => ?_⟩
  simp only [relData, if_true, Bool.false_eq_true, if_false, zero_add, tInt_int hc]

/-- The weak form of the equation in an element: `u'` after the step, `u` before it, `T` the integral in time of the prediction, `Tn fa` of that of
the element behind face `fa`. -/
def WeakStep (e : Ent) (o : Nat) (S X Y : Nat → ℝ) (f : Nat → AFace) (u u' T : Nat → ℝ) (Tn : Nat → Nat → ℝ) : Prop :=
  ∀ a : Nat → ℝ, refInt e (fun x y z => recon e o u' ![x, y, z] * recon e o a ![x, y, z]) =
    refInt e (fun x y z => recon e o u ![x, y, z] * recon e o a ![x, y, z]) +
    (∑ di : Fin 3, if di.val < e.nDim then S di.val * refInt e (fun x y z => recon e o T ![x, y, z] * eval ![x, y, z] (pderiv di (Step.poly e o a))) else 0) +
    ∑ fa ∈ Finset.range e.nFa, refInt (faTy e) (fun x y _ => (X fa * recon e o T (elPt e fa x y) + Y fa * recon e o (Tn fa) (facePt e fa (f fa) x y)) * recon e o a (elPt e fa x y))

theorem new_test {c : KCfg} {e : Ent} (he : e ≠ .line) {o : Nat} (ho : 0 < o) (hc : KFit c e o) {S X Y : Nat → ℝ} {f : Nat → AFace} {u u' T : Nat → Nat → ℝ} {Tn : Nat → Nat → Nat → ℝ} {r : Nat}
    (h : ∀ md < c.nMds, u' md r = newModes c e o S X Y f u T Tn md r) :
    WeakStep e o S X Y f (fun md => u md r) (fun md => u' md r) (fun md => T md r) (fun fa md => Tn fa md r) := by
  intro a
  have key := Cons.test_any (big_fits he ho c.nCrs) (big_fit ho c.nCrs) (S := embS S) (FL := fun fa => embS X fa) (FN := fun fa => embS Y fa) (fs := fun fa => toIn (f fa))
    (u := emb u) (u' := emb u') (T := emb T) (Tn := fun fa => emb (Tn fa)) (src := embS S) (A := fun _ => emb u) (q := 0) (r := r) (by
    intro md hmd
    rw [vol_emb hc]
    have e1 : ∀ (W : Nat → ℝ) fa (g : Nat → ℝ), ∑ p ∈ Finset.range (big e o c.nCrs).nQtsE, embS W fa 0 p * g p = W fa * g 0 := fun W fa g => embS_sum W fa g
    simp only [e1, emb, if_true, toIn, Bool.false_eq_true, if_false]
    rw [h md (by rw [hc.mds]; exact hmd), newModes]
    simp only [facePt_in]
    rfl) a
  have e1 : ∀ (W : Nat → ℝ) fa (g : Nat → ℝ), ∑ p ∈ Finset.range (big e o c.nCrs).nQtsE, embS W fa 0 p * g p = W fa * g 0 := fun W fa g => embS_sum W fa g
  simp only [e1, emb, if_true, toIn, Bool.false_eq_true, if_false] at key
  simp only [facePt_in]
  exact key

/-- Mesh of the advection equation: vertices `ves`, velocities `v`, solvers `X` and `Y`, faces `f`. All elements have the same time step. -/
structure MeshOk (c : KCfg) (e : Ent) (tol : ℝ) (els : List (AEl ℝ)) (ves : Nat → Nat → Nat → ℝ) (v X Y : Nat → Nat → ℝ) (J : Nat → Nat → Nat → ℝ) (f : Nat → Nat → AFace) : Prop where
  reg : ∀ el < els.length, Regular tol e (ves el)
  star : ∀ el E, els[el]? = some E → IsStar e (ves el) (v el) (J el) E.star
  own : ∀ el E, els[el]? = some E → ∀ i < c.nFas, E.fs[i]? = some (X el i)
  ne : ∀ el E, els[el]? = some E → ∀ i < c.nFas, E.fs[c.nFas + i]? = some (Y el i)
  faces : ∀ el E, els[el]? = some E → ∀ fa < c.nFas, rd E.faces fa = some (f el fa)
  ids : ∀ el < els.length, ∀ fa < c.nFas, (f el fa).outflow = false → (f el fa).ne < els.length ∧ ∀ ve, (f el fa).vId = some ve → ve < e.nVeOpts ∧ (f el fa).fId < e.nFa
  rel : ∀ el < els.length, ∀ fa < c.nFas, (f el fa).rel = .eq

theorem MeshOk.data {c : KCfg} {e : Ent} {o : Nat} (hc : KFit c e o) {tol : ℝ} {els : List (AEl ℝ)} {ves : Nat → Nat → Nat → ℝ} {v X Y : Nat → Nat → ℝ} {J : Nat → Nat → Nat → ℝ}
    {f : Nat → Nat → AFace} (h : MeshOk c e tol els ves v X Y J f) (el : Nat) (E : AEl ℝ) (hE : els[el]? = some E) :
    ElData c e els.length E (starOf e (v el) (J el)) (X el) (Y el) (f el) := by
  have hel : el < els.length := (List.getElem?_eq_some_iff.1 hE).1
  exact ⟨by rw [hc.dis]; exact (h.star el E hE).2, h.own el E hE, h.ne el E hE, h.faces el E hE, h.ids el hel⟩

/-- C108, time step: for every mesh and time step the update succeeds. In every element it is the weak form of the equation with all
polynomials as test functions: flux through the volume of the element's predicted values, and through its faces by the solvers, from
the element's own values and from those of the element behind the face at the same point. The predicted values solve the equation. -/
theorem C108_step {c : KCfg} {e : Ent} (he : e = .tria ∨ e = .tet) {o : Nat} (ho : 0 < o) (hc : KFit c e o) {lT lV LN FT : List (List ℝ)} (hst : KStored e o lT lV LN FT)
    {mem : Stack ℝ} (hmem : StackOk c mem) {tol : ℝ} (ht : 0 ≤ tol) {els : List (AEl ℝ)} {ves : Nat → Nat → Nat → ℝ} {v X Y : Nat → Nat → ℝ} {J : Nat → Nat → Nat → ℝ} {f : Nat → Nat → AFace}
    (hm : MeshOk c e tol els ves v X Y J f) {st : List (List ℝ × TDofs ℝ)} {u : Nat → Nat → Nat → ℝ} (hu : StateOk c els.length st u) (dt : ℝ) :
    ∃ P : Nat → ℝ → Nat → Nat → ℝ, ∃ st' u', (∀ el < els.length, Solves tol e o (ves el) (v el) (u el) (P el)) ∧
      stepMesh c lT lV LN FT mem els st dt = some st' ∧ StateOk c els.length st' u' ∧ ∀ el < els.length, ∀ r < c.nCrs,
        WeakStep e o (starOf e (v el) (J el)) (X el) (Y el) (f el) (fun md => u el md r) (fun md => u' el md r) (fun md => ∫ τ in (0:ℝ)..dt, P el τ md r)
          (fun fa md => ∫ τ in (0:ℝ)..dt, P (nb el (f el fa)) τ md r) := by
  have hl : e ≠ .line := by rcases he with rfl | rfl <;> decide
  obtain ⟨st', u', h1, h2, h3⟩ := step_mesh hl ho hc hst hmem (hm.data hc) hm.rel hu dt
  refine ⟨fun el => pred c e o (starOf e (v el) (J el)) (u el), st', u', fun el hel =>
    pred_solves he ho ht (hm.reg el hel) (hm.star el _ (List.getElem?_eq_getElem hel)) (u el), h1, h2, fun el hel r hr => ?_⟩
  have := new_test hl ho hc (r := r) (fun md hmd => h3 el hel md hmd r hr)
  simpa only [tInt_int hc] using this

/-- Exactness in terms of the predicted values. -/
theorem exact_modes {c : KCfg} {e : Ent} (he : e = .tria ∨ e = .tet) {o : Nat} (ho : 0 < o) (hc : KFit c e o) {lT lV LN FT : List (List ℝ)} (hst : KStored e o lT lV LN FT)
    {mem : Stack ℝ} (hmem : StackOk c mem) {tol : ℝ} (ht : 0 ≤ tol) {els : List (AEl ℝ)} {ves : Nat → Nat → Nat → ℝ} {v X Y : Nat → Nat → ℝ} {J : Nat → Nat → Nat → ℝ} {f : Nat → Nat → AFace}
    (hm : MeshOk c e tol els ves v X Y J f) {st : List (List ℝ × TDofs ℝ)} {u : Nat → Nat → Nat → ℝ} (hu : StateOk c els.length st u) (dt : ℝ) :
    ∃ P : Nat → ℝ → Nat → Nat → ℝ, ∃ st' u', (∀ el < els.length, Solves tol e o (ves el) (v el) (u el) (P el)) ∧
      stepMesh c lT lV LN FT mem els st dt = some st' ∧ StateOk c els.length st' u' ∧ ∀ el < els.length, ∀ r < c.nCrs,
      (∀ fa < e.nFa, X el fa + Y el fa = -∑ di : Fin 3, if di.val < e.nDim then refNormal e fa di * starOf e (v el) (J el) di.val else 0) →
      (∀ fa < e.nFa, ∀ x y, recon e o (fun md => ∫ τ in (0:ℝ)..dt, P (nb el (f el fa)) τ md r) (facePt e fa (f el fa) x y) =
        recon e o (fun md => ∫ τ in (0:ℝ)..dt, P el τ md r) (elPt e fa x y)) →
      ∀ md < c.nMds, u' el md r = P el dt md r := by
  have hl : e ≠ .line := by rcases he with rfl | rfl <;> decide
  obtain ⟨st', u', h1, h2, h3⟩ := step_mesh hl ho hc hst hmem (hm.data hc) hm.rel hu dt
  refine ⟨fun el => pred c e o (starOf e (v el) (J el)) (u el), st', u', fun el hel =>
    pred_solves he ho ht (hm.reg el hel) (hm.star el _ (List.getElem?_eq_getElem hel)) (u el), h1, h2, fun el hel r hr => ?_⟩
  generalize hS : (fun el => starOf e (v el) (J el)) = S at h3
  have hS' : ∀ el, starOf e (v el) (J el) = S el := fun el => by rw [← hS]
  simp only [hS'] at h3 ⊢
  intro hX hT md hmd
  have hmd' : md < nModes e o := by rw [← hc.mds]; exact hmd
  rw [h3 el hel md hmd r hr, newModes]
  have e1 : ∀ (W : Nat → ℝ) fa (g : Nat → ℝ), ∑ p ∈ Finset.range (big e o c.nCrs).nQtsE, embS W fa 0 p * g p = W fa * g 0 := fun W fa g => embS_sum W fa g
  have hq : ∀ (W : Nat → ℝ) fa q (hq : q ≠ 0) (g : Nat → ℝ), ∑ p ∈ Finset.range (big e o c.nCrs).nQtsE, embS W fa q p * g p = 0 := fun W fa q hq g =>
    Finset.sum_eq_zero fun p _ => by simp [embS, hq]
  have hcons : Step.Consistent (big e o c.nCrs) e o (embS (S el)) (fun fa => embS (X el) fa) (fun fa => embS (Y el) fa) (fun fa => toIn (f el fa))
      (emb (fun md r' => if r' = r then tInt c (S el) (GT e o) (u el) dt md r else 0))
      (fun fa => emb (fun md r' => if r' = r then tInt c (S (nb el (f el fa))) (GT e o) (u (nb el (f el fa))) dt md r else 0)) := by
    intro fa hfa q _ r' _ x y
    by_cases q0 : q = 0
    · subst q0
      simp only [e1, emb, if_true, toIn, Bool.false_eq_true, if_false]
      by_cases hr' : r' = r
      · subst hr'
        simp only [if_true, tInt_int hc]
        have hx := hT fa hfa x y
        rw [facePt_in] at hx
        simp only [toIn] at hx
        rw [hx, ← add_mul, hX fa hfa, neg_mul, Finset.sum_mul]
        congr 1
        refine Finset.sum_congr rfl fun di _ => ?_
        split <;> ring
      · simp [hr', recon]
    · simp only [hq _ _ q q0, toIn, Bool.false_eq_true, if_false]
      simp
  have hws := Step.weak_strong (big_fits hl ho c.nCrs) (big_fit ho c.nCrs) hcons (embS (S el)) (fun _ => emb (u el)) (q := 0) (show 0 < 9 by decide) hmd' hr
  simp only [vol_emb hc, e1, emb, if_true, toIn, Bool.false_eq_true, if_false] at hws
  have v1 : ∀ G : Nat → Nat → Nat → ℝ, volC c (S el) G (emb (fun md r' => if r' = r then tInt c (S el) (GT e o) (u el) dt md r else 0) 0) md r =
      volC c (S el) G (tInt c (S el) (GT e o) (u el) dt) md r := by
    intro G
    simp [volC, emb]
  have hrt := Step.rhs_tInt (big_fit (e := e) ho c.nCrs) (embS (S el)) (embS (S el)) (emb (u el)) (fun _ => emb (u el)) dt 0 md r
  rw [Step.der_top he (big_fit ho c.nCrs) _ _ hmd', mul_zero, add_zero, vol_emb hc] at hrt
  have e2 : Step.tInt (big e o c.nCrs) e o (embS (S el)) (emb (u el)) dt 0 = tInt c (S el) (GT e o) (u el) dt := by
    funext md r; rw [tInt_emb hc]
  rw [pred, ← hrt, e2]
  simp only [v1] at hws
  simp only [facePt_in, toIn]
  rw [← hws]
  simp only [emb, if_true]
  ring

/-- A polynomial with integrated modes is the integral of the polynomials. -/
theorem recon_int (e : Ent) (o : Nat) {P : ℝ → Nat → ℝ} (h : ∀ md, Continuous fun τ => P τ md) (dt : ℝ) (p : Fin 3 → ℝ) :
    recon e o (fun md => ∫ τ in (0:ℝ)..dt, P τ md) p = ∫ τ in (0:ℝ)..dt, recon e o (P τ) p := by
  simp only [recon]
  have hi : ∀ md ∈ Finset.range (nModes e o), IntervalIntegrable (fun τ => P τ md * eval p (bf e o md)) MeasureTheory.volume 0 dt :=
    fun md _ => ((h md).mul continuous_const).intervalIntegrable 0 dt
  rw [intervalIntegral.integral_finsetSum hi]
  exact Finset.sum_congr rfl fun md _ => (intervalIntegral.integral_mul_const _ _).symm

/-- The point `x` moved back along the velocity `v` for the time `τ`. -/
def back (x v : Nat → ℝ) (τ : ℝ) (d : Nat) : ℝ := x d - τ * v d

/-- C108, exactness: if the solvers of every face of an element add up to the velocity along the face's normal, and the values of the element behind
each face, followed back in time from the points of the face, are the same as the element's own, then the step moves the element's values
by `dt v`: the exact solution of the advection equation, for every order and time step. -/
theorem C108_exact {c : KCfg} {e : Ent} (he : e = .tria ∨ e = .tet) {o : Nat} (ho : 0 < o) (hc : KFit c e o) {lT lV LN FT : List (List ℝ)} (hst : KStored e o lT lV LN FT)
    {mem : Stack ℝ} (hmem : StackOk c mem) {tol : ℝ} (ht : 0 ≤ tol) {els : List (AEl ℝ)} {ves : Nat → Nat → Nat → ℝ} {v X Y : Nat → Nat → ℝ} {J : Nat → Nat → Nat → ℝ} {f : Nat → Nat → AFace}
    (hm : MeshOk c e tol els ves v X Y J f) {st : List (List ℝ × TDofs ℝ)} {u : Nat → Nat → Nat → ℝ} (hu : StateOk c els.length st u) (dt : ℝ) :
    ∃ st' u', stepMesh c lT lV LN FT mem els st dt = some st' ∧ StateOk c els.length st' u' ∧ ∀ el < els.length, ∀ r < c.nCrs,
      (∀ fa < e.nFa, X el fa + Y el fa = -∑ di : Fin 3, if di.val < e.nDim then refNormal e fa di * starOf e (v el) (J el) di.val else 0) →
      (∀ fa < e.nFa, ∀ x y τ, physEval tol e o (ves (nb el (f el fa))) (fun md => u (nb el (f el fa)) md r)
          (back (refToPhy e (ves (nb el (f el fa))) (crd (facePt e fa (f el fa) x y))) (v (nb el (f el fa))) τ) =
        physEval tol e o (ves el) (fun md => u el md r) (back (refToPhy e (ves el) (crd (elPt e fa x y))) (v el) τ)) →
      ∀ x, physEval tol e o (ves el) (fun md => u' el md r) x = physEval tol e o (ves el) (fun md => u el md r) (back x (v el) dt) := by
  obtain ⟨P, st', u', hP, h1, h2, h3⟩ := exact_modes he ho hc hst hmem ht hm hu dt
  refine ⟨st', u', h1, h2, fun el hel r hr hX hT x => ?_⟩
  have hmod := h3 el hel r hr hX fun fa hfa p1 p2 => ?_
  · rw [show back x (v el) dt = fun d => x d - dt * v el d from rfl, ← (hP el hel).2.2.2 r dt x]
    simp only [physEval]
    split
    · refine Finset.sum_congr rfl fun md hmd => ?_
      simp only [hmod md (by rw [hc.mds]; exact Finset.mem_range.1 hmd)]
    · rfl
  · have hn : nb el (f el fa) < els.length := by
      by_cases hou : (f el fa).outflow = true
      · simpa [nb, hou] using hel
      · simpa [nb, hou] using (hm.ids el hel fa (by rw [hc.fas]; exact hfa) (by simpa using hou)).1
    rw [recon_int e o (fun md => (hP _ hn).2.1 md r), recon_int e o (fun md => (hP el hel).2.1 md r)]
    refine intervalIntegral.integral_congr fun τ _ => ?_
    have g : ∀ k (hk : k < els.length) (p : Fin 3 → ℝ), recon e o (fun md => P k τ md r) p =
        physEval tol e o (ves k) (fun md => u k md r) (back (refToPhy e (ves k) (crd p)) (v k) τ) := by
      intro k hk p
      rw [← Step.physEval_pt ht he (hm.reg k hk) (fun md => P k τ md r) (fun d _ => rfl)]
      exact (hP k hk).2.2.2 r τ _
    simp only [g _ hn, g el hel]
    exact hT fa hfa p1 p2 τ

end Edge.Advection
