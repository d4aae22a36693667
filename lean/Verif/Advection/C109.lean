import Verif.Advection.C108
import Verif.Advection.C107

/-! C109: conservation of mass by the advection equation. -/
namespace Edge.Advection
open Edge Edge.Map Edge.Quad Edge.Basis Edge.Proj Edge.Gen Edge.Flux MvPolynomial

/-- Mass: the integral of the solution over all elements, simulation `r`. -/
noncomputable def mass (tol : ℝ) (e : Ent) (o n : Nat) (ves : Nat → Nat → Nat → ℝ) (u : Nat → Nat → Nat → ℝ) (r : Nat) : ℝ :=
  ∑ el ∈ Finset.range n, Cons.elInt e (ves el) (physEval tol e o (ves el) (fun md => u el md r))

/-- The element behind a face has the element behind its own face of that name, with the same orientation. -/
def Matching (e : Ent) (n : Nat) (f : Nat → Nat → AFace) : Prop :=
  ∀ el < n, ∀ fa < e.nFa, (f el fa).outflow = false → (f el fa).ne < n ∧ (f el fa).fId < e.nFa ∧ (∃ ve < e.nVeOpts, (f el fa).vId = some ve) ∧
    (f (f el fa).ne (f el fa).fId).outflow = false ∧ (f (f el fa).ne (f el fa).fId).ne = el ∧ (f (f el fa).ne (f el fa).fId).fId = fa ∧
    (f (f el fa).ne (f el fa).fId).vId = (f el fa).vId

/-- What an element loses through a face by its own values, the element behind the face gains. -/
def Balanced {K : Type} [Field K] (e : Ent) (n : Nat) (ves : Nat → Nat → Nat → K) (X Y : Nat → Nat → K) (f : Nat → Nat → AFace) : Prop :=
  ∀ el < n, ∀ fa < e.nFa, (f el fa).outflow = false → jDet e (ves el) * X el fa + jDet e (ves (f el fa).ne) * Y (f el fa).ne (f el fa).fId = 0

/-- Amount which enters through face `fa` of an element in a time step: integral over the face. -/
noncomputable def through (e : Ent) (o : Nat) (ves : Nat → Nat → Nat → ℝ) (X Y : Nat → Nat → ℝ) (f : Nat → Nat → AFace) (T : Nat → Nat → ℝ) (el fa : Nat) : ℝ :=
  jDet e (ves el) * refInt (faTy e) (fun x y _ => X el fa * recon e o (T el) (elPt e fa x y) + Y el fa * recon e o (T (nb el (f el fa))) (facePt e fa (f el fa) x y))

theorem elInt_recon {e : Ent} (he : e = .tria ∨ e = .tet) {o : Nat} {tol : ℝ} (ht : 0 ≤ tol) {ves : Nat → Nat → ℝ} (hr : Regular tol e ves) (u : Nat → ℝ) :
    Cons.elInt e ves (physEval tol e o ves u) = jDet e ves * refInt e (fun x y z => recon e o u ![x, y, z]) := by
  rw [Cons.elInt]
  congr 2
  funext x y z
  exact Step.physEval_pt ht he hr u (p := ![x, y, z]) (fun d _ => rfl)

/-- Mass of an element. -/
theorem weak_mass {e : Ent} (he : e = .tria ∨ e = .tet) {o : Nat} (ho : 0 < o) {tol : ℝ} (ht : 0 ≤ tol) {ves : Nat → Nat → ℝ} (hr : Regular tol e ves) (hdet : 0 < jDet e ves) {S X Y : Nat → ℝ}
    {f : Nat → AFace} {u u' T : Nat → ℝ} {Tn : Nat → Nat → ℝ} (h : WeakStep e o S X Y f u u' T Tn) :
    refInt e (fun x y z => recon e o u' ![x, y, z]) = refInt e (fun x y z => recon e o u ![x, y, z]) +
      ∑ fa ∈ Finset.range e.nFa, refInt (faTy e) (fun x y _ => X fa * recon e o T (elPt e fa x y) + Y fa * recon e o (Tn fa) (facePt e fa (f fa) x y)) := by
  obtain ⟨a, a1, a2⟩ := Cons.affine_modes he ht hr hdet (o := o) 1 (fun _ => 0) ho (by simp)
  have h1 := h a
  have a1' : ∀ p, recon e o a p = 1 := fun p => by rw [a1]; simp [Cons.affine]
  have a2' : ∀ di : Fin 3, (if di.val < e.nDim then S di.val * refInt e (fun x y z => recon e o T ![x, y, z] * eval ![x, y, z] (pderiv di (Step.poly e o a))) else 0) = 0 := by
    intro di
    by_cases hd : di.val < e.nDim
    · have : (fun x y z => recon e o T ![x, y, z] * eval ![x, y, z] (pderiv di (Step.poly e o a))) = fun _ _ _ => (0:ℝ) := by
        funext x y z
        rw [a2 di hd]
        simp
      rw [if_pos hd, this]
      rcases he with rfl | rfl <;> simp [refInt]
    · rw [if_neg hd]
  simp only [a1', mul_one, a2', Finset.sum_const_zero, add_zero] at h1
  exact h1

theorem cont_outPt (e : Ent) (ve fb : Nat) : Continuous (fun v : ℝ × ℝ => outPt e ve fb v.1 v.2) := by
  have h := (cont_facePt e 0 ⟨false, 0, some ve, fb, .eq⟩).comp (continuous_fst.prodMk (continuous_snd.prodMk (continuous_const (X := ℝ × ℝ) (y := (0:ℝ)))))
  exact h

theorem scale_int {e : Ent} (he : e = .tria ∨ e = .tet) (k : ℝ) (w : ℝ → ℝ → ℝ) : k * refInt (faTy e) (fun x y _ => w x y) = refInt (faTy e) (fun x y _ => k * w x y) := by
  rcases he with rfl | rfl <;> simp [faTy, refInt]

/-- The integrals of both sides of a face. -/
theorem swap_int {e : Ent} (he : e = .tria ∨ e = .tet) {ve : Nat} (hve : ve < e.nVeOpts) (o fa fb : Nat) (a b : Nat → ℝ) {d d' x y x' y' : ℝ} (b1 : d * x + d' * y' = 0) (b2 : d' * x' + d * y = 0) :
    d' * refInt (faTy e) (fun s t _ => x' * recon e o b (elPt e fb s t) + y' * recon e o a (outPt e ve fa s t)) =
      -(d * refInt (faTy e) (fun s t _ => x * recon e o a (elPt e fa s t) + y * recon e o b (outPt e ve fb s t))) := by
  have key := Cons.refInt_faPt he hve (f := fun s t => x' * recon e o b (elPt e fb s t) + y' * recon e o a (outPt e ve fa s t))
    ((continuous_const.mul (cont_recon _ _ _ (cont_elPt e fb continuous_fst continuous_snd))).add (continuous_const.mul (cont_recon _ _ _ (cont_outPt e ve fa))))
  have e1 : ∀ s t, outPt e ve fa (faPt e ve s t 0) (faPt e ve s t 1) = elPt e fa s t := fun s t => Cons.elPt_faPt he hve fa s t
  have e2 : ∀ s t, elPt e fb (faPt e ve s t 0) (faPt e ve s t 1) = outPt e ve fb s t := fun s t => rfl
  simp only [e1, e2] at key
  rw [← key, scale_int he, ← neg_mul, scale_int he]
  congr 1
  funext s t _
  linear_combination (recon e o a (elPt e fa s t)) * b1 + (recon e o b (outPt e ve fb s t)) * b2

theorem through_pair {e : Ent} (he : e = .tria ∨ e = .tet) {o n : Nat} {ves : Nat → Nat → Nat → ℝ} {X Y : Nat → Nat → ℝ} {f : Nat → Nat → AFace} (hM : Matching e n f) (hB : Balanced e n ves X Y f)
    (T : Nat → Nat → ℝ) {el fa : Nat} (hel : el < n) (hfa : fa < e.nFa) (hou : (f el fa).outflow = false) :
    through e o ves X Y f T (f el fa).ne (f el fa).fId = -through e o ves X Y f T el fa := by
  obtain ⟨m1, m2, ⟨ve, hve, m3⟩, m4, m5, m6, m7⟩ := hM el hel fa hfa hou
  have b1 := hB el hel fa hfa hou
  have b2 := hB _ m1 _ m2 m4
  rw [m5, m6] at b2
  have p1 : ∀ x y, facePt e fa (f el fa) x y = outPt e ve (f el fa).fId x y := fun x y => by rw [facePt, hou, m3]
  have p2 : ∀ x y, facePt e (f el fa).fId (f (f el fa).ne (f el fa).fId) x y = outPt e ve fa x y := fun x y => by rw [facePt, m4, m7, m3, m6]
  have n1 : nb el (f el fa) = (f el fa).ne := by simp [nb, hou]
  have n2 : nb (f el fa).ne (f (f el fa).ne (f el fa).fId) = el := by simp [nb, m4, m5]
  simp only [through, p1, p2, n1, n2]
  exact swap_int he hve o fa (f el fa).fId (T el) (T (f el fa).ne) b1 b2

/-- C109, mass: in a time step the mass changes only by what passes through outflow boundaries. -/
theorem C109_step {c : KCfg} {e : Ent} (he : e = .tria ∨ e = .tet) {o : Nat} (ho : 0 < o) (hc : KFit c e o) {lT lV LN FT : List (List ℝ)} (hst : KStored e o lT lV LN FT)
    {mem : Stack ℝ} (hmem : StackOk c mem) {tol : ℝ} (ht : 0 ≤ tol) {els : List (AEl ℝ)} {ves : Nat → Nat → Nat → ℝ} {v X Y : Nat → Nat → ℝ} {J : Nat → Nat → Nat → ℝ} {f : Nat → Nat → AFace}
    (hm : MeshOk c e tol els ves v X Y J f) (hdet : ∀ el < els.length, 0 < jDet e (ves el)) (hM : Matching e els.length f) (hB : Balanced e els.length ves X Y f)
    {st : List (List ℝ × TDofs ℝ)} {u : Nat → Nat → Nat → ℝ} (hu : StateOk c els.length st u) (dt : ℝ) :
    ∃ P : Nat → ℝ → Nat → Nat → ℝ, ∃ st' u', (∀ el < els.length, Solves tol e o (ves el) (v el) (u el) (P el)) ∧
      stepMesh c lT lV LN FT mem els st dt = some st' ∧ StateOk c els.length st' u' ∧ ∀ r < c.nCrs,
        mass tol e o els.length ves u' r = mass tol e o els.length ves u r +
          ∑ el ∈ Finset.range els.length, ∑ fa ∈ Finset.range e.nFa, if (f el fa).outflow then
            through e o ves X Y f (fun el md => ∫ τ in (0:ℝ)..dt, P el τ md r) el fa else 0 := by
  obtain ⟨P, st', u', h1, h2, h3, h4⟩ := C108_step he ho hc hst hmem ht hm hu dt
  refine ⟨P, st', u', h1, h2, h3, fun r hr => ?_⟩
  set T : Nat → Nat → ℝ := fun el md => ∫ τ in (0:ℝ)..dt, P el τ md r with hT
  have e1 : mass tol e o els.length ves u' r = mass tol e o els.length ves u r + ∑ el ∈ Finset.range els.length, ∑ fa ∈ Finset.range e.nFa, through e o ves X Y f T el fa := by
    rw [mass, mass, ← Finset.sum_add_distrib]
    refine Finset.sum_congr rfl fun el hel => ?_
    have hel := Finset.mem_range.1 hel
    rw [elInt_recon he ht (hm.reg el hel), elInt_recon he ht (hm.reg el hel), weak_mass he ho ht (hm.reg el hel) (hdet el hel) (h4 el hel r hr), mul_add, Finset.mul_sum]
    rfl
  rw [e1]
  congr 1
  rw [← sub_eq_zero, ← Finset.sum_sub_distrib]
  have e2 : ∀ el ∈ Finset.range els.length, (∑ fa ∈ Finset.range e.nFa, through e o ves X Y f T el fa) - (∑ fa ∈ Finset.range e.nFa, if (f el fa).outflow then through e o ves X Y f T el fa else 0) =
      ∑ fa ∈ Finset.range e.nFa, if (f el fa).outflow then 0 else through e o ves X Y f T el fa := by
    intro el _
    rw [← Finset.sum_sub_distrib]
    refine Finset.sum_congr rfl fun fa _ => ?_
    split <;> simp
  rw [Finset.sum_congr rfl e2, ← Finset.sum_product' (f := fun el fa => if (f el fa).outflow then 0 else through e o ves X Y f T el fa)]
  have pair : ∀ el < els.length, ∀ fa < e.nFa, (f el fa).outflow = false → through e o ves X Y f T (f el fa).ne (f el fa).fId = -through e o ves X Y f T el fa :=
    fun el hel fa hfa hou => through_pair he hM hB T hel hfa hou
  refine Finset.sum_involution (fun p _ => if (f p.1 p.2).outflow then p else ((f p.1 p.2).ne, (f p.1 p.2).fId)) ?_ ?_ ?_ ?_
  · rintro ⟨el, fa⟩ hp
    rw [Finset.mem_product, Finset.mem_range, Finset.mem_range] at hp
    rcases hou : (f el fa).outflow with _ | _
    · obtain ⟨-, -, -, m4, -⟩ := hM el hp.1 fa hp.2 hou
      simp only [Bool.false_eq_true, if_false, m4]
      rw [pair el hp.1 fa hp.2 hou, add_neg_cancel]
    · simp [hou]
  · rintro ⟨el, fa⟩ hp hne heq
    rw [Finset.mem_product, Finset.mem_range, Finset.mem_range] at hp
    rcases hou : (f el fa).outflow with _ | _
    · simp only [hou, Bool.false_eq_true, if_false] at heq hne
      have h := pair el hp.1 fa hp.2 hou
      have q1 : (f el fa).ne = el := congrArg Prod.fst heq
      have q2 : (f el fa).fId = fa := congrArg Prod.snd heq
      rw [q1, q2] at h
      exact hne (by linarith)
    · simp [hou] at hne
  · rintro ⟨el, fa⟩ hp
    rw [Finset.mem_product, Finset.mem_range, Finset.mem_range] at hp
    rcases hou : (f el fa).outflow with _ | _
    · obtain ⟨m1, m2, -⟩ := hM el hp.1 fa hp.2 hou
      simp only [Bool.false_eq_true, if_false, Finset.mem_product, Finset.mem_range]
      exact ⟨m1, m2⟩
    · simp only [if_true, Finset.mem_product, Finset.mem_range]
      exact hp
  · rintro ⟨el, fa⟩ hp
    rw [Finset.mem_product, Finset.mem_range, Finset.mem_range] at hp
    rcases hou : (f el fa).outflow with _ | _
    · obtain ⟨-, -, -, m4, m5, m6, -⟩ := hM el hp.1 fa hp.2 hou
      simp only [Bool.false_eq_true, if_false, m4, m5, m6]
    · simp only [hou, if_true]

/-- C109, mass of a run: without outflow boundaries the mass stays the same, for any number of time steps. -/
theorem C109_run {c : KCfg} {e : Ent} (he : e = .tria ∨ e = .tet) {o : Nat} (ho : 0 < o) (hc : KFit c e o) {lT lV LN FT : List (List ℝ)} (hst : KStored e o lT lV LN FT)
    {mem : Stack ℝ} (hmem : StackOk c mem) {tol : ℝ} (ht : 0 ≤ tol) {els : List (AEl ℝ)} {ves : Nat → Nat → Nat → ℝ} {v X Y : Nat → Nat → ℝ} {J : Nat → Nat → Nat → ℝ} {f : Nat → Nat → AFace}
    (hm : MeshOk c e tol els ves v X Y J f) (hdet : ∀ el < els.length, 0 < jDet e (ves el)) (hM : Matching e els.length f) (hB : Balanced e els.length ves X Y f)
    (hclosed : ∀ el < els.length, ∀ fa < e.nFa, (f el fa).outflow = false) (dts : List ℝ)
    {st : List (List ℝ × TDofs ℝ)} {u : Nat → Nat → Nat → ℝ} (hu : StateOk c els.length st u) :
    ∃ st' u', runMesh c lT lV LN FT mem els dts st = some st' ∧ StateOk c els.length st' u' ∧ ∀ r < c.nCrs, mass tol e o els.length ves u' r = mass tol e o els.length ves u r := by
  induction dts generalizing st u with
  | nil => exact ⟨st, u, rfl, hu, fun _ _ => rfl⟩
  | cons dt dts ih =>
    obtain ⟨P, st1, u1, -, h1, h2, h3⟩ := C109_step he ho hc hst hmem ht hm hdet hM hB hu dt
    obtain ⟨st', u', h4, h5, h6⟩ := ih h2
    refine ⟨st', u', ?_, h5, fun r hr => ?_⟩
    · rw [runMesh, List.foldlM_cons, h1]
      exact h4
    · rw [h6 r hr, h3 r hr]
      have : ∀ el ∈ Finset.range els.length, (∑ fa ∈ Finset.range e.nFa, if (f el fa).outflow then through e o ves X Y f (fun el md => ∫ τ in (0:ℝ)..dt, P el τ md r) el fa else 0) = 0 :=
        fun el hel => Finset.sum_eq_zero fun fa hfa => by rw [hclosed el (Finset.mem_range.1 hel) fa (Finset.mem_range.1 hfa)]; rfl
      rw [Finset.sum_eq_zero this, add_zero]

/-- C109, the solvers of the set-up are balanced: for a valid mesh, whose elements have the vertices `ves`, with faces `f`. -/
theorem C109_solvers {K : Type} [Field K] [LinearOrder K] [IsStrictOrderedRing K] {m : Mesh K} {g : Desc K} (hm : Valid m g) {e : Ent} (hnf : m.nElFa = e.nFa) {ves : Nat → Nat → Nat → K} (hdet : ∀ el < m.nIn + m.nSe, g.det el = jDet e (ves el))
    {f : Nat → Nat → AFace} (hf : ∀ el < m.nIn + m.nSe, ∀ fa < e.nFa, (f el fa).outflow = false → g.own el fa < m.nFa ∧ (f el fa).fId < e.nFa ∧ g.own (f el fa).ne (f el fa).fId = g.own el fa ∧
      ((g.left (g.own el fa) = el ∧ g.right (g.own el fa) = some (f el fa).ne) ∨ (g.left (g.own el fa) = (f el fa).ne ∧ g.right (g.own el fa) = some el)))
    (hne : ∀ el < m.nIn + m.nSe, ∀ fa < e.nFa, (f el fa).outflow = false → (f el fa).ne < m.nIn + m.nSe) :
    ∃ fs X Y, setupSolvers m = some fs ∧ (∀ el < m.nIn + m.nSe, ∀ fa < e.nFa, entry fs el fa = some (X el fa) ∧ entry fs el (e.nFa + fa) = some (Y el fa)) ∧
      Balanced e (m.nIn + m.nSe) ves X Y f := by
  obtain ⟨fs, h1, h2⟩ := setup_spec hm
  refine ⟨fs, sol m g, fun el fa => sol m g el (e.nFa + fa), h1, fun el hel fa hfa => ⟨entry_tab h2 hel (by omega), entry_tab h2 hel (by omega)⟩, fun el hel fa hfa hou => ?_⟩
  obtain ⟨q1, q2, q3, q4⟩ := hf el hel fa hfa hou
  have hn := hne el hel fa hfa hou
  rw [← hdet el hel, ← hdet _ hn]
  rcases q4 with ⟨l, r⟩ | ⟨l, r⟩
  · obtain ⟨fs', a, b, a', b', k1, k2, k3, k4, k5, -, -, k6, k7⟩ := C107_conserve hm q1 r (i := fa) (j := (f el fa).fId) (by omega) (by omega) (by rw [l]) q3
    cases h1.symm.trans k1
    rw [l] at k2 k6
    rw [entry_tab h2 hel (by omega)] at k2
    rw [entry_tab h2 hn (by omega)] at k3
    cases k2; cases k3
    rw [← hnf]
    exact k6
  · obtain ⟨fs', a, b, a', b', k1, k2, k3, k4, k5, -, -, k6, k7⟩ := C107_conserve hm q1 r (i := (f el fa).fId) (j := fa) (by omega) (by omega) (by rw [l]; exact q3) rfl
    cases h1.symm.trans k1
    rw [l] at k5 k7
    rw [entry_tab h2 hel (by omega)] at k4
    rw [entry_tab h2 hn (by omega)] at k5
    cases k4; cases k5
    rw [← hnf]
    exact k7

end Edge.Advection
