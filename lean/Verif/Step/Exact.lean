import Verif.Step.Props
import Verif.Proj.Span
import Verif.Quad.Exists
/-!
Solutions of the elastic wave equations which are polynomials of degree less than the order at any time: their modes at later times are the predicted ones.
-/
namespace Edge.Step
open Edge Edge.Map Edge.Quad Edge.Basis Edge.Proj Edge.Gen Edge.Flux MvPolynomial

/-! ### Modes and values -/

/-- Functions of the basis depend on the element's dimensions only. -/
theorem recon_pt {e : Ent} (he : e = .tria ∨ e = .tet) {o : Nat} (u : Nat → ℝ) {p p' : Fin 3 → ℝ} (h : ∀ i : Fin 3, i.val < e.nDim → p i = p' i) : recon e o u p = recon e o u p' := by
  refine Finset.sum_congr rfl (fun md hmd => ?_)
  rw [eval_eq', eval_eq']
  congr 1
  refine Finset.sum_congr rfl (fun m hm => ?_)
  have hd := bf_deg (Finset.mem_range.1 hmd) m hm
  congr 1
  refine Finset.prod_congr rfl (fun i _ => ?_)
  by_cases hi : i.val < e.nDim
  · rw [h i hi]
  · rcases he with rfl | rfl
    · simp only [Ent.nDim] at hi
      have : i = 2 := by omega
      subst this
      have h2 : m 2 = 0 := hd.2
      rw [h2, pow_zero, pow_zero]
    · simp only [Ent.nDim] at hi; omega

theorem physEval_pt {tol : ℝ} (ht : 0 ≤ tol) {e : Ent} (he : e = .tria ∨ e = .tet) {ves : Nat → Nat → ℝ} (hr : Regular tol e ves) {o : Nat} (u : Nat → ℝ) {x : Nat → ℝ} {p : Fin 3 → ℝ}
    (h : ∀ d < e.nDim, refToPhy e ves (crd p) d = x d) : physEval tol e o ves u x = recon e o u p := by
  obtain ⟨xi, h1, h2, h3⟩ := C88_inverse ht hr x
  rw [physEval, h1]
  refine recon_pt he u (fun i hi => ?_)
  have := h3 (crd p) h i.val hi
  rw [← this, crd, dif_pos i.2]

/-- Modes are combinations of values. -/
theorem mode_pts (e : Ent) (o : Nat) : ∃ pts : List (Qp ℝ), ∀ (u : Nat → ℝ) (md : Nat), md < nModes e o →
    u md = rule pts (fun x y z => recon e o u ![x, y, z] * (phi e (dgr e o md) x y z / mass e (dgr e o md))) := by
  obtain ⟨pair, hp⟩ := C90_gauss_exists
  have hg := hp (o + 1) (by omega)
  refine ⟨refPts pair e (o + 1), fun u md hmd => ?_⟩
  have h1 : (fun x y z => recon e o u ![x, y, z] * (phi e (dgr e o md) x y z / mass e (dgr e o md))) =
      fun x y z => ∑ k ∈ Finset.range (nModes e o), (u k / mass e (dgr e o md)) * (phi e (dgr e o k) x y z * phi e (dgr e o md) x y z) := by
    funext x y z
    rw [recon, Finset.sum_mul]
    refine Finset.sum_congr rfl (fun k hk => ?_)
    have := bf_val (Finset.mem_range.1 hk) x y z
    rw [val] at this
    rw [this]; ring
  rw [h1, rule_sum (Finset.range (nModes e o)) _ (fun k => u k / mass e (dgr e o md)) (fun k x y z => phi e (dgr e o k) x y z * phi e (dgr e o md) x y z)]
  rw [Finset.sum_eq_single md]
  · rw [discrete_orth hg (dgr_deg hmd) (dgr_deg hmd), if_pos rfl, div_mul_cancel₀ _ (mass_pos _ _).ne']
  · intro k hk hne
    rw [discrete_orth hg (dgr_deg (Finset.mem_range.1 hk)) (dgr_deg hmd), if_neg (fun h => hne ((dgr_inj (Finset.mem_range.1 hk) hmd).1 h)), mul_zero]
  · intro h; exact absurd (Finset.mem_range.2 hmd) h

theorem rule_deriv {f : ℝ → ℝ → ℝ → ℝ → ℝ} {f' : ℝ → ℝ → ℝ → ℝ} {τ : ℝ} (l : List (Qp ℝ)) (h : ∀ x y z, HasDerivAt (fun t => f t x y z) (f' x y z) τ) :
    HasDerivAt (fun t => rule l (f t)) (rule l f') τ := by
  induction l with
  | nil => simp only [rule, List.map_nil, List.sum_nil]; exact hasDerivAt_const _ _
  | cons q l ih =>
    simp only [rule, List.map_cons, List.sum_cons] at ih ⊢
    exact ((h q.x q.y q.z).const_mul q.w).add ih

/-! ### Uniqueness in time -/

/-- `U` are the modes of a solution on the reference element. -/
def Solution (c : Dg.Cfg) (e : Ent) (o : Nat) (S : Nat → Nat → Nat → ℝ) (U : ℝ → Nat → Nat → Nat → ℝ) : Prop :=
  ∀ r < c.nCrs, ∀ q < c.nQtsE, ∀ p τ, HasDerivAt (fun t => recon e o (fun md => U t q md r) p) (waveOp e.nDim c.nQtsE S (fun k => recon e o (fun md => U τ k md r)) q p) τ

theorem Solution.der {c : Dg.Cfg} {e : Ent} {o : Nat} (hc : Fit c e o) {S : Nat → Nat → Nat → ℝ} {U : ℝ → Nat → Nat → Nat → ℝ} (h : Solution c e o S U) (n : Nat) {q md r : Nat}
    (hq : q < c.nQtsE) (hmd : md < nModes e o) (hr : r < c.nCrs) (τ : ℝ) : HasDerivAt (fun t => der c e o S (U t) n q md r) (Step.der c e o S (U τ) (n + 1) q md r) τ := by
  induction n generalizing q md with
  | zero =>
    obtain ⟨pts, hp⟩ := mode_pts e o
    have h1 := rule_deriv (τ := τ) pts (f := fun t x y z => recon e o (fun md => U t q md r) ![x, y, z] * (phi e (dgr e o md) x y z / mass e (dgr e o md)))
      (fun x y z => (h r hr q hq ![x, y, z] τ).mul_const _)
    have h2 : (fun t => rule pts (fun x y z => recon e o (fun md => U t q md r) ![x, y, z] * (phi e (dgr e o md) x y z / mass e (dgr e o md)))) =
        fun t => Step.der c e o S (U t) 0 q md r := by
      funext t
      rw [← hp (fun md => U t q md r) md hmd]; rfl
    rw [h2] at h1
    refine h1.congr_deriv ?_
    rw [hp (fun md => Step.der c e o S (U τ) (0 + 1) q md r) md hmd]
    congr 1
    funext x y z
    congr 1
    exact (recon_rhs hc S S (U τ) (fun _ => U τ) q r ![x, y, z]).symm
  | succ n ih =>
    have e1 : ∀ (V : Nat → Nat → Nat → ℝ) (k q md r : Nat), Step.der c e o S V (k + 1) q md r =
        ∑ di ∈ Finset.range c.nDis, ∑ p ∈ Finset.range c.nQtsE, S di q p * ∑ m ∈ Finset.range c.nMds, Step.der c e o S V k p m r * GT e o di m md := by
      intro V k q md r
      show Dg.rhsE c (GT e o) S S _ _ q md r = _
      simp only [Dg.rhsE, hc.rms, Finset.range_zero, Finset.sum_empty, ite_self, add_zero]
      rfl
    simp only [e1 _ (n + 1) q md r]
    have e2 : (fun t => Step.der c e o S (U t) (n + 1) q md r) = fun t => ∑ di ∈ Finset.range c.nDis, ∑ p ∈ Finset.range c.nQtsE, S di q p *
        ∑ m ∈ Finset.range c.nMds, Step.der c e o S (U t) n p m r * GT e o di m md := by
      funext t; exact e1 _ n q md r
    rw [e2]
    refine HasDerivAt.fun_sum (fun di _ => HasDerivAt.fun_sum (fun p hp => (HasDerivAt.fun_sum (fun m hm => ?_)).const_mul _))
    exact (ih (Finset.mem_range.1 hp) (by rw [← hc.mds]; exact Finset.mem_range.1 hm)).mul_const _

theorem zero_chain (o : Nat) (G : Nat → ℝ → ℝ) (hd : ∀ n < o, ∀ τ, HasDerivAt (G n) (G (n + 1) τ) τ) (ho : ∀ τ, G o τ = 0) (h0 : ∀ n, G n 0 = 0) : ∀ n ≤ o, ∀ τ, G n τ = 0 := by
  intro n hn
  obtain ⟨k, rfl⟩ := Nat.exists_eq_add_of_le hn
  induction k generalizing n with
  | zero => exact ho
  | succ k ih =>
    intro τ
    have h1 := ih (n + 1) (by rw [show n + 1 + k = n + (k + 1) by omega]; exact hd) (by rw [show n + 1 + k = n + (k + 1) by omega]; exact ho) (by omega)
    have h2 : ∀ x y, G n x = G n y := is_const_of_deriv_eq_zero (fun τ => (hd n (by omega) τ).differentiableAt)
      (fun τ => by rw [(hd n (by omega) τ).deriv, h1 τ])
    rw [h2 τ 0, h0]

theorem Solution.pred {c : Dg.Cfg} {e : Ent} (he : e = .tria ∨ e = .tet) {o : Nat} (ho : 0 < o) (hc : Fit c e o) (S : Nat → Nat → Nat → ℝ) (e0 : Nat → Nat → Nat → ℝ) :
    Solution c e o S (pred c e o S e0) := fun r _ q _ p τ => pred_wave he ho hc S e0 r q p τ

theorem Solution.shift {c : Dg.Cfg} {e : Ent} {o : Nat} {S : Nat → Nat → Nat → ℝ} {U : ℝ → Nat → Nat → Nat → ℝ} (h : Solution c e o S U) (s : ℝ) :
    Solution c e o S (fun t => U (s + t)) := fun r hr q hq p τ => (h r hr q hq p (s + τ)).comp_const_add s τ

/-- The modes at later times are the predicted ones. -/
theorem Solution.unique {c : Dg.Cfg} {e : Ent} (he : e = .tria ∨ e = .tet) {o : Nat} (ho : 0 < o) (hc : Fit c e o) {S : Nat → Nat → Nat → ℝ} {U : ℝ → Nat → Nat → Nat → ℝ}
    (h : Solution c e o S U) (s τ : ℝ) {q md r : Nat} (hq : q < c.nQtsE) (hmd : md < nModes e o) (hr : r < c.nCrs) : Step.pred c e o S (U s) τ q md r = U (s + τ) q md r := by
  have h1 := h.shift s
  have h2 := Solution.pred he ho hc S (U s)
  have h3 := zero_chain o (fun n t => Step.der c e o S (U (s + t)) n q md r - Step.der c e o S (Step.pred c e o S (U s) t) n q md r)
    (fun n _ t => (h1.der hc n hq hmd hr t).sub (h2.der hc n hq hmd hr t)) (fun t => by rw [der_top he hc S _ hmd, der_top he hc S _ hmd, sub_zero])
    (fun n => by rw [pred_zero ho, add_zero, sub_self]) 0 (by omega) τ
  have h4 : U (s + τ) q md r - Step.pred c e o S (U s) τ q md r = 0 := h3
  linarith

/-- The time integrated modes. -/
theorem Solution.tInt {c : Dg.Cfg} {e : Ent} (he : e = .tria ∨ e = .tet) {o : Nat} (ho : 0 < o) (hc : Fit c e o) {S : Nat → Nat → Nat → ℝ} {U : ℝ → Nat → Nat → Nat → ℝ}
    (h : Solution c e o S U) (s dT : ℝ) {q r : Nat} (hq : q < c.nQtsE) (hr : r < c.nCrs) (p : Fin 3 → ℝ) :
    recon e o (fun md => Step.tInt c e o S (U s) dT q md r) p = ∫ τ in (0:ℝ)..dT, recon e o (fun md => U (s + τ) q md r) p := by
  have h1 : ∀ τ, recon e o (fun md => U (s + τ) q md r) p = ∑ md ∈ Finset.range (nModes e o), Step.pred c e o S (U s) τ q md r * eval p (bf e o md) := by
    intro τ
    exact Finset.sum_congr rfl (fun md hmd => by rw [h.unique he ho hc s τ hq (Finset.mem_range.1 hmd) hr])
  simp only [h1]
  rw [intervalIntegral.integral_finsetSum]
  · refine Finset.sum_congr rfl (fun md _ => ?_)
    beta_reduce
    rw [tInt_pred, intervalIntegral.integral_mul_const]
  · intro md _
    refine Continuous.intervalIntegrable ?_ _ _
    have : Continuous (fun τ => Step.pred c e o S (U s) τ q md r) := by
      unfold Step.pred Dg.taylor
      fun_prop
    exact this.mul continuous_const

/-! ### Physical coordinates -/

/-- `w τ q` is at any time a polynomial of degree less than `o`, here with modes `U`. -/
theorem modes_of_poly {e : Ent} (he : e = .tria ∨ e = .tet) {o : Nat} {tol : ℝ} (ht : 0 ≤ tol) {ves : Nat → Nat → ℝ} (hr : Regular tol e ves) (hdet : 0 < jDet e ves)
    {f : (Nat → ℝ) → ℝ} {p : MvPolynomial (Fin 3) ℝ} (hp : p.totalDegree < o) (hf : ∀ x, f x = eval (fun i : Fin 3 => if i.val < e.nDim then x i.val else 0) p) :
    ∃ u : Nat → ℝ, ∀ x, physEval tol e o ves u x = f x := by
  obtain ⟨pair, hpair⟩ := C90_gauss_exists
  have hfits : Proj.Fits e o p := by rcases he with rfl | rfl <;> exact hp
  have hel : ElOk 0 e ves := by rcases he with rfl | rfl <;> exact hdet
  obtain ⟨cf, hcf⟩ := expand (hpair (o + 1) (by omega)) hel hfits
  refine ⟨fun md => cf (dgr e o md), fun x => ?_⟩
  obtain ⟨xi, h1, h2, -⟩ := C88_inverse ht hr x
  have hflat : FlatPt e (xi 1) (xi 2) := by
    rcases he with rfl | rfl
    · exact phyToRef_high h1 (d := 2) (by decide)
    · trivial
  have h3 := hcf (xi 0) (xi 1) (xi 2) hflat
  rw [sum_degs] at h3
  rw [physEval, h1, hf]
  simp only
  have h4 : recon e o (fun md => cf (dgr e o md)) (fun i => xi i.val) = ∑ i ∈ Finset.range (nModes e o), cf (dgr e o i) * phi e (dgr e o i) (xi 0) (xi 1) (xi 2) := by
    refine Finset.sum_congr rfl (fun k hk => ?_)
    rw [← bf_val (Finset.mem_range.1 hk), val]
    congr 3
    funext i; fin_cases i <;> rfl
  rw [h4, ← h3, val]
  congr 2
  have h5 : ∀ d < e.nDim, refToPhy e ves (vec (xi 0) (xi 1) (xi 2)) d = x d := by
    intro d hd
    rw [← h2 d hd]
    rcases he with rfl | rfl <;> simp only [Ent.nDim] at hd <;> interval_cases d <;> simp [refToPhy, vec, shTria, shTet, sumN_succ, sumN_zero]
  funext i
  rcases he with rfl | rfl
  · have a0 := h5 0 (by decide)
    have a1 := h5 1 (by decide)
    fin_cases i
    · simpa [Ent.nDim] using a0
    · simpa [Ent.nDim] using a1
    · simp [Ent.nDim, refToPhy]
  · have a0 := h5 0 (by decide)
    have a1 := h5 1 (by decide)
    have a2 := h5 2 (by decide)
    fin_cases i
    · simpa [Ent.nDim] using a0
    · simpa [Ent.nDim] using a1
    · simpa [Ent.nDim] using a2

/-- Modes of a solution in physical coordinates. -/
theorem Solution.of_phys {c : Dg.Cfg} {e : Ent} (he : e = .tria ∨ e = .tet) {o : Nat} (hc : Fit c e o) {tol : ℝ} (ht : 0 ≤ tol) {ves : Nat → Nat → ℝ} (hr : Regular tol e ves)
    {J : Nat → Nat → ℝ} (hJ : ∀ d < e.nDim, ∀ d2 < e.nDim, ∑ di ∈ Finset.range e.nDim, J d di * evalJac e ves di d2 = if d = d2 then 1 else 0)
    {S A : Nat → Nat → Nat → ℝ} (hS : ∀ di < e.nDim, ∀ q < c.nQtsE, ∀ k < c.nQtsE, S di q k = ∑ d ∈ Finset.range e.nDim, J d di * A d q k)
    {w : Nat → ℝ → Nat → (Nat → ℝ) → ℝ} {U : ℝ → Nat → Nat → Nat → ℝ}
    (hU : ∀ r < c.nCrs, ∀ q < c.nQtsE, ∀ τ x, physEval tol e o ves (fun md => U τ q md r) x = w r τ q x)
    (hw : ∀ r < c.nCrs, ∀ q < c.nQtsE, ∀ τ x, HasDerivAt (fun t => w r t q x) (-∑ d ∈ Finset.range e.nDim, ∑ k ∈ Finset.range c.nQtsE, A d q k * dd d (w r τ k) x) τ) :
    Solution c e o S U := by
  intro r hr' q hq p τ
  set x : Nat → ℝ := refToPhy e ves (crd p) with hx
  have h1 : ∀ t k, k < c.nQtsE → recon e o (fun md => U t k md r) p = w r t k x := by
    intro t k hk
    rw [← hU r hr' k hk t x, physEval_pt ht he hr _ (fun d _ => rfl)]
  obtain ⟨xi, g1, g2, g3⟩ := C88_inverse ht hr x
  have h2 := phys_wave (c := c) (o := o) he ht hr hJ (A := A) (q := q) (fun di hdi k hk => hS di hdi q hq k hk) (fun k md => U τ k md r) x g1
  have h3 : waveOp e.nDim c.nQtsE S (fun k => recon e o (fun md => U τ k md r)) q (fun i => xi i.val) =
      waveOp e.nDim c.nQtsE S (fun k => recon e o (fun md => U τ k md r)) q p := by
    rw [← recon_rhs hc S S (U τ) (fun _ => U τ) q r, ← recon_rhs hc S S (U τ) (fun _ => U τ) q r]
    refine recon_pt he _ (fun i hi => ?_)
    have := g3 (crd p) (fun d _ => rfl) i.val hi
    rw [← this, crd, dif_pos i.2]
  have h4 := hw r hr' q hq τ x
  simp only [h1 _ q hq]
  refine h4.congr_deriv ?_
  rw [← h3, h2]
  congr 1
  refine Finset.sum_congr rfl (fun d _ => Finset.sum_congr rfl (fun k hk => ?_))
  rw [show physEval tol e o ves (fun md => U τ k md r) = w r τ k from funext (fun x => hU r hr' k (Finset.mem_range.1 hk) τ x)]

end Edge.Step
