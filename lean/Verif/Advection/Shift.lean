import Verif.Advection.Weak
import Verif.Cons.Elem
import Mathlib.Analysis.Calculus.MeanValue

/-!
The prediction of the advection equation is the exact solution: the polynomial moves with the velocity.
-/
namespace Edge.Advection
open Edge Edge.Map Edge.Quad Edge.Basis Edge.Proj Edge.Gen Edge.Flux MvPolynomial

theorem pred_mode {c : KCfg} {e : Ent} {o : Nat} (S : Nat → ℝ) (u : Nat → Nat → ℝ) (md r : Nat) : Differentiable ℝ (fun τ => pred c e o S u τ md r) := by
  simp only [pred, Step.pred, Dg.taylor]
  fun_prop

/-- Movement on the reference element. -/
theorem pred_shift {c : KCfg} {e : Ent} (he : e = .tria ∨ e = .tet) {o : Nat} (ho : 0 < o) (S : Nat → ℝ) (u : Nat → Nat → ℝ) (r : Nat) (τ : ℝ) (p : Fin 3 → ℝ) :
    recon e o (fun md => pred c e o S u τ md r) p = recon e o (fun md => u md r) (fun i => p i - τ * (if i.val < e.nDim then S i.val else 0)) := by
  set V : Fin 3 → ℝ := fun i => if i.val < e.nDim then S i.val else 0 with hV
  set y : ℝ → Fin 3 → ℝ := fun s i => p i - (τ - s) * V i with hy
  have hyd : ∀ s i, HasDerivAt (fun s => y s i) (V i) s := by
    intro s i
    have h := ((hasDerivAt_id s).const_sub τ).mul_const (V i)
    have := h.const_sub (p i)
    refine this.congr_deriv ?_
    ring
  have hg : ∀ s, HasDerivAt (fun s => recon e o (fun md => pred c e o S u s md r) (y s)) 0 s := by
    intro s
    have h1 : HasDerivAt (fun t => ∑ md ∈ Finset.range (nModes e o), pred c e o S u t md r * eval (y t) (bf e o md))
        (∑ md ∈ Finset.range (nModes e o), (_root_.deriv (fun t => pred c e o S u t md r) s * eval (y s) (bf e o md) + pred c e o S u s md r * ∑ i, V i * eval (y s) (pderiv i (bf e o md)))) s :=
      HasDerivAt.fun_sum fun md _ => ((pred_mode S u md r).differentiableAt.hasDerivAt).mul (eval_curve (bf e o md) (hyd s))
    refine h1.congr_deriv ?_
    rw [Finset.sum_add_distrib]
    have h2 : HasDerivAt (fun t => recon e o (fun md => pred c e o S u t md r) (y s)) (∑ md ∈ Finset.range (nModes e o), _root_.deriv (fun t => pred c e o S u t md r) s * eval (y s) (bf e o md)) s :=
      HasDerivAt.fun_sum fun md _ => ((pred_mode S u md r).differentiableAt.hasDerivAt).mul_const _
    have h3 := pred_wave (c := c) he ho S u r 0 (y s) s
    rw [h2.unique h3]
    have h4 : ∑ md ∈ Finset.range (nModes e o), pred c e o S u s md r * ∑ i, V i * eval (y s) (pderiv i (bf e o md)) = ∑ i, V i * recon e o (diffModes e o i (fun md => pred c e o S u s md r)) (y s) := by
      simp only [recon_diff, Finset.mul_sum]
      rw [Finset.sum_comm]
      exact Finset.sum_congr rfl fun i _ => Finset.sum_congr rfl fun m _ => by ring
    rw [h4, waveOp, neg_add_eq_zero]
    refine Finset.sum_congr rfl fun i _ => ?_
    simp only [hV]
    split
    · rw [embS_sum S i.val (fun k => _root_.deriv (fun t => recon e o (fun md => Step.pred (big e o c.nCrs) e o (embS S) (emb u) s k md r) (Function.update (y s) i t)) (y s i))]
      congr 1
      exact (recon_deriv e o (fun md => pred c e o S u s md r) i (y s)).deriv
    · rw [zero_mul]
  have hc := is_const_of_deriv_eq_zero (fun s => (hg s).differentiableAt) (fun s => (hg s).deriv) τ 0
  have e1 : y τ = p := by funext i; simp [hy]
  have e2 : (fun md => pred c e o S u 0 md r) = fun md => u md r := by
    funext md
    rw [pred, Step.pred_zero ho]
    simp [emb]
  simp only [e1, e2] at hc
  rw [hc]
  simp only [hy, sub_zero, hV]

/-- The map to the element is affine. -/
theorem refToPhy_shift {e : Ent} (he : e = .tria ∨ e = .tet) (ves : Nat → Nat → ℝ) (p V : Fin 3 → ℝ) {d : Nat} (hd : d < e.nDim) :
    refToPhy e ves (crd (fun i => p i - V i)) d = refToPhy e ves (crd p) d - ∑ di : Fin 3, if di.val < e.nDim then V di * evalJac e ves di.val d else 0 := by
  rcases he with rfl | rfl
  · simp only [Ent.nDim] at hd
    interval_cases d <;> simp [refToPhy, crd, shTria, sumN_succ, sumN_zero, evalJac, derShape, derTria, Fin.sum_univ_three, Ent.nVe, Ent.nDim] <;> ring
  · simp only [Ent.nDim] at hd
    interval_cases d <;> simp [refToPhy, crd, shTet, sumN_succ, sumN_zero, evalJac, derShape, derTet, Fin.sum_univ_three, Ent.nVe, Ent.nDim] <;> ring

/-- The prediction moves with the velocity. -/
theorem pred_moves {c : KCfg} {e : Ent} (he : e = .tria ∨ e = .tet) {o : Nat} (ho : 0 < o) {tol : ℝ} (ht : 0 ≤ tol) {ves : Nat → Nat → ℝ} (hr : Regular tol e ves)
    {J : Nat → Nat → ℝ} (hJ : ∀ d < e.nDim, ∀ d2 < e.nDim, ∑ di ∈ Finset.range e.nDim, J d di * evalJac e ves di d2 = if d = d2 then 1 else 0)
    {S v : Nat → ℝ} (hS : ∀ di < e.nDim, S di = ∑ d ∈ Finset.range e.nDim, J d di * v d) (u : Nat → Nat → ℝ) (r : Nat) (x : Nat → ℝ) (τ : ℝ) :
    physEval tol e o ves (fun md => pred c e o S u τ md r) x = physEval tol e o ves (fun md => u md r) (fun d => x d - τ * v d) := by
  obtain ⟨xi, h1, h2, -⟩ := C88_inverse ht hr x
  set p : Fin 3 → ℝ := fun i => xi i.val with hp
  have hx : ∀ d < e.nDim, refToPhy e ves (crd p) d = x d := by
    intro d hd
    rw [← h2 d hd]
    rcases he with rfl | rfl <;> simp only [Ent.nDim] at hd <;> interval_cases d <;> simp [refToPhy, crd, hp, shTria, shTet, sumN_succ, sumN_zero]
  rw [Step.physEval_pt ht he hr _ hx, pred_shift he ho]
  symm
  refine Step.physEval_pt ht he hr _ fun d hd => ?_
  rw [refToPhy_shift he ves p _ hd, hx d hd]
  congr 1
  have hn : e.nDim ≤ 3 := by rcases he with rfl | rfl <;> decide
  rw [← sum_dims hn (fun di => τ * (if di < e.nDim then S di else 0) * evalJac e ves di d)]
  have e1 : ∑ di ∈ Finset.range e.nDim, τ * (if di < e.nDim then S di else 0) * evalJac e ves di d = τ * ∑ k ∈ Finset.range e.nDim, v k * ∑ di ∈ Finset.range e.nDim, J k di * evalJac e ves di d := by
    simp only [Finset.mul_sum]
    rw [Finset.sum_comm]
    refine Finset.sum_congr rfl fun di hdi => ?_
    rw [if_pos (Finset.mem_range.1 hdi), hS di (Finset.mem_range.1 hdi), Finset.mul_sum, Finset.sum_mul]
    exact Finset.sum_congr rfl fun k _ => by ring
  rw [e1]
  congr 1
  rw [Finset.sum_eq_single d]
  · rw [hJ d hd d hd, if_pos rfl, mul_one]
  · intro k hk hne
    rw [hJ k (Finset.mem_range.1 hk) d hd, if_neg hne, mul_zero]
  · intro h; exact absurd (Finset.mem_range.2 hd) h

end Edge.Advection
