import Verif.Gen.Pred
/-!
C93: the generated matrices differentiate exactly, and the time prediction solves the linear system of partial differential equations.
-/
namespace Edge.Gen
open Edge Edge.Map Edge.Quad Edge.Basis Edge.Proj MvPolynomial

/-! ### Specification -/

/-- Right-hand side of the system `∂u_q/∂t = - Σ_di Σ_p S_di[q][p] ∂u_p/∂ξ_di` for `nd` dimensions and `nq` quantities. -/
noncomputable def waveOp (nd nq : Nat) (S : Nat → Nat → Nat → ℝ) (u : Nat → (Fin 3 → ℝ) → ℝ) (q : Nat) (p : Fin 3 → ℝ) : ℝ :=
  -∑ di : Fin 3, if di.val < nd then ∑ k ∈ Finset.range nq, S di.val q k * deriv (fun s => u k (Function.update p di s)) (p di) else 0

/-- Element types of the seismic kernels. -/
def toEl : Ent → Dg.El
  | .line => .line
  | .quad => .quad4r
  | .tria => .tria3
  | .hex => .hex8r
  | .tet => .tet4

/-- Sizes of the kernels for elements of type `e`, any number of relaxation mechanisms. The order in time is the order in space. -/
structure Shape (c : Dg.Cfg) (e : Ent) (o : Nat) : Prop where
  sizes : Dg.Sizes c
  dis : c.nDis = e.nDim
  mds : c.nMds = nModes e o
  ord : c.oTi = o
  ck : c.ck = Dg.elModesCk (toEl e) o

/-- Without relaxation mechanisms. -/
structure Fit (c : Dg.Cfg) (e : Ent) (o : Nat) : Prop extends Shape c e o where
  rms : c.nRms = 0

/-! ### Proofs -/

theorem ck_simplex {e : Ent} (he : e = .tria ∨ e = .tet) (o n : Nat) : Dg.elModesCk (toEl e) o n = nModes e (o - n) := by
  rcases he with rfl | rfl <;> rfl

theorem ck_other {e : Ent} (he : ¬ (e = .tria ∨ e = .tet)) (o n : Nat) : Dg.elModesCk (toEl e) o n = nModes e o := by
  cases e <;> simp at he <;> rfl

/-- Stiffness matrices of the time kernel as stored. -/
noncomputable def GT (e : Ent) (o di m md : Nat) : ℝ := if h : di < 3 then -entT e o ⟨di, h⟩ m md else 0

/-- Stiffness matrices of the volume kernel as stored. -/
noncomputable def GV (e : Ent) (o di m md : Nat) : ℝ := if h : di < 3 then entV e o ⟨di, h⟩ m md else 0

theorem hier {c : Dg.Cfg} {e : Ent} {o : Nat} (hc : Shape c e o) : Dg.Hier c (GT e o) := by
  intro n di m md _ _ hdi hm hmd hmd'
  rw [hc.ck] at hm hmd
  rw [hc.mds] at hmd'
  by_cases he : e = .tria ∨ e = .tet
  · rw [ck_simplex he] at hm hmd
    have h3 : di < 3 := by rw [hc.dis] at hdi; exact hdi.trans_le (nDim_le e)
    rw [GT, dif_pos h3, entT_zero he (Nat.sub_le o n) hm (by rwa [Nat.sub_sub]) hmd', neg_zero]
  · rw [ck_other he] at hmd; omega

theorem sum_dims {nd : Nat} (h : nd ≤ 3) (f : Nat → ℝ) : ∑ di ∈ Finset.range nd, f di = ∑ di : Fin 3, if di.val < nd then f di.val else 0 := by
  rw [Fin.sum_univ_three]
  interval_cases nd <;> simp [Finset.sum_range_succ]

theorem recon_sum (e : Ent) (o : Nat) {ι : Type} (s : Finset ι) (c : ι → ℝ) (u : ι → Nat → ℝ) (p : Fin 3 → ℝ) :
    recon e o (fun md => ∑ i ∈ s, c i * u i md) p = ∑ i ∈ s, c i * recon e o (u i) p := by
  simp only [recon, Finset.sum_mul, Finset.mul_sum]
  rw [Finset.sum_comm]
  exact Finset.sum_congr rfl (fun i _ => Finset.sum_congr rfl (fun m _ => by ring))

theorem recon_congr {e : Ent} {o : Nat} {u v : Nat → ℝ} (h : ∀ md < nModes e o, u md = v md) (p : Fin 3 → ℝ) : recon e o u p = recon e o v p :=
  Finset.sum_congr rfl (fun md hmd => by rw [h md (Finset.mem_range.1 hmd)])

/-- An application of the right-hand side. -/
theorem recon_rhs {c : Dg.Cfg} {e : Ent} {o : Nat} (hc : Fit c e o) (S src : Nat → Nat → Nat → ℝ) (u : Nat → Nat → Nat → ℝ)
    (a : Nat → Nat → Nat → Nat → ℝ) (q r : Nat) (p : Fin 3 → ℝ) :
    recon e o (fun md => Dg.rhsE c (GT e o) S src u a q md r) p = waveOp e.nDim c.nQtsE S (fun k => recon e o (fun md => u k md r)) q p := by
  have h1 : ∀ md, Dg.rhsE c (GT e o) S src u a q md r =
      ∑ di ∈ Finset.range c.nDis, 1 * ∑ k ∈ Finset.range c.nQtsE, S di q k * ∑ m ∈ Finset.range (nModes e o), u k m r * GT e o di m md := by
    intro md
    simp only [Dg.rhsE, hc.rms, hc.mds, Finset.range_zero, Finset.sum_empty, ite_self, add_zero, one_mul]
  simp only [h1]
  rw [recon_sum]
  simp only [recon_sum, one_mul]
  rw [hc.dis, sum_dims (nDim_le e), waveOp, ← Finset.sum_neg_distrib]
  refine Finset.sum_congr rfl (fun di _ => ?_)
  split_ifs with h
  · rw [← Finset.sum_neg_distrib]
    refine Finset.sum_congr rfl (fun k _ => ?_)
    rw [(recon_deriv e o (fun md => u k md r) di p).deriv, ← mul_neg]
    congr 1
    show _ = -recon e o (fun md => ∑ m ∈ Finset.range (nModes e o), u k m r * entT e o di m md) p
    rw [recon_sum, ← Finset.sum_neg_distrib]
    refine Finset.sum_congr rfl (fun m _ => ?_)
    have hG : GT e o di.val m = fun md => ∑ _i ∈ Finset.range 1, (-1 : ℝ) * entT e o di m md := by
      funext md
      rw [GT, dif_pos di.2, Finset.sum_range_one]; ring
    rw [hG, recon_sum, Finset.sum_range_one]; ring
  · simp

/-- The derivatives of the prediction. -/
theorem recon_derivs {c : Dg.Cfg} {e : Ent} {o : Nat} (hc : Fit c e o) (relax : ℝ) (S SA src : Nat → Nat → Nat → ℝ) (rf : Nat → ℝ)
    (e0 : Nat → Nat → Nat → ℝ) (a0 : Nat → Nat → Nat → Nat → ℝ) (r n q : Nat) (p : Fin 3 → ℝ) :
    recon e o (fun md => (Dg.derivs c relax (GT e o) S SA src rf e0 a0 n).1 q md r) p =
      ((waveOp e.nDim c.nQtsE S)^[n] (fun k => recon e o (fun md => e0 k md r))) q p := by
  induction n generalizing q p with
  | zero => rfl
  | succ n ih =>
    rw [Function.iterate_succ_apply']
    have : (fun k => recon e o (fun md => (Dg.derivs c relax (GT e o) S SA src rf e0 a0 n).1 k md r)) =
        (waveOp e.nDim c.nQtsE S)^[n] (fun k => recon e o (fun md => e0 k md r)) := by
      funext k p; exact ih k p
    rw [← this]
    exact recon_rhs hc S src _ _ q r p

/-- On triangles and tetrahedra the derivatives lower the degree. -/
theorem derivs_low {c : Dg.Cfg} {e : Ent} (he : e = .tria ∨ e = .tet) {o : Nat} (hc : Fit c e o) (relax : ℝ) (S SA src : Nat → Nat → Nat → ℝ)
    (rf : Nat → ℝ) (e0 : Nat → Nat → Nat → ℝ) (a0 : Nat → Nat → Nat → Nat → ℝ) (n q md r : Nat) (h1 : nModes e (o - n) ≤ md) (h2 : md < nModes e o) :
    (Dg.derivs c relax (GT e o) S SA src rf e0 a0 n).1 q md r = 0 := by
  induction n generalizing q md with
  | zero => simp at h1; omega
  | succ n ih =>
    show Dg.rhsE c (GT e o) S src _ _ q md r = 0
    simp only [Dg.rhsE, hc.rms, hc.mds, Finset.range_zero, Finset.sum_empty, ite_self, add_zero]
    refine Finset.sum_eq_zero (fun di hdi => Finset.sum_eq_zero (fun k _ => ?_))
    rw [Finset.sum_eq_zero, mul_zero]
    intro m hm
    have hm := Finset.mem_range.1 hm
    by_cases hml : m < nModes e (o - n)
    · have h3 : di < 3 := by
        have := Finset.mem_range.1 hdi
        rw [hc.dis] at this; exact this.trans_le (nDim_le e)
      rw [GT, dif_pos h3, entT_zero he (Nat.sub_le o n) hml (by rwa [Nat.sub_sub]) h2, neg_zero, mul_zero]
    · rw [ih k m (by omega) hm, zero_mul]

theorem iter_zero {c : Dg.Cfg} {e : Ent} (he : e = .tria ∨ e = .tet) {o : Nat} (hc : Fit c e o) (S : Nat → Nat → Nat → ℝ)
    (e0 : Nat → Nat → Nat → ℝ) (r q : Nat) (p : Fin 3 → ℝ) :
    ((waveOp e.nDim c.nQtsE S)^[o] (fun k => recon e o (fun md => e0 k md r))) q p = 0 := by
  rw [← recon_derivs hc 1 S S S (fun _ => 0) e0 (fun _ => e0) r o q p]
  refine Finset.sum_eq_zero (fun md hmd => ?_)
  beta_reduce
  have h0 : nModes e (o - o) = 0 := by rw [Nat.sub_self]; rcases he with rfl | rfl <;> rfl
  rw [derivs_low he hc _ _ _ _ _ _ _ o q md r (by omega) (Finset.mem_range.1 hmd), zero_mul]

theorem taylor_deriv (o : Nat) (ho : 0 < o) (f : Nat → ℝ) (τ : ℝ) :
    HasDerivAt (fun t => Dg.taylor o t f) (Dg.taylor o τ (fun n => f (n + 1)) - τ ^ (o - 1) / ((o - 1).factorial : ℝ) * f o) τ := by
  obtain ⟨k, rfl⟩ := Nat.exists_eq_add_of_lt ho
  rw [Nat.zero_add]
  have h : HasDerivAt (fun t : ℝ => Dg.taylor (k + 1) t f) (∑ n ∈ Finset.range (k + 1), (n * τ ^ (n - 1)) / (n.factorial : ℝ) * f n) τ :=
    HasDerivAt.fun_sum (fun n _ => ((hasDerivAt_pow n τ).div_const _).mul_const _)
  refine h.congr_deriv ?_
  rw [Finset.sum_range_succ', Dg.taylor, Finset.sum_range_succ, Nat.add_sub_cancel]
  simp only [Nat.cast_zero, zero_mul, zero_div, add_zero, add_sub_cancel_right]
  refine Finset.sum_congr rfl (fun n _ => ?_)
  rw [Nat.add_sub_cancel, Nat.factorial_succ, Nat.cast_mul]
  have : ((n + 1 : Nat) : ℝ) ≠ 0 := by positivity
  field_simp

theorem recon_taylor (e : Ent) (o k : Nat) (τ : ℝ) (f : Nat → Nat → ℝ) (p : Fin 3 → ℝ) :
    recon e o (fun md => Dg.taylor k τ (fun n => f n md)) p = Dg.taylor k τ (fun n => recon e o (f n) p) := by
  simp only [Dg.taylor]; exact recon_sum e o (Finset.range k) _ f p

theorem waveOp_taylor {e : Ent} {o : Nat} (nd nq k : Nat) (S : Nat → Nat → Nat → ℝ) (τ : ℝ) (f : Nat → Nat → Nat → ℝ) (q : Nat) (p : Fin 3 → ℝ) :
    waveOp nd nq S (fun j => recon e o (fun md => Dg.taylor k τ (fun n => f n j md))) q p =
      Dg.taylor k τ (fun n => waveOp nd nq S (fun j => recon e o (f n j)) q p) := by
  have h : ∀ (di : Fin 3) j, deriv (fun s => recon e o (fun md => Dg.taylor k τ (fun n => f n j md)) (Function.update p di s)) (p di) =
      ∑ n ∈ Finset.range k, τ ^ n / (n.factorial : ℝ) * deriv (fun s => recon e o (f n j) (Function.update p di s)) (p di) := by
    intro di j
    have h1 : HasDerivAt (fun s => ∑ n ∈ Finset.range k, τ ^ n / (n.factorial : ℝ) * recon e o (f n j) (Function.update p di s))
        (∑ n ∈ Finset.range k, τ ^ n / (n.factorial : ℝ) * recon e o (diffModes e o di (f n j)) p) (p di) :=
      HasDerivAt.fun_sum (fun n _ => (recon_deriv e o (f n j) di p).const_mul _)
    rw [show (fun s => recon e o (fun md => Dg.taylor k τ (fun n => f n j md)) (Function.update p di s)) =
      fun s => ∑ n ∈ Finset.range k, τ ^ n / (n.factorial : ℝ) * recon e o (f n j) (Function.update p di s) from
      funext (fun s => recon_taylor e o k τ (fun n => f n j) _), h1.deriv]
    exact Finset.sum_congr rfl (fun n _ => by rw [(recon_deriv e o (f n j) di p).deriv])
  simp only [waveOp, h]
  simp only [Dg.taylor]
  simp only [mul_neg, Finset.sum_neg_distrib, neg_inj, Finset.mul_sum, mul_ite, mul_zero]
  rw [Finset.sum_comm]
  refine Finset.sum_congr rfl (fun di _ => ?_)
  split_ifs with hd
  · rw [Finset.sum_comm]
    exact Finset.sum_congr rfl (fun n _ => Finset.sum_congr rfl (fun j _ => by ring))
  · simp

/-- The evaluated prediction in time. -/
theorem pred_deriv {c : Dg.Cfg} {e : Ent} {o : Nat} (ho : 0 < o) (hc : Fit c e o) (relax : ℝ) (S SA src : Nat → Nat → Nat → ℝ) (rf : Nat → ℝ)
    (e0 : Nat → Nat → Nat → ℝ) (a0 : Nat → Nat → Nat → Nat → ℝ) (r q : Nat) (p : Fin 3 → ℝ) (τ : ℝ) :
    HasDerivAt (fun t => recon e o (fun md => Dg.taylor o t (fun n => (Dg.derivs c relax (GT e o) S SA src rf e0 a0 n).1 q md r)) p)
      (waveOp e.nDim c.nQtsE S (fun k => recon e o (fun md => Dg.taylor o τ (fun n => (Dg.derivs c relax (GT e o) S SA src rf e0 a0 n).1 k md r))) q p -
        τ ^ (o - 1) / ((o - 1).factorial : ℝ) * ((waveOp e.nDim c.nQtsE S)^[o] (fun k => recon e o (fun md => e0 k md r))) q p) τ := by
  rw [waveOp_taylor (f := fun n k md => (Dg.derivs c relax (GT e o) S SA src rf e0 a0 n).1 k md r), ← recon_derivs hc relax S SA src rf e0 a0]
  have h := taylor_deriv o ho (fun n => recon e o (fun md => (Dg.derivs c relax (GT e o) S SA src rf e0 a0 n).1 q md r) p) τ
  simp only [recon_taylor (f := fun n md => (Dg.derivs c relax (GT e o) S SA src rf e0 a0 n).1 q md r)]
  refine h.congr_deriv ?_
  congr 2
  funext n
  exact recon_rhs hc S src _ _ q r p

end Edge.Gen
