import Verif.Gen.Wave
import Verif.Seismic.Star
import Verif.Linalg.Dense
/-!
C93: theorems.
-/
namespace Edge.Gen
open Edge Edge.Map Edge.Quad Edge.Basis Edge.Proj MvPolynomial

/-! ### Generated matrices -/

/-- C93: the functions of the generated basis have the values of the formulas at all points at which these are defined (everywhere
but at the line `y = 1` or the planes `z = 1`, `y + z = 1` on triangles and tetrahedra), and are the functions, in the same order, which the code evaluates. -/
theorem C93_basis {e : Ent} {o b : Nat} (hb : b < nModes e o) {x y z : ℝ} (hp : PtOk e x y z) :
    ∃ i, (genIdx e o)[b]? = some i ∧ val (bf e o b) x y z = formula e i x y z ∧
      (o ≤ maxOrder e → evalBasis b e x y z (-1) o = some (val (bf e o b) x y z)) := by
  refine ⟨dgr e o b, by rw [genIdx_eq, dgr_get hb], ?_, fun ho => ?_⟩
  · rw [bf_val hb, formula_phi _ _ _ _ _ hp]
  · rw [bf_val hb, basis_val ho (dgr_get hb) _ _ _ hp]

/-- C93: the generated mass matrix is diagonal with positive entries, and is the one required by the projection of initial values (C92). -/
theorem C93_mass (e : Ent) (o : Nat) :
    (∃ d : Nat → ℝ, (∀ i, 0 < d i) ∧ ∀ r < nModes e o, ∀ c < nModes e o, (massRaw e o)[r * nModes e o + c]? = some (if r = c then d r else 0)) ∧
    (o ≤ maxOrder e → MassOk e o (massRaw e o)) := by
  have hd : ∀ r < nModes e o, ∀ c < nModes e o, refInt e (val (bf e o r * bf e o c)) = if r = c then mass e (dgr e o r) else 0 := by
    intro r hr c hc
    have := congrFun (congrFun (massM_eq e o) ⟨r, hr⟩) ⟨c, hc⟩
    rw [massM, Matrix.of_apply, Matrix.diagonal_apply] at this
    simpa using this
  refine ⟨⟨fun r => mass e (dgr e o r), fun i => mass_pos _ _, fun r hr c hc => by rw [massRaw_get hr hc, hd r hr c hc]⟩, fun ho => ⟨float2d_len _, fun r hr c hc => ?_⟩⟩
  rw [massRaw_get hr hc]
  congr 1
  refine refInt_congr (fun x y z hp => ?_)
  have hv : ∀ k < nModes e o, value k e o x y z = val (bf e o k) x y z := by
    intro k hk
    obtain ⟨i, -, -, h⟩ := C93_basis hk hp
    rw [value, h ho]; rfl
  rw [hv r hr, hv c hc, val, map_mul]; rfl

/-- C93: the stiffness matrices of the time kernel, as stored by `TimePred`, are the negated derivatives: for all modes `u`, dimensions and points
the derivative of `Σ_m u_m φ_m` is the function with the modes `-Σ_m u_m T_m,md`. -/
theorem C93_diff (e : Ent) (o : Nat) : ∃ l T, storeStiffTDense (stiffVRaw e o) (stiffTRaw e o) e (nModes e o) = some l ∧
    Dg.Mats e.nDim (nModes e o) (nModes e o) (nModes e o) l T ∧
    ∀ (u : Nat → ℝ) (di : Fin 3) (p : Fin 3 → ℝ),
      HasDerivAt (fun s => recon e o u (Function.update p di s)) (recon e o (fun md => -∑ m ∈ Finset.range (nModes e o), u m * T di.val m md) p) (p di) := by
  obtain ⟨l, h1, h2⟩ := storeT e o
  refine ⟨l, GT e o, h1, h2 _ (fun di m md h => by rw [GT, dif_pos h]), fun u di p => ?_⟩
  refine (recon_deriv e o u di p).congr_deriv (recon_congr (fun md _ => ?_) p)
  rw [diffModes, ← Finset.sum_neg_distrib]
  refine Finset.sum_congr rfl (fun m _ => ?_)
  rw [GT, dif_pos di.2]; ring

/-- C93: the stiffness matrices of the volume kernel, as stored by `VolInt`, are the weak derivatives: for all modes `u` the product of the modes
`Σ_m u_m V_m,md` with the mass of function `md` is the integral of `Σ_m u_m φ_m` times the derivative of function `md`. -/
theorem C93_weak (e : Ent) (o : Nat) : ∃ l V, storeStiffDense (stiffVRaw e o) (stiffTRaw e o) e (nModes e o) = some l ∧
    Dg.Mats e.nDim (nModes e o) (nModes e o) (nModes e o) l V ∧
    ∀ (u : Nat → ℝ) (di : Fin 3) (md : Nat), md < nModes e o →
      (∑ m ∈ Finset.range (nModes e o), u m * V di.val m md) * refInt e (fun x y z => (eval ![x, y, z] (bf e o md)) ^ 2) =
        refInt e (fun x y z => recon e o u ![x, y, z] * deriv (fun s => eval (Function.update ![x, y, z] di s) (bf e o md)) (![x, y, z] di)) := by
  obtain ⟨l, h1, h2⟩ := storeV e o
  refine ⟨l, GV e o, h1, h2 _ (fun di m md h => by rw [GV, dif_pos h]), fun u di md hmd => ?_⟩
  have e1 : (fun x y z => (eval ![x, y, z] (bf e o md)) ^ 2) = fun x y z => phi e (dgr e o md) x y z * phi e (dgr e o md) x y z := by
    funext x y z
    rw [← bf_val hmd, val, sq]
  rw [e1, refInt_orth (dgr_deg hmd) (dgr_deg hmd), if_pos rfl]
  have e2 : (fun x y z => recon e o u ![x, y, z] * deriv (fun s => eval (Function.update ![x, y, z] di s) (bf e o md)) (![x, y, z] di)) =
      fun x y z => ∑ m ∈ Finset.range (nModes e o), u m * val (bf e o m * pderiv di (bf e o md)) x y z := by
    funext x y z
    rw [(val_deriv (bf e o md) di x y z).deriv, recon, Finset.sum_mul]
    refine Finset.sum_congr rfl (fun m _ => ?_)
    simp only [val, map_mul]; ring
  rw [e2, refInt_sum _ _ (fun i _ => C3_val _), Finset.sum_mul]
  refine Finset.sum_congr rfl (fun m _ => ?_)
  rw [GV, dif_pos di.2, entV]
  field_simp [(mass_pos e (dgr e o md)).ne']

/-- C93: the blocks of zeros which the kernels leave out are zero: the hypotheses on the stiffness matrices of the theorems on the prediction (C58, C74), and
of `C74_volInt`. -/
theorem C93_blocks {c : Dg.Cfg} {e : Ent} {o : Nat} (hc : Shape c e o) : ∃ lT lV T V,
    storeStiffTDense (stiffVRaw e o) (stiffTRaw e o) e (nModes e o) = some lT ∧ storeStiffDense (stiffVRaw e o) (stiffTRaw e o) e (nModes e o) = some lV ∧
    Dg.Mats c.nDis c.nMds c.nMds c.nMds lT T ∧ Dg.Mats c.nDis c.nMds c.nMds c.nMds lV V ∧ Dg.Hier c T ∧
    ∀ di m md, di < c.nDis → c.ck 1 ≤ m → m < c.nMds → md < c.nMds → V di m md = 0 := by
  obtain ⟨lT, h1, h2⟩ := storeT e o
  obtain ⟨lV, h3, h4⟩ := storeV e o
  refine ⟨lT, lV, GT e o, GV e o, h1, h3, ?_, ?_, hier hc, fun di m md hdi hm hm' hmd => ?_⟩
  · rw [hc.dis, hc.mds]; exact h2 _ (fun di m md h => by rw [GT, dif_pos h])
  · rw [hc.dis, hc.mds]; exact h4 _ (fun di m md h => by rw [GV, dif_pos h])
  · rw [hc.ck] at hm
    rw [hc.mds] at hm' hmd
    by_cases he : e = .tria ∨ e = .tet
    · rw [ck_simplex he] at hm
      have h3 : di < 3 := by rw [hc.dis] at hdi; exact hdi.trans_le (nDim_le e)
      rw [GV, dif_pos h3, entV_zero he hm hm' hmd]
    · rw [ck_other he] at hm; omega

/-! ### Prediction -/

/-- C93: the time prediction with the generated matrices, all types of elements and orders, without relaxation mechanisms. The evaluated prediction is a
function `P` in time which starts at the degrees of freedom, its time integral is the one of the prediction step, and in the element it
solves the equations up to `τ^(o-1)/(o-1)!` times the `o`-th time derivative of the exact solution at the start of the time step, which vanishes on triangles and tetrahedra. -/
theorem C93_prediction {c : Dg.Cfg} {e : Ent} {o : Nat} (ho : 0 < o) (hc : Fit c e o) (dT : ℝ) {starE : List (List ℝ)} {S : Nat → Nat → Nat → ℝ}
    (hS : Dg.Mats c.nDis c.nQtsE c.nQtsE c.nQtsE starE S) {dofsE : List ℝ} {e0 : Nat → Nat → Nat → ℝ} (he : Dg.Rep c.nQtsE c.nMds c.nCrs dofsE e0)
    {m : Dg.CkMem ℝ} (hm : Dg.CkOut c m) :
    ∃ (l : List (List ℝ)) (m' : Dg.CkMem ℝ) (P : ℝ → Nat → Nat → Nat → ℝ), storeStiffTDense (stiffVRaw e o) (stiffTRaw e o) e (nModes e o) = some l ∧ Dg.ck c dT l starE [] [] [] dofsE [] m = some m' ∧
      (∀ q md r, P 0 q md r = e0 q md r) ∧
      Dg.Rep c.nQtsE c.nMds c.nCrs m'.tIntE (fun q md r => ∫ τ in 0..dT, P τ q md r) ∧
      (∀ (pts : List ℝ) (pre : List (List ℝ)), Dg.Arrs pts.length (c.nQtsE * c.nMds * c.nCrs) pre →
        ∃ out, Dg.evalTimePrediction c pts m'.derE pre = some out ∧ out.length = pts.length ∧
          ∀ (k : Nat) (τ : ℝ), pts[k]? = some τ → ∃ x, out[k]? = some x ∧ Dg.Rep c.nQtsE c.nMds c.nCrs x (P τ)) ∧
      (∀ r q p τ, HasDerivAt (fun t => recon e o (fun md => P t q md r) p)
        (waveOp e.nDim c.nQtsE S (fun k => recon e o (fun md => P τ k md r)) q p -
          τ ^ (o - 1) / ((o - 1).factorial : ℝ) * ((waveOp e.nDim c.nQtsE S)^[o] (fun k => recon e o (fun md => e0 k md r))) q p) τ) ∧
      (e = .tria ∨ e = .tet → ∀ r q p, ((waveOp e.nDim c.nQtsE S)^[o] (fun k => recon e o (fun md => e0 k md r))) q p = 0) := by
  obtain ⟨l, h1, h2⟩ := storeT e o
  have hG : Dg.Mats c.nDis c.nMds c.nMds c.nMds l (GT e o) := by
    rw [hc.dis, hc.mds]; exact h2 _ (fun di m md h => by rw [GT, dif_pos h])
  have hm3 : Dg.Mats3 c starE [] [] [] S S S (fun _ => 0) :=
    ⟨hS, fun h => absurd h (by rw [hc.rms]; omega), fun i hi => absurd hi (by rw [hc.rms]; omega), fun i hi => absurd hi (by rw [hc.rms]; omega)⟩
  have hA : Dg.PerRm c (fun _ => e0) [] := ⟨hc.rms.symm, fun i hi => absurd hi (by rw [hc.rms]; omega)⟩
  obtain ⟨m', k0, k1, k2, k3, -⟩ := Dg.prediction_taylor (dT := dT) hc.sizes hc.rms hG (hier hc.toShape) hm3 he hA hm _ rfl
  refine ⟨l, m', _, h1, k0, k1, k2, k3, fun r q p τ => ?_, fun hs r q p => iter_zero hs hc S e0 r q p⟩
  simp only [hc.ord]
  exact pred_deriv ho hc 1 S S S (fun _ => 0) e0 (fun _ => e0) r q p τ

/-! ### Elastic wave equations -/

/-- Derivative in direction `d`. -/
noncomputable def dd (d : Nat) (f : (Nat → ℝ) → ℝ) (x : Nat → ℝ) : ℝ := deriv (fun s => f (Function.update x d s)) (x d)

/-- The elastic wave equations in two dimensions at time `τ` and point `x`: stresses `σ_xx, σ_yy, σ_xy` and velocities `u, v`. -/
def Elastic2 (rho lam mu : ℝ) (w : ℝ → Nat → (Nat → ℝ) → ℝ) (τ : ℝ) (x : Nat → ℝ) : Prop :=
  HasDerivAt (fun t => w t 0 x) ((lam + 2 * mu) * dd 0 (w τ 3) x + lam * dd 1 (w τ 4) x) τ ∧
  HasDerivAt (fun t => w t 1 x) (lam * dd 0 (w τ 3) x + (lam + 2 * mu) * dd 1 (w τ 4) x) τ ∧
  HasDerivAt (fun t => w t 2 x) (mu * (dd 0 (w τ 4) x + dd 1 (w τ 3) x)) τ ∧
  HasDerivAt (fun t => w t 3 x) ((dd 0 (w τ 0) x + dd 1 (w τ 2) x) / rho) τ ∧
  HasDerivAt (fun t => w t 4 x) ((dd 0 (w τ 2) x + dd 1 (w τ 1) x) / rho) τ

/-- The elastic wave equations in three dimensions: stresses `σ_xx, σ_yy, σ_zz, σ_xy, σ_yz, σ_xz` and velocities `u, v, w`. -/
def Elastic3 (rho lam mu : ℝ) (w : ℝ → Nat → (Nat → ℝ) → ℝ) (τ : ℝ) (x : Nat → ℝ) : Prop :=
  HasDerivAt (fun t => w t 0 x) ((lam + 2 * mu) * dd 0 (w τ 6) x + lam * dd 1 (w τ 7) x + lam * dd 2 (w τ 8) x) τ ∧
  HasDerivAt (fun t => w t 1 x) (lam * dd 0 (w τ 6) x + (lam + 2 * mu) * dd 1 (w τ 7) x + lam * dd 2 (w τ 8) x) τ ∧
  HasDerivAt (fun t => w t 2 x) (lam * dd 0 (w τ 6) x + lam * dd 1 (w τ 7) x + (lam + 2 * mu) * dd 2 (w τ 8) x) τ ∧
  HasDerivAt (fun t => w t 3 x) (mu * (dd 0 (w τ 7) x + dd 1 (w τ 6) x)) τ ∧
  HasDerivAt (fun t => w t 4 x) (mu * (dd 1 (w τ 8) x + dd 2 (w τ 7) x)) τ ∧
  HasDerivAt (fun t => w t 5 x) (mu * (dd 0 (w τ 8) x + dd 2 (w τ 6) x)) τ ∧
  HasDerivAt (fun t => w t 6 x) ((dd 0 (w τ 0) x + dd 1 (w τ 3) x + dd 2 (w τ 5) x) / rho) τ ∧
  HasDerivAt (fun t => w t 7 x) ((dd 0 (w τ 3) x + dd 1 (w τ 1) x + dd 2 (w τ 4) x) / rho) τ ∧
  HasDerivAt (fun t => w t 8 x) ((dd 0 (w τ 5) x + dd 1 (w τ 4) x + dd 2 (w τ 2) x) / rho) τ

/-- Value at the physical point `x` of the function with modes `u` in the element with vertices `ves`: the code's map to the reference element, then the
basis. -/
noncomputable def physEval (tol : ℝ) (e : Ent) (o : Nat) (ves : Nat → Nat → ℝ) (u : Nat → ℝ) (x : Nat → ℝ) : ℝ :=
  match phyToRef tol e ves x with
  | some xi => recon e o u (fun i => xi i.val)
  | none => 0

/-- `initStar` for an element, 2D (src/impl/seismic/solvers/AderDgInit.hpp:131-172): dense star matrices. -/
noncomputable def initStar2 (tol : ℝ) (ty : Ent) (ves : Nat → Nat → ℝ) (rho lam mu : ℝ) : Option (List (List ℝ)) := do
  let jacInv ← Linalg.inv2 tol (fun i j : Fin 2 => evalJac ty ves i j)
  return (List.finRange 2).map (fun di => float2d (Seismic.star2 rho lam mu jacInv di))

/-- `initStar` for an element, 3D (src/impl/seismic/solvers/AderDgInit.hpp:131-172): dense star matrices. -/
noncomputable def initStar3 (tol : ℝ) (ty : Ent) (ves : Nat → Nat → ℝ) (rho lam mu : ℝ) : Option (List (List ℝ)) := do
  let jacInv ← Linalg.inv3 tol (fun i j : Fin 3 => evalJac ty ves i j)
  return (List.finRange 3).map (fun di => float2d (Seismic.star3 rho lam mu jacInv di))

theorem phyToRef_high {tol : ℝ} {e : Ent} {ves : Nat → Nat → ℝ} {x xi : Nat → ℝ} (h : phyToRef tol e ves x = some xi) {d : Nat} (hd : e.nDim ≤ d) : xi d = 0 := by
  cases e <;> simp only [Ent.nDim] at hd
  · cases h
  · simp only [phyToRef, phyToRefQuad, check, Option.bind_eq_bind] at h
    split_ifs at h <;> simp at h
    rw [← h]; simp [show d ≠ 0 by omega, show d ≠ 1 by omega]
  · simp only [phyToRef, phyToRefTria, check, Option.bind_eq_bind] at h
    split_ifs at h <;> simp at h
    rw [← h]; simp [show d ≠ 0 by omega, show d ≠ 1 by omega]
  · simp only [phyToRef, phyToRefHex, check, Option.bind_eq_bind] at h
    split_ifs at h <;> simp at h
    rw [← h]; simp [show d ≠ 0 by omega, show d ≠ 1 by omega, show d ≠ 2 by omega]
  · simp only [phyToRef, phyToRefTet, check, Option.bind_eq_bind] at h
    split_ifs at h <;> simp at h
    rw [← h]; simp [show ¬ d < 3 by omega]

theorem affine_move {e : Ent} (he : e = .tria ∨ e = .tet) (ves : Nat → Nat → ℝ) (xi v : Nat → ℝ) (t : ℝ) {d : Nat} (hd : d < e.nDim) :
    refToPhy e ves (fun i => xi i + t * v i) d = refToPhy e ves xi d + t * ∑ di ∈ Finset.range e.nDim, v di * evalJac e ves di d := by
  rcases he with rfl | rfl
  · simp only [Ent.nDim] at hd ⊢
    simp [show d ≤ 1 by omega, refToPhy, evalJac, derShape, derTria, sumN_succ, sumN_zero, Ent.nVe, shTria, Finset.sum_range_succ]; ring
  · simp only [Ent.nDim] at hd ⊢
    simp [hd, refToPhy, evalJac, derShape, derTet, sumN_succ, sumN_zero, Ent.nVe, shTet, Finset.sum_range_succ]; ring

/-- Derivatives in physical coordinates. -/
theorem phys_deriv {tol : ℝ} (ht : 0 ≤ tol) {e : Ent} (he : e = .tria ∨ e = .tet) {ves : Nat → Nat → ℝ} (hr : Regular tol e ves) {J : Nat → Nat → ℝ}
    (hJ : ∀ d < e.nDim, ∀ d2 < e.nDim, ∑ di ∈ Finset.range e.nDim, J d di * evalJac e ves di d2 = if d = d2 then 1 else 0)
    (o : Nat) (u : Nat → ℝ) (x : Nat → ℝ) {xi : Nat → ℝ} (hx : phyToRef tol e ves x = some xi) {d : Nat} (hd : d < e.nDim) :
    dd d (physEval tol e o ves u) x = ∑ di : Fin 3, if di.val < e.nDim then J d di.val * recon e o (diffModes e o di u) (fun i => xi i.val) else 0 := by
  have hs : ∀ s, physEval tol e o ves u (Function.update x d s) =
      recon e o u (fun i => xi i.val + (s - x d) * if i.val < e.nDim then J d i.val else 0) := by
    intro s
    obtain ⟨xs, h1, h2, h3⟩ := C88_inverse ht hr (Function.update x d s)
    obtain ⟨xi', g1, g2, -⟩ := C88_inverse ht hr x
    rw [hx] at g1; cases g1
    rw [physEval, h1]
    simp only
    congr 1
    funext i
    by_cases hi : i.val < e.nDim
    · rw [if_pos hi]
      refine (h3 (fun i => xi i + (s - x d) * J d i) (fun d2 hd2 => ?_) i.val hi).symm
      rw [affine_move he ves xi (J d) (s - x d) hd2, hJ d hd d2 hd2, g2 d2 hd2]
      by_cases hdd : d = d2
      · subst hdd; simp
      · rw [if_neg hdd, Function.update_of_ne (Ne.symm hdd)]; ring
    · rw [if_neg hi, phyToRef_high h1 (by omega), phyToRef_high hx (by omega)]; ring
  rw [dd]
  simp only [hs]
  have hcv := recon_curve e o u (c := fun s i => xi i.val + (s - x d) * if i.val < e.nDim then J d i.val else 0)
    (c' := fun i => if i.val < e.nDim then J d i.val else 0) (t := x d) (fun i => by
      have := (((hasDerivAt_id (x d)).sub_const (x d)).mul_const (if i.val < e.nDim then J d i.val else 0)).const_add (xi i.val)
      simpa using this)
  rw [hcv.deriv]
  refine Finset.sum_congr rfl (fun i _ => ?_)
  simp only [sub_self, zero_mul, add_zero]
  split_ifs <;> simp

/-- The prediction in physical coordinates: `S_di = Σ_d J_d,di A_d`. -/
theorem phys_wave {c : Dg.Cfg} {e : Ent} (he : e = .tria ∨ e = .tet) {o : Nat} {tol : ℝ} (ht : 0 ≤ tol) {ves : Nat → Nat → ℝ} (hr : Regular tol e ves)
    {J : Nat → Nat → ℝ} (hJ : ∀ d < e.nDim, ∀ d2 < e.nDim, ∑ di ∈ Finset.range e.nDim, J d di * evalJac e ves di d2 = if d = d2 then 1 else 0)
    {S A : Nat → Nat → Nat → ℝ} {q : Nat} (hS : ∀ di < e.nDim, ∀ k < c.nQtsE, S di q k = ∑ d ∈ Finset.range e.nDim, J d di * A d q k)
    (u : Nat → Nat → ℝ) (x : Nat → ℝ) {xi : Nat → ℝ} (hx : phyToRef tol e ves x = some xi) :
    waveOp e.nDim c.nQtsE S (fun k => recon e o (u k)) q (fun i => xi i.val) =
      -∑ d ∈ Finset.range e.nDim, ∑ k ∈ Finset.range c.nQtsE, A d q k * dd d (physEval tol e o ves (u k)) x := by
  rw [waveOp]
  congr 1
  have h1 : ∀ d ∈ Finset.range e.nDim, ∑ k ∈ Finset.range c.nQtsE, A d q k * dd d (physEval tol e o ves (u k)) x =
      ∑ di : Fin 3, if di.val < e.nDim then ∑ k ∈ Finset.range c.nQtsE, A d q k * (J d di.val * recon e o (diffModes e o di (u k)) (fun i => xi i.val)) else 0 := by
    intro d hd
    have hd := Finset.mem_range.1 hd
    simp only [phys_deriv ht he hr hJ o _ x hx hd, Finset.mul_sum]
    rw [Finset.sum_comm]
    refine Finset.sum_congr rfl (fun di _ => ?_)
    split_ifs <;> simp
  rw [Finset.sum_congr rfl h1, Finset.sum_comm]
  refine Finset.sum_congr rfl (fun di _ => ?_)
  split_ifs with hdi
  · rw [Finset.sum_comm]
    refine Finset.sum_congr rfl (fun k hk => ?_)
    rw [(recon_deriv e o (u k) di _).deriv, hS di.val hdi k (Finset.mem_range.1 hk), Finset.sum_mul]
    exact Finset.sum_congr rfl (fun d _ => by ring)
  · simp

end Edge.Gen
