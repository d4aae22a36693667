import Verif.Gen.Props
/-!
C93: the prediction solves the elastic wave equations in physical coordinates.
-/
namespace Edge.Gen
open Edge Edge.Map Edge.Quad Edge.Basis Edge.Proj

/-- Entry of a matrix over `Fin n`, zero outside. -/
noncomputable def ext {n : Nat} (M : Matrix (Fin n) (Fin n) ℝ) (i j : Nat) : ℝ :=
  if h : i < n ∧ j < n then M ⟨i, h.1⟩ ⟨j, h.2⟩ else 0

theorem ext_mats {n d : Nat} (M : Fin d → Matrix (Fin n) (Fin n) ℝ) :
    Dg.Mats d n n n ((List.finRange d).map (fun di => float2d (M di))) (fun di => if h : di < d then ext (M ⟨di, h⟩) else fun _ _ => 0) := by
  intro i hi
  refine ⟨float2d (M ⟨i, hi⟩), ?_, fun a b ha hb => ?_⟩
  · rw [rd, List.getElem?_map, List.getElem?_eq_getElem (by simpa using hi)]; simp
  · have := float2d_get (M ⟨i, hi⟩) ⟨a, ha⟩ ⟨b, hb⟩
    simpa [hi, ext, ha, hb] using this

/-- Time derivative of the prediction, in physical coordinates. -/
theorem phys_pred {c : Dg.Cfg} {e : Ent} (he : e = .tria ∨ e = .tet) {o : Nat} {tol : ℝ} (ht : 0 ≤ tol) {ves : Nat → Nat → ℝ} (hr : Regular tol e ves)
    {J : Nat → Nat → ℝ} (hJ : ∀ d < e.nDim, ∀ d2 < e.nDim, ∑ di ∈ Finset.range e.nDim, J d di * evalJac e ves di d2 = if d = d2 then 1 else 0)
    {S A : Nat → Nat → Nat → ℝ} (hS : ∀ di < e.nDim, ∀ q < c.nQtsE, ∀ k < c.nQtsE, S di q k = ∑ d ∈ Finset.range e.nDim, J d di * A d q k)
    {P : ℝ → Nat → Nat → ℝ} (hP : ∀ q p τ, HasDerivAt (fun t => recon e o (P t q) p) (waveOp e.nDim c.nQtsE S (fun k => recon e o (P τ k)) q p) τ)
    (x : Nat → ℝ) (τ : ℝ) {q : Nat} (hq : q < c.nQtsE) :
    HasDerivAt (fun t => physEval tol e o ves (P t q) x)
      (-∑ d ∈ Finset.range e.nDim, ∑ k ∈ Finset.range c.nQtsE, A d q k * dd d (physEval tol e o ves (P τ k)) x) τ := by
  obtain ⟨xi, hx, -, -⟩ := C88_inverse ht hr x
  have h1 : ∀ t, physEval tol e o ves (P t q) x = recon e o (P t q) (fun i => xi i.val) := by intro t; rw [physEval, hx]
  simp only [h1]
  refine (hP q _ τ).congr_deriv ?_
  exact phys_wave he ht hr hJ (fun di hdi k hk => hS di hdi q hq k hk) _ x hx

/-- C93, 2D: with the star matrices of the solver and the generated matrices, the predicted solution inside of a triangle solves the elastic wave equations exactly,
at all times and points, starting from the degrees of freedom. -/
theorem C93_wave2 {c : Dg.Cfg} {o : Nat} (ho : 0 < o) (hc : Fit c .tria o) (hq : c.nQtsE = 5) (dT : ℝ) {tol tolL : ℝ} (ht : 0 ≤ tol) (htL : 0 ≤ tolL)
    {ves : Nat → Nat → ℝ} (hr : Regular tol .tria ves) {rho lam mu : ℝ} {starE : List (List ℝ)} (hS : initStar2 tolL .tria ves rho lam mu = some starE)
    {dofsE : List ℝ} {e0 : Nat → Nat → Nat → ℝ} (he : Dg.Rep c.nQtsE c.nMds c.nCrs dofsE e0) {m : Dg.CkMem ℝ} (hm : Dg.CkOut c m) :
    ∃ (l : List (List ℝ)) (m' : Dg.CkMem ℝ) (P : ℝ → Nat → Nat → Nat → ℝ), storeStiffTDense (stiffVRaw .tria o) (stiffTRaw .tria o) .tria (nModes .tria o) = some l ∧
      Dg.ck c dT l starE [] [] [] dofsE [] m = some m' ∧
      (∀ q md r, P 0 q md r = e0 q md r) ∧
      Dg.Rep c.nQtsE c.nMds c.nCrs m'.tIntE (fun q md r => ∫ τ in 0..dT, P τ q md r) ∧
      (∀ (pts : List ℝ) (pre : List (List ℝ)), Dg.Arrs pts.length (c.nQtsE * c.nMds * c.nCrs) pre →
        ∃ out, Dg.evalTimePrediction c pts m'.derE pre = some out ∧ out.length = pts.length ∧
          ∀ (k : Nat) (τ : ℝ), pts[k]? = some τ → ∃ x, out[k]? = some x ∧ Dg.Rep c.nQtsE c.nMds c.nCrs x (P τ)) ∧
      ∀ r τ x, Elastic2 rho lam mu (fun t q => physEval tol .tria o ves (fun md => P t q md r)) τ x := by
  simp only [initStar2, Option.bind_eq_bind, Option.bind_eq_some_iff] at hS
  obtain ⟨J, hJ, hS⟩ := hS
  have hst := Option.some.inj hS
  subst hst
  have hinv := ((Linalg.C52_inv2 htL _).2 _ hJ).2
  have hM := ext_mats (fun di => Seismic.star2 rho lam mu J di)
  obtain ⟨S, hSd⟩ : ∃ S : Nat → Nat → Nat → ℝ, S = fun di => if h : di < 2 then ext (Seismic.star2 rho lam mu J ⟨di, h⟩) else fun _ _ => 0 := ⟨_, rfl⟩
  rw [← hSd] at hM
  have hM : Dg.Mats c.nDis c.nQtsE c.nQtsE c.nQtsE ((List.finRange 2).map (fun di => float2d (Seismic.star2 rho lam mu J di))) S := by
    rw [hq, hc.dis]; exact hM
  obtain ⟨l, m', P, h1, h2, h3, h4, h5, h6, h7⟩ := C93_prediction ho hc dT hM he hm
  refine ⟨l, m', P, h1, h2, h3, h4, h5, fun r τ x => ?_⟩
  have hP : ∀ q p τ, HasDerivAt (fun t => recon .tria o (fun md => P t q md r) p) (waveOp Ent.tria.nDim c.nQtsE S (fun k => recon .tria o (fun md => P τ k md r)) q p) τ := by
    intro q p τ
    have := h6 r q p τ
    rw [h7 (Or.inl rfl) r q p, mul_zero, sub_zero] at this
    exact this
  have hJ' : ∀ d < Ent.tria.nDim, ∀ d2 < Ent.tria.nDim, ∑ di ∈ Finset.range Ent.tria.nDim, ext (Matrix.of J) d di * evalJac .tria ves di d2 = if d = d2 then 1 else 0 := by
    intro d hd d2 hd2
    simp only [Ent.nDim] at hd hd2
    have := congrFun (congrFun hinv ⟨d, hd⟩) ⟨d2, hd2⟩
    simp only [Matrix.mul_apply, Fin.sum_univ_two, Matrix.of_apply, Matrix.one_apply, Fin.mk.injEq] at this
    simpa [Finset.sum_range_succ, Ent.nDim, ext, hd] using this
  have key := fun (q : Nat) (hq5 : q < c.nQtsE) => phys_pred (o := o) (Or.inl rfl) ht hr hJ' (A := fun d => if h : d < 2 then ext (Seismic.jac2 rho lam mu ⟨d, h⟩) else fun _ _ => 0)
    (P := fun t q md => P t q md r) (by
      intro di hdi q hq' k hk
      rw [hq] at hq' hk
      simp only [Ent.nDim] at hdi
      rw [hSd]
      simp only
      rw [dif_pos hdi]
      simp only [Ent.nDim, Finset.sum_range_succ, Finset.sum_range_zero, ext, hq', hk, hdi, (Seismic.C71_star2 rho lam mu J _).1]
      simp [ext, hq', hk]) hP x τ hq5
  rw [hq] at key
  refine ⟨(key 0 (by omega)).congr_deriv ?_, (key 1 (by omega)).congr_deriv ?_, (key 2 (by omega)).congr_deriv ?_, (key 3 (by omega)).congr_deriv ?_, (key 4 (by omega)).congr_deriv ?_⟩ <;>
    simp [Ent.nDim, Finset.sum_range_succ, ext, Seismic.jac2] <;> ring

/-- C93, 3D: with the star matrices of the solver and the generated matrices, the predicted solution inside of a tetrahedron solves the elastic wave equations exactly,
at all times and points, starting from the degrees of freedom. -/
theorem C93_wave3 {c : Dg.Cfg} {o : Nat} (ho : 0 < o) (hc : Fit c .tet o) (hq : c.nQtsE = 9) (dT : ℝ) {tol tolL : ℝ} (ht : 0 ≤ tol) (htL : 0 ≤ tolL)
    {ves : Nat → Nat → ℝ} (hr : Regular tol .tet ves) {rho lam mu : ℝ} {starE : List (List ℝ)} (hS : initStar3 tolL .tet ves rho lam mu = some starE)
    {dofsE : List ℝ} {e0 : Nat → Nat → Nat → ℝ} (he : Dg.Rep c.nQtsE c.nMds c.nCrs dofsE e0) {m : Dg.CkMem ℝ} (hm : Dg.CkOut c m) :
    ∃ (l : List (List ℝ)) (m' : Dg.CkMem ℝ) (P : ℝ → Nat → Nat → Nat → ℝ), storeStiffTDense (stiffVRaw .tet o) (stiffTRaw .tet o) .tet (nModes .tet o) = some l ∧
      Dg.ck c dT l starE [] [] [] dofsE [] m = some m' ∧
      (∀ q md r, P 0 q md r = e0 q md r) ∧
      Dg.Rep c.nQtsE c.nMds c.nCrs m'.tIntE (fun q md r => ∫ τ in 0..dT, P τ q md r) ∧
      (∀ (pts : List ℝ) (pre : List (List ℝ)), Dg.Arrs pts.length (c.nQtsE * c.nMds * c.nCrs) pre →
        ∃ out, Dg.evalTimePrediction c pts m'.derE pre = some out ∧ out.length = pts.length ∧
          ∀ (k : Nat) (τ : ℝ), pts[k]? = some τ → ∃ x, out[k]? = some x ∧ Dg.Rep c.nQtsE c.nMds c.nCrs x (P τ)) ∧
      ∀ r τ x, Elastic3 rho lam mu (fun t q => physEval tol .tet o ves (fun md => P t q md r)) τ x := by
  simp only [initStar3, Option.bind_eq_bind, Option.bind_eq_some_iff] at hS
  obtain ⟨J, hJ, hS⟩ := hS
  have hst := Option.some.inj hS
  subst hst
  have hinv := ((Linalg.C52_inv3 htL _).2 _ hJ).2
  have hM := ext_mats (fun di => Seismic.star3 rho lam mu J di)
  obtain ⟨S, hSd⟩ : ∃ S : Nat → Nat → Nat → ℝ, S = fun di => if h : di < 3 then ext (Seismic.star3 rho lam mu J ⟨di, h⟩) else fun _ _ => 0 := ⟨_, rfl⟩
  rw [← hSd] at hM
  have hM : Dg.Mats c.nDis c.nQtsE c.nQtsE c.nQtsE ((List.finRange 3).map (fun di => float2d (Seismic.star3 rho lam mu J di))) S := by
    rw [hq, hc.dis]; exact hM
  obtain ⟨l, m', P, h1, h2, h3, h4, h5, h6, h7⟩ := C93_prediction ho hc dT hM he hm
  refine ⟨l, m', P, h1, h2, h3, h4, h5, fun r τ x => ?_⟩
  have hP : ∀ q p τ, HasDerivAt (fun t => recon .tet o (fun md => P t q md r) p) (waveOp Ent.tet.nDim c.nQtsE S (fun k => recon .tet o (fun md => P τ k md r)) q p) τ := by
    intro q p τ
    have := h6 r q p τ
    rw [h7 (Or.inr rfl) r q p, mul_zero, sub_zero] at this
    exact this
  have hJ' : ∀ d < Ent.tet.nDim, ∀ d2 < Ent.tet.nDim, ∑ di ∈ Finset.range Ent.tet.nDim, ext (Matrix.of J) d di * evalJac .tet ves di d2 = if d = d2 then 1 else 0 := by
    intro d hd d2 hd2
    simp only [Ent.nDim] at hd hd2
    have := congrFun (congrFun hinv ⟨d, hd⟩) ⟨d2, hd2⟩
    simp only [Matrix.mul_apply, Fin.sum_univ_three, Matrix.of_apply, Matrix.one_apply, Fin.mk.injEq] at this
    simpa [Finset.sum_range_succ, Ent.nDim, ext, hd] using this
  have key := fun (q : Nat) (hq5 : q < c.nQtsE) => phys_pred (o := o) (Or.inr rfl) ht hr hJ' (A := fun d => if h : d < 3 then ext (Seismic.jac3 rho lam mu ⟨d, h⟩) else fun _ _ => 0)
    (P := fun t q md => P t q md r) (by
      intro di hdi q hq' k hk
      rw [hq] at hq' hk
      simp only [Ent.nDim] at hdi
      rw [hSd]
      simp only
      rw [dif_pos hdi]
      simp only [Ent.nDim, Finset.sum_range_succ, Finset.sum_range_zero, ext, hq', hk, hdi, (Seismic.C71_star3 rho lam mu J _).1]
      simp [ext, hq', hk]) hP x τ hq5
  rw [hq] at key
  refine ⟨(key 0 (by omega)).congr_deriv ?_, (key 1 (by omega)).congr_deriv ?_, (key 2 (by omega)).congr_deriv ?_, (key 3 (by omega)).congr_deriv ?_, (key 4 (by omega)).congr_deriv ?_,
    (key 5 (by omega)).congr_deriv ?_, (key 6 (by omega)).congr_deriv ?_, (key 7 (by omega)).congr_deriv ?_, (key 8 (by omega)).congr_deriv ?_⟩ <;>
    simp [Ent.nDim, Finset.sum_range_succ, ext, Seismic.jac3] <;> ring

end Edge.Gen
