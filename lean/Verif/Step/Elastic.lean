import Verif.Step.Modes
import Verif.Fs.Godunov
import Verif.Face.Geom
/-!
C97: a time step of an element is exact, if no waves enter through its faces which are not part of its own solution.
-/
namespace Edge.Step
open Edge Edge.Map Edge.Quad Edge.Basis Edge.Proj Edge.Gen Edge.Flux Edge.Seismic Matrix

/-! ### Specification -/

/-- Area and normal, pointing out of the element, of face `fa` of a tetrahedron, computed from the vertices of the face in any order and a point `nPt` on one of the
sides of the face. The computed normal points out of the element if the point is on its side, otherwise into it. -/
def FaceGeo3 (ves : Nat → Nat → ℝ) (fa : Nat) (area : ℝ) (ν : Fin 3 → ℝ) : Prop :=
  ∃ (w0 w1 w2 : Nat) (nPt : Fin 3 → ℝ) (s : ℝ), [w0, w1, w2].Perm (faVeCc .tet fa) ∧
    (s = 1 ∧ 0 < Face.side3 (Face.vePt .tet ves w0) (Face.vePt .tet ves w1) (Face.vePt .tet ves w2) nPt *
        Face.side3 (Face.vePt .tet ves w0) (Face.vePt .tet ves w1) (Face.vePt .tet ves w2) (Face.vePt .tet ves (Face.oppVe .tet fa)) ∨
      s = -1 ∧ Face.side3 (Face.vePt .tet ves w0) (Face.vePt .tet ves w1) (Face.vePt .tet ves w2) nPt *
        Face.side3 (Face.vePt .tet ves w0) (Face.vePt .tet ves w1) (Face.vePt .tet ves w2) (Face.vePt .tet ves (Face.oppVe .tet fa)) < 0) ∧
    area = Face.triaArea (Face.vePt .tet ves w0) (Face.vePt .tet ves w1) (Face.vePt .tet ves w2) ∧
    ν = fun d => s * Face.triaNormal (Face.vePt .tet ves w0) (Face.vePt .tet ves w1) (Face.vePt .tet ves w2) nPt d

/-- The same for a face of a triangle; the area is the length. -/
def FaceGeo2 (ves : Nat → Nat → ℝ) (fa : Nat) (area : ℝ) (ν : Fin 2 → ℝ) : Prop :=
  ∃ (w0 w1 : Nat) (nPt : Fin 3 → ℝ) (s : ℝ), [w0, w1].Perm (faVeCc .tria fa) ∧
    (s = 1 ∧ 0 < Face.side2 (Face.vePt .tria ves w0) (Face.vePt .tria ves w1) nPt * Face.side2 (Face.vePt .tria ves w0) (Face.vePt .tria ves w1) (Face.vePt .tria ves (Face.oppVe .tria fa)) ∨
      s = -1 ∧ Face.side2 (Face.vePt .tria ves w0) (Face.vePt .tria ves w1) nPt * Face.side2 (Face.vePt .tria ves w0) (Face.vePt .tria ves w1) (Face.vePt .tria ves (Face.oppVe .tria fa)) < 0) ∧
    area = Face.lineLen (Face.vePt .tria ves w0) (Face.vePt .tria ves w1) ∧
    ν = fun d => s * Face.lineNormal (Face.vePt .tria ves w0) (Face.vePt .tria ves w1) nPt (d.castLE (by omega))

/-- Conditions at a face with traction `t` and velocity `v` of the element, `t'` and `v'` of the adjacent one, `m'` the material behind the face: continuous traction and
velocity; no traction at the free surface; outgoing waves only at outflow boundaries. -/
def Quiet {d : Type} [Fintype d] (m' : Material) (ν : d → ℝ) (free outflow : Bool) (t v t' v' : d → ℝ) : Prop :=
  if outflow then nrm ν t = -m'.zp • nrm ν v ∧ tng ν t = -m'.zs • tng ν v
  else if free then t = 0
  else t = t' ∧ v = v'

/-- Set-up of a tetrahedron with vertices `ves` and material `m`: star matrices, and flux solvers `fsL fa` and `fsN fa` of the local and the neighboring update (C96), where
`m' fa` is the material behind face `fa` and `ν fa` the outer normal. -/
structure SetUp3 (tol tolL : ℝ) (ves : Nat → Nat → ℝ) (m : Material) (m' : Nat → Material) (ν : Nat → Fin 3 → ℝ) (free : Nat → Bool) (starE fsL : List (List ℝ))
    (fsN : Nat → List ℝ) : Prop where
  tols : 0 ≤ tol ∧ 0 ≤ tolL
  regular : Regular tol .tet ves
  det : 0 < jDet .tet ves
  mat : m.Elastic
  star : initStar3 tolL .tet ves m.rho m.lam m.mu = some starE
  face : ∀ fa < 4, (m' fa).Elastic ∧ ∃ (area : ℝ) (visco : Bool) (x : FaceFs), FaceGeo3 ves fa area (ν fa) ∧
    Fs.Solves3 (Fs.fac .tet area (jDet .tet ves)) m (m' fa) (ν fa) (free fa) visco x ∧ fsL[fa]? = some x.el ∧ fsN fa = x.er

/-- The same for a triangle. -/
structure SetUp2 (tol tolL : ℝ) (ves : Nat → Nat → ℝ) (m : Material) (m' : Nat → Material) (ν : Nat → Fin 2 → ℝ) (free : Nat → Bool) (starE fsL : List (List ℝ))
    (fsN : Nat → List ℝ) : Prop where
  tols : 0 ≤ tol ∧ 0 ≤ tolL
  regular : Regular tol .tria ves
  det : 0 < jDet .tria ves
  mat : m.Elastic
  star : initStar2 tolL .tria ves m.rho m.lam m.mu = some starE
  face : ∀ fa < 3, (m' fa).Elastic ∧ ∃ (area : ℝ) (visco : Bool) (x : FaceFs), FaceGeo2 ves fa area (ν fa) ∧
    Fs.Solves2 (Fs.fac .tria area (jDet .tria ves)) m (m' fa) (ν fa) (free fa) visco x ∧ fsL[fa]? = some x.el ∧ fsN fa = x.er

/-- State of the function with modes `u` at a point of the reference element. -/
noncomputable def state (n : Nat) (e : Ent) (o : Nat) (u : Nat → Nat → Nat → ℝ) (r : Nat) (p : Fin 3 → ℝ) (k : Fin n) : ℝ := recon e o (fun md => u k.val md r) p

/-- The faces of a tetrahedron are quiet for the time integrated solution `T` of the element and `Tn fa` of the adjacent elements. At the free surface the latter is
the element's own. -/
def AllQuiet3 (c : Dg.Cfg) (o : Nat) (m' : Nat → Material) (ν : Nat → Fin 3 → ℝ) (fs : Nat → Dg.FaceIn ℝ) (T : Nat → Nat → Nat → ℝ) (Tn : Nat → Nat → Nat → Nat → ℝ) : Prop :=
  ∀ fa < 4, ((fs fa).outflow = false → (fs fa).freeSurface = true → ∀ q < c.nQtsE, ∀ md < c.nMds, ∀ r < c.nCrs, Tn fa q md r = T q md r) ∧ ∀ r < c.nCrs, ∀ x y,
    Quiet (m' fa) (ν fa) (fs fa).freeSurface (fs fa).outflow
      (stress3 (state 9 .tet o T r (elPt .tet fa x y)) *ᵥ ν fa) (vel3 (state 9 .tet o T r (elPt .tet fa x y)))
      (stress3 (state 9 .tet o (Tn fa) r (sidePt .tet fa (fs fa) x y)) *ᵥ ν fa) (vel3 (state 9 .tet o (Tn fa) r (sidePt .tet fa (fs fa) x y)))

/-- The same for a triangle. -/
def AllQuiet2 (c : Dg.Cfg) (o : Nat) (m' : Nat → Material) (ν : Nat → Fin 2 → ℝ) (fs : Nat → Dg.FaceIn ℝ) (T : Nat → Nat → Nat → ℝ) (Tn : Nat → Nat → Nat → Nat → ℝ) : Prop :=
  ∀ fa < 3, ((fs fa).outflow = false → (fs fa).freeSurface = true → ∀ q < c.nQtsE, ∀ md < c.nMds, ∀ r < c.nCrs, Tn fa q md r = T q md r) ∧ ∀ r < c.nCrs, ∀ x y,
    Quiet (m' fa) (ν fa) (fs fa).freeSurface (fs fa).outflow
      (stress2 (state 5 .tria o T r (elPt .tria fa x y)) *ᵥ ν fa) (vel2 (state 5 .tria o T r (elPt .tria fa x y)))
      (stress2 (state 5 .tria o (Tn fa) r (sidePt .tria fa (fs fa) x y)) *ᵥ ν fa) (vel2 (state 5 .tria o (Tn fa) r (sidePt .tria fa (fs fa) x y)))

/-! ### Proofs -/

theorem Mat_flat {n : Nat} (M : Matrix (Fin n) (Fin n) ℝ) : Dg.Mat n n n (flat M) (ext M) := by
  intro i j hi hj
  rw [flat_get M hi hj]
  simp [Gen.ext, hi, hj]

/-- With quiet faces the flux is the one of the element's own state. -/
theorem quiet3 {m m' : Material} (hm : m.Elastic) (hm' : m'.Elastic) {ν : Fin 3 → ℝ} {free outflow : Bool} {el er : Matrix (Fin 9) (Fin 9) ℝ}
    (hs : ∀ qL qR : Fin 9 → ℝ, ∃ τ v : Fin 3 → ℝ,
      IsMiddle m m' ν (stress3 qL *ᵥ ν) (vel3 qL) (if free then -(stress3 qR *ᵥ ν) else stress3 qR *ᵥ ν) (vel3 qR) τ v ∧
      stress3 (el *ᵥ qL + er *ᵥ qR) = fluxS m ν v ∧ vel3 (el *ᵥ qL + er *ᵥ qR) = fluxV m τ) {qL qR : Fin 9 → ℝ}
    (hfr : outflow = false → free = true → qR = qL)
    (hq : Quiet m' ν free outflow (stress3 qL *ᵥ ν) (vel3 qL) (stress3 qR *ᵥ ν) (vel3 qR)) :
    el *ᵥ qL + (if outflow then 0 else er *ᵥ qR) = (ν 0 • jac3 m.rho m.lam m.mu 0 + ν 1 • jac3 m.rho m.lam m.mu 1 + ν 2 • jac3 m.rho m.lam m.mu 2) *ᵥ qL := by
  have key : ∃ q, (if outflow then 0 else er *ᵥ qR) = er *ᵥ q ∧
      IsMiddle m m' ν (stress3 qL *ᵥ ν) (vel3 qL) (if free then -(stress3 q *ᵥ ν) else stress3 q *ᵥ ν) (vel3 q) (stress3 qL *ᵥ ν) (vel3 qL) := by
    rcases outflow with _ | _
    · refine ⟨qR, by simp, ?_⟩
      rcases free with _ | _
      · simp only [Quiet, Bool.false_eq_true, if_false] at hq ⊢
        rw [← hq.1, ← hq.2]
        exact IsMiddle.self m m' ν _ _
      · simp only [Quiet, Bool.false_eq_true, if_false, if_true] at hq ⊢
        rw [hfr rfl rfl, hq, neg_zero]
        exact IsMiddle.self m m' ν _ _
    · refine ⟨0, by simp, ?_⟩
      have h0 : stress3 (0 : Fin 9 → ℝ) = 0 := by ext i j; fin_cases i <;> fin_cases j <;> simp [stress3]
      have h1 : vel3 (0 : Fin 9 → ℝ) = 0 := by ext i; fin_cases i <;> simp [vel3]
      simp only [Quiet, if_true] at hq
      rw [h0, h1]
      refine ⟨by simp [nrm], by simp [tng, nrm], ?_, ?_⟩
      · simp only [zero_mulVec, neg_zero, ite_self, zero_sub, nrm_neg, hq.1, smul_neg]
      · simp only [zero_mulVec, neg_zero, ite_self, zero_sub, tng_neg, hq.2, smul_neg]
  obtain ⟨q, h1, h2⟩ := key
  obtain ⟨τ, v, k1, k2, k3⟩ := hs qL q
  obtain ⟨rfl, rfl⟩ := k1.unique hm hm' h2
  rw [h1]
  refine ext3 ?_ ?_
  · rw [k2, (normal3 ν qL).1]
  · rw [k3, (normal3 ν qL).2]

theorem quiet2 {m m' : Material} (hm : m.Elastic) (hm' : m'.Elastic) {ν : Fin 2 → ℝ} {free outflow : Bool} {el er : Matrix (Fin 5) (Fin 5) ℝ}
    (hs : ∀ qL qR : Fin 5 → ℝ, ∃ τ v : Fin 2 → ℝ,
      IsMiddle m m' ν (stress2 qL *ᵥ ν) (vel2 qL) (if free then -(stress2 qR *ᵥ ν) else stress2 qR *ᵥ ν) (vel2 qR) τ v ∧
      stress2 (el *ᵥ qL + er *ᵥ qR) = fluxS m ν v ∧ vel2 (el *ᵥ qL + er *ᵥ qR) = fluxV m τ) {qL qR : Fin 5 → ℝ}
    (hfr : outflow = false → free = true → qR = qL)
    (hq : Quiet m' ν free outflow (stress2 qL *ᵥ ν) (vel2 qL) (stress2 qR *ᵥ ν) (vel2 qR)) :
    el *ᵥ qL + (if outflow then 0 else er *ᵥ qR) = (ν 0 • jac2 m.rho m.lam m.mu 0 + ν 1 • jac2 m.rho m.lam m.mu 1) *ᵥ qL := by
  have key : ∃ q, (if outflow then 0 else er *ᵥ qR) = er *ᵥ q ∧
      IsMiddle m m' ν (stress2 qL *ᵥ ν) (vel2 qL) (if free then -(stress2 q *ᵥ ν) else stress2 q *ᵥ ν) (vel2 q) (stress2 qL *ᵥ ν) (vel2 qL) := by
    rcases outflow with _ | _
    · refine ⟨qR, by simp, ?_⟩
      rcases free with _ | _
      · simp only [Quiet, Bool.false_eq_true, if_false] at hq ⊢
        rw [← hq.1, ← hq.2]
        exact IsMiddle.self m m' ν _ _
      · simp only [Quiet, Bool.false_eq_true, if_false, if_true] at hq ⊢
        rw [hfr rfl rfl, hq, neg_zero]
        exact IsMiddle.self m m' ν _ _
    · refine ⟨0, by simp, ?_⟩
      have h0 : stress2 (0 : Fin 5 → ℝ) = 0 := by ext i j; fin_cases i <;> fin_cases j <;> simp [stress2]
      have h1 : vel2 (0 : Fin 5 → ℝ) = 0 := by ext i; fin_cases i <;> simp [vel2]
      simp only [Quiet, if_true] at hq
      rw [h0, h1]
      refine ⟨by simp [nrm], by simp [tng, nrm], ?_, ?_⟩
      · simp only [zero_mulVec, neg_zero, ite_self, zero_sub, nrm_neg, hq.1, smul_neg]
      · simp only [zero_mulVec, neg_zero, ite_self, zero_sub, tng_neg, hq.2, smul_neg]
  obtain ⟨q, h1, h2⟩ := key
  obtain ⟨τ, v, k1, k2, k3⟩ := hs qL q
  obtain ⟨rfl, rfl⟩ := k1.unique hm hm' h2
  rw [h1]
  refine ext2 ?_ ?_
  · rw [k2, (normal2 ν qL).1]
  · rw [k3, (normal2 ν qL).2]

/-- Star matrices of a tetrahedron. -/
theorem star3_spec {tolL : ℝ} (htL : 0 ≤ tolL) {ves : Nat → Nat → ℝ} {rho lam mu : ℝ} {starE : List (List ℝ)} (hS : initStar3 tolL .tet ves rho lam mu = some starE) :
    ∃ (J : Nat → Nat → ℝ) (S : Nat → Nat → Nat → ℝ), Dg.Mats 3 9 9 9 starE S ∧
      (∀ d < Ent.tet.nDim, ∀ d2 < Ent.tet.nDim, ∑ di ∈ Finset.range Ent.tet.nDim, J d di * evalJac .tet ves di d2 = if d = d2 then 1 else 0) ∧
      ∀ di < 3, ∀ q < 9, ∀ k < 9, S di q k = ∑ d ∈ Finset.range 3, J d di * (if h : d < 3 then Gen.ext (jac3 rho lam mu ⟨d, h⟩) else fun _ _ => 0) q k := by
  simp only [initStar3, Option.bind_eq_bind, Option.bind_eq_some_iff] at hS
  obtain ⟨J, hJ, hS⟩ := hS
  have hst := Option.some.inj hS
  subst hst
  have hinv := ((Linalg.C52_inv3 htL _).2 _ hJ).2
  refine ⟨Gen.ext (Matrix.of J), _, ext_mats (fun di => Seismic.star3 rho lam mu J di), ?_, ?_⟩
  · intro d hd d2 hd2
    simp only [Ent.nDim] at hd hd2
    have := congrFun (congrFun hinv ⟨d, hd⟩) ⟨d2, hd2⟩
    simp only [Matrix.mul_apply, Fin.sum_univ_three, Matrix.of_apply, Matrix.one_apply, Fin.mk.injEq] at this
    simpa [Finset.sum_range_succ, Ent.nDim, Gen.ext, hd] using this
  · intro di hdi q hq' k hk
    rw [dif_pos hdi]
    simp only [Finset.sum_range_succ, Finset.sum_range_zero, Gen.ext, hq', hk, hdi, (Seismic.C71_star3 rho lam mu J _).1]
    simp [Gen.ext, hq', hk]

/-- Star matrices of a triangle. -/
theorem star2_spec {tolL : ℝ} (htL : 0 ≤ tolL) {ves : Nat → Nat → ℝ} {rho lam mu : ℝ} {starE : List (List ℝ)} (hS : initStar2 tolL .tria ves rho lam mu = some starE) :
    ∃ (J : Nat → Nat → ℝ) (S : Nat → Nat → Nat → ℝ), Dg.Mats 2 5 5 5 starE S ∧
      (∀ d < Ent.tria.nDim, ∀ d2 < Ent.tria.nDim, ∑ di ∈ Finset.range Ent.tria.nDim, J d di * evalJac .tria ves di d2 = if d = d2 then 1 else 0) ∧
      ∀ di < 2, ∀ q < 5, ∀ k < 5, S di q k = ∑ d ∈ Finset.range 2, J d di * (if h : d < 2 then Gen.ext (jac2 rho lam mu ⟨d, h⟩) else fun _ _ => 0) q k := by
  simp only [initStar2, Option.bind_eq_bind, Option.bind_eq_some_iff] at hS
  obtain ⟨J, hJ, hS⟩ := hS
  have hst := Option.some.inj hS
  subst hst
  have hinv := ((Linalg.C52_inv2 htL _).2 _ hJ).2
  refine ⟨Gen.ext (Matrix.of J), _, ext_mats (fun di => Seismic.star2 rho lam mu J di), ?_, ?_⟩
  · intro d hd d2 hd2
    simp only [Ent.nDim] at hd hd2
    have := congrFun (congrFun hinv ⟨d, hd⟩) ⟨d2, hd2⟩
    simp only [Matrix.mul_apply, Fin.sum_univ_two, Matrix.of_apply, Matrix.one_apply, Fin.mk.injEq] at this
    simpa [Finset.sum_range_succ, Ent.nDim, Gen.ext, hd] using this
  · intro di hdi q hq' k hk
    rw [dif_pos hdi]
    simp only [Finset.sum_range_succ, Finset.sum_range_zero, Gen.ext, hq', hk, hdi, (Seismic.C71_star2 rho lam mu J _).1]
    simp [Gen.ext, hq', hk]

/-- Scaled normals of a tetrahedron, from the inverse of the Jacobian. -/
theorem nanson3 {ves : Nat → Nat → ℝ} (hdet : 0 < jDet .tet ves) {fa : Nat} (hfa : fa < 4) {area : ℝ} {ν : Fin 3 → ℝ} (hg : FaceGeo3 ves fa area ν) {J : Nat → Nat → ℝ}
    (hJ : ∀ d < Ent.tet.nDim, ∀ d2 < Ent.tet.nDim, ∑ di ∈ Finset.range Ent.tet.nDim, J d di * evalJac .tet ves di d2 = if d = d2 then 1 else 0) (d : Fin 3) :
    Fs.fac .tet area (jDet .tet ves) * ν d = -∑ di : Fin 3, refNormal .tet fa di * J d.val di.val := by
  obtain ⟨w0, w1, w2, nPt, s, hw, hs, rfl, rfl⟩ := hg
  obtain ⟨-, hn⟩ := Face.C95_nanson3 hdet hfa hw hs
  set N : Fin 3 → ℝ := fun d => 2 * Face.triaArea (Face.vePt .tet ves w0) (Face.vePt .tet ves w1) (Face.vePt .tet ves w2) *
    (s * Face.triaNormal (Face.vePt .tet ves w0) (Face.vePt .tet ves w1) (Face.vePt .tet ves w2) nPt d) with hN
  have hn : ∀ di : Fin 3, ∑ d : Fin 3, evalJac .tet ves di d * N d = jDet .tet ves * refNormal .tet fa di := hn
  have h1 : ∑ di : Fin 3, J d.val di.val * (jDet .tet ves * refNormal .tet fa di) = N d := by
    simp only [← hn, Fin.sum_univ_three]
    have j0 := hJ d d.2 0 (by decide)
    have j1 := hJ d d.2 1 (by decide)
    have j2 := hJ d d.2 2 (by decide)
    simp only [Ent.nDim, Finset.sum_range_succ, Finset.sum_range_zero, zero_add] at j0 j1 j2
    fin_cases d <;> simp at j0 j1 j2 ⊢ <;> linear_combination N 0 * j0 + N 1 * j1 + N 2 * j2
  have h2 : Fs.fac .tet (Face.triaArea (Face.vePt .tet ves w0) (Face.vePt .tet ves w1) (Face.vePt .tet ves w2)) (jDet .tet ves) *
      (s * Face.triaNormal (Face.vePt .tet ves w0) (Face.vePt .tet ves w1) (Face.vePt .tet ves w2) nPt d) = -(N d / jDet .tet ves) := by
    rw [Fs.fac, if_pos rfl, hN]; ring
  rw [h2, ← h1, Finset.sum_div]
  congr 1
  refine Finset.sum_congr rfl (fun di _ => ?_)
  field_simp

/-- Scaled normals of a triangle. -/
theorem nanson2 {ves : Nat → Nat → ℝ} (hdet : 0 < jDet .tria ves) {fa : Nat} (hfa : fa < 3) {area : ℝ} {ν : Fin 2 → ℝ} (hg : FaceGeo2 ves fa area ν) {J : Nat → Nat → ℝ}
    (hJ : ∀ d < Ent.tria.nDim, ∀ d2 < Ent.tria.nDim, ∑ di ∈ Finset.range Ent.tria.nDim, J d di * evalJac .tria ves di d2 = if d = d2 then 1 else 0) (d : Fin 2) :
    Fs.fac .tria area (jDet .tria ves) * ν d = -(refNormal .tria fa 0 * J d.val 0 + refNormal .tria fa 1 * J d.val 1) := by
  obtain ⟨w0, w1, nPt, s, hw, hs, rfl, rfl⟩ := hg
  obtain ⟨-, hn⟩ := Face.C95_nanson2 hdet hfa hw hs
  set N : Fin 3 → ℝ := fun d => Face.lineLen (Face.vePt .tria ves w0) (Face.vePt .tria ves w1) * (s * Face.lineNormal (Face.vePt .tria ves w0) (Face.vePt .tria ves w1) nPt d) with hN
  have hn : ∀ di : Fin 3, di.val < 2 → ∑ d : Fin 3, (if d.val < 2 then evalJac .tria ves di d * N d else 0) = jDet .tria ves * refNormal .tria fa di := hn
  have n0 := hn 0 (by decide)
  have n1 := hn 1 (by decide)
  simp [Fin.sum_univ_three] at n0 n1
  have h1 : J d.val 0 * (jDet .tria ves * refNormal .tria fa 0) + J d.val 1 * (jDet .tria ves * refNormal .tria fa 1) = N (d.castLE (by omega)) := by
    rw [← n0, ← n1]
    have j0 := hJ d d.2 0 (by decide)
    have j1 := hJ d d.2 1 (by decide)
    simp only [Ent.nDim, Finset.sum_range_succ, Finset.sum_range_zero, zero_add] at j0 j1
    fin_cases d <;> simp at j0 j1 ⊢ <;> linear_combination N 0 * j0 + N 1 * j1
  have h2 : Fs.fac .tria (Face.lineLen (Face.vePt .tria ves w0) (Face.vePt .tria ves w1)) (jDet .tria ves) *
      (s * Face.lineNormal (Face.vePt .tria ves w0) (Face.vePt .tria ves w1) nPt (d.castLE (by omega))) = -(N (d.castLE (by omega)) / jDet .tria ves) := by
    rw [Fs.fac, if_neg (by decide), hN]; ring
  rw [h2, ← h1]
  field_simp

theorem sum9 (M : Matrix (Fin 9) (Fin 9) ℝ) {q : Nat} (hq : q < 9) (v : Nat → ℝ) :
    ∑ p ∈ Finset.range 9, Gen.ext M q p * v p = (M *ᵥ fun k : Fin 9 => v k.val) ⟨q, hq⟩ := by
  rw [Finset.sum_range, mulVec, dotProduct]
  exact Finset.sum_congr rfl (fun p _ => by simp [Gen.ext, hq])

theorem sum5 (M : Matrix (Fin 5) (Fin 5) ℝ) {q : Nat} (hq : q < 5) (v : Nat → ℝ) :
    ∑ p ∈ Finset.range 5, Gen.ext M q p * v p = (M *ᵥ fun k : Fin 5 => v k.val) ⟨q, hq⟩ := by
  rw [Finset.sum_range, mulVec, dotProduct]
  exact Finset.sum_congr rfl (fun p _ => by simp [Gen.ext, hq])

theorem sidePt_free {e : Ent} {fa : Nat} {f : Dg.FaceIn ℝ} (h : f.freeSurface = true) (x y : ℝ) : sidePt e fa f x y = elPt e fa x y := by
  unfold sidePt; rw [h]

/-- The flux solvers of a tetrahedron, as matrices, and consistency at quiet faces. -/
theorem consistent3 {c : Dg.Cfg} {o : Nat} (hc : Fit c .tet o) (hq9 : c.nQtsE = 9) {tol tolL : ℝ} {ves : Nat → Nat → ℝ} {m : Material} {m' : Nat → Material} {ν : Nat → Fin 3 → ℝ}
    {fs : Nat → Dg.FaceIn ℝ} {starE fsL : List (List ℝ)} (hu : SetUp3 tol tolL ves m m' ν (fun fa => (fs fa).freeSurface) starE fsL (fun fa => (fs fa).fsE)) {J : Nat → Nat → ℝ} {S : Nat → Nat → Nat → ℝ}
    (hJ : ∀ d < Ent.tet.nDim, ∀ d2 < Ent.tet.nDim, ∑ di ∈ Finset.range Ent.tet.nDim, J d di * evalJac .tet ves di d2 = if d = d2 then 1 else 0)
    (hS : ∀ di < 3, ∀ q < 9, ∀ k < 9, S di q k = ∑ d ∈ Finset.range 3, J d di * (if h : d < 3 then Gen.ext (jac3 m.rho m.lam m.mu ⟨d, h⟩) else fun _ _ => 0) q k) :
    ∃ FL FN : Nat → Nat → Nat → ℝ, Dg.Mats 4 9 9 9 fsL FL ∧ (∀ fa < 4, Dg.Mat 9 9 9 (fs fa).fsE (FN fa)) ∧
      ∀ T Tn, AllQuiet3 c o m' ν fs T Tn → Consistent c .tet o S FL FN fs T Tn := by
  have hf := fun fa (h : fa < 4) => (hu.face fa h).2
  choose! area visco x hg hs hl hr using hf
  simp only [Fs.Solves3] at hs
  choose! el er al ar hx hsol using hs
  refine ⟨fun fa => Gen.ext (Fs.fac .tet (area fa) (jDet .tet ves) • el fa), fun fa => Gen.ext (Fs.fac .tet (area fa) (jDet .tet ves) • er fa), ?_, ?_, ?_⟩
  · intro fa hfa
    refine ⟨_, hl fa hfa, ?_⟩
    rw [hx fa hfa]
    exact Mat_flat _
  · intro fa hfa
    have := hr fa hfa
    beta_reduce at this
    rw [this, hx fa hfa]
    exact Mat_flat _
  · intro T Tn hQ fa hfa q hq r hr' x' y'
    have hfa : fa < 4 := hfa
    obtain ⟨hfr, hQ⟩ := hQ fa hfa
    have hQ := hQ r hr' x' y'
    have key := quiet3 hu.mat (hu.face fa hfa).1 (el := el fa) (er := er fa) (fun qL qR => by
      obtain ⟨τ, v, k1, k2, k3, -⟩ := hsol fa hfa qL qR
      exact ⟨τ, v, k1, k2, k3⟩) (by
      intro h1 h2
      funext k
      simp only [state]
      rw [sidePt_free h2]
      exact recon_congr (fun md hmd => hfr h1 h2 k (by rw [hq9]; exact k.2) md (by rw [hc.mds]; exact hmd) r hr') _) hQ
    rw [hq9] at hq ⊢
    have kq := congrFun key ⟨q, hq⟩
    have e2 : ∀ v : Nat → ℝ, ∑ p ∈ Finset.range 9, Gen.ext (Fs.fac .tet (area fa) (jDet .tet ves) • el fa) q p * v p =
        Fs.fac .tet (area fa) (jDet .tet ves) * (el fa *ᵥ fun k : Fin 9 => v k.val) ⟨q, hq⟩ := by
      intro v; rw [sum9 _ hq, smul_mulVec, Pi.smul_apply, smul_eq_mul]
    have e3 : ∀ v : Nat → ℝ, ∑ p ∈ Finset.range 9, Gen.ext (Fs.fac .tet (area fa) (jDet .tet ves) • er fa) q p * v p =
        Fs.fac .tet (area fa) (jDet .tet ves) * (er fa *ᵥ fun k : Fin 9 => v k.val) ⟨q, hq⟩ := by
      intro v; rw [sum9 _ hq, smul_mulVec, Pi.smul_apply, smul_eq_mul]
    have e4 : ∀ (v : Nat → ℝ) (di : Fin 3), ∑ p ∈ Finset.range 9, S di.val q p * v p =
        J 0 di.val * (jac3 m.rho m.lam m.mu 0 *ᵥ fun k : Fin 9 => v k.val) ⟨q, hq⟩ + J 1 di.val * (jac3 m.rho m.lam m.mu 1 *ᵥ fun k : Fin 9 => v k.val) ⟨q, hq⟩ +
          J 2 di.val * (jac3 m.rho m.lam m.mu 2 *ᵥ fun k : Fin 9 => v k.val) ⟨q, hq⟩ := by
      intro v di
      rw [← sum9 _ hq, ← sum9 _ hq, ← sum9 _ hq, Finset.mul_sum, Finset.mul_sum, Finset.mul_sum, ← Finset.sum_add_distrib, ← Finset.sum_add_distrib]
      refine Finset.sum_congr rfl (fun p hp => ?_)
      rw [hS di di.2 q hq p (Finset.mem_range.1 hp)]
      simp [Finset.sum_range_succ]
      ring
    simp only [e2, e3, e4]
    have n0 := nanson3 hu.det hfa (hg fa hfa) hJ 0
    have n1 := nanson3 hu.det hfa (hg fa hfa) hJ 1
    have n2 := nanson3 hu.det hfa (hg fa hfa) hJ 2
    simp only [Fin.sum_univ_three, Fin.val_zero, Fin.val_one, Fin.val_two] at n0 n1 n2
    simp only [add_mulVec, smul_mulVec, Pi.add_apply, Pi.smul_apply, smul_eq_mul] at kq
    simp only [Fin.sum_univ_three, Ent.nDim, Fin.val_zero, Fin.val_one, Fin.val_two]
    simp only [show (0:Nat) < 3 by decide, show (1:Nat) < 3 by decide, show (2:Nat) < 3 by decide, if_true]
    change _ = ν fa 0 * (jac3 m.rho m.lam m.mu 0 *ᵥ fun k : Fin 9 => recon .tet o (fun md => T k.val md r) (elPt .tet fa x' y')) ⟨q, hq⟩ +
      ν fa 1 * (jac3 m.rho m.lam m.mu 1 *ᵥ fun k : Fin 9 => recon .tet o (fun md => T k.val md r) (elPt .tet fa x' y')) ⟨q, hq⟩ +
      ν fa 2 * (jac3 m.rho m.lam m.mu 2 *ᵥ fun k : Fin 9 => recon .tet o (fun md => T k.val md r) (elPt .tet fa x' y')) ⟨q, hq⟩ at kq
    generalize (jac3 m.rho m.lam m.mu 0 *ᵥ fun k : Fin 9 => recon .tet o (fun md => T k.val md r) (elPt .tet fa x' y')) ⟨q, hq⟩ = a0 at *
    generalize (jac3 m.rho m.lam m.mu 1 *ᵥ fun k : Fin 9 => recon .tet o (fun md => T k.val md r) (elPt .tet fa x' y')) ⟨q, hq⟩ = a1 at *
    generalize (jac3 m.rho m.lam m.mu 2 *ᵥ fun k : Fin 9 => recon .tet o (fun md => T k.val md r) (elPt .tet fa x' y')) ⟨q, hq⟩ = a2 at *
    by_cases ho : (fs fa).outflow = true
    · rw [if_pos ho] at kq ⊢
      simp only [Pi.zero_apply] at kq
      change (el fa *ᵥ fun k : Fin 9 => recon .tet o (fun md => T k.val md r) (elPt .tet fa x' y')) ⟨q, hq⟩ + 0 = _ at kq
      linear_combination Fs.fac .tet (area fa) (jDet .tet ves) * kq + a0 * n0 + a1 * n1 + a2 * n2
    · rw [if_neg ho] at kq ⊢
      change (el fa *ᵥ fun k : Fin 9 => recon .tet o (fun md => T k.val md r) (elPt .tet fa x' y')) ⟨q, hq⟩ +
        (er fa *ᵥ fun k : Fin 9 => recon .tet o (fun md => Tn fa k.val md r) (sidePt .tet fa (fs fa) x' y')) ⟨q, hq⟩ = _ at kq
      linear_combination Fs.fac .tet (area fa) (jDet .tet ves) * kq + a0 * n0 + a1 * n1 + a2 * n2

/-- The flux solvers of a triangle, as matrices, and consistency at quiet faces. -/
theorem consistent2 {c : Dg.Cfg} {o : Nat} (hc : Fit c .tria o) (hq5 : c.nQtsE = 5) {tol tolL : ℝ} {ves : Nat → Nat → ℝ} {m : Material} {m' : Nat → Material} {ν : Nat → Fin 2 → ℝ}
    {fs : Nat → Dg.FaceIn ℝ} {starE fsL : List (List ℝ)} (hu : SetUp2 tol tolL ves m m' ν (fun fa => (fs fa).freeSurface) starE fsL (fun fa => (fs fa).fsE)) {J : Nat → Nat → ℝ} {S : Nat → Nat → Nat → ℝ}
    (hJ : ∀ d < Ent.tria.nDim, ∀ d2 < Ent.tria.nDim, ∑ di ∈ Finset.range Ent.tria.nDim, J d di * evalJac .tria ves di d2 = if d = d2 then 1 else 0)
    (hS : ∀ di < 2, ∀ q < 5, ∀ k < 5, S di q k = ∑ d ∈ Finset.range 2, J d di * (if h : d < 2 then Gen.ext (jac2 m.rho m.lam m.mu ⟨d, h⟩) else fun _ _ => 0) q k) :
    ∃ FL FN : Nat → Nat → Nat → ℝ, Dg.Mats 3 5 5 5 fsL FL ∧ (∀ fa < 3, Dg.Mat 5 5 5 (fs fa).fsE (FN fa)) ∧
      ∀ T Tn, AllQuiet2 c o m' ν fs T Tn → Consistent c .tria o S FL FN fs T Tn := by
  have hf := fun fa (h : fa < 3) => (hu.face fa h).2
  choose! area visco x hg hs hl hr using hf
  simp only [Fs.Solves2] at hs
  choose! el er al ar hx hsol using hs
  refine ⟨fun fa => Gen.ext (Fs.fac .tria (area fa) (jDet .tria ves) • el fa), fun fa => Gen.ext (Fs.fac .tria (area fa) (jDet .tria ves) • er fa), ?_, ?_, ?_⟩
  · intro fa hfa
    refine ⟨_, hl fa hfa, ?_⟩
    rw [hx fa hfa]
    exact Mat_flat _
  · intro fa hfa
    have := hr fa hfa
    beta_reduce at this
    rw [this, hx fa hfa]
    exact Mat_flat _
  · intro T Tn hQ fa hfa q hq r hr' x' y'
    have hfa : fa < 3 := hfa
    obtain ⟨hfr, hQ⟩ := hQ fa hfa
    have hQ := hQ r hr' x' y'
    have key := quiet2 hu.mat (hu.face fa hfa).1 (el := el fa) (er := er fa) (fun qL qR => by
      obtain ⟨τ, v, k1, k2, k3, -⟩ := hsol fa hfa qL qR
      exact ⟨τ, v, k1, k2, k3⟩) (by
      intro h1 h2
      funext k
      simp only [state]
      rw [sidePt_free h2]
      exact recon_congr (fun md hmd => hfr h1 h2 k (by rw [hq5]; exact k.2) md (by rw [hc.mds]; exact hmd) r hr') _) hQ
    rw [hq5] at hq ⊢
    have kq := congrFun key ⟨q, hq⟩
    have e2 : ∀ v : Nat → ℝ, ∑ p ∈ Finset.range 5, Gen.ext (Fs.fac .tria (area fa) (jDet .tria ves) • el fa) q p * v p =
        Fs.fac .tria (area fa) (jDet .tria ves) * (el fa *ᵥ fun k : Fin 5 => v k.val) ⟨q, hq⟩ := by
      intro v; rw [sum5 _ hq, smul_mulVec, Pi.smul_apply, smul_eq_mul]
    have e3 : ∀ v : Nat → ℝ, ∑ p ∈ Finset.range 5, Gen.ext (Fs.fac .tria (area fa) (jDet .tria ves) • er fa) q p * v p =
        Fs.fac .tria (area fa) (jDet .tria ves) * (er fa *ᵥ fun k : Fin 5 => v k.val) ⟨q, hq⟩ := by
      intro v; rw [sum5 _ hq, smul_mulVec, Pi.smul_apply, smul_eq_mul]
    have e4 : ∀ (v : Nat → ℝ) (di : Nat), di < 2 → ∑ p ∈ Finset.range 5, S di q p * v p =
        J 0 di * (jac2 m.rho m.lam m.mu 0 *ᵥ fun k : Fin 5 => v k.val) ⟨q, hq⟩ + J 1 di * (jac2 m.rho m.lam m.mu 1 *ᵥ fun k : Fin 5 => v k.val) ⟨q, hq⟩ := by
      intro v di hdi
      rw [← sum5 _ hq, ← sum5 _ hq, Finset.mul_sum, Finset.mul_sum, ← Finset.sum_add_distrib]
      refine Finset.sum_congr rfl (fun p hp => ?_)
      rw [hS di hdi q hq p (Finset.mem_range.1 hp)]
      simp [Finset.sum_range_succ]
      ring
    simp only [e2, e3]
    have n0 := nanson2 hu.det hfa (hg fa hfa) hJ 0
    have n1 := nanson2 hu.det hfa (hg fa hfa) hJ 1
    simp only [Fin.val_zero, Fin.val_one] at n0 n1
    simp only [add_mulVec, smul_mulVec, Pi.add_apply, Pi.smul_apply, smul_eq_mul] at kq
    simp only [Fin.sum_univ_three, Ent.nDim, Fin.val_zero, Fin.val_one, Fin.val_two]
    simp only [show (0:Nat) < 2 by decide, show (1:Nat) < 2 by decide, show ¬ (2:Nat) < 2 by decide, if_true, if_false, e4 _ 0 (by decide), e4 _ 1 (by decide), add_zero]
    change _ = ν fa 0 * (jac2 m.rho m.lam m.mu 0 *ᵥ fun k : Fin 5 => recon .tria o (fun md => T k.val md r) (elPt .tria fa x' y')) ⟨q, hq⟩ +
      ν fa 1 * (jac2 m.rho m.lam m.mu 1 *ᵥ fun k : Fin 5 => recon .tria o (fun md => T k.val md r) (elPt .tria fa x' y')) ⟨q, hq⟩ at kq
    generalize (jac2 m.rho m.lam m.mu 0 *ᵥ fun k : Fin 5 => recon .tria o (fun md => T k.val md r) (elPt .tria fa x' y')) ⟨q, hq⟩ = a0 at *
    generalize (jac2 m.rho m.lam m.mu 1 *ᵥ fun k : Fin 5 => recon .tria o (fun md => T k.val md r) (elPt .tria fa x' y')) ⟨q, hq⟩ = a1 at *
    by_cases ho : (fs fa).outflow = true
    · rw [if_pos ho] at kq ⊢
      simp only [Pi.zero_apply] at kq
      change (el fa *ᵥ fun k : Fin 5 => recon .tria o (fun md => T k.val md r) (elPt .tria fa x' y')) ⟨q, hq⟩ + 0 = _ at kq
      linear_combination Fs.fac .tria (area fa) (jDet .tria ves) * kq + a0 * n0 + a1 * n1
    · rw [if_neg ho] at kq ⊢
      change (el fa *ᵥ fun k : Fin 5 => recon .tria o (fun md => T k.val md r) (elPt .tria fa x' y')) ⟨q, hq⟩ +
        (er fa *ᵥ fun k : Fin 5 => recon .tria o (fun md => Tn fa k.val md r) (sidePt .tria fa (fs fa) x' y')) ⟨q, hq⟩ = _ at kq
      linear_combination Fs.fac .tria (area fa) (jDet .tria ves) * kq + a0 * n0 + a1 * n1

end Edge.Step
