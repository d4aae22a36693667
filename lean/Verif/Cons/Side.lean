import Verif.Cons.Mesh
import Verif.Cons.Geo
/-!
Fluxes of the velocities on the two sides of a face.
-/
namespace Edge.Cons
open Edge Edge.Map Edge.Quad Edge.Basis Edge.Proj Edge.Gen Edge.Flux Edge.Step Edge.Seismic Matrix

theorem elPt_faPt {e : Ent} (he : e = .tria ∨ e = .tet) {ve : Nat} (hve : ve < e.nVeOpts) (fa : Nat) (x y : ℝ) :
    elPt e fa (faPt e ve (faPt e ve x y 0) (faPt e ve x y 1) 0) (faPt e ve (faPt e ve x y 0) (faPt e ve x y 1) 1) = elPt e fa x y := by
  obtain ⟨h1, h2⟩ := faPt_faPt he hve x y
  rcases he with rfl | rfl
  · rw [h1]
    simp only [elPt, faToEl]
  · rw [h1, h2 rfl]

/-- Quantities of the stress tensor. -/
def sq3 (i j : Nat) : Nat := ([[0, 3, 5], [3, 1, 4], [5, 4, 2]].getD i []).getD j 0

set_option maxHeartbeats 1600000 in
theorem star3_vel {J : Nat → Nat → ℝ} {S : Nat → Nat → Nat → ℝ} {rho lam mu : ℝ}
    (hS : ∀ di < 3, ∀ q < 9, ∀ k < 9, S di q k = ∑ d ∈ Finset.range 3, J d di * (if h : d < 3 then Gen.ext (jac3 rho lam mu ⟨d, h⟩) else fun _ _ => 0) q k) {j : Nat} (hj : j < 3)
    {di : Nat} (hdi : di < 3) (X : Nat → ℝ) : ∑ p ∈ Finset.range 9, S di (6 + j) p * X p = -(1 / rho) * ∑ d ∈ Finset.range 3, J d di * X (sq3 j d) := by
  rw [Finset.sum_congr rfl (fun p hp => by rw [hS di hdi (6 + j) (by omega) p (Finset.mem_range.1 hp)])]
  interval_cases j <;> simp [Finset.sum_range_succ, Gen.ext, Seismic.jac3, sq3] <;> ring

/-- The flux of velocity of an element, from its set-up: the traction of the middle state. -/
theorem flux3 {tol tolL : ℝ} {ves : Nat → Nat → ℝ} {m : Material} {m' : Nat → Material} {ν : Nat → Fin 3 → ℝ} {free : Nat → Bool} {starE fsL : List (List ℝ)} {fsN : Nat → List ℝ}
    (hu : SetUp3 tol tolL ves m m' ν free starE fsL fsN) :
    ∃ (FL FN : Nat → Nat → Nat → ℝ) (area : Nat → ℝ), Dg.Mats 4 9 9 9 fsL FL ∧ (∀ fa < 4, Dg.Mat 9 9 9 (fsN fa) (FN fa)) ∧ ∀ fa < 4, FaceGeo3 ves fa (area fa) (ν fa) ∧
      ∀ qL qR : Nat → ℝ, ∃ τ v : Fin 3 → ℝ, IsMiddle m (m' fa) (ν fa) (stress3 (fun k => qL k.val) *ᵥ ν fa) (vel3 (fun k => qL k.val))
          (if free fa then -(stress3 (fun k => qR k.val) *ᵥ ν fa) else stress3 (fun k => qR k.val) *ᵥ ν fa) (vel3 (fun k => qR k.val)) τ v ∧
        ∀ j : Fin 3, m.rho * jDet .tet ves * (∑ p ∈ Finset.range 9, FL fa (6 + j.val) p * qL p + ∑ p ∈ Finset.range 9, FN fa (6 + j.val) p * qR p) = 2 * area fa * τ j := by
  have hf := fun fa (h : fa < 4) => (hu.face fa h).2
  choose! area visco x hg hs hl hr using hf
  simp only [Fs.Solves3] at hs
  choose! el er al ar hx hsol using hs
  refine ⟨fun fa => Gen.ext (Fs.fac .tet (area fa) (jDet .tet ves) • el fa), fun fa => Gen.ext (Fs.fac .tet (area fa) (jDet .tet ves) • er fa), area, ?_, ?_, ?_⟩
  · intro fa hfa
    refine ⟨_, hl fa hfa, ?_⟩
    rw [hx fa hfa]
    exact Mat_flat _
  · intro fa hfa
    rw [hr fa hfa, hx fa hfa]
    exact Mat_flat _
  · intro fa hfa
    refine ⟨hg fa hfa, fun qL qR => ?_⟩
    obtain ⟨τ, v, k1, -, k3, -⟩ := hsol fa hfa (fun k => qL k.val) (fun k => qR k.val)
    refine ⟨τ, v, k1, fun j => ?_⟩
    have hq : 6 + j.val < 9 := by omega
    rw [sum9 _ hq, sum9 _ hq, smul_mulVec, smul_mulVec, Pi.smul_apply, Pi.smul_apply, smul_eq_mul, smul_eq_mul]
    have h1 : (el fa *ᵥ fun k : Fin 9 => qL k.val) ⟨6 + j.val, hq⟩ + (er fa *ᵥ fun k : Fin 9 => qR k.val) ⟨6 + j.val, hq⟩ = -(1 / m.rho) * τ j := by
      have := congrFun k3 j
      rw [fluxV, Pi.smul_apply, smul_eq_mul] at this
      rw [← this]
      fin_cases j <;> rfl
    have h2 := hu.det.ne'
    have h3 := hu.mat.1.ne'
    rw [← mul_add, h1, Fs.fac]
    simp only [if_true]
    field_simp

/-- Free surface: no traction. -/
theorem free3 {c : Dg.Cfg} {o : Nat} (hq : c.nQtsE = 9) {F : Nat → MFace ℝ} {s : ℝ} {FL FN : Nat → Nat → Nat → ℝ} {m : Material} (hm : m.Elastic) {ν : Fin 3 → ℝ} {w : ℝ} {fa el : Nat}
    (hfr : (F fa).freeSurface = true) (hout : (F fa).outflow = false)
    (hsol : ∀ qL qR : Nat → ℝ, ∃ τ v : Fin 3 → ℝ, IsMiddle m m ν (stress3 (fun k => qL k.val) *ᵥ ν) (vel3 (fun k => qL k.val))
          (if (F fa).freeSurface then -(stress3 (fun k => qR k.val) *ᵥ ν) else stress3 (fun k => qR k.val) *ᵥ ν) (vel3 (fun k => qR k.val)) τ v ∧
        ∀ j : Fin 3, s * (∑ p ∈ Finset.range 9, FL fa (6 + j.val) p * qL p + ∑ p ∈ Finset.range 9, FN fa (6 + j.val) p * qR p) = w * τ j)
    (T : Nat → Nat → Nat → Nat → ℝ) (r : Nat) {j : Nat} (hj : j < 3) (x y : ℝ) :
    fluxAt c .tet o s FL FN (fun fa => (F fa).toIn []) (T el) (fun fa => T ((F fa).nb el)) r (6 + j) fa x y = 0 := by
  obtain ⟨τ, v, k1, k2⟩ := hsol (fun p => recon .tet o (fun md => T el p md r) (elPt .tet fa x y)) (fun p => recon .tet o (fun md => T el p md r) (elPt .tet fa x y))
  rw [hfr, if_pos rfl] at k1
  have h0 := k1.free hm
  have hnb : (F fa).nb el = el := by simp [MFace.nb, hfr]
  have hsd : sidePt .tet fa ((F fa).toIn []) x y = elPt .tet fa x y := sidePt_free hfr x y
  have h := k2 ⟨j, hj⟩
  rw [h0, Pi.zero_apply, mul_zero] at h
  rw [fluxAt, hq]
  simp only [hnb, hsd]
  simp only [MFace.toIn, hout, Bool.false_eq_true, if_false]
  exact h

/-- The two sides of a face see opposite tractions. -/
theorem pair3 {c : Dg.Cfg} {o : Nat} (hq : c.nQtsE = 9) {F G : Nat → MFace ℝ} {s s' : ℝ} {FL FN FL' FN' : Nat → Nat → Nat → ℝ} {m n : Material} (hm : m.Elastic) (hn : n.Elastic) {ν : Fin 3 → ℝ} {w : ℝ}
    {fa el ve : Nat} (hve : ve < Ent.nVeOpts .tet) (hfr : (F fa).freeSurface = false) (hout : (F fa).outflow = false) (hv : (F fa).vId = some ve)
    (hfr' : (G (F fa).fId).freeSurface = false) (hout' : (G (F fa).fId).outflow = false) (hv' : (G (F fa).fId).vId = some ve) (hne : (G (F fa).fId).ne = el) (hfi : (G (F fa).fId).fId = fa)
    (hsol : ∀ qL qR : Nat → ℝ, ∃ τ v : Fin 3 → ℝ, IsMiddle m n ν (stress3 (fun k => qL k.val) *ᵥ ν) (vel3 (fun k => qL k.val))
          (if (F fa).freeSurface then -(stress3 (fun k => qR k.val) *ᵥ ν) else stress3 (fun k => qR k.val) *ᵥ ν) (vel3 (fun k => qR k.val)) τ v ∧
        ∀ j : Fin 3, s * (∑ p ∈ Finset.range 9, FL fa (6 + j.val) p * qL p + ∑ p ∈ Finset.range 9, FN fa (6 + j.val) p * qR p) = w * τ j)
    (hsol' : ∀ qL qR : Nat → ℝ, ∃ τ v : Fin 3 → ℝ, IsMiddle n m (-ν) (stress3 (fun k => qL k.val) *ᵥ (-ν)) (vel3 (fun k => qL k.val))
          (if (G (F fa).fId).freeSurface then -(stress3 (fun k => qR k.val) *ᵥ (-ν)) else stress3 (fun k => qR k.val) *ᵥ (-ν)) (vel3 (fun k => qR k.val)) τ v ∧
        ∀ j : Fin 3, s' * (∑ p ∈ Finset.range 9, FL' (F fa).fId (6 + j.val) p * qL p + ∑ p ∈ Finset.range 9, FN' (F fa).fId (6 + j.val) p * qR p) = w * τ j)
    (T : Nat → Nat → Nat → Nat → ℝ) (r : Nat) {j : Nat} (hj : j < 3) (x y : ℝ) :
    fluxAt c .tet o s' FL' FN' (fun fb => (G fb).toIn []) (T (F fa).ne) (fun fb => T ((G fb).nb (F fa).ne)) r (6 + j) (F fa).fId (faPt .tet ve x y 0) (faPt .tet ve x y 1) =
      -fluxAt c .tet o s FL FN (fun fa => (F fa).toIn []) (T el) (fun fa => T ((F fa).nb el)) r (6 + j) fa x y := by
  have hnb : (F fa).nb el = (F fa).ne := by simp [MFace.nb, hfr]
  have hnb' : (G (F fa).fId).nb (F fa).ne = el := by simp [MFace.nb, hfr', hne]
  have hsd : sidePt .tet fa ((F fa).toIn []) x y = elPt .tet (F fa).fId (faPt .tet ve x y 0) (faPt .tet ve x y 1) := by
    simp only [sidePt, MFace.toIn, hfr, hv, outPt]
  have hsd' : sidePt .tet (F fa).fId ((G (F fa).fId).toIn []) (faPt .tet ve x y 0) (faPt .tet ve x y 1) = elPt .tet fa x y := by
    simp only [sidePt, MFace.toIn, hfr', hv', outPt, hfi]
    exact elPt_faPt (by decide) hve fa x y
  obtain ⟨τ, v, k1, k2⟩ := hsol (fun p => recon .tet o (fun md => T el p md r) (elPt .tet fa x y))
    (fun p => recon .tet o (fun md => T (F fa).ne p md r) (elPt .tet (F fa).fId (faPt .tet ve x y 0) (faPt .tet ve x y 1)))
  obtain ⟨τ', v', l1, l2⟩ := hsol' (fun p => recon .tet o (fun md => T (F fa).ne p md r) (elPt .tet (F fa).fId (faPt .tet ve x y 0) (faPt .tet ve x y 1)))
    (fun p => recon .tet o (fun md => T el p md r) (elPt .tet fa x y))
  rw [hfr] at k1
  rw [hfr'] at l1
  simp only [Bool.false_eq_true, if_false, mulVec_neg] at k1 l1
  obtain ⟨h0, -⟩ := l1.unique hn hm k1.swap
  have h1 := k2 ⟨j, hj⟩
  have h2 := l2 ⟨j, hj⟩
  rw [h0, Pi.neg_apply, mul_neg, ← h1] at h2
  rw [fluxAt, fluxAt, hq]
  simp only [hnb, hnb', hsd, hsd']
  simp only [MFace.toIn, hout, hout', Bool.false_eq_true, if_false]
  exact h2

/-- Quantities of the stress tensor. -/
def sq2 (i j : Nat) : Nat := ([[0, 2], [2, 1]].getD i []).getD j 0

set_option maxHeartbeats 1600000 in
theorem star2_vel {J : Nat → Nat → ℝ} {S : Nat → Nat → Nat → ℝ} {rho lam mu : ℝ}
    (hS : ∀ di < 2, ∀ q < 5, ∀ k < 5, S di q k = ∑ d ∈ Finset.range 2, J d di * (if h : d < 2 then Gen.ext (jac2 rho lam mu ⟨d, h⟩) else fun _ _ => 0) q k) {j : Nat} (hj : j < 2)
    {di : Nat} (hdi : di < 2) (X : Nat → ℝ) : ∑ p ∈ Finset.range 5, S di (3 + j) p * X p = -(1 / rho) * ∑ d ∈ Finset.range 2, J d di * X (sq2 j d) := by
  rw [Finset.sum_congr rfl (fun p hp => by rw [hS di hdi (3 + j) (by omega) p (Finset.mem_range.1 hp)])]
  interval_cases j <;> simp [Finset.sum_range_succ, Gen.ext, Seismic.jac2, sq2] <;> ring

/-- The flux of velocity of an element, from its set-up: the traction of the middle state. -/
theorem flux2 {tol tolL : ℝ} {ves : Nat → Nat → ℝ} {m : Material} {m' : Nat → Material} {ν : Nat → Fin 2 → ℝ} {free : Nat → Bool} {starE fsL : List (List ℝ)} {fsN : Nat → List ℝ}
    (hu : SetUp2 tol tolL ves m m' ν free starE fsL fsN) :
    ∃ (FL FN : Nat → Nat → Nat → ℝ) (area : Nat → ℝ), Dg.Mats 3 5 5 5 fsL FL ∧ (∀ fa < 3, Dg.Mat 5 5 5 (fsN fa) (FN fa)) ∧ ∀ fa < 3, FaceGeo2 ves fa (area fa) (ν fa) ∧
      ∀ qL qR : Nat → ℝ, ∃ τ v : Fin 2 → ℝ, IsMiddle m (m' fa) (ν fa) (stress2 (fun k => qL k.val) *ᵥ ν fa) (vel2 (fun k => qL k.val))
          (if free fa then -(stress2 (fun k => qR k.val) *ᵥ ν fa) else stress2 (fun k => qR k.val) *ᵥ ν fa) (vel2 (fun k => qR k.val)) τ v ∧
        ∀ j : Fin 2, m.rho * jDet .tria ves * (∑ p ∈ Finset.range 5, FL fa (3 + j.val) p * qL p + ∑ p ∈ Finset.range 5, FN fa (3 + j.val) p * qR p) = 1 * area fa * τ j := by
  have hf := fun fa (h : fa < 3) => (hu.face fa h).2
  choose! area visco x hg hs hl hr using hf
  simp only [Fs.Solves2] at hs
  choose! el er al ar hx hsol using hs
  refine ⟨fun fa => Gen.ext (Fs.fac .tria (area fa) (jDet .tria ves) • el fa), fun fa => Gen.ext (Fs.fac .tria (area fa) (jDet .tria ves) • er fa), area, ?_, ?_, ?_⟩
  · intro fa hfa
    refine ⟨_, hl fa hfa, ?_⟩
    rw [hx fa hfa]
    exact Mat_flat _
  · intro fa hfa
    rw [hr fa hfa, hx fa hfa]
    exact Mat_flat _
  · intro fa hfa
    refine ⟨hg fa hfa, fun qL qR => ?_⟩
    obtain ⟨τ, v, k1, -, k3, -⟩ := hsol fa hfa (fun k => qL k.val) (fun k => qR k.val)
    refine ⟨τ, v, k1, fun j => ?_⟩
    have hq : 3 + j.val < 5 := by omega
    rw [sum5 _ hq, sum5 _ hq, smul_mulVec, smul_mulVec, Pi.smul_apply, Pi.smul_apply, smul_eq_mul, smul_eq_mul]
    have h1 : (el fa *ᵥ fun k : Fin 5 => qL k.val) ⟨3 + j.val, hq⟩ + (er fa *ᵥ fun k : Fin 5 => qR k.val) ⟨3 + j.val, hq⟩ = -(1 / m.rho) * τ j := by
      have := congrFun k3 j
      rw [fluxV, Pi.smul_apply, smul_eq_mul] at this
      rw [← this]
      fin_cases j <;> rfl
    have h2 := hu.det.ne'
    have h3 := hu.mat.1.ne'
    rw [← mul_add, h1, Fs.fac]
    simp only [reduceCtorEq, if_false]
    field_simp

/-- Free surface: no traction. -/
theorem free2 {c : Dg.Cfg} {o : Nat} (hq : c.nQtsE = 5) {F : Nat → MFace ℝ} {s : ℝ} {FL FN : Nat → Nat → Nat → ℝ} {m : Material} (hm : m.Elastic) {ν : Fin 2 → ℝ} {w : ℝ} {fa el : Nat}
    (hfr : (F fa).freeSurface = true) (hout : (F fa).outflow = false)
    (hsol : ∀ qL qR : Nat → ℝ, ∃ τ v : Fin 2 → ℝ, IsMiddle m m ν (stress2 (fun k => qL k.val) *ᵥ ν) (vel2 (fun k => qL k.val))
          (if (F fa).freeSurface then -(stress2 (fun k => qR k.val) *ᵥ ν) else stress2 (fun k => qR k.val) *ᵥ ν) (vel2 (fun k => qR k.val)) τ v ∧
        ∀ j : Fin 2, s * (∑ p ∈ Finset.range 5, FL fa (3 + j.val) p * qL p + ∑ p ∈ Finset.range 5, FN fa (3 + j.val) p * qR p) = w * τ j)
    (T : Nat → Nat → Nat → Nat → ℝ) (r : Nat) {j : Nat} (hj : j < 2) (x y : ℝ) :
    fluxAt c .tria o s FL FN (fun fa => (F fa).toIn []) (T el) (fun fa => T ((F fa).nb el)) r (3 + j) fa x y = 0 := by
  obtain ⟨τ, v, k1, k2⟩ := hsol (fun p => recon .tria o (fun md => T el p md r) (elPt .tria fa x y)) (fun p => recon .tria o (fun md => T el p md r) (elPt .tria fa x y))
  rw [hfr, if_pos rfl] at k1
  have h0 := k1.free hm
  have hnb : (F fa).nb el = el := by simp [MFace.nb, hfr]
  have hsd : sidePt .tria fa ((F fa).toIn []) x y = elPt .tria fa x y := sidePt_free hfr x y
  have h := k2 ⟨j, hj⟩
  rw [h0, Pi.zero_apply, mul_zero] at h
  rw [fluxAt, hq]
  simp only [hnb, hsd]
  simp only [MFace.toIn, hout, Bool.false_eq_true, if_false]
  exact h

/-- The two sides of a face see opposite tractions. -/
theorem pair2 {c : Dg.Cfg} {o : Nat} (hq : c.nQtsE = 5) {F G : Nat → MFace ℝ} {s s' : ℝ} {FL FN FL' FN' : Nat → Nat → Nat → ℝ} {m n : Material} (hm : m.Elastic) (hn : n.Elastic) {ν : Fin 2 → ℝ} {w : ℝ}
    {fa el ve : Nat} (hve : ve < Ent.nVeOpts .tria) (hfr : (F fa).freeSurface = false) (hout : (F fa).outflow = false) (hv : (F fa).vId = some ve)
    (hfr' : (G (F fa).fId).freeSurface = false) (hout' : (G (F fa).fId).outflow = false) (hv' : (G (F fa).fId).vId = some ve) (hne : (G (F fa).fId).ne = el) (hfi : (G (F fa).fId).fId = fa)
    (hsol : ∀ qL qR : Nat → ℝ, ∃ τ v : Fin 2 → ℝ, IsMiddle m n ν (stress2 (fun k => qL k.val) *ᵥ ν) (vel2 (fun k => qL k.val))
          (if (F fa).freeSurface then -(stress2 (fun k => qR k.val) *ᵥ ν) else stress2 (fun k => qR k.val) *ᵥ ν) (vel2 (fun k => qR k.val)) τ v ∧
        ∀ j : Fin 2, s * (∑ p ∈ Finset.range 5, FL fa (3 + j.val) p * qL p + ∑ p ∈ Finset.range 5, FN fa (3 + j.val) p * qR p) = w * τ j)
    (hsol' : ∀ qL qR : Nat → ℝ, ∃ τ v : Fin 2 → ℝ, IsMiddle n m (-ν) (stress2 (fun k => qL k.val) *ᵥ (-ν)) (vel2 (fun k => qL k.val))
          (if (G (F fa).fId).freeSurface then -(stress2 (fun k => qR k.val) *ᵥ (-ν)) else stress2 (fun k => qR k.val) *ᵥ (-ν)) (vel2 (fun k => qR k.val)) τ v ∧
        ∀ j : Fin 2, s' * (∑ p ∈ Finset.range 5, FL' (F fa).fId (3 + j.val) p * qL p + ∑ p ∈ Finset.range 5, FN' (F fa).fId (3 + j.val) p * qR p) = w * τ j)
    (T : Nat → Nat → Nat → Nat → ℝ) (r : Nat) {j : Nat} (hj : j < 2) (x y : ℝ) :
    fluxAt c .tria o s' FL' FN' (fun fb => (G fb).toIn []) (T (F fa).ne) (fun fb => T ((G fb).nb (F fa).ne)) r (3 + j) (F fa).fId (faPt .tria ve x y 0) (faPt .tria ve x y 1) =
      -fluxAt c .tria o s FL FN (fun fa => (F fa).toIn []) (T el) (fun fa => T ((F fa).nb el)) r (3 + j) fa x y := by
  have hnb : (F fa).nb el = (F fa).ne := by simp [MFace.nb, hfr]
  have hnb' : (G (F fa).fId).nb (F fa).ne = el := by simp [MFace.nb, hfr', hne]
  have hsd : sidePt .tria fa ((F fa).toIn []) x y = elPt .tria (F fa).fId (faPt .tria ve x y 0) (faPt .tria ve x y 1) := by
    simp only [sidePt, MFace.toIn, hfr, hv, outPt]
  have hsd' : sidePt .tria (F fa).fId ((G (F fa).fId).toIn []) (faPt .tria ve x y 0) (faPt .tria ve x y 1) = elPt .tria fa x y := by
    simp only [sidePt, MFace.toIn, hfr', hv', outPt, hfi]
    exact elPt_faPt (by decide) hve fa x y
  obtain ⟨τ, v, k1, k2⟩ := hsol (fun p => recon .tria o (fun md => T el p md r) (elPt .tria fa x y))
    (fun p => recon .tria o (fun md => T (F fa).ne p md r) (elPt .tria (F fa).fId (faPt .tria ve x y 0) (faPt .tria ve x y 1)))
  obtain ⟨τ', v', l1, l2⟩ := hsol' (fun p => recon .tria o (fun md => T (F fa).ne p md r) (elPt .tria (F fa).fId (faPt .tria ve x y 0) (faPt .tria ve x y 1)))
    (fun p => recon .tria o (fun md => T el p md r) (elPt .tria fa x y))
  rw [hfr] at k1
  rw [hfr'] at l1
  simp only [Bool.false_eq_true, if_false, mulVec_neg] at k1 l1
  obtain ⟨h0, -⟩ := l1.unique hn hm k1.swap
  have h1 := k2 ⟨j, hj⟩
  have h2 := l2 ⟨j, hj⟩
  rw [h0, Pi.neg_apply, mul_neg, ← h1] at h2
  rw [fluxAt, fluxAt, hq]
  simp only [hnb, hnb', hsd, hsd']
  simp only [MFace.toIn, hout, hout', Bool.false_eq_true, if_false]
  exact h2

end Edge.Cons
