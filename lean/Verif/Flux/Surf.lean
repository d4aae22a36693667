import Verif.Flux.Store
import Verif.Gen.Wave
import Verif.Dg.Surf
import Verif.Map.Faces
/-!
C94: surface kernels with the generated matrices.
-/
namespace Edge.Flux
open Edge Edge.Map Edge.Quad Edge.Basis Edge.Proj Edge.Gen MvPolynomial

/-- The surface kernels are set up for elements of type `e` and order `o`. -/
structure Fits (c : Dg.Cfg) (e : Ent) (o : Nat) : Prop where
  sizes : Dg.Sizes c
  mds : c.nMds = nModes e o
  mdsFa : c.nMdsFa = nModes (faTy e) o
  fas : c.nFas = e.nFa
  noLine : e ≠ .line

/-- Squared norm of a function of the basis. -/
noncomputable def normSq (e : Ent) (o md : Nat) : ℝ := refInt e (fun x y z => (eval ![x, y, z] (bf e o md)) ^ 2)

theorem normSq_eq {e : Ent} {o md : Nat} (h : md < nModes e o) : normSq e o md = mass e (dgr e o md) := by
  have e1 : (fun x y z => (eval ![x, y, z] (bf e o md)) ^ 2) = fun x y z => phi e (dgr e o md) x y z * phi e (dgr e o md) x y z := by
    funext x y z
    rw [← bf_val h, val, sq]
  rw [normSq, e1, refInt_orth (dgr_deg h) (dgr_deg h), if_pos rfl]

/-- Integral over face `fa` of the reference element: `w`, a function of the parameters of the face, times function `md` of the basis. -/
noncomputable def onFace (e : Ent) (o fa md : Nat) (w : ℝ → ℝ → ℝ) : ℝ :=
  refInt (faTy e) (fun x y _ => w x y * eval (elPt e fa x y) (bf e o md))

theorem cont_elPt (e : Ent) (fa : Nat) {X : Type} [TopologicalSpace X] {a b : X → ℝ} (ha : Continuous a) (hb : Continuous b) :
    Continuous (fun v => elPt e fa (a v) (b v)) := by
  have h : ∀ d, Continuous (fun v => elPt e fa (a v) (b v) d) := by
    intro d
    by_cases hf : fa < 6
    · cases e <;> interval_cases fa <;> fin_cases d <;> simp [elPt, faToEl] <;> fun_prop
    · have : ∀ v, elPt e fa (a v) (b v) = 0 := by
        intro v
        rw [elPt, List.getD_eq_getElem?_getD, List.getElem?_eq_none]; · rfl
        cases e <;> simp [faToEl] <;> omega
      simp only [this]; exact continuous_const
  exact continuous_pi h

theorem cont_faPt (e : Ent) (ve : Nat) (d : Fin 3) {X : Type} [TopologicalSpace X] {a b : X → ℝ} (ha : Continuous a) (hb : Continuous b) :
    Continuous (fun v => faPt e ve (a v) (b v) d) := by
  by_cases hf : ve < 3
  · cases e <;> interval_cases ve <;> fin_cases d <;> simp [faPt, faToFa] <;> fun_prop
  · have : ∀ v, faPt e ve (a v) (b v) = 0 := by
      intro v
      rw [faPt, List.getD_eq_getElem?_getD, List.getElem?_eq_none]; · rfl
      cases e <;> simp [faToFa] <;> omega
    simp only [this]; exact continuous_const

theorem cont_eval (f : MvPolynomial (Fin 3) ℝ) {X : Type} [TopologicalSpace X] {p : X → Fin 3 → ℝ} (hp : Continuous p) :
    Continuous (fun v => eval (p v) f) := (MvPolynomial.continuous_eval f).comp hp

theorem cont_recon (e : Ent) (o : Nat) (u : Nat → ℝ) {X : Type} [TopologicalSpace X] {p : X → Fin 3 → ℝ} (hp : Continuous p) :
    Continuous (fun v => recon e o u (p v)) := by
  simp only [recon]
  exact continuous_finset_sum _ (fun md _ => continuous_const.mul (cont_eval _ hp))

/-- Modes at the face of the values of an element's functions at the points `pt`. -/
theorem modes_face {e : Ent} {o j : Nat} (u : Nat → ℝ) {pt : ℝ → ℝ → Fin 3 → ℝ} (hp : Continuous (fun v : ℝ × ℝ × ℝ => pt v.1 v.2.1)) :
    ∑ m ∈ Finset.range (nModes e o), u m * refInt (faTy e) (fun x y z => val (bf (faTy e) o j) x y z * eval (pt x y) (bf e o m)) =
      refInt (faTy e) (fun x y z => recon e o u (pt x y) * val (bf (faTy e) o j) x y z) := by
  have hc : ∀ m ∈ Finset.range (nModes e o), C3 (fun x y z => val (bf (faTy e) o j) x y z * eval (pt x y) (bf e o m)) :=
    fun m _ => Continuous.mul (C3_val _) (cont_eval _ hp)
  rw [← refInt_sum _ _ hc]
  congr 1; funext x y z
  rw [recon, Finset.sum_mul]
  exact Finset.sum_congr rfl (fun m _ => by ring)

/-- Contribution of a face. -/
theorem surfC_face {c : Dg.Cfg} {e : Ent} {o : Nat} (hc : Fits c e o) {fa md : Nat} (hfa : fa < e.nFa) (hmd : md < nModes e o)
    (FE : Nat → Nat → ℝ) (T : Nat → Nat → Nat → ℝ) {pt : ℝ → ℝ → Fin 3 → ℝ} (hp : Continuous (fun v : ℝ × ℝ × ℝ => pt v.1 v.2.1))
    {F : Nat → Nat → ℝ} (hF : ∀ m j, F m j = refInt (faTy e) (fun x y z => val (bf (faTy e) o j) x y z * eval (pt x y) (bf e o m))) (q r : Nat) :
    Dg.surfC c FE (entF e o fa) (Dg.faceProj c F T) q md r =
      onFace e o fa md (fun x y => ∑ p ∈ Finset.range c.nQtsE, FE q p * recon e o (fun m => T p m r) (pt x y)) / normSq e o md := by
  have hw : C3 (fun x y _ => ∑ p ∈ Finset.range c.nQtsE, FE q p * recon e o (fun m => T p m r) (pt x y)) :=
    continuous_finset_sum _ (fun p _ => continuous_const.mul (cont_recon _ _ _ hp))
  rw [normSq_eq hmd, onFace, ← parseval hc.noLine hfa hmd hw, Dg.surfC, hc.mdsFa]
  refine Finset.sum_congr rfl (fun j _ => ?_)
  congr 1
  have h1 : (fun x y z => (∑ p ∈ Finset.range c.nQtsE, FE q p * recon e o (fun m => T p m r) (pt x y)) * val (bf (faTy e) o j) x y z) =
      fun x y z => ∑ p ∈ Finset.range c.nQtsE, FE q p * (recon e o (fun m => T p m r) (pt x y) * val (bf (faTy e) o j) x y z) := by
    funext x y z
    rw [Finset.sum_mul]
    exact Finset.sum_congr rfl (fun p _ => by ring)
  have hc2 : ∀ p ∈ Finset.range c.nQtsE, C3 (fun x y z => recon e o (fun m => T p m r) (pt x y) * val (bf (faTy e) o j) x y z) :=
    fun p _ => Continuous.mul (cont_recon _ _ _ hp) (C3_val _)
  rw [h1, refInt_sum _ _ hc2]
  refine Finset.sum_congr rfl (fun p _ => ?_)
  rw [Dg.faceProj, hc.mds, ← modes_face _ hp]
  simp only [hF]

end Edge.Flux
