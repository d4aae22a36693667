import Verif.Advection.KernelProps
import Verif.Advection.Star
import Verif.Cons.Side

/-!
The kernels of the advection equation with the generated matrices. The equation is treated as the first of nine quantities of a
system, all others are zero: the theory of the elastic system then applies.
-/
namespace Edge.Advection
open Edge Edge.Map Edge.Quad Edge.Basis Edge.Proj Edge.Gen Edge.Flux MvPolynomial

/-- Sizes of the kernels for elements of type `e` and order `o`. -/
structure KFit (c : KCfg) (e : Ent) (o : Nat) : Prop where
  dis : c.nDis = e.nDim
  mds : c.nMds = nModes e o
  mdsFa : c.nMdsFa = nModes (faTy e) o
  fas : c.nFas = e.nFa
  ord : c.oTi = o

/-- System with nine quantities. -/
def big (e : Ent) (o crs : Nat) : Dg.Cfg := ⟨e.nDim, 9, 6, nModes e o, nModes (faTy e) o, crs, 0, o, e.nFa, Dg.elModesCk (toEl e) o⟩

/-- Modes of the first quantity. -/
def emb (u : Nat → Nat → ℝ) (q md r : Nat) : ℝ := if q = 0 then u md r else 0

/-- Star matrices of the system. -/
def embS (S : Nat → ℝ) (di q p : Nat) : ℝ := if q = 0 ∧ p = 0 then S di else 0

theorem big_fit {e : Ent} {o : Nat} (ho : 0 < o) (crs : Nat) : Fit (big e o crs) e o := by
  refine ⟨⟨⟨?_, ho, ?_, fun n => ?_⟩, rfl, rfl, rfl, rfl⟩, rfl⟩
  · show 6 + e.nDim ≤ 9
    cases e <;> decide
  · cases e <;> rfl
  · have := Dg.elModesCk_le (toEl e) o n
    cases e <;> exact this

theorem big_fits {e : Ent} (he : e ≠ .line) {o : Nat} (ho : 0 < o) (crs : Nat) : Fits (big e o crs) e o :=
  ⟨(big_fit ho crs).sizes, rfl, rfl, rfl, he⟩

theorem embS_sum (S : Nat → ℝ) (di : Nat) (X : Nat → ℝ) : ∑ p ∈ Finset.range 9, embS S di 0 p * X p = S di * X 0 := by
  simp [embS]

/-- Volume terms. -/
theorem vol_emb {c : KCfg} {e : Ent} {o : Nat} (hc : KFit c e o) (S : Nat → ℝ) (G src : Nat → Nat → Nat → ℝ) (T : Nat → Nat → Nat → ℝ)
    (A : Nat → Nat → Nat → Nat → ℝ) (md r : Nat) :
    Dg.rhsE (big e o c.nCrs) G (embS S) src T A 0 md r = volC c S G (T 0) md r := by
  simp only [Dg.rhsE, volC, hc.dis, hc.mds]
  rw [show (big e o c.nCrs).nRms = 0 from rfl, show (big e o c.nCrs).nDis = e.nDim from rfl, show (big e o c.nCrs).nQtsE = 9 from rfl,
    show (big e o c.nCrs).nMds = nModes e o from rfl]
  simp only [Finset.range_zero, Finset.sum_empty, ite_self, add_zero]
  exact Finset.sum_congr rfl fun di _ => embS_sum S di (fun p => ∑ m ∈ Finset.range (nModes e o), T p m r * G di m md)

/-- Derivatives in time. -/
theorem deriv_emb {c : KCfg} {e : Ent} {o : Nat} (hc : KFit c e o) (S : Nat → ℝ) (u : Nat → Nat → ℝ) (n md r : Nat) :
    deriv c S (GT e o) u n md r = Step.der (big e o c.nCrs) e o (embS S) (emb u) n 0 md r := by
  induction n generalizing md with
  | zero => simp [deriv, Step.der, Dg.derivs, emb]
  | succ n ih =>
    have : Step.der (big e o c.nCrs) e o (embS S) (emb u) (n + 1) 0 md r = volC c S (GT e o) (fun md r => Step.der (big e o c.nCrs) e o (embS S) (emb u) n 0 md r) md r :=
      vol_emb hc S (GT e o) (embS S) _ _ md r
    rw [this]
    simp only [deriv, volC, ih]

/-- Predicted modes at time `τ`. -/
noncomputable def pred (c : KCfg) (e : Ent) (o : Nat) (S : Nat → ℝ) (u : Nat → Nat → ℝ) (τ : ℝ) (md r : Nat) : ℝ :=
  Step.pred (big e o c.nCrs) e o (embS S) (emb u) τ 0 md r

theorem tInt_emb {c : KCfg} {e : Ent} {o : Nat} (hc : KFit c e o) (S : Nat → ℝ) (u : Nat → Nat → ℝ) (dt : ℝ) (md r : Nat) :
    tInt c S (GT e o) u dt md r = Step.tInt (big e o c.nCrs) e o (embS S) (emb u) dt 0 md r := by
  rw [tInt, Step.tInt, hc.ord]
  congr 1
  funext n
  exact deriv_emb hc S u n md r

/-- Surface terms. -/
theorem surf_emb {c : KCfg} {e : Ent} (he : e ≠ .line) {o : Nat} (ho : 0 < o) (hc : KFit c e o) {fa md : Nat} (hfa : fa < e.nFa) (hmd : md < nModes e o)
    (x : ℝ) (t : Nat → Nat → ℝ) {pt : ℝ → ℝ → Fin 3 → ℝ} (hp : Continuous (fun v : ℝ × ℝ × ℝ => pt v.1 v.2.1))
    {F : Nat → Nat → ℝ} (hF : ∀ m j, F m j = refInt (faTy e) (fun x y z => val (bf (faTy e) o j) x y z * eval (pt x y) (bf e o m))) (r : Nat) :
    surfC c F x (entF e o fa) t md r = onFace e o fa md (fun y z => x * recon e o (fun m => t m r) (pt y z)) / normSq e o md := by
  have h := surfC_face (big_fits he ho c.nCrs) hfa hmd (embS (fun _ => x) fa) (emb t) hp hF 0 r
  have h2 : (fun y z => ∑ p ∈ Finset.range (big e o c.nCrs).nQtsE, embS (fun _ => x) fa 0 p * recon e o (fun m => emb t p m r) (pt y z)) =
      fun y z => x * recon e o (fun m => t m r) (pt y z) := by
    funext y z
    exact embS_sum (fun _ => x) fa (fun p => recon e o (fun m => emb t p m r) (pt y z))
  rw [h2] at h
  rw [← h]
  simp only [Dg.surfC, surfC, Dg.faceProj, hc.mdsFa, hc.mds]
  refine Finset.sum_congr rfl fun n _ => ?_
  congr 1
  rw [show (big e o c.nCrs).nQtsE = 9 from rfl, embS_sum]
  simp [emb, big]

/-- The prediction solves the equation on the reference element. -/
theorem pred_wave {e : Ent} (he : e = .tria ∨ e = .tet) {c : KCfg} {o : Nat} (ho : 0 < o) (S : Nat → ℝ) (u : Nat → Nat → ℝ) (r q : Nat) (p : Fin 3 → ℝ) (τ : ℝ) :
    HasDerivAt (fun t => recon e o (fun md => Step.pred (big e o c.nCrs) e o (embS S) (emb u) t q md r) p)
      (waveOp e.nDim 9 (embS S) (fun k => recon e o (fun md => Step.pred (big e o c.nCrs) e o (embS S) (emb u) τ k md r)) q p) τ :=
  Step.pred_wave he ho (big_fit ho c.nCrs) (embS S) (emb u) r q p τ

/-- The prediction solves the advection equation: velocity `v`, inverse Jacobian `J`. -/
theorem pred_phys {e : Ent} (he : e = .tria ∨ e = .tet) {c : KCfg} {o : Nat} (ho : 0 < o) {tol : ℝ} (ht : 0 ≤ tol) {ves : Nat → Nat → ℝ} (hr : Regular tol e ves)
    {J : Nat → Nat → ℝ} (hJ : ∀ d < e.nDim, ∀ d2 < e.nDim, ∑ di ∈ Finset.range e.nDim, J d di * evalJac e ves di d2 = if d = d2 then 1 else 0)
    {S v : Nat → ℝ} (hS : ∀ di < e.nDim, S di = ∑ d ∈ Finset.range e.nDim, J d di * v d) (u : Nat → Nat → ℝ) (r : Nat) (x : Nat → ℝ) (τ : ℝ) :
    HasDerivAt (fun t => physEval tol e o ves (fun md => pred c e o S u t md r) x)
      (-∑ d ∈ Finset.range e.nDim, v d * dd d (physEval tol e o ves (fun md => pred c e o S u τ md r)) x) τ := by
  have h := phys_pred (c := big e o c.nCrs) (o := o) he ht hr hJ (S := embS S) (A := fun d => embS v d) (P := fun t q md => Step.pred (big e o c.nCrs) e o (embS S) (emb u) t q md r)
    (fun di hdi q _ k _ => by
      by_cases h : q = 0 ∧ k = 0
      · simp [embS, h, hS di hdi]
      · simp [embS, h]) (fun q p τ => pred_wave he ho S u r q p τ) x τ (q := 0) (show 0 < 9 by decide)
  refine h.congr_deriv ?_
  congr 1
  refine Finset.sum_congr rfl fun d _ => ?_
  exact embS_sum v d (fun k => dd d (physEval tol e o ves (fun md => Step.pred (big e o c.nCrs) e o (embS S) (emb u) τ k md r)) x)

end Edge.Advection
