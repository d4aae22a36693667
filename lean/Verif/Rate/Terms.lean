import Verif.Step.Mesh
import Verif.Rate.Model
/-!
Updates of an element in terms of modes.
-/
namespace Edge.Rate
open Edge Edge.Map Edge.Quad Edge.Basis Edge.Proj Edge.Gen Edge.Flux Edge.Step

/-- Modes: quantity, mode, fused simulation. -/
abbrev Modes := Nat → Nat → Nat → ℝ

/-- Contribution of a local update with time integrated modes `T`: volume integral and integrals over the faces. -/
noncomputable def locTerm (c : Dg.Cfg) (e : Ent) (o : Nat) (S FL : Nat → Nat → Nat → ℝ) (T : Modes) : Modes := fun q md r =>
  Dg.rhsE c (GV e o) S S T (fun _ => T) q md r +
    (∑ fa ∈ Finset.range e.nFa, onFace e o fa md (fun x y => ∑ p ∈ Finset.range c.nQtsE, FL fa q p * recon e o (fun m => T p m r) (elPt e fa x y))) / normSq e o md

/-- Contribution of a neighboring update with time integrated modes `Tn fa` of the adjacent elements. -/
noncomputable def neiTerm (c : Dg.Cfg) (e : Ent) (o : Nat) (F : Nat → MFace ℝ) (FN : Nat → Nat → Nat → ℝ) (Tn : Nat → Modes) : Modes := fun q md r =>
  (∑ fa ∈ Finset.range e.nFa, if (F fa).outflow then 0 else onFace e o fa md (fun x y => ∑ p ∈ Finset.range c.nQtsE, FN fa q p *
    recon e o (fun m => Tn fa p m r) (sidePt e fa ((F fa).toIn []) x y))) / normSq e o md

theorem rhs_aux {c : Dg.Cfg} (hr : c.nRms = 0) (G S : Nat → Nat → Nat → ℝ) (T : Modes) (a a' : Nat → Modes) : Dg.rhsE c G S S T a = Dg.rhsE c G S S T a' := by
  funext q md r
  simp only [Dg.rhsE, hr, Finset.range_zero, Finset.sum_empty]

theorem recon_add (e : Ent) (o : Nat) (u v : Nat → ℝ) (p : Fin 3 → ℝ) : recon e o (fun m => u m + v m) p = recon e o u p + recon e o v p := by
  simp only [recon, add_mul, Finset.sum_add_distrib]

theorem face_add {e : Ent} {o fa md Q : Nat} {K : Nat → ℝ} {pt : ℝ → ℝ → Fin 3 → ℝ} (hp : Continuous (fun v : ℝ × ℝ × ℝ => pt v.1 v.2.1)) (A B : Modes) (r : Nat) :
    onFace e o fa md (fun x y => ∑ p ∈ Finset.range Q, K p * recon e o (fun m => (A + B) p m r) (pt x y)) =
      onFace e o fa md (fun x y => ∑ p ∈ Finset.range Q, K p * recon e o (fun m => A p m r) (pt x y)) +
      onFace e o fa md (fun x y => ∑ p ∈ Finset.range Q, K p * recon e o (fun m => B p m r) (pt x y)) := by
  rw [onFace_add]
  · congr 1
    funext x y
    rw [← Finset.sum_add_distrib]
    refine Finset.sum_congr rfl (fun p _ => ?_)
    rw [← mul_add, ← recon_add]
    rfl
  · exact continuous_finsetSum _ (fun p _ => continuous_const.mul (cont_recon _ _ _ hp))
  · exact continuous_finsetSum _ (fun p _ => continuous_const.mul (cont_recon _ _ _ hp))

theorem cont_el (e : Ent) (fa : Nat) : Continuous (fun v : ℝ × ℝ × ℝ => elPt e fa v.1 v.2.1) := cont_elPt e fa continuous_fst (continuous_fst.comp continuous_snd)

theorem locTerm_add {c : Dg.Cfg} (hr : c.nRms = 0) (e : Ent) (o : Nat) (S FL : Nat → Nat → Nat → ℝ) (A B : Modes) :
    locTerm c e o S FL (A + B) = locTerm c e o S FL A + locTerm c e o S FL B := by
  funext q md r
  simp only [locTerm, Pi.add_apply (f := locTerm c e o S FL A), Pi.add_apply (f := locTerm c e o S FL A q), Pi.add_apply (f := locTerm c e o S FL A q md), face_add (cont_el e _),
    Finset.sum_add_distrib, add_div]
  have h : Dg.rhsE c (GV e o) S S (A + B) (fun _ => A + B) q md r = Dg.rhsE c (GV e o) S S A (fun _ => A) q md r + Dg.rhsE c (GV e o) S S B (fun _ => B) q md r := by
    simp only [Dg.rhsE, hr, Finset.range_zero, Finset.sum_empty, ite_self, add_zero, Pi.add_apply, add_mul, mul_add, Finset.sum_add_distrib]
  rw [h]
  ring

theorem locTerm_zero {c : Dg.Cfg} (hr : c.nRms = 0) (e : Ent) (o : Nat) (S FL : Nat → Nat → Nat → ℝ) : locTerm c e o S FL 0 = 0 := by
  have h := locTerm_add hr e o S FL 0 0
  rw [add_zero] at h
  exact left_eq_add.1 h

theorem neiTerm_add (c : Dg.Cfg) (e : Ent) (o : Nat) (F : Nat → MFace ℝ) (FN : Nat → Nat → Nat → ℝ) (A B : Nat → Modes) :
    neiTerm c e o F FN (fun fa => A fa + B fa) = neiTerm c e o F FN A + neiTerm c e o F FN B := by
  funext q md r
  simp only [neiTerm, Pi.add_apply (f := neiTerm c e o F FN A), Pi.add_apply (f := neiTerm c e o F FN A q), Pi.add_apply (f := neiTerm c e o F FN A q md), ← add_div,
    ← Finset.sum_add_distrib]
  congr 1
  refine Finset.sum_congr rfl (fun fa _ => ?_)
  split
  · rw [add_zero]
  · exact face_add (cont_sidePt e _ _) _ _ r

theorem neiTerm_zero (c : Dg.Cfg) (e : Ent) (o : Nat) (F : Nat → MFace ℝ) (FN : Nat → Nat → Nat → ℝ) : neiTerm c e o F FN (fun _ => 0) = 0 := by
  have h := neiTerm_add c e o F FN (fun _ => 0) (fun _ => 0)
  simp only [add_zero] at h
  exact left_eq_add.1 h

theorem neiTerm_congr {c : Dg.Cfg} {e : Ent} {o : Nat} {F : Nat → MFace ℝ} {FN : Nat → Nat → Nat → ℝ} {A B : Nat → Modes} (h : ∀ fa < e.nFa, (F fa).outflow = false → A fa = B fa) :
    neiTerm c e o F FN A = neiTerm c e o F FN B := by
  funext q md r
  simp only [neiTerm]
  congr 1
  refine Finset.sum_congr rfl (fun fa hfa => ?_)
  rcases ho : (F fa).outflow with _ | _
  · rw [h fa (Finset.mem_range.1 hfa) ho]
  · rfl

/-! ### Time integrals for elements with other time steps -/

theorem localLts_split (c : Dg.Cfg) (a b f : Bool) (dt : ℝ) (der : List (List ℝ)) (t : Dg.TDofs ℝ) :
    Dg.localLts c a b f dt der t = (Dg.localLts c a false f dt der t).bind (Dg.localLts c false b f dt der) := by
  cases a
  · simp only [Dg.localLts, Bool.false_eq_true, if_false, Option.bind_eq_bind, Option.bind_some]
  · cases f <;> simp only [Dg.localLts, Bool.false_eq_true, if_false, if_true, Option.bind_eq_bind, Option.bind_some, Option.bind_assoc]

/-- All cases of `localLts`. -/
theorem localLts_spec {c : Dg.Cfg} (hs : Dg.Sizes c) {a b f : Bool} {dt : ℝ} {der : List (List ℝ)} {tl : List ℝ} {lt gt : Option (List ℝ)} {E : Modes} {D : Nat → Modes}
    (he : Dg.Rep c.nQtsE c.nMds c.nCrs tl E) (hD : Dg.Ders c der D) (hz : c.nRms = 0 → ∀ n < c.oTi, ∀ q md r, c.ck n ≤ md → md < c.nMds → D n q md r = 0) {s : Modes}
    (hl : a = true → ∃ x, lt = some x ∧ Dg.Rep c.nQtsE c.nMds c.nCrs x s) (hg : b = true → ∃ g, gt = some g ∧ g.length = c.nQtsE * c.nMds * c.nCrs) :
    ∃ lt' gt', Dg.localLts c a b f dt der ⟨tl, lt, gt⟩ = some ⟨tl, lt', gt'⟩ ∧
      (a = true → ∃ x, lt' = some x ∧ Dg.Rep c.nQtsE c.nMds c.nCrs x (fun q md r => (if f then 0 else s q md r) + E q md r)) ∧
      (b = true → ∃ g, gt' = some g ∧ Dg.Rep c.nQtsE c.nMds c.nCrs g (fun q md r => Dg.taylorInt c.oTi (1 / 2 * dt) (fun n => D n q md r))) := by
  obtain ⟨lt', h1, h2⟩ : ∃ lt', Dg.localLts c a false f dt der ⟨tl, lt, gt⟩ = some ⟨tl, lt', gt⟩ ∧
      (a = true → ∃ x, lt' = some x ∧ Dg.Rep c.nQtsE c.nMds c.nCrs x (fun q md r => (if f then 0 else s q md r) + E q md r)) := by
    cases a with
    | false => exact ⟨lt, rfl, by simp⟩
    | true =>
      obtain ⟨x, rfl, hx⟩ := hl rfl
      obtain ⟨t', k1, k2, x', k3, k4⟩ := Dg.localLts_lt (firstTs := f) (dt := dt) (der := der) (t := ⟨tl, some x, gt⟩) (isGt := false) he rfl hx (by simp)
      have k5 : t'.gt = gt := by
        cases f <;> simp only [Dg.localLts, Bool.false_eq_true, if_false, if_true, Option.bind_eq_bind, Option.bind_some, Option.bind_eq_some_iff] at k1
        · obtain ⟨_, _, h⟩ := k1
          rw [← Option.some.inj h]
        · obtain ⟨_, _, _, _, h⟩ := k1
          rw [← Option.some.inj h]
      obtain ⟨a1, a2, a3⟩ := t'
      simp only at k2 k3 k5
      subst k2 k3 k5
      exact ⟨some x', k1, fun _ => ⟨x', rfl, k4⟩⟩
  rw [localLts_split, h1, Option.bind_some]
  cases b with
  | false => exact ⟨lt', gt, rfl, h2, by simp⟩
  | true =>
    obtain ⟨g, rfl, hg'⟩ := hg rfl
    obtain ⟨g', k1, k2⟩ := Dg.localLts_gt hs (firstTs := f) (dt := dt) (e := tl) (lt := lt') hD hg' hz
    exact ⟨lt', some g', k1, h2, fun _ => ⟨g', rfl, k2⟩⟩

end Edge.Rate
