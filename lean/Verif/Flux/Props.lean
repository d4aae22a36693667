import Verif.Flux.Surf
/-!
C94: theorems.
-/
namespace Edge.Flux
open Edge Edge.Map Edge.Quad Edge.Basis Edge.Proj Edge.Gen MvPolynomial

/-- Coordinates of a point. -/
def crd (p : Fin 3 → ℝ) (d : Nat) : ℝ := if h : d < 3 then p ⟨d, h⟩ else 0

/-- C94: the maps from faces to elements, and between the two sides of a face, for which the matrices are generated, are those of the solver (C88). -/
theorem C94_maps {e : Ent} (he : e ≠ .line) (x y : ℝ) :
    (∀ fa < e.nFa, faToVolRef e fa (crd ![x, y, 0]) = some (crd (elPt e fa x y))) ∧
    (∀ ve < e.nVeOpts, ∃ q, faLocToFaNei e ve (crd ![x, y, 0]) = some q ∧ ∀ d < 2, (d < 1 ∨ e.nDim = 3) → q d = crd (faPt e ve x y) d) := by
  have c0 : ∀ p : Fin 3 → ℝ, crd p 0 = p 0 := fun p => rfl
  have c1 : ∀ p : Fin 3 → ℝ, crd p 1 = p 1 := fun p => rfl
  constructor
  · intro fa hfa
    cases e <;> simp only [Ent.nFa] at hfa <;> first | exact absurd rfl he | skip
    all_goals
      interval_cases fa <;>
      · simp only [faToVolRef, Ent.nFa, check, Option.bind_eq_bind]
        norm_num
        funext d
        rcases d with _ | _ | _ | d <;> simp [crd, elPt, faToEl, refFa, tab3] <;> first | ring | skip
  · intro ve hve
    cases e <;> simp only [Ent.nVeOpts] at hve <;> first | exact absurd rfl he | skip
    all_goals
      interval_cases ve <;>
      · refine ⟨_, rfl, fun d hd hd' => ?_⟩
        interval_cases d <;> simp [crd, faPt, faToFa, Ent.nDim] at hd' ⊢

theorem faToVolRef_congr {e : Ent} {fa : Nat} {p q : Nat → ℝ} (h : ∀ d < 2, (d < 1 ∨ e.nDim = 3) → p d = q d) : faToVolRef e fa p = faToVolRef e fa q := by
  have h0 := h 0 (by omega) (Or.inl (by omega))
  cases e
  · rfl
  · simp only [faToVolRef, h0]
  · simp only [faToVolRef, h0]
  · simp only [faToVolRef, h0, h 1 (by omega) (Or.inr rfl)]
  · simp only [faToVolRef, h0, h 1 (by omega) (Or.inr rfl)]

/-- Point of the adjacent element: `ve` is the orientation, `fb` the face in the adjacent element. -/
def outPt (e : Ent) (ve fb : Nat) (x y : ℝ) : Fin 3 → ℝ := elPt e fb (faPt e ve x y 0) (faPt e ve x y 1)

/-- C94: if two elements share a face whose vertices they list in opposite order, then the matrices take the two elements' values at the same
point. With a non-zero `t` the face is a periodic boundary. -/
theorem C94_point {e : Ent} (he : e ≠ .line) {ve fa fb : Nat} (hve : ve < e.nVeOpts) (hfa : fa < e.nFa) (hfb : fb < e.nFa)
    (vesA vesB : Nat → Nat → ℝ) (t : Nat → ℝ)
    (ho : ∀ d < e.nDim, Opposite e ve (fun k => faCrd e vesA fa d k + t d) (faCrd e vesB fb d)) (x y : ℝ) :
    ∀ d < e.nDim, refToPhy e vesB (crd (outPt e ve fb x y)) d = refToPhy e vesA (crd (elPt e fa x y)) d + t d := by
  obtain ⟨a, b, p', h1, h2, h3, h4⟩ := C88_neighbour hve hfa hfb vesA vesB t ho (crd ![x, y, 0])
  obtain ⟨m1, m2⟩ := C94_maps he x y
  obtain ⟨q, q1, q2⟩ := m2 ve hve
  rw [m1 fa hfa, Option.some_inj] at h1
  rw [q1, Option.some_inj] at h2
  have h5 := (C94_maps he (faPt e ve x y 0) (faPt e ve x y 1)).1 fb hfb
  have h6 : faToVolRef e fb p' = faToVolRef e fb (crd ![faPt e ve x y 0, faPt e ve x y 1, 0]) := by
    refine faToVolRef_congr (fun d hd hd' => ?_)
    rw [← h2, q2 d hd hd']
    interval_cases d <;> rfl
  rw [h6, h5, Option.some_inj] at h3
  subst h1 h3
  exact h4

/-- C94: the local surface integration, with the stored matrices, adds to every elastic mode the integrals over all faces of the flux solver applied to the
element's solution times the mode's function, divided by the norm of the function; the memory variables likewise with their solvers and frequencies. -/
theorem C94_local {c : Dg.Cfg} {e : Ent} {o : Nat} (hc : Fits c e o) {fsE fsA : List (List ℝ)} {rfs tE dofsE sc0 sc1 : List ℝ}
    {dofsA : List (List ℝ)} {FE FA : Nat → Nat → Nat → ℝ} {rf : Nat → ℝ} {T d : Nat → Nat → Nat → ℝ}
    {da : Nat → Nat → Nat → Nat → ℝ} (hE : Dg.Mats c.nFas c.nQtsE c.nQtsE c.nQtsE fsE FE)
    (hA : 0 < c.nRms → Dg.Mats c.nFas c.nQtsM c.nQtsE c.nQtsE fsA FA) (hrf : ∀ rm < c.nRms, rd rfs rm = some (rf rm))
    (ht : Dg.Rep c.nQtsE c.nMds c.nCrs tE T) (hd : Dg.Rep c.nQtsE c.nMds c.nCrs dofsE d) (hda : Dg.PerRm c da dofsA)
    (h0 : sc0.length = c.nQtsE * c.nMdsFa * c.nCrs) (h1 : sc1.length = c.nQtsE * c.nMdsFa * c.nCrs) :
    ∃ LN FT E' A' s0 s1, storeFluxDense (fluxLRaw e o) (fluxNRaw e o) (fluxTRaw e o) e c.nMds c.nMdsFa = some (LN, FT) ∧
      Dg.surfLocal c LN FT fsE fsA rfs tE dofsE dofsA sc0 sc1 = some (E', A', s0, s1) ∧
      Dg.Rep c.nQtsE c.nMds c.nCrs E' (fun q md r => d q md r + (∑ fa ∈ Finset.range e.nFa, onFace e o fa md (fun x y =>
        ∑ p ∈ Finset.range c.nQtsE, FE fa q p * recon e o (fun m => T p m r) (elPt e fa x y))) / normSq e o md) ∧
      Dg.PerRm c (fun rm q md r => da rm q md r + rf rm * ((∑ fa ∈ Finset.range e.nFa, onFace e o fa md (fun x y =>
        ∑ p ∈ Finset.range c.nQtsE, FA fa q p * recon e o (fun m => T p m r) (elPt e fa x y))) / normSq e o md)) A' := by
  obtain ⟨LN, FT, k0, k1, -, k3⟩ := stored hc.noLine o
  rw [← hc.mds, ← hc.mdsFa, ← hc.fas] at k1 k3
  rw [← hc.mds, ← hc.mdsFa] at k0
  obtain ⟨E', A', s0, s1, g0, g1, g2⟩ := Dg.C75_local hc.sizes k1 k3 hE hA hrf ht hd hda h0 h1
  refine ⟨LN, FT, E', A', s0, s1, k0, g0, g1.congr (fun q md r hq hmd hr => ?_), g2.congr (fun rm q md r _ hq hmd hr => ?_)⟩
  · rw [Finset.sum_div, hc.fas]
    congr 1
    refine Finset.sum_congr rfl (fun fa hfa => ?_)
    exact surfC_face hc (Finset.mem_range.1 hfa) (hc.mds ▸ hmd) (FE fa) T (cont_elPt e fa continuous_fst (continuous_fst.comp continuous_snd)) (fun _ _ => rfl) q r
  · rw [Finset.sum_div, hc.fas]
    congr 2
    refine Finset.sum_congr rfl (fun fa hfa => ?_)
    exact surfC_face hc (Finset.mem_range.1 hfa) (hc.mds ▸ hmd) (FA fa) T (cont_elPt e fa continuous_fst (continuous_fst.comp continuous_snd)) (fun _ _ => rfl) q r

/-- Points at which the outside values of face `fa` are taken: those of the adjacent element, or the element's own at the free surface. -/
def sidePt (e : Ent) (fa : Nat) (f : Dg.FaceIn ℝ) (x y : ℝ) : Fin 3 → ℝ :=
  match f.freeSurface, f.vId with
  | false, some ve => outPt e ve f.fId x y
  | _, _ => elPt e fa x y

/-- C94: the neighboring update, with the stored matrices, adds the integrals over all faces but those with outflow boundary conditions of the flux
solver applied to the solution `T fa` of the adjacent element at the same point of the face (`C94_point`), or to the element's own at the free
surface. Data in messages: `C57_message`. -/
theorem C94_neigh {c : Dg.Cfg} {e : Ent} {o : Nat} (hc : Fits c e o) {rfs : List ℝ} {firstTs : Bool} {fs : Nat → Dg.FaceIn ℝ}
    {fl : List (Dg.FaceIn ℝ)} (hfl : ∀ fa < c.nFas, rd fl fa = some (fs fa)) {FE FA : Nat → Nat → Nat → ℝ} {rf : Nat → ℝ}
    {T : Nat → Nat → Nat → Nat → ℝ} {d : Nat → Nat → Nat → ℝ} {da : Nat → Nat → Nat → Nat → ℝ}
    (hE : ∀ fa < c.nFas, (fs fa).outflow = false → Dg.Mat c.nQtsE c.nQtsE c.nQtsE (fs fa).fsE (FE fa))
    (hA : ∀ fa < c.nFas, (fs fa).outflow = false → 0 < c.nRms → Dg.Mat c.nQtsM c.nQtsE c.nQtsE (fs fa).fsA (FA fa))
    (hrf : ∀ rm < c.nRms, rd rfs rm = some (rf rm))
    (hid : ∀ fa < c.nFas, (fs fa).freeSurface = false → ∀ ve, (fs fa).vId = some ve → ve < e.nVeOpts ∧ (fs fa).fId < e.nFa)
    (hT : ∀ fa < c.nFas, (fs fa).outflow = false → (fs fa).recv = none ∧
      ∃ t, Dg.assemble c (fs fa).ad.eq (fs fa).ad.gt firstTs (fs fa).tNe = some t ∧ Dg.Rep c.nQtsE c.nMds c.nCrs t (T fa))
    {dofsE sc0 sc1 : List ℝ} {dofsA : List (List ℝ)} (hd : Dg.Rep c.nQtsE c.nMds c.nCrs dofsE d) (hda : Dg.PerRm c da dofsA)
    (h0 : sc0.length = c.nQtsE * c.nMdsFa * c.nCrs) (h1 : sc1.length = c.nQtsE * c.nMdsFa * c.nCrs) :
    ∃ LN FT E' A', storeFluxDense (fluxLRaw e o) (fluxNRaw e o) (fluxTRaw e o) e c.nMds c.nMdsFa = some (LN, FT) ∧
      Dg.neighEl c LN FT rfs firstTs fl dofsE dofsA sc0 sc1 = some (E', A') ∧
      Dg.Rep c.nQtsE c.nMds c.nCrs E' (fun q md r => d q md r + (∑ fa ∈ Finset.range e.nFa, if (fs fa).outflow then 0 else onFace e o fa md (fun x y =>
        ∑ p ∈ Finset.range c.nQtsE, FE fa q p * recon e o (fun m => T fa p m r) (sidePt e fa (fs fa) x y))) / normSq e o md) ∧
      Dg.PerRm c (fun rm q md r => da rm q md r + rf rm * ((∑ fa ∈ Finset.range e.nFa, if (fs fa).outflow then 0 else onFace e o fa md (fun x y =>
        ∑ p ∈ Finset.range c.nQtsE, FA fa q p * recon e o (fun m => T fa p m r) (sidePt e fa (fs fa) x y))) / normSq e o md)) A' := by
  obtain ⟨LN, FT, k0, k1, k2, k3⟩ := stored hc.noLine o
  rw [← hc.mds, ← hc.mdsFa, ← hc.fas] at k1 k3
  rw [← hc.mds, ← hc.mdsFa] at k0 k2
  have hcont : ∀ fa, Continuous (fun v : ℝ × ℝ × ℝ => sidePt e fa (fs fa) v.1 v.2.1) := by
    intro fa
    unfold sidePt
    split
    · exact cont_elPt e _ (cont_faPt e _ _ continuous_fst (continuous_fst.comp continuous_snd)) (cont_faPt e _ _ continuous_fst (continuous_fst.comp continuous_snd))
    · exact cont_elPt e fa continuous_fst (continuous_fst.comp continuous_snd)
  obtain ⟨F, hF⟩ : ∃ F : Nat → Nat → Nat → ℝ, F = fun fa m j =>
    refInt (faTy e) (fun x y z => val (bf (faTy e) o j) x y z * eval (sidePt e fa (fs fa) x y) (bf e o m)) := ⟨_, rfl⟩
  have hmat : ∀ fa < c.nFas, ∃ mat, rd LN (Dg.fluxPos c.nFas fa (fs fa).freeSurface (fs fa).vId (fs fa).fId) = some mat ∧
      Dg.Mat c.nMds c.nMdsFa c.nMdsFa mat (F fa) := by
    intro fa hfa
    have hi := hid fa hfa
    rcases hfr : (fs fa).freeSurface with _ | _
    · rcases hv : (fs fa).vId with _ | ve
      · obtain ⟨mat, m0, m1⟩ := k1 fa hfa
        refine ⟨mat, m0, ?_⟩
        have : F fa = entL e o fa := by
          rw [hF]; funext m j
          simp only [entL, sidePt, hfr, hv]
        rw [this]; exact m1
      · obtain ⟨hi1, hi2⟩ := hi hfr ve hv
        obtain ⟨mat, m0, m1⟩ := k2 ve hi1 _ hi2
        refine ⟨mat, by rw [hc.fas]; exact m0, ?_⟩
        have : F fa = entN e o ve (fs fa).fId := by
          rw [hF]; funext m j
          simp only [entN, sidePt, hfr, hv, outPt]
        rw [this]; exact m1
    · obtain ⟨mat, m0, m1⟩ := k1 fa hfa
      refine ⟨mat, m0, ?_⟩
      have : F fa = entL e o fa := by
        rw [hF]; funext m j
        simp only [entL, sidePt, hfr]
      rw [this]; exact m1
  obtain ⟨E', A', g0, g1, g2⟩ := Dg.C75_neigh hc.sizes (firstTs := firstTs) (P := fun fa => Dg.faceProj c (F fa) (T fa)) hfl k3 hE hA hrf (by
    intro fa hfa ho
    obtain ⟨hr, t, t0, t1⟩ := hT fa hfa ho
    obtain ⟨mat, m0, m1⟩ := hmat fa hfa
    rw [Dg.FaceData, hr]
    exact ⟨t, T fa, mat, F fa, t0, t1, m0, m1, fun _ _ _ _ _ _ => rfl⟩) hd hda h0 h1
  refine ⟨LN, FT, E', A', k0, g0, g1.congr (fun q md r hq hmd hr => ?_), g2.congr (fun rm q md r _ hq hmd hr => ?_)⟩
  · rw [Finset.sum_div, hc.fas]
    congr 1
    refine Finset.sum_congr rfl (fun fa hfa => ?_)
    split
    · rw [zero_div]
    · exact surfC_face hc (Finset.mem_range.1 hfa) (hc.mds ▸ hmd) (FE fa) (T fa) (hcont fa) (fun _ _ => by rw [hF]) q r
  · rw [Finset.sum_div, hc.fas]
    congr 2
    refine Finset.sum_congr rfl (fun fa hfa => ?_)
    split
    · rw [zero_div]
    · exact surfC_face hc (Finset.mem_range.1 hfa) (hc.mds ▸ hmd) (FA fa) (T fa) (hcont fa) (fun _ _ => by rw [hF]) q r

end Edge.Flux
