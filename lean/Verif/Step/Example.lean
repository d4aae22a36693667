import Verif.Step.MeshProps
import Verif.Flux.Example
/-!
C97: the set-up exists for every element which is not degenerate; the hypotheses of the theorems can be met.
-/
namespace Edge.Step
open Edge Edge.Map Edge.Quad Edge.Basis Edge.Proj Edge.Gen Edge.Flux Edge.Seismic Matrix

/-- C97: every tetrahedron of positive volume has a set-up, for any materials and any of the faces at the free surface. -/
theorem C97_setup3 {tol tolL : ℝ} (ht : 0 ≤ tol) (htL : 0 ≤ tolL) {ves : Nat → Nat → ℝ} (hd : 0 < jDet .tet ves) (hL : tolL < jDet .tet ves) {m : Material} (hm : m.Elastic)
    {m' : Nat → Material} (hm' : ∀ fa < 4, (m' fa).Elastic) (free : Nat → Bool) : ∃ ν starE fsL fsN, SetUp3 tol tolL ves m m' ν free starE fsL fsN := by
  have hs : ∃ s, initStar3 tolL .tet ves m.rho m.lam m.mu = some s := by
    have h : (Linalg.inv3 tolL (fun i j : Fin 3 => evalJac .tet ves i j)).isSome := by
      rw [(Linalg.C52_inv3 htL _).1]
      rw [jDet, Linalg.C52_det3] at hL
      exact lt_of_lt_of_le hL (le_abs_self _)
    obtain ⟨J, hJ⟩ := Option.isSome_iff_exists.1 h
    exact ⟨_, by rw [initStar3, hJ]; rfl⟩
  obtain ⟨starE, hs⟩ := hs
  have hf : ∀ fa < 4, ∃ (area : ℝ) (ν : Fin 3 → ℝ) (x : FaceFs), FaceGeo3 ves fa area ν ∧ Fs.Solves3 (Fs.fac .tet area (jDet .tet ves)) m (m' fa) ν (free fa) false x := by
    intro fa hfa
    obtain ⟨w0, w1, w2, hw⟩ : ∃ w0 w1 w2, faVeCc .tet fa = [w0, w1, w2] := by
      interval_cases fa <;> exact ⟨_, _, _, rfl⟩
    have hy := Face.tet_side ves hfa (w0 := w0) (w1 := w1) (w2 := w2) (by rw [hw])
    set y := Face.side3 (Face.vePt .tet ves w0) (Face.vePt .tet ves w1) (Face.vePt .tet ves w2) (Face.vePt .tet ves (Face.oppVe .tet fa)) with hydef
    have hy0 : y ≠ 0 := by rcases hy with h | h <;> rw [h] <;> simp [hd.ne']
    obtain ⟨k1, -⟩ := Face.C95_tria (v0 := Face.vePt .tet ves w0) (v1 := Face.vePt .tet ves w1) (v2 := Face.vePt .tet ves w2) (nPt := Face.vePt .tet ves (Face.oppVe .tet fa)) hy0
    obtain ⟨a, b, cc, cc', -, j2⟩ := face3 hm (hm' fa hfa) k1 (jE := List.replicate 81 0) (jA := List.replicate 54 0) (by simp) (by simp) false (free fa)
    exact ⟨_, _, _, ⟨w0, w1, w2, Face.vePt .tet ves (Face.oppVe .tet fa), 1, by rw [hw], Or.inl ⟨rfl, by rw [← hydef]; exact mul_self_pos.2 hy0⟩, rfl, by funext d; rw [one_mul]⟩,
      a, b, cc, cc', rfl, j2⟩
  have : Inhabited FaceFs := ⟨⟨[], [], none⟩⟩
  choose! area ν x hg hx using hf
  refine ⟨ν, starE, (List.range 4).map (fun fa => (x fa).el), fun fa => (x fa).er, ⟨ht, htL⟩, ?_, hd, hm, hs, fun fa hfa => ⟨hm' fa hfa, area fa, false, x fa, hg fa hfa, hx fa hfa, ?_, rfl⟩⟩
  · rw [jDet, C88_detTet] at hd
    exact hd.ne'
  · rw [List.getElem?_map, List.getElem?_range hfa]; rfl

/-- C97: the same for triangles. -/
theorem C97_setup2 {tol tolL : ℝ} (ht : 0 ≤ tol) (htL : 0 ≤ tolL) {ves : Nat → Nat → ℝ} (hd : tol < jDet .tria ves) (hL : tolL < jDet .tria ves) {m : Material} (hm : m.Elastic)
    {m' : Nat → Material} (hm' : ∀ fa < 3, (m' fa).Elastic) (free : Nat → Bool) : ∃ ν starE fsL fsN, SetUp2 tol tolL ves m m' ν free starE fsL fsN := by
  have hd0 : 0 < jDet .tria ves := lt_of_le_of_lt ht hd
  have hs : ∃ s, initStar2 tolL .tria ves m.rho m.lam m.mu = some s := by
    have h : (Linalg.inv2 tolL (fun i j : Fin 2 => evalJac .tria ves i j)).isSome := by
      rw [(Linalg.C52_inv2 htL _).1]
      rw [jDet, Linalg.C52_det2] at hL
      exact lt_of_lt_of_le hL (le_abs_self _)
    obtain ⟨J, hJ⟩ := Option.isSome_iff_exists.1 h
    exact ⟨_, by rw [initStar2, hJ]; rfl⟩
  obtain ⟨starE, hs⟩ := hs
  have hf : ∀ fa < 3, ∃ (area : ℝ) (ν : Fin 2 → ℝ) (x : FaceFs), FaceGeo2 ves fa area ν ∧ Fs.Solves2 (Fs.fac .tria area (jDet .tria ves)) m (m' fa) ν (free fa) false x := by
    intro fa hfa
    obtain ⟨w0, w1, hw⟩ : ∃ w0 w1, faVeCc .tria fa = [w0, w1] := by
      interval_cases fa <;> exact ⟨_, _, rfl⟩
    set y := Face.side2 (Face.vePt .tria ves w0) (Face.vePt .tria ves w1) (Face.vePt .tria ves (Face.oppVe .tria fa)) with hydef
    have hy : y = jDet .tria ves := by
      rw [hydef]
      simp only [jDet, C88_detTria, Mesh.det2, pt3]
      interval_cases fa <;> simp [faVeCc] at hw <;> obtain ⟨rfl, rfl⟩ := hw <;> simp [Face.side2, sprod3, Face.perp, Face.vePt, Ent.nDim, Face.oppVe] <;> ring
    have hy0 : y ≠ 0 := by rw [hy]; exact hd0.ne'
    obtain ⟨k1, k2, -⟩ := Face.C95_line (v0 := Face.vePt .tria ves w0) (v1 := Face.vePt .tria ves w1) (nPt := Face.vePt .tria ves (Face.oppVe .tria fa)) (by simp [Face.vePt, Ent.nDim]) hy0
    set n := Face.lineNormal (Face.vePt .tria ves w0) (Face.vePt .tria ves w1) (Face.vePt .tria ves (Face.oppVe .tria fa)) with hn
    have hn1 : (fun d : Fin 2 => n (d.castLE (by omega))) ⬝ᵥ (fun d : Fin 2 => n (d.castLE (by omega))) = 1 := by
      rw [← k1]
      simp [sprod3, dotProduct, Fin.sum_univ_two, k2]
    obtain ⟨a, b, cc, cc', -, j2⟩ := face2 hm (hm' fa hfa) hn1 (jE := List.replicate 25 0) (jA := List.replicate 15 0) (by simp) (by simp) false (free fa)
    exact ⟨_, _, _, ⟨w0, w1, Face.vePt .tria ves (Face.oppVe .tria fa), 1, by rw [hw], Or.inl ⟨rfl, by rw [← hydef]; exact mul_self_pos.2 hy0⟩, rfl, by funext d; rw [one_mul]⟩,
      a, b, cc, cc', rfl, j2⟩
  have : Inhabited FaceFs := ⟨⟨[], [], none⟩⟩
  choose! area ν x hg hx using hf
  refine ⟨ν, starE, (List.range 3).map (fun fa => (x fa).el), fun fa => (x fa).er, ⟨ht, htL⟩, ?_, hd0, hm, hs, fun fa hfa => ⟨hm' fa hfa, area fa, false, x fa, hg fa hfa, hx fa hfa, ?_, rfl⟩⟩
  · rw [jDet, C88_detTria] at hd
    exact hd
  · rw [List.getElem?_map, List.getElem?_range hfa]; rfl

/-- C97: the matrices which the solver uses exist. -/
theorem C97_stored {c : Dg.Cfg} {e : Ent} {o : Nat} (hl : e ≠ .line) (hF : Flux.Fits c e o) : ∃ lT lV LN FT, Stored c e o lT lV LN FT := by
  obtain ⟨lT, h1, -⟩ := storeT e o
  obtain ⟨lV, h2, -⟩ := storeV e o
  obtain ⟨LN, FT, h3, -⟩ := stored hl o
  exact ⟨lT, lV, LN, FT, h1, h2, by rw [hF.mds, hF.mdsFa]; exact h3⟩

/-- A mesh of tetrahedra, given by vertices, materials, adjacency and boundary conditions, which is set up by the code, and a solution as start. -/
theorem C97_full3 {c : Dg.Cfg} {o : Nat} (ho : 0 < o) (hF : Flux.Fits c .tet o) (hc : Fit c .tet o) (hq : c.nQtsE = 9) {N : Nat} {tol tolL : ℝ} (ht : 0 ≤ tol) (htL : 0 ≤ tolL)
    {ves : Nat → Nat → Nat → ℝ} (hv : ∀ el < N, max tol tolL < jDet .tet (ves el)) {m : Nat → Material} {m' : Nat → Nat → Material} (hm : ∀ el < N, (m el).Elastic ∧ ∀ fa < 4, (m' el fa).Elastic)
    {out free : Nat → Nat → Bool} {vId : Nat → Nat → Option Nat} {fId ne : Nat → Nat → Nat}
    (hid : ∀ el < N, ∀ fa < 4, ne el fa < N ∧ ∀ ve, vId el fa = some ve → ve < Ent.nVeOpts .tet ∧ fId el fa < 4) {t : Nat → Nat → Nat → ℝ}
    (hj : ∀ el < N, ∀ fa < 4, Joined .tet ves el fa ⟨out el fa, free el fa, vId el fa, fId el fa, [], ne el fa⟩ (t el fa)) :
    ∃ (ν : Nat → Nat → Fin 3 → ℝ) (F : Nat → Nat → MFace ℝ) (els : List (MEl ℝ)) (lT lV LN FT : List (List ℝ)), els.length = N ∧
      (∀ el < N, ∀ fa < 4, ∃ area, FaceGeo3 (ves el) fa area (ν el fa)) ∧
      (∀ el fa, (F el fa).outflow = out el fa ∧ (F el fa).freeSurface = free el fa ∧ (F el fa).ne = ne el fa ∧ (F el fa).vId = vId el fa ∧ (F el fa).fId = fId el fa) ∧
      Stored c .tet o lT lV LN FT ∧
      (∀ el E, els[el]? = some E → SetUp3 tol tolL (ves el) (m el) (m' el) (ν el) (fun fa => (F el fa).freeSurface) E.starE E.fsL (fun fa => (F el fa).fsE) ∧
        FacesOk .tet els.length E.faces (F el) ∧ ∀ fa < 4, Joined .tet ves el fa (F el fa) (t el fa)) ∧
      ∀ {R : Nat → Prop} {w : Nat → Nat → ℝ → Nat → (Nat → ℝ) → ℝ} (hw : ∀ el < N, R el → ∀ r < c.nCrs, Wave3 (m el) o (w el r)) (s : ℝ),
        ∃ (st : List (List ℝ × Dg.CkMem ℝ)) (u : Nat → Nat → Nat → Nat → ℝ), st.length = N ∧ ∀ el < N, HasDofs c st el (u el) ∧
          (R el → ∀ r < c.nCrs, ∀ q < 9, ∀ x, physEval tol .tet o (ves el) (fun md => u el q md r) x = w el r s q x) := by
  have hset : ∀ el < N, ∃ ν starE fsL fsN, SetUp3 tol tolL (ves el) (m el) (m' el) ν (free el) starE fsL fsN := by
    intro el hel
    have h1 := hv el hel
    rw [max_lt_iff] at h1
    exact C97_setup3 ht htL (lt_of_le_of_lt ht h1.1) h1.2 (hm el hel).1 (hm el hel).2 (free el)
  choose! ν starE fsL fsN hs using hset
  obtain ⟨lT, lV, LN, FT, hst⟩ := C97_stored (by decide) hF
  set F : Nat → Nat → MFace ℝ := fun el fa => ⟨out el fa, free el fa, vId el fa, fId el fa, fsN el fa, ne el fa⟩ with hFd
  refine ⟨ν, F, (List.range N).map (fun el => ⟨starE el, fsL el, (List.range 4).map (F el)⟩), lT, lV, LN, FT, by simp, ?_, fun el fa => ⟨rfl, rfl, rfl, rfl, rfl⟩, hst, ?_, ?_⟩
  · intro el hel fa hfa
    obtain ⟨-, area, -, -, h, -⟩ := (hs el hel).face fa hfa
    exact ⟨area, h⟩
  · intro el E hE
    rw [List.getElem?_map, Option.map_eq_some_iff] at hE
    obtain ⟨i, hi, rfl⟩ := hE
    obtain ⟨hel, rfl⟩ : el < N ∧ i = el := by
      rw [List.getElem?_eq_some_iff] at hi
      obtain ⟨h1, h2⟩ := hi
      rw [List.length_range] at h1
      rw [List.getElem_range] at h2
      exact ⟨h1, h2.symm⟩
    refine ⟨hs i hel, ⟨by simp [Ent.nFa], fun fa hfa => ?_⟩, hj i hel⟩
    have hfa : fa < 4 := hfa
    refine ⟨by simp [hfa], fun _ _ => by simpa using (hid i hel fa hfa).1, fun _ ve hve => (hid i hel fa hfa).2 ve hve⟩
  · intro R w hw s
    have hmodes : ∀ el q r, ∃ v : Nat → ℝ, el < N → R el → q < 9 → r < c.nCrs → ∀ x, physEval tol .tet o (ves el) v x = w el r s q x := by
      intro el q r
      by_cases h : el < N ∧ R el ∧ q < 9 ∧ r < c.nCrs
      · obtain ⟨p, p1, p2⟩ := (hw el h.1 h.2.1 r h.2.2.2).poly s q h.2.2.1
        obtain ⟨v, hv⟩ := modes_of_poly (o := o) (by decide) (hs el h.1).tols.1 (hs el h.1).regular (hs el h.1).det (f := w el r s q) p1
          (fun x => (p2 x).trans (by congr 2; funext i; fin_cases i <;> simp [Ent.nDim]))
        exact ⟨v, fun _ _ _ _ => hv⟩
      · exact ⟨fun _ => 0, fun h1 h2 h3 h4 => absurd ⟨h1, h2, h3, h4⟩ h⟩
    choose V hV using hmodes
    refine ⟨(List.range N).map (fun el => (Dg.mk3 c.nQtsE c.nMds c.nCrs (fun q md r => V el q r md), Dg.ckMem0 c)), fun el q md r => V el q r md, by simp, fun el hel =>
      ⟨⟨_, _, by rw [List.getElem?_map, List.getElem?_range hel]; rfl, Dg.rep_mk _ _ _ _, Dg.ckMem0_out c⟩, fun hR r hr q hq' x => hV el q r hel hR hq' hr x⟩⟩

/-- A mesh of triangles, given by vertices, materials, adjacency and boundary conditions, which is set up by the code, and a solution as start. -/
theorem C97_full2 {c : Dg.Cfg} {o : Nat} (ho : 0 < o) (hF : Flux.Fits c .tria o) (hc : Fit c .tria o) (hq : c.nQtsE = 5) {N : Nat} {tol tolL : ℝ} (ht : 0 ≤ tol) (htL : 0 ≤ tolL)
    {ves : Nat → Nat → Nat → ℝ} (hv : ∀ el < N, max tol tolL < jDet .tria (ves el)) {m : Nat → Material} {m' : Nat → Nat → Material} (hm : ∀ el < N, (m el).Elastic ∧ ∀ fa < 3, (m' el fa).Elastic)
    {out free : Nat → Nat → Bool} {vId : Nat → Nat → Option Nat} {fId ne : Nat → Nat → Nat}
    (hid : ∀ el < N, ∀ fa < 3, ne el fa < N ∧ ∀ ve, vId el fa = some ve → ve < Ent.nVeOpts .tria ∧ fId el fa < 3) {t : Nat → Nat → Nat → ℝ}
    (hj : ∀ el < N, ∀ fa < 3, Joined .tria ves el fa ⟨out el fa, free el fa, vId el fa, fId el fa, [], ne el fa⟩ (t el fa)) :
    ∃ (ν : Nat → Nat → Fin 2 → ℝ) (F : Nat → Nat → MFace ℝ) (els : List (MEl ℝ)) (lT lV LN FT : List (List ℝ)), els.length = N ∧
      (∀ el < N, ∀ fa < 3, ∃ area, FaceGeo2 (ves el) fa area (ν el fa)) ∧
      (∀ el fa, (F el fa).outflow = out el fa ∧ (F el fa).freeSurface = free el fa ∧ (F el fa).ne = ne el fa ∧ (F el fa).vId = vId el fa ∧ (F el fa).fId = fId el fa) ∧
      Stored c .tria o lT lV LN FT ∧
      (∀ el E, els[el]? = some E → SetUp2 tol tolL (ves el) (m el) (m' el) (ν el) (fun fa => (F el fa).freeSurface) E.starE E.fsL (fun fa => (F el fa).fsE) ∧
        FacesOk .tria els.length E.faces (F el) ∧ ∀ fa < 3, Joined .tria ves el fa (F el fa) (t el fa)) ∧
      ∀ {R : Nat → Prop} {w : Nat → Nat → ℝ → Nat → (Nat → ℝ) → ℝ} (hw : ∀ el < N, R el → ∀ r < c.nCrs, Wave2 (m el) o (w el r)) (s : ℝ),
        ∃ (st : List (List ℝ × Dg.CkMem ℝ)) (u : Nat → Nat → Nat → Nat → ℝ), st.length = N ∧ ∀ el < N, HasDofs c st el (u el) ∧
          (R el → ∀ r < c.nCrs, ∀ q < 5, ∀ x, physEval tol .tria o (ves el) (fun md => u el q md r) x = w el r s q x) := by
  have hset : ∀ el < N, ∃ ν starE fsL fsN, SetUp2 tol tolL (ves el) (m el) (m' el) ν (free el) starE fsL fsN := by
    intro el hel
    have h1 := hv el hel
    rw [max_lt_iff] at h1
    exact C97_setup2 ht htL h1.1 h1.2 (hm el hel).1 (hm el hel).2 (free el)
  choose! ν starE fsL fsN hs using hset
  obtain ⟨lT, lV, LN, FT, hst⟩ := C97_stored (by decide) hF
  set F : Nat → Nat → MFace ℝ := fun el fa => ⟨out el fa, free el fa, vId el fa, fId el fa, fsN el fa, ne el fa⟩ with hFd
  refine ⟨ν, F, (List.range N).map (fun el => ⟨starE el, fsL el, (List.range 3).map (F el)⟩), lT, lV, LN, FT, by simp, ?_, fun el fa => ⟨rfl, rfl, rfl, rfl, rfl⟩, hst, ?_, ?_⟩
  · intro el hel fa hfa
    obtain ⟨-, area, -, -, h, -⟩ := (hs el hel).face fa hfa
    exact ⟨area, h⟩
  · intro el E hE
    rw [List.getElem?_map, Option.map_eq_some_iff] at hE
    obtain ⟨i, hi, rfl⟩ := hE
    obtain ⟨hel, rfl⟩ : el < N ∧ i = el := by
      rw [List.getElem?_eq_some_iff] at hi
      obtain ⟨h1, h2⟩ := hi
      rw [List.length_range] at h1
      rw [List.getElem_range] at h2
      exact ⟨h1, h2.symm⟩
    refine ⟨hs i hel, ⟨by simp [Ent.nFa], fun fa hfa => ?_⟩, hj i hel⟩
    have hfa : fa < 3 := hfa
    refine ⟨by simp [hfa], fun _ _ => by simpa using (hid i hel fa hfa).1, fun _ ve hve => (hid i hel fa hfa).2 ve hve⟩
  · intro R w hw s
    have hmodes : ∀ el q r, ∃ v : Nat → ℝ, el < N → R el → q < 5 → r < c.nCrs → ∀ x, physEval tol .tria o (ves el) v x = w el r s q x := by
      intro el q r
      by_cases h : el < N ∧ R el ∧ q < 5 ∧ r < c.nCrs
      · obtain ⟨p, p1, p2⟩ := (hw el h.1 h.2.1 r h.2.2.2).poly s q h.2.2.1
        obtain ⟨v, hv⟩ := modes_of_poly (o := o) (by decide) (hs el h.1).tols.1 (hs el h.1).regular (hs el h.1).det (f := w el r s q) p1
          (fun x => (p2 x).trans (by congr 2; funext i; fin_cases i <;> simp [Ent.nDim]))
        exact ⟨v, fun _ _ _ _ => hv⟩
      · exact ⟨fun _ => 0, fun h1 h2 h3 h4 => absurd ⟨h1, h2, h3, h4⟩ h⟩
    choose V hV using hmodes
    refine ⟨(List.range N).map (fun el => (Dg.mk3 c.nQtsE c.nMds c.nCrs (fun q md r => V el q r md), Dg.ckMem0 c)), fun el q md r => V el q r md, by simp, fun el hel =>
      ⟨⟨_, _, by rw [List.getElem?_map, List.getElem?_range hel]; rfl, Dg.rep_mk _ _ _ _, Dg.ckMem0_out c⟩, fun hR r hr q hq' x => hV el q r hel hR hq' hr x⟩⟩

/-! ### Examples -/

/-- Rigid rotation around the origin. -/
def exRot (i : Nat) (_ : ℝ) (q : Nat) (x : Nat → ℝ) : ℝ := if q = i then -x 1 else if q = i + 1 then x 0 else 0

theorem exRot2 (m : Material) : Wave2 m 4 (exRot 3) := by
  refine ⟨fun τ x => ?_, fun τ q hq => ?_⟩
  · simp [Elastic2, exRot, dd, Function.update, hasDerivAt_const]
  · interval_cases q
    · exact ⟨0, by simp, fun x => by simp [exRot]⟩
    · exact ⟨0, by simp, fun x => by simp [exRot]⟩
    · exact ⟨0, by simp, fun x => by simp [exRot]⟩
    · exact ⟨-MvPolynomial.X 1, by rw [MvPolynomial.totalDegree_neg, MvPolynomial.totalDegree_X]; norm_num, fun x => by simp [exRot]⟩
    · exact ⟨MvPolynomial.X 0, by rw [MvPolynomial.totalDegree_X]; norm_num, fun x => by simp [exRot]⟩

theorem exRot3 (m : Material) : Wave3 m 3 (exRot 6) := by
  refine ⟨fun τ x => ?_, fun τ q hq => ?_⟩
  · simp [Elastic3, exRot, dd, Function.update, hasDerivAt_const]
  · interval_cases q
    · exact ⟨0, by simp, fun x => by simp [exRot]⟩
    · exact ⟨0, by simp, fun x => by simp [exRot]⟩
    · exact ⟨0, by simp, fun x => by simp [exRot]⟩
    · exact ⟨0, by simp, fun x => by simp [exRot]⟩
    · exact ⟨0, by simp, fun x => by simp [exRot]⟩
    · exact ⟨0, by simp, fun x => by simp [exRot]⟩
    · exact ⟨-MvPolynomial.X 1, by rw [MvPolynomial.totalDegree_neg, MvPolynomial.totalDegree_X]; norm_num, fun x => by simp [exRot]⟩
    · exact ⟨MvPolynomial.X 0, by rw [MvPolynomial.totalDegree_X]; norm_num, fun x => by simp [exRot]⟩
    · exact ⟨0, by simp, fun x => by simp [exRot]⟩

theorem stress2_zero {q : Fin 5 → ℝ} (h0 : q 0 = 0) (h1 : q 1 = 0) (h2 : q 2 = 0) (ν : Fin 2 → ℝ) : stress2 q *ᵥ ν = 0 := by
  funext i; fin_cases i <;> simp [stress2, h0, h1, h2, Matrix.mulVec, dotProduct, Fin.sum_univ_two]

theorem stress3_zero {q : Fin 9 → ℝ} (h : ∀ i : Fin 6, q (i.castLE (by omega)) = 0) (ν : Fin 3 → ℝ) : stress3 q *ᵥ ν = 0 := by
  have h0 := h 0; have h1 := h 1; have h2 := h 2; have h3 := h 3; have h4 := h 4; have h5 := h 5
  simp at h0 h1 h2 h3 h4 h5
  funext i; fin_cases i <;> simp [stress3, h0, h1, h2, h3, h4, h5, Matrix.mulVec, dotProduct, Fin.sum_univ_three]

/-- Unit tetrahedron. -/
def exTet1 (d v : Nat) : ℝ := if v = d + 1 then 1 else 0

theorem exTet1_det : jDet .tet exTet1 = 1 := by
  rw [jDet, C88_detTet]
  simp [Mesh.det3, pt3, exTet1]

def exM : Material := ⟨2, 3, 5⟩
def exM2 : Material := ⟨2, 3, 8⟩
theorem exM_el : exM.Elastic := by constructor <;> norm_num [exM]
theorem exM2_el : exM2.Elastic := by constructor <;> norm_num [exM2]

/-- C97_mesh3 (C97_region3 with all elements): a tetrahedron with free surfaces rotates. -/
example (dts : List ℝ) : ∃ (lT lV LN FT : List (List ℝ)) (els : List (MEl ℝ)) (st st' : List (List ℝ × Dg.CkMem ℝ)) (u : Nat → Nat → Nat → ℝ),
    runMesh exC3 lT lV LN FT els (List.replicate 54 0) (List.replicate 54 0) dts st = some st' ∧ HasDofs exC3 st' 0 u ∧
    (∀ x, physEval (1/100) .tet 3 exTet1 (fun md => u 6 md 0) x = -x 1) ∧ ∀ x, physEval (1/100) .tet 3 exTet1 (fun md => u 7 md 0) x = x 0 := by
  obtain ⟨ν, F, els, lT, lV, LN, FT, h1, -, h3, h4, h5, h6⟩ := C97_full3 (o := 3) (by decide) exC3_fits exC3_fit rfl (N := 1) (tol := 1/100) (tolL := 1/100) (by norm_num) (by norm_num)
    (ves := fun _ => exTet1) (fun _ _ => by rw [exTet1_det]; norm_num) (m := fun _ => exM) (m' := fun _ _ => exM) (fun _ _ => ⟨exM_el, fun _ _ => exM_el⟩)
    (out := fun _ _ => false) (free := fun _ _ => true) (vId := fun _ _ => none) (fId := fun _ _ => 0) (ne := fun _ _ => 0) (fun _ _ _ _ => ⟨by norm_num, fun _ h => by cases h⟩)
    (t := fun _ _ _ => 0) (fun _ _ _ _ _ h => by cases h)
  have hw : ∀ el < 1, True → ∀ r < exC3.nCrs, Wave3 exM 3 (exRot 6) := fun _ _ _ _ _ => exRot3 exM
  obtain ⟨st, u, g1, g2⟩ := h6 (R := fun _ => True) (w := fun _ _ => exRot 6) hw 0
  obtain ⟨st', k1, -, k3⟩ := C97_mesh3 (o := 3) (by decide) exC3_fits exC3_fit rfl h4 h5 (w := fun _ _ => exRot 6) (fun _ _ _ _ => exRot3 exM) (by
      intro el hel fa hfa r hr τ x y
      rw [Quiet, (h3 el fa).1, (h3 el fa).2.1]
      simp only [Bool.false_eq_true, if_false, if_true]
      exact stress3_zero (fun i => by fin_cases i <;> simp [at_, exRot]) _)
    (sc0 := List.replicate 54 0) (sc1 := List.replicate 54 0) (by simp [exC3]) (by simp [exC3]) (g1.trans h1.symm) (s := 0) (u := u) (by rw [h1]; exact fun el hel => ⟨(g2 el hel).1, (g2 el hel).2 trivial⟩) dts
  obtain ⟨u', j1, j2⟩ := k3 0 (by omega)
  exact ⟨lT, lV, LN, FT, els, st, st', u', k1, j1, fun x => (j2 0 (by decide) 6 (by omega) x).trans (by simp [exRot]), fun x => (j2 0 (by decide) 7 (by omega) x).trans (by simp [exRot])⟩

/-- Two triangles, which form the unit square. -/
def exSq (el d v : Nat) : ℝ := if el = 0 then (if v = d + 1 then 1 else 0) else (if v = d + 1 then 0 else 1)

theorem exSq_det (el : Nat) : jDet .tria (exSq el) = 1 := by
  rw [jDet, C88_detTria]
  by_cases h : el = 0 <;> simp [Mesh.det2, pt3, exSq, h]

/-- C97_mesh2: two triangles of different materials, whose outer boundary is a free surface, rotate. -/
example (dts : List ℝ) : ∃ (lT lV LN FT : List (List ℝ)) (els : List (MEl ℝ)) (st st' : List (List ℝ × Dg.CkMem ℝ)) (u : Nat → Nat → Nat → ℝ),
    runMesh exC2 lT lV LN FT els (List.replicate 40 0) (List.replicate 40 0) dts st = some st' ∧ HasDofs exC2 st' 1 u ∧
    (∀ x, physEval (1/100) .tria 4 (exSq 1) (fun md => u 3 md 1) x = -x 1) ∧ ∀ x, physEval (1/100) .tria 4 (exSq 1) (fun md => u 4 md 1) x = x 0 := by
  obtain ⟨ν, F, els, lT, lV, LN, FT, h1, -, h3, h4, h5, h6⟩ := C97_full2 (o := 4) (by decide) exC2_fits exC2_fit rfl (N := 2) (tol := 1/100) (tolL := 1/100) (by norm_num) (by norm_num)
    (ves := exSq) (fun el _ => by rw [exSq_det]; norm_num) (m := fun el => if el = 0 then exM else exM2) (m' := fun el _ => if el = 0 then exM2 else exM)
    (fun el _ => ⟨by split <;> [exact exM_el; exact exM2_el], fun _ _ => by split <;> [exact exM2_el; exact exM_el]⟩)
    (out := fun _ _ => false) (free := fun _ fa => fa != 1) (vId := fun _ _ => some 0) (fId := fun _ _ => 1) (ne := fun el _ => 1 - el)
    (fun el hel _ _ => ⟨by omega, fun ve h => by cases h; exact ⟨by decide, by omega⟩⟩)
    (t := fun _ _ _ => 0) (by
      intro el hel fa hfa h1 h2
      have h2 : (fa != 1) = false := h2
      obtain rfl : fa = 1 := by simpa using h2
      refine ⟨0, rfl, by decide, by show 1 < 3; omega, fun d hd => ?_⟩
      have hd : d < 2 := hd
      interval_cases el <;> interval_cases d <;> simp [Opposite, faCrd, faVeCc, exSq])
  have hw : ∀ el < 2, True → ∀ r < exC2.nCrs, Wave2 (if el = 0 then exM else exM2) 4 (exRot 3) := fun _ _ _ _ _ => exRot2 _
  obtain ⟨st, u, g1, g2⟩ := h6 (R := fun _ => True) (w := fun _ _ => exRot 3) hw 0
  obtain ⟨st', k1, -, k3⟩ := C97_mesh2 (o := 4) (by decide) exC2_fits exC2_fit rfl h4 h5 (w := fun _ _ => exRot 3) (fun _ _ _ _ => exRot2 _) (by
      intro el hel fa hfa r hr τ x y
      rw [Quiet, (h3 el fa).1, (h3 el fa).2.1]
      simp only [Bool.false_eq_true, if_false]
      split
      · exact stress2_zero (by simp [at_, exRot]) (by simp [at_, exRot]) (by simp [at_, exRot]) _
      · simp)
    (sc0 := List.replicate 40 0) (sc1 := List.replicate 40 0) (by simp [exC2]) (by simp [exC2]) (g1.trans h1.symm) (s := 0) (u := u) (by rw [h1]; exact fun el hel => ⟨(g2 el hel).1, (g2 el hel).2 trivial⟩) dts
  obtain ⟨u', j1, j2⟩ := k3 1 (by omega)
  exact ⟨lT, lV, LN, FT, els, st, st', u', k1, j1, fun x => (j2 1 (by decide) 3 (by omega) x).trans (by simp [exRot]), fun x => (j2 1 (by decide) 4 (by omega) x).trans (by simp [exRot])⟩

/-- A periodic mesh of the square of side length 2 with eight triangles: elements `2k` and `2k+1` form unit square `k`. -/
def exTor (el d v : Nat) : ℝ := exSq (el % 2) d v + (if d = 0 then (el / 2 % 2 : ℕ) else (el / 4 : ℕ))

theorem exTor_det (el : Nat) : jDet .tria (exTor el) = 1 := by
  rw [jDet, C88_detTria]
  by_cases h : el % 2 = 0 <;> simp [Mesh.det2, pt3, exTor, exSq, h]

/-- Adjacent elements: lower and upper, diagonal, left and right. -/
def exNe (el fa : Nat) : Nat := ([5, 1, 3, 4, 0, 2, 7, 3, 1, 6, 2, 0, 1, 5, 7, 0, 4, 6, 3, 7, 5, 2, 6, 4].getD (el * 3 + fa) 0)

/-- Shifts at the periodic boundaries. -/
def exShift (el fa d : Nat) : ℝ := if (el = 0 ∨ el = 4) ∧ fa = 2 ∧ d = 0 ∨ (el = 0 ∨ el = 2) ∧ fa = 0 ∧ d = 1 then 2
  else if (el = 3 ∨ el = 7) ∧ fa = 2 ∧ d = 0 ∨ (el = 5 ∨ el = 7) ∧ fa = 0 ∧ d = 1 then -2 else 0

/-- Shear wave which travels in the first direction, of velocity `2`. -/
def exWave (a : ℝ) (τ : ℝ) (q : Nat) (x : Nat → ℝ) : ℝ := if q = 4 then (x 0 - a - 2 * τ) ^ 2 else if q = 2 then -4 * (x 0 - a - 2 * τ) ^ 2 else 0

theorem exWave2 (a : ℝ) : Wave2 exM2 4 (exWave a) := by
  have hx : ∀ (x τ : ℝ), HasDerivAt (fun s => (s - a - 2 * τ) ^ 2) (2 * (x - a - 2 * τ)) x := fun x τ => by
    have := (((hasDerivAt_id x).sub_const a).sub_const (2 * τ)).pow 2
    refine this.congr_deriv ?_
    simp
  have ht : ∀ (x τ : ℝ), HasDerivAt (fun s => (x - a - 2 * s) ^ 2) (-4 * (x - a - 2 * τ)) τ := fun x τ => by
    have := (((hasDerivAt_id τ).const_mul 2).const_sub (x - a)).pow 2
    refine this.congr_deriv ?_
    simp; ring
  refine ⟨fun τ x => ?_, fun τ q hq => ?_⟩
  · have e1 : dd 0 (exWave a τ 4) x = 2 * (x 0 - a - 2 * τ) := by simp only [dd, exWave, Function.update]; simp only [if_true]; simpa using (hx (x 0) τ).deriv
    have e2 : dd 0 (exWave a τ 2) x = -4 * (2 * (x 0 - a - 2 * τ)) := by simp only [dd, exWave, Function.update]; simpa using ((hx (x 0) τ).const_mul (-4)).deriv
    have e3 : dd 1 (exWave a τ 4) x = 0 := by simp [dd, exWave, Function.update]
    have e4 : dd 1 (exWave a τ 2) x = 0 := by simp [dd, exWave, Function.update]
    have z : ∀ d q, q = 0 ∨ q = 1 ∨ q = 3 → dd d (exWave a τ q) x = 0 := by rintro d q (rfl | rfl | rfl) <;> simp [dd, exWave]
    refine ⟨?_, ?_, ?_, ?_, ?_⟩
    · simp [z, e3, exWave, hasDerivAt_const]
    · simp [z, e3, exWave, hasDerivAt_const]
    · refine (((ht (x 0) τ).const_mul (-4)).congr_deriv ?_)
      rw [e1, z 1 3 (by simp)]; simp [exM2]; ring
    · simp [z, e4, exWave, hasDerivAt_const]
    · refine ((ht (x 0) τ).congr_deriv ?_)
      rw [e2, z 1 1 (by simp)]; simp [exM2]; ring
  · have hp : (((MvPolynomial.X 0 - MvPolynomial.C (a + 2 * τ)) ^ 2 : MvPolynomial (Fin 3) ℝ)).totalDegree ≤ 2 := by
      refine (MvPolynomial.totalDegree_pow _ 2).trans ?_
      have := MvPolynomial.totalDegree_sub_C_le (MvPolynomial.X (R := ℝ) (0 : Fin 3)) (a + 2 * τ)
      rw [MvPolynomial.totalDegree_X] at this
      omega
    interval_cases q
    · exact ⟨0, by simp, fun x => by simp [exWave]⟩
    · exact ⟨0, by simp, fun x => by simp [exWave]⟩
    · refine ⟨MvPolynomial.C (-4) * (MvPolynomial.X 0 - MvPolynomial.C (a + 2 * τ)) ^ 2, lt_of_le_of_lt (MvPolynomial.totalDegree_mul _ _) ?_, fun x => by simp [exWave]; ring⟩
      rw [MvPolynomial.totalDegree_C]; omega
    · exact ⟨0, by simp, fun x => by simp [exWave]⟩
    · exact ⟨(MvPolynomial.X 0 - MvPolynomial.C (a + 2 * τ)) ^ 2, by omega, fun x => by simp [exWave]; ring⟩

/-- C97_region2: a shear wave in an element and its three neighbors; a time step moves it in the element. -/
example (dT : ℝ) : ∃ (lT lV LN FT : List (List ℝ)) (els : List (MEl ℝ)) (st st' : List (List ℝ × Dg.CkMem ℝ)) (u : Nat → Nat → Nat → ℝ),
    runMesh exC2 lT lV LN FT els (List.replicate 40 0) (List.replicate 40 0) [dT] st = some st' ∧ HasDofs exC2 st' 0 u ∧
    ∀ x, physEval (1/100) .tria 4 (exTor 0) (fun md => u 4 md 1) x = (x 0 - 2 * dT) ^ 2 := by
  obtain ⟨ν, F, els, lT, lV, LN, FT, h1, -, h3, h4, h5, h6⟩ := C97_full2 (o := 4) (by decide) exC2_fits exC2_fit rfl (N := 8) (tol := 1/100) (tolL := 1/100) (by norm_num) (by norm_num)
    (ves := exTor) (fun el _ => by rw [exTor_det]; norm_num) (m := fun _ => exM2) (m' := fun _ _ => exM2) (fun el _ => ⟨exM2_el, fun _ _ => exM2_el⟩)
    (out := fun _ _ => false) (free := fun _ _ => false) (vId := fun _ _ => some 0) (fId := fun _ fa => fa) (ne := exNe)
    (fun el hel fa hfa => ⟨by interval_cases el <;> interval_cases fa <;> decide, fun ve h => by cases h; exact ⟨by decide, hfa⟩⟩)
    (t := exShift) (by
      intro el hel fa hfa _ _
      refine ⟨0, rfl, by decide, hfa, fun d hd => ?_⟩
      have hd : d < 2 := hd
      interval_cases el <;> interval_cases fa <;> interval_cases d <;> simp [Opposite, faCrd, faVeCc, exTor, exSq, exNe, exShift] <;> norm_num)
  set R : Nat → Prop := fun el => el ∈ [0, 1, 3, 5]
  set w : Nat → Nat → ℝ → Nat → (Nat → ℝ) → ℝ := fun el _ => exWave (if el = 3 then 2 else 0)
  have hw : ∀ el < 8, R el → ∀ r < exC2.nCrs, Wave2 exM2 4 (w el r) := fun _ _ _ _ _ => exWave2 _
  obtain ⟨st, u, g1, g2⟩ := h6 (R := R) (w := w) hw 0
  obtain ⟨st', k1, -, k3⟩ := C97_region2 (o := 4) (by decide) exC2_fits exC2_fit rfl h4 h5 (R := R) (w := w) (by rw [h1]; exact hw) (by
      intro el hel hR fa hfa hn r hr τ x y
      have hn := hn (h3 el fa).1 (h3 el fa).2.1
      rw [(h3 el fa).2.2.1] at hn
      rw [Quiet, (h3 el fa).1, (h3 el fa).2.1, (h3 el fa).2.2.1]
      simp only [Bool.false_eq_true, if_false]
      have key : at_ 5 (w el r τ) (faceX .tria (exTor el) fa x y) = at_ 5 (w (exNe el fa) r τ) (fun d => faceX .tria (exTor el) fa x y d + exShift el fa d) := by
        funext k
        have hR : el = 0 ∨ el = 1 ∨ el = 3 ∨ el = 5 := by simpa [R] using hR
        rcases hR with rfl | rfl | rfl | rfl <;> interval_cases fa <;> simp [R, exNe] at hn <;>
          simp [at_, w, exWave, exNe, exShift]
        ring_nf
      rw [key]
      exact ⟨rfl, rfl⟩)
    (sc0 := List.replicate 40 0) (sc1 := List.replicate 40 0) (by simp [exC2]) (by simp [exC2]) (g1.trans h1.symm) (s := 0) (u := u) (by rw [h1]; exact g2) [dT]
  obtain ⟨u', j1, j2⟩ := k3 0 (by omega) ⟨by simp [R], fun fa hfa _ _ => by
    have hfa : fa < 3 := hfa
    show R _
    rw [(h3 0 fa).2.2.1]
    interval_cases fa <;> simp [R, exNe]⟩
  exact ⟨lT, lV, LN, FT, els, st, st', u', k1, j1, fun x => (j2 1 (by decide) 4 (by omega) x).trans (by simp [w, exWave])⟩

/-- C97_step3: a time step of an element with free surfaces which rotates. -/
example (dT : ℝ) : ∃ (lT lV LN FT starE fsL : List (List ℝ)) (fl : List (Dg.FaceIn ℝ)) (dofs E' : List ℝ) (cm' : Dg.CkMem ℝ) (u : Nat → Nat → Nat → ℝ),
    stepEl exC3 dT lT lV LN FT starE [] [] fsL [] [] true fl dofs [] (Dg.ckMem0 exC3) (List.replicate 54 0) (List.replicate 54 0) = some (E', [], cm') ∧
    Dg.Rep exC3.nQtsE exC3.nMds exC3.nCrs E' u := by
  obtain ⟨ν, F, els, lT, lV, LN, FT, h1, -, h3, h4, h5, h6⟩ := C97_full3 (o := 3) (by decide) exC3_fits exC3_fit rfl (N := 1) (tol := 1/100) (tolL := 1/100) (by norm_num) (by norm_num)
    (ves := fun _ => exTet1) (fun _ _ => by rw [exTet1_det]; norm_num) (m := fun _ => exM) (m' := fun _ _ => exM) (fun _ _ => ⟨exM_el, fun _ _ => exM_el⟩)
    (out := fun _ _ => false) (free := fun _ _ => true) (vId := fun _ _ => none) (fId := fun _ _ => 0) (ne := fun _ _ => 0) (fun _ _ _ _ => ⟨by norm_num, fun _ h => by cases h⟩)
    (t := fun _ _ _ => 0) (fun _ _ _ _ _ h => by cases h)
  have hw : ∀ el < 1, True → ∀ r < exC3.nCrs, Wave3 exM 3 (exRot 6) := fun _ _ _ _ _ => exRot3 exM
  obtain ⟨st0, u, -, g3⟩ := h6 (R := fun _ => True) (w := fun _ _ => exRot 6) hw 0
  obtain ⟨-, g2⟩ := g3 0 (by omega)
  obtain ⟨hs, -⟩ := h5 0 _ (List.getElem?_eq_getElem (by omega))
  set E := els[0]
  obtain ⟨J, S, s1, s2, s3⟩ := star3_spec hs.tols.2 hs.star
  have hsol : Solution exC3 .tet 3 S (fun _ => u 0) := by
    refine Solution.of_phys (by decide) exC3_fit hs.tols.1 hs.regular s2 (A := fun d => if h : d < 3 then Gen.ext (jac3 exM.rho exM.lam exM.mu ⟨d, h⟩) else fun _ _ => 0)
      s3 (w := fun _ => exRot 6) (fun r hr q hq τ x => g2 trivial r hr q hq x) ?_
    exact fun r hr q hq τ x => elastic3_op ((exRot3 exM).eqs τ x) hq
  set Tn := tInt exC3 .tet 3 S (u 0) dT
  set fs : Nat → Dg.FaceIn ℝ := fun fa => ⟨false, true, none, 0, ⟨true, false, false⟩, (F 0 fa).fsE, [], ⟨Dg.mk3 9 10 1 Tn, none, none⟩, none⟩ with hfs
  have hset : SetUp3 (1/100) (1/100) exTet1 exM (fun _ => exM) (ν 0) (fun fa => (fs fa).freeSurface) E.starE E.fsL (fun fa => (fs fa).fsE) := by
    have : (fun fa => (fs fa).freeSurface) = fun fa => (F 0 fa).freeSurface := by funext fa; rw [(h3 0 fa).2.1]
    rw [this]; exact hs
  obtain ⟨FL, FN, f1, f2, -⟩ := consistent3 (fs := fs) exC3_fit rfl hset s2 s3
  have hf : Faces exC3 .tet true ((List.range 4).map fs) fs (fun _ => Tn) :=
    ⟨fun fa (h : fa < 4) => by simp [rd, h], fun fa _ h => (by cases h), fun fa _ _ => ⟨rfl, Dg.assemble_eq (t := ⟨Dg.mk3 9 10 1 Tn, none, none⟩) (Dg.rep_mk _ _ _ _) _ _⟩⟩
  obtain ⟨E', cm', P, k1, -, -, -, k2⟩ := C97_step3 (o := 3) (by decide) exC3_fits exC3_fit rfl h4 dT hset hf (Dg.rep_mk 9 10 1 (u 0)) (Dg.ckMem0_out exC3)
    (sc0 := List.replicate 54 0) (sc1 := List.replicate 54 0) (by simp [exC3]) (by simp [exC3]) (by
      intro cm' T hck hT
      obtain ⟨E2, cm2, -, -, k1, k2, -⟩ := local_any exC3_fits exC3_fit h4 dT s1 f1 (Dg.rep_mk 9 10 1 (u 0)) (Dg.ckMem0_out exC3)
        (sc0 := List.replicate 54 0) (sc1 := List.replicate 54 0) (by simp [exC3]) (by simp [exC3])
      have hcm : cm' = cm2 := Option.some_inj.1 (hck.symm.trans k1)
      subst hcm
      refine fun fa hfa => ⟨fun _ _ q hq md hmd r hr => k2.unique hT hq hmd hr, fun r hr x y => ?_⟩
      have hst : ∀ k : Fin 9, state 9 .tet 3 T r (elPt .tet fa x y) k = ∫ τ in (0:ℝ)..dT, recon .tet 3 (fun md => u 0 k.val md r) (elPt .tet fa x y) := by
        intro k
        rw [← hsol.tInt (by decide) (by decide) exC3_fit 0 dT k.2 hr]
        exact recon_congr (fun md hmd => hT.unique k2 k.2 hmd hr) _
      have hz : ∀ k : Fin 9, k.val < 6 → state 9 .tet 3 T r (elPt .tet fa x y) k = 0 := by
        intro k hk
        rw [hst k]
        have : recon .tet 3 (fun md => u 0 k.val md r) (elPt .tet fa x y) = 0 := by
          rw [← physEval_pt hs.tols.1 (by decide) hs.regular _ (x := faceX .tet exTet1 fa x y) (fun d _ => rfl), g2 trivial r hr k.val k.2, exRot, if_neg (by omega), if_neg (by omega)]
        simp [this]
      simp only [Quiet, hfs, Bool.false_eq_true, if_false, if_true]
      exact stress3_zero (fun i => hz _ (by simp)) _)
  exact ⟨lT, lV, LN, FT, E.starE, E.fsL, (List.range 4).map fs, _, E', cm', _, k1, k2⟩

/-- C97_step2: a time step of an element with free surfaces which rotates. -/
example (dT : ℝ) : ∃ (lT lV LN FT starE fsL : List (List ℝ)) (fl : List (Dg.FaceIn ℝ)) (dofs E' : List ℝ) (cm' : Dg.CkMem ℝ) (u : Nat → Nat → Nat → ℝ),
    stepEl exC2 dT lT lV LN FT starE [] [] fsL [] [] true fl dofs [] (Dg.ckMem0 exC2) (List.replicate 40 0) (List.replicate 40 0) = some (E', [], cm') ∧
    Dg.Rep exC2.nQtsE exC2.nMds exC2.nCrs E' u := by
  obtain ⟨ν, F, els, lT, lV, LN, FT, h1, -, h3, h4, h5, h6⟩ := C97_full2 (o := 4) (by decide) exC2_fits exC2_fit rfl (N := 1) (tol := 1/100) (tolL := 1/100) (by norm_num) (by norm_num)
    (ves := fun _ => (exSq 0)) (fun _ _ => by rw [exSq_det]; norm_num) (m := fun _ => exM) (m' := fun _ _ => exM) (fun _ _ => ⟨exM_el, fun _ _ => exM_el⟩)
    (out := fun _ _ => false) (free := fun _ _ => true) (vId := fun _ _ => none) (fId := fun _ _ => 0) (ne := fun _ _ => 0) (fun _ _ _ _ => ⟨by norm_num, fun _ h => by cases h⟩)
    (t := fun _ _ _ => 0) (fun _ _ _ _ _ h => by cases h)
  have hw : ∀ el < 1, True → ∀ r < exC2.nCrs, Wave2 exM 4 (exRot 3) := fun _ _ _ _ _ => exRot2 exM
  obtain ⟨st0, u, -, g3⟩ := h6 (R := fun _ => True) (w := fun _ _ => exRot 3) hw 0
  obtain ⟨-, g2⟩ := g3 0 (by omega)
  obtain ⟨hs, -⟩ := h5 0 _ (List.getElem?_eq_getElem (by omega))
  set E := els[0]
  obtain ⟨J, S, s1, s2, s3⟩ := star2_spec hs.tols.2 hs.star
  have hsol : Solution exC2 .tria 4 S (fun _ => u 0) := by
    refine Solution.of_phys (by decide) exC2_fit hs.tols.1 hs.regular s2 (A := fun d => if h : d < 2 then Gen.ext (jac2 exM.rho exM.lam exM.mu ⟨d, h⟩) else fun _ _ => 0)
      s3 (w := fun _ => exRot 3) (fun r hr q hq τ x => g2 trivial r hr q hq x) ?_
    exact fun r hr q hq τ x => elastic2_op ((exRot2 exM).eqs τ x) hq
  set Tn := tInt exC2 .tria 4 S (u 0) dT
  set fs : Nat → Dg.FaceIn ℝ := fun fa => ⟨false, true, none, 0, ⟨true, false, false⟩, (F 0 fa).fsE, [], ⟨Dg.mk3 5 10 2 Tn, none, none⟩, none⟩ with hfs
  have hset : SetUp2 (1/100) (1/100) (exSq 0) exM (fun _ => exM) (ν 0) (fun fa => (fs fa).freeSurface) E.starE E.fsL (fun fa => (fs fa).fsE) := by
    have : (fun fa => (fs fa).freeSurface) = fun fa => (F 0 fa).freeSurface := by funext fa; rw [(h3 0 fa).2.1]
    rw [this]; exact hs
  obtain ⟨FL, FN, f1, f2, -⟩ := consistent2 (fs := fs) exC2_fit rfl hset s2 s3
  have hf : Faces exC2 .tria true ((List.range 3).map fs) fs (fun _ => Tn) :=
    ⟨fun fa (h : fa < 3) => by simp [rd, h], fun fa _ h => (by cases h), fun fa _ _ => ⟨rfl, Dg.assemble_eq (t := ⟨Dg.mk3 5 10 2 Tn, none, none⟩) (Dg.rep_mk _ _ _ _) _ _⟩⟩
  obtain ⟨E', cm', P, k1, -, -, -, k2⟩ := C97_step2 (o := 4) (by decide) exC2_fits exC2_fit rfl h4 dT hset hf (Dg.rep_mk 5 10 2 (u 0)) (Dg.ckMem0_out exC2)
    (sc0 := List.replicate 40 0) (sc1 := List.replicate 40 0) (by simp [exC2]) (by simp [exC2]) (by
      intro cm' T hck hT
      obtain ⟨E2, cm2, -, -, k1, k2, -⟩ := local_any exC2_fits exC2_fit h4 dT s1 f1 (Dg.rep_mk 5 10 2 (u 0)) (Dg.ckMem0_out exC2)
        (sc0 := List.replicate 40 0) (sc1 := List.replicate 40 0) (by simp [exC2]) (by simp [exC2])
      have hcm : cm' = cm2 := Option.some_inj.1 (hck.symm.trans k1)
      subst hcm
      refine fun fa hfa => ⟨fun _ _ q hq md hmd r hr => k2.unique hT hq hmd hr, fun r hr x y => ?_⟩
      have hst : ∀ k : Fin 5, state 5 .tria 4 T r (elPt .tria fa x y) k = ∫ τ in (0:ℝ)..dT, recon .tria 4 (fun md => u 0 k.val md r) (elPt .tria fa x y) := by
        intro k
        rw [← hsol.tInt (by decide) (by decide) exC2_fit 0 dT k.2 hr]
        exact recon_congr (fun md hmd => hT.unique k2 k.2 hmd hr) _
      have hz : ∀ k : Fin 5, k.val < 3 → state 5 .tria 4 T r (elPt .tria fa x y) k = 0 := by
        intro k hk
        rw [hst k]
        have : recon .tria 4 (fun md => u 0 k.val md r) (elPt .tria fa x y) = 0 := by
          rw [← physEval_pt hs.tols.1 (by decide) hs.regular _ (x := faceX .tria (exSq 0) fa x y) (fun d _ => rfl), g2 trivial r hr k.val k.2, exRot, if_neg (by omega), if_neg (by omega)]
        simp [this]
      simp only [Quiet, hfs, Bool.false_eq_true, if_false, if_true]
      exact stress2_zero (hz 0 (by decide)) (hz 1 (by decide)) (hz 2 (by decide)) _)
  exact ⟨lT, lV, LN, FT, E.starE, E.fsL, (List.range 3).map fs, _, E', cm', _, k1, k2⟩

end Edge.Step
