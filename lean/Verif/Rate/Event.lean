import Verif.Rate.Terms
/-!
Updates of an element.
-/
namespace Edge.Rate
open Edge Edge.Map Edge.Quad Edge.Basis Edge.Proj Edge.Gen Edge.Flux Edge.Step

variable {c : Dg.Cfg} {e : Ent} {o : Nat} {lT lV LN FT : List (List ℝ)} {els : List (REl ℝ)} {sc0 sc1 : List ℝ}

/-- Derivatives which are stored by the time prediction. -/
theorem ck_ders (hc : Fit c e o) (hst : Stored c e o lT lV LN FT) {dT : ℝ} {starE : List (List ℝ)} {S : Nat → Nat → Nat → ℝ}
    (hS : Dg.Mats c.nDis c.nQtsE c.nQtsE c.nQtsE starE S) {dofsE : List ℝ} {u : Modes} (he : Dg.Rep c.nQtsE c.nMds c.nCrs dofsE u) {m m' : Dg.CkMem ℝ} (hm : Dg.CkOut c m)
    (h : Dg.ck c dT lT starE [] [] [] dofsE [] m = some m') :
    Dg.Ders c m'.derE (der c e o S u) ∧ ∀ n < c.oTi, ∀ q md r, c.ck n ≤ md → md < c.nMds → der c e o S u n q md r = 0 := by
  have hno : ∀ {p : Prop} {i : Nat}, i < c.nRms → p := fun h => absurd h (by rw [hc.rms]; omega)
  have hm3 : Dg.Mats3 c starE [] [] [] S S S (fun _ => 0) := ⟨hS, fun h => hno h, fun i hi => hno hi, fun i hi => hno hi⟩
  have hA : Dg.PerRm c (fun _ => u) [] := ⟨hc.rms.symm, fun i hi => hno hi⟩
  obtain ⟨l, s1, s2⟩ := storeT e o
  rw [hst.stiffT, Option.some.injEq] at s1
  subst s1
  have hGT : Dg.Mats c.nDis c.nMds c.nMds c.nMds lT (GT e o) := by
    rw [hc.dis, hc.mds]; exact s2 _ (fun di m md h => by rw [GT, dif_pos h])
  obtain ⟨m2, k0, -, k2, -⟩ := Dg.C74_ck_partial (dT := dT) hc.sizes hGT (hier hc.toShape) hm3 he hA hm
  rw [h, Option.some.injEq] at k0
  subst k0
  refine ⟨k2, fun n _ q md r h1 h2 => ?_⟩
  rw [hc.ck] at h1
  rw [hc.mds] at h2
  by_cases he : e = .tria ∨ e = .tet
  · rw [ck_simplex he] at h1
    exact derivs_low he hc _ _ _ _ _ _ _ n q md r h1 h2
  · rw [ck_other he] at h1; omega

theorem loc_spec (hF : Fits c e o) (hc : Fit c e o) (hst : Stored c e o lT lV LN FT) (h0 : sc0.length = c.nQtsE * c.nMdsFa * c.nCrs) (h1 : sc1.length = c.nQtsE * c.nMdsFa * c.nCrs)
    {dt : Nat → Nat → ℝ} {el : Nat} {E : REl ℝ} (hE : els[el]? = some E) {S FL : Nat → Nat → Nat → ℝ} (hS : Dg.Mats c.nDis c.nQtsE c.nQtsE c.nQtsE E.starE S)
    (hL : Dg.Mats c.nFas c.nQtsE c.nQtsE c.nQtsE E.fsL FL) {st : List (RSt ℝ)} {x : RSt ℝ} (hx : st[el]? = some x) {u s : Modes} (hu : Dg.Rep c.nQtsE c.nMds c.nCrs x.dofs u)
    (hm : Dg.CkOut c x.mem) (hl : E.isLt = true → ∃ b, x.lt = some b ∧ Dg.Rep c.nQtsE c.nMds c.nCrs b s)
    (hg : E.isGt = true → ∃ b, x.gt = some b ∧ b.length = c.nQtsE * c.nMds * c.nCrs) :
    ∃ y, locEl c dt lT lV LN FT els sc0 sc1 st el = some (st.set el y) ∧ y.nl = x.nl + 1 ∧ y.nn = x.nn ∧
      Dg.Rep c.nQtsE c.nMds c.nCrs y.dofs (u + locTerm c e o S FL (tInt c e o S u (dt E.tg x.nl))) ∧ Dg.CkOut c y.mem ∧
      Dg.Rep c.nQtsE c.nMds c.nCrs y.mem.tIntE (tInt c e o S u (dt E.tg x.nl)) ∧
      (E.isLt = true → ∃ b, y.lt = some b ∧ Dg.Rep c.nQtsE c.nMds c.nCrs b (fun q md r => (if x.nl % 2 = 0 then 0 else s q md r) + tInt c e o S u (dt E.tg x.nl) q md r)) ∧
      (E.isGt = true → ∃ b, y.gt = some b ∧ Dg.Rep c.nQtsE c.nMds c.nCrs b (tInt c e o S u (1 / 2 * dt E.tg x.nl))) := by
  obtain ⟨E', m', l0, l1, l2, l3, l4⟩ := local_any hF hc hst (dt E.tg x.nl) hS hL hu hm h0 h1
  obtain ⟨d1, d2⟩ := ck_ders hc hst hS hu hm l2
  obtain ⟨lt', gt', t1, t2, t3⟩ := localLts_spec hc.sizes (a := E.isLt) (b := E.isGt) (f := x.nl % 2 == 0) (dt := dt E.tg x.nl) l3 d1 (fun _ => d2) hl hg
  have hlt : el < st.length := (List.getElem?_eq_some_iff.1 hx).1
  refine ⟨⟨E', m', lt', gt', x.nl + 1, x.nn⟩, ?_, rfl, rfl, l4.congr (fun q md r _ _ _ => ?_), l1, l3, fun h => ?_, fun h => ?_⟩
  · simp only [locEl, show rd els el = some E from hE, show rd st el = some x from hx, l0, t1, Option.bind_eq_bind, Option.bind_some]
    exact wr_some hlt _
  · rw [rhs_aux hc.rms _ _ _ _ (fun _ => tInt c e o S u (dt E.tg x.nl))]
    exact add_assoc _ _ _
  · obtain ⟨b, b1, b2⟩ := t2 h
    exact ⟨b, b1, b2.congr (fun q md r _ _ _ => by simp)⟩
  · obtain ⟨b, b1, b2⟩ := t3 h
    exact ⟨b, b1, b2.congr (fun q md r _ _ _ => by rw [tInt, hc.ord])⟩

theorem nei_spec (hF : Fits c e o) (hc : Fit c e o) (hst : Stored c e o lT lV LN FT) (h0 : sc0.length = c.nQtsE * c.nMdsFa * c.nCrs) (h1 : sc1.length = c.nQtsE * c.nMdsFa * c.nCrs)
    {el : Nat} {E : REl ℝ} (hE : els[el]? = some E) {F : Nat → MFace ℝ} {FN : Nat → Nat → Nat → ℝ} (hfa : FacesOk e els.length E.faces F)
    (hN : ∀ fa < c.nFas, (F fa).outflow = false → Dg.Mat c.nQtsE c.nQtsE c.nQtsE (F fa).fsE (FN fa)) {ad : Nat → Dg.AdBits} (had : ∀ fa < e.nFa, E.ad[fa]? = some (ad fa))
    {st : List (RSt ℝ)} {x : RSt ℝ} (hx : st[el]? = some x) {u : Modes} (hu : Dg.Rep c.nQtsE c.nMds c.nCrs x.dofs u) {Tn : Nat → Modes}
    (hT : ∀ fa < e.nFa, (F fa).outflow = false → ∃ y, st[(F fa).nb el]? = some y ∧
      ∃ t, Dg.assemble c (ad fa).eq (ad fa).gt (x.nn % 2 == 0) y.tDofs = some t ∧ Dg.Rep c.nQtsE c.nMds c.nCrs t (Tn fa)) :
    ∃ d, neiEl c LN FT els sc0 sc1 st el = some (st.set el { x with dofs := d, nn := x.nn + 1 }) ∧ Dg.Rep c.nQtsE c.nMds c.nCrs d (u + neiTerm c e o F FN Tn) := by
  have hno : ∀ {p : Prop} {i : Nat}, i < c.nRms → p := fun h => absurd h (by rw [hc.rms]; omega)
  obtain ⟨a3, a4⟩ := hfa
  obtain ⟨fl, f1, f2⟩ : ∃ fl, facesIn (st.map (·.tDofs)) el E.faces E.ad = some fl ∧ ∀ fa < c.nFas, ∃ t, rd fl fa = some (toIn (F fa) (ad fa) t) ∧
      ((F fa).outflow = false → ∃ y, Dg.assemble c (ad fa).eq (ad fa).gt (x.nn % 2 == 0) t = some y ∧ Dg.Rep c.nQtsE c.nMds c.nCrs y (Tn fa)) := by
    have key : ∀ fa < e.nFa, ∃ t, (if (F fa).outflow then some ⟨[], none, none⟩ else rd (st.map (·.tDofs)) ((F fa).nb el)) = some t ∧
        ((F fa).outflow = false → ∃ y, Dg.assemble c (ad fa).eq (ad fa).gt (x.nn % 2 == 0) t = some y ∧ Dg.Rep c.nQtsE c.nMds c.nCrs y (Tn fa)) := by
      intro fa hfa
      rcases hout : (F fa).outflow with _ | _
      · obtain ⟨y, b1, b2⟩ := hT fa hfa hout
        exact ⟨y.tDofs, by simp [rd, b1], fun _ => b2⟩
      · exact ⟨⟨[], none, none⟩, rfl, by simp⟩
    have : Inhabited (Dg.TDofs ℝ) := ⟨⟨[], none, none⟩⟩
    choose! t k1 k2 using key
    refine ⟨(List.range e.nFa).map (fun fa => toIn (F fa) (ad fa) (t fa)), ?_, ?_⟩
    · rw [facesIn, Face.mapM_some_iff, a3, List.forall₂_map_right_iff, List.forall₂_same]
      intro fa hfa
      have hfa := List.mem_range.1 hfa
      simp only [show rd E.faces fa = some (F fa) from (a4 fa hfa).1, show rd E.ad fa = some (ad fa) from had fa hfa, Option.bind_eq_bind, Option.bind_some]
      have k := k1 fa hfa
      rcases hout : (F fa).outflow with _ | _
      · rw [hout] at k
        simp only [Bool.false_eq_true, if_false] at k ⊢
        rw [k, Option.bind_some]
      · rw [hout] at k
        simp only [if_true] at k ⊢
        rw [Option.some.inj k]
    · intro fa hfa
      rw [hF.fas] at hfa
      exact ⟨t fa, by simp [rd, hfa], k2 fa hfa⟩
  have : Inhabited (Dg.TDofs ℝ) := ⟨⟨[], none, none⟩⟩
  choose! t t1 t2 using f2
  obtain ⟨LN', FT', E3, A3, x0, x1, x2, x3⟩ := C94_neigh hF (rfs := []) (rf := fun _ => 0) (firstTs := x.nn % 2 == 0) (FE := FN) (FA := FN)
    (T := Tn) (fs := fun fa => toIn (F fa) (ad fa) (t fa)) t1 (fun fa hfa ho => hN fa hfa ho) (fun _ _ _ h => hno h) (fun i hi => hno hi)
    (fun fa hfa => (a4 fa (by rw [← hF.fas]; exact hfa)).2.2) (fun fa hfa hout => ⟨rfl, t2 fa hfa hout⟩) hu (da := fun _ => u) (dofsA := []) ⟨hc.rms.symm, fun i hi => hno hi⟩ h0 h1
  rw [hst.flux, Option.some.injEq, Prod.mk.injEq] at x0
  obtain ⟨rfl, rfl⟩ := x0
  have hlt : el < st.length := (List.getElem?_eq_some_iff.1 hx).1
  refine ⟨E3, ?_, x2.congr (fun q md r _ _ _ => rfl)⟩
  simp only [neiEl, show rd els el = some E from hE, show rd st el = some x from hx, f1, x1, Option.bind_eq_bind, Option.bind_some]
  exact wr_some hlt _

end Edge.Rate
