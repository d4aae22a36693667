import Verif.Fs.Model
/-!
Set-up of all flux solvers of a mesh: C96.
-/
namespace Edge.Fs
open Edge Edge.Seismic

theorem findFa_none (I : In) (fa : Nat) : findFa I none fa = some none := rfl

/-- Search in an element which has the face. -/
theorem findFa_pos {I : In} (h : Ok I) {el fa i : Nat} (hel : el < I.nEls) (hi : i < I.ty.nFa) (hf : I.elFa[el * I.ty.nFa + i]? = some fa) :
    findFa I (some el) fa = some (some i) := by
  obtain ⟨t, h1, h2⟩ := forN_inv (n := I.ty.nFa) (s := (none : Option Nat)) (body := fun fi r => do
      if (← rd I.elFa (el * I.ty.nFa + fi)) = fa then do
        check r.isNone
        return some fi
      else return r) (P := fun k r => r = if i < k then some i else none) (by simp) (by
    rintro k r hk rfl
    have hlt : el * I.ty.nFa + k < I.elFa.length := by
      rw [h.elFa_len]; have := Nat.mul_le_mul_right I.ty.nFa (Nat.succ_le_of_lt hel); rw [Nat.succ_mul] at this; omega
    by_cases hki : k = i
    · subst hki
      refine ⟨some k, by simp [rd, hf], by simp⟩
    · have hne : I.elFa[el * I.ty.nFa + k] ≠ fa := by
        intro e
        refine hki (h.uniq el hel k hk i hi ?_)
        rw [List.getElem?_eq_getElem hlt, e, hf]
      refine ⟨if i < k then some i else none, by simp [rd_some hlt, hne], ?_⟩
      have : i < k + 1 ↔ i < k := by omega
      simp [this])
  rw [if_pos hi] at h2
  rw [findFa]; simp only [h1, h2]

/-- Search in an element which does not have the face. -/
theorem findFa_neg {I : In} (h : Ok I) {el fa : Nat} (hel : el < I.nEls) (hf : ∀ i < I.ty.nFa, I.elFa[el * I.ty.nFa + i]? ≠ some fa) :
    findFa I (some el) fa = some none := by
  obtain ⟨t, h1, rfl⟩ := forN_inv (n := I.ty.nFa) (s := (none : Option Nat)) (body := fun fi r => do
      if (← rd I.elFa (el * I.ty.nFa + fi)) = fa then do
        check r.isNone
        return some fi
      else return r) (P := fun k r => r = none) rfl (by
    rintro k r hk rfl
    have hlt : el * I.ty.nFa + k < I.elFa.length := by
      rw [h.elFa_len]; have := Nat.mul_le_mul_right I.ty.nFa (Nat.succ_le_of_lt hel); rw [Nat.succ_mul] at this; omega
    have hne : I.elFa[el * I.ty.nFa + k] ≠ fa := by
      intro e; exact hf k hk (by rw [List.getElem?_eq_getElem hlt, e])
    exact ⟨none, by simp [rd_some hlt, hne], rfl⟩)
  rw [findFa]; simp only [h1]

theorem findRe_spec {I : In} (h : Ok I) {el i : Nat} (hm : (el, i) ∈ I.recv) :
    ∃ (m : Material) (co : Nat), findRe I el i = some m ∧ I.recv[co]? = some (el, i) ∧ (∀ co' < co, I.recv[co']? ≠ some (el, i)) ∧ I.bgParsRe[co]? = some m := by
  obtain ⟨k, hk, he⟩ := List.getElem_of_mem hm
  have hs : ((List.range I.recv.length).find? (fun co => I.recv[co]? = some (el, i))).isSome := by
    rw [List.find?_isSome]
    exact ⟨k, by simpa using hk, by simp [List.getElem?_eq_getElem hk, he]⟩
  obtain ⟨co, hco⟩ := Option.isSome_iff_exists.1 hs
  have h1 := List.find?_range_eq_some.1 hco
  have hlt : co < I.bgParsRe.length := by rw [h.bgParsRe_len]; simpa using h1.2.1
  refine ⟨I.bgParsRe[co], co, by simp [findRe, hco, rd_some hlt], by simpa using h1.1, fun co' hc' => ?_, List.getElem?_eq_getElem hlt⟩
  simpa using h1.2.2 co' hc'

/-- The solver can be set up for all faces. -/
def SetsUp (I : In) (setUp : Material → Material → (Fin 3 → ℝ) → (Fin 3 → ℝ) → (Fin 3 → ℝ) → Bool → Option FaceFs) : Prop :=
  ∀ m m' ch, m ∈ I.bgPars → m' ∈ I.bgPars ∨ m' ∈ I.bgParsRe → ch ∈ I.faChars → (∀ b, ∃ F, setUp m m' ch.n ch.s ch.t b = some F) ∧ ∃ F, setUp m m' (-ch.n) ch.s ch.t false = some F

theorem scalar_spec {I : In} (h : Ok I) {el : Nat} (hel : el < I.nEls) {ch : FaChars} (hc : ch ∈ I.faChars) :
    ∃ d, elDet I el = some d ∧ scalar I ch el = some (-(if I.ty = .tet then 2 else 1) * ch.area / d) := by
  obtain ⟨d, hd, hp⟩ := h.det el hel
  refine ⟨d, hd, ?_⟩
  simp only [scalar, hd, Option.bind_eq_bind, Option.bind_some, decide_eq_true hp, decide_eq_true (h.area ch hc), check_true, Option.pure_def, Option.some.injEq]
  split <;> ring

theorem scaleAt_some {fs : List (Option FaceFs)} {p : Nat} {F : FaceFs} (h : fs[p]? = some (some F)) (c : ℝ) :
    scaleAt fs p c = some (fs.set p (some (scale c F))) := by
  have hl : p < fs.length := by
    by_contra hc; rw [List.getElem?_eq_none (by omega)] at h; cases h
  simp [scaleAt, rd, h, wr_some hl]

theorem pos_lt {nEls n el i : Nat} (hel : el < nEls) (hi : i < n) : el * n + i < nEls * n := by
  have := Nat.mul_le_mul_right n (Nat.succ_le_of_lt hel); rw [Nat.succ_mul] at this; omega

theorem pos_inj {n a b i j : Nat} (hi : i < n) (hj : j < n) (h : a * n + i = b * n + j) : a = b ∧ i = j := by
  have hn : 0 < n := by omega
  have h1 : (a * n + i) / n = a := by rw [Nat.add_comm, Nat.add_mul_div_right _ _ hn, Nat.div_eq_of_lt hi]; omega
  have h2 : (b * n + j) / n = b := by rw [Nat.add_comm, Nat.add_mul_div_right _ _ hn, Nat.div_eq_of_lt hj]; omega
  rw [h, h2] at h1
  subst h1; exact ⟨rfl, by omega⟩

theorem initFace_eq {I : In} {setUp} {fa l : Nat} {o fIdL fIdR : Option Nat} {ch : FaChars} {mL mR : Material} {fs : List (Option FaceFs)}
    (e1 : I.faEl[fa]? = some (some l, o)) (e3 : I.faChars[fa]? = some ch) (fL : findFa I (some l) fa = some fIdL) (fR : findFa I o fa = some fIdR)
    (c1 : (fIdL.isSome || ch.periodic) = true) (c2 : (o.isNone || fIdR.isSome || ch.periodic) = true) (e4 : I.bgPars[l]? = some mL)
    (hm : matR I ch l o fIdL mL = some mR) : initFace I setUp fa fs = solve I setUp ch l o fIdL fIdR mL mR fs := by
  simp only [initFace, rd, e1, e3, Option.bind_eq_bind, Option.bind_some, fL, fR, Option.isNone_some, Bool.false_or, c1, c2, check_true, e4, hm]

/-- One face: the slots of the face are set, all other slots are kept. -/
theorem initFace_spec {I : In} {setUp} (h : Ok I) (hs : SetsUp I setUp) {fa : Nat} (hfa : fa < I.nFas) {fs : List (Option FaceFs)}
    (hl : fs.length = I.nEls * I.ty.nFa) :
    ∃ fs', initFace I setUp fa fs = some fs' ∧ fs'.length = I.nEls * I.ty.nFa ∧
      (∀ el < I.nEls, ∀ i < I.ty.nFa, I.elFa[el * I.ty.nFa + i]? = some fa → ∃ x, fs'[el * I.ty.nFa + i]? = some (some x) ∧ Slot I setUp el i x) ∧
      ∀ el < I.nEls, ∀ i < I.ty.nFa, I.elFa[el * I.ty.nFa + i]? ≠ some fa → fs'[el * I.ty.nFa + i]? = fs[el * I.ty.nFa + i]? := by
  obtain ⟨l, o, fl, e1, hlt, hfl, e2⟩ := h.left fa hfa
  have hch : fa < I.faChars.length := by rw [h.faChars_len]; exact hfa
  obtain ⟨ch, e3⟩ : ∃ ch, I.faChars[fa]? = some ch := ⟨_, List.getElem?_eq_getElem hch⟩
  have hmem : ch ∈ I.faChars := List.mem_of_getElem? e3
  have hml : l < I.bgPars.length := by rw [h.bgPars_len]; exact hlt
  obtain ⟨mL, e4⟩ : ∃ m, I.bgPars[l]? = some m := ⟨_, List.getElem?_eq_getElem hml⟩
  obtain ⟨dL, e5, e6⟩ := scalar_spec h hlt hmem
  have hpL : l * I.ty.nFa + fl < fs.length := by rw [hl]; exact pos_lt hlt hfl
  -- only the first element has the face
  have single : ∀ mR, (∀ el < I.nEls, ∀ i < I.ty.nFa, I.elFa[el * I.ty.nFa + i]? = some fa → el = l) →
      (mR ∈ I.bgPars ∨ mR ∈ I.bgParsRe) → Behind I l fl mR →
      ∃ F, setUp mL mR ch.n ch.s ch.t ch.freeSurface = some F ∧
        (∀ el < I.nEls, ∀ i < I.ty.nFa, I.elFa[el * I.ty.nFa + i]? = some fa → ∃ x,
          (fs.set (l * I.ty.nFa + fl) (some (scale (-(if I.ty = .tet then 2 else 1) * ch.area / dL) F)))[el * I.ty.nFa + i]? = some (some x) ∧ Slot I setUp el i x) ∧
        ∀ el < I.nEls, ∀ i < I.ty.nFa, I.elFa[el * I.ty.nFa + i]? ≠ some fa →
          (fs.set (l * I.ty.nFa + fl) (some (scale (-(if I.ty = .tet then 2 else 1) * ch.area / dL) F)))[el * I.ty.nFa + i]? = fs[el * I.ty.nFa + i]? := by
    intro mR hown hmR hbeh
    obtain ⟨F, hF⟩ := (hs mL mR ch (List.mem_of_getElem? e4) hmR hmem).1 ch.freeSurface
    refine ⟨F, hF, ?_, ?_⟩
    · intro el hel i hi he
      obtain rfl := hown el hel i hi he
      obtain rfl := h.uniq el hel i hi fl hfl (he.trans e2.symm)
      exact ⟨_, List.getElem?_set_self hpL, fa, el, o, ch, mL, mR, dL, F, e2, e1, e3, e4, hbeh, e5, by rw [if_pos rfl]; exact hF, rfl⟩
    · intro el hel i hi he
      refine List.getElem?_set_ne ?_
      intro heq
      obtain ⟨rfl, rfl⟩ := pos_inj hfl hi heq
      exact he e2
  have own : ∀ el < I.nEls, ∀ i < I.ty.nFa, I.elFa[el * I.ty.nFa + i]? = some fa → el = l ∨ o = some el := by
    intro el hel i hi he
    obtain ⟨f, hf, k1, l', r', k2, k3⟩ := h.owner el hel i hi
    rw [he, Option.some.injEq] at k1
    subst k1
    rw [e1, Option.some.injEq, Prod.mk.injEq] at k2
    obtain ⟨rfl, rfl⟩ := k2
    rcases k3 with k3 | k3
    · left; simpa using k3.symm
    · right; exact k3
  have fL := findFa_pos h hlt hfl e2
  rcases o with _ | r
  · -- boundary or another partition
    have hown : ∀ el < I.nEls, ∀ i < I.ty.nFa, I.elFa[el * I.ty.nFa + i]? = some fa → el = l := by
      intro el hel i hi he
      rcases own el hel i hi he with h' | h'
      · exact h'
      · cases h'
    have hmR : ∃ mR, (if ch.outflow || ch.freeSurface then some mL else if I.nElsIn ≤ l then findRe I l fl else none) = some mR ∧
        (mR ∈ I.bgPars ∨ mR ∈ I.bgParsRe) ∧ Behind I l fl mR := by
      by_cases hb : (ch.outflow || ch.freeSurface) = true
      · refine ⟨mL, by rw [if_pos hb], Or.inl (List.mem_of_getElem? e4), fa, l, none, ch, e2, e1, e3, Or.inr (Or.inr (Or.inl ⟨rfl, rfl, ?_, e4⟩))⟩
        simpa using hb
      · have hb' : ch.outflow = false ∧ ch.freeSurface = false := by simpa using hb
        obtain ⟨k1, k2⟩ := h.bnd fa l ch e1 e3 hb'.1 hb'.2
        obtain ⟨m, co, j1, j2, j3, j4⟩ := findRe_spec h (k2 fl hfl e2)
        exact ⟨m, by rw [if_neg hb, if_pos k1, j1], Or.inr (List.mem_of_getElem? j4), fa, l, none, ch, e2, e1, e3, Or.inr (Or.inr (Or.inr ⟨rfl, rfl, hb'.1, hb'.2, co, j2, j3, j4⟩))⟩
    obtain ⟨mR, k1, k2, k3⟩ := hmR
    obtain ⟨F, hF, p1, p2⟩ := single mR hown k2 k3
    refine ⟨_, ?_, ?_, p1, p2⟩
    · refine (initFace_eq e1 e3 fL (findFa_none I fa) (by simp) (by simp) e4 (mR := mR) (by simpa [matR] using k1)).trans ?_
      simp only [solve, Option.bind_eq_bind, Option.bind_some, hF, wr_some hpL, e6]
      rw [scaleAt_some (List.getElem?_set_self hpL), List.set_set]
    · rw [List.length_set, hl]
  · obtain ⟨hr, hlr, hr2⟩ := h.right fa hfa _ _ e1
    have hlr' : l ≠ r := by simpa using hlr
    have hmr : r < I.bgPars.length := by rw [h.bgPars_len]; exact hr
    obtain ⟨mR, g4⟩ : ∃ m, I.bgPars[r]? = some m := ⟨_, List.getElem?_eq_getElem hmr⟩
    have hbeh : Behind I l fl mR := ⟨fa, l, some r, ch, e2, e1, e3, Or.inl ⟨rfl, r, rfl, g4⟩⟩
    by_cases hex : ∃ i < I.ty.nFa, I.elFa[r * I.ty.nFa + i]? = some fa
    · obtain ⟨fr, hfr, g2⟩ := hex
      have fR := findFa_pos h hr hfr g2
      obtain ⟨dR, g5, g6⟩ := scalar_spec h hr hmem
      have hfree : ch.freeSurface = false := by
        by_contra hc
        have := h.free fa _ _ ch e1 e3 (by simpa using hc)
        cases this
      have hpR : r * I.ty.nFa + fr < fs.length := by rw [hl]; exact pos_lt hr hfr
      have hne : l * I.ty.nFa + fl ≠ r * I.ty.nFa + fr := fun he => hlr' (pos_inj hfl hfr he).1
      obtain ⟨F, hF⟩ := (hs mL mR ch (List.mem_of_getElem? e4) (Or.inl (List.mem_of_getElem? g4)) hmem).1 ch.freeSurface
      obtain ⟨G, hG⟩ := (hs mR mL ch (List.mem_of_getElem? g4) (Or.inl (List.mem_of_getElem? e4)) hmem).2
      refine ⟨((((fs.set (l * I.ty.nFa + fl) (some F)).set (r * I.ty.nFa + fr) (some G)).set (l * I.ty.nFa + fl)
        (some (scale (-(if I.ty = .tet then 2 else 1) * ch.area / dL) F))).set (r * I.ty.nFa + fr) (some (scale (-(if I.ty = .tet then 2 else 1) * ch.area / dR) G))), ?_, by simp [hl], ?_, ?_⟩
      · have hF' := hF
        rw [hfree] at hF'
        refine (initFace_eq e1 e3 fL fR (by simp) (by simp) e4 (mR := mR) (by simpa [matR, rd] using g4)).trans ?_
        simp only [solve, Option.bind_eq_bind, Option.bind_some, hfree, hF', wr_some hpL, Bool.not_false, check_true, hG, e6, g6]
        rw [wr_some (by simpa using hpR)]
        simp only [Option.bind_some]
        rw [scaleAt_some (F := F) (by rw [List.getElem?_set_ne hne.symm, List.getElem?_set_self hpL])]
        simp only [Option.bind_some]
        rw [scaleAt_some (F := G) (by rw [List.getElem?_set_ne hne, List.getElem?_set_self (by simpa using hpR)])]
      · intro el hel i hi he
        rcases own el hel i hi he with rfl | h'
        · obtain rfl := h.uniq el hel i hi fl hfl (he.trans e2.symm)
          refine ⟨scale (-(if I.ty = .tet then 2 else 1) * ch.area / dL) F, ?_, fa, el, some r, ch, mL, mR, dL, F, e2, e1, e3, e4, hbeh, e5, by rw [if_pos rfl]; exact hF, rfl⟩
          rw [List.getElem?_set_ne hne.symm, List.getElem?_set_self (by simpa using hpL)]
        · obtain rfl : r = el := by simpa using h'
          obtain rfl := h.uniq r hel i hi fr hfr (he.trans g2.symm)
          refine ⟨scale (-(if I.ty = .tet then 2 else 1) * ch.area / dR) G, ?_, fa, l, some r, ch, mR, mL, dR, G, g2, e1, e3, g4,
            ⟨fa, l, some r, ch, g2, e1, e3, Or.inr (Or.inl ⟨hlr', e4⟩)⟩, g5, by rw [if_neg hlr', hfree]; exact hG, rfl⟩
          rw [List.getElem?_set_self (by simpa using hpR)]
      · intro el hel i hi he
        have n1 : l * I.ty.nFa + fl ≠ el * I.ty.nFa + i := by
          intro heq; obtain ⟨rfl, rfl⟩ := pos_inj hfl hi heq; exact he e2
        have n2 : r * I.ty.nFa + fr ≠ el * I.ty.nFa + i := by
          intro heq; obtain ⟨rfl, rfl⟩ := pos_inj hfr hi heq; exact he g2
        rw [List.getElem?_set_ne n2, List.getElem?_set_ne n1, List.getElem?_set_ne n2, List.getElem?_set_ne n1]
    · -- periodic: the second element has another face
      have hper : ch.periodic = true := by
        rcases hr2 with h' | ⟨ch', k1, k2⟩
        · exact absurd h' hex
        · rw [e3, Option.some.injEq] at k1; subst k1; exact k2
      have fR := findFa_neg h hr (fa := fa) (fun i hi he => hex ⟨i, hi, he⟩)
      have hown : ∀ el < I.nEls, ∀ i < I.ty.nFa, I.elFa[el * I.ty.nFa + i]? = some fa → el = l := by
        intro el hel i hi he
        rcases own el hel i hi he with h' | h'
        · exact h'
        · obtain rfl : r = el := by simpa using h'
          exact absurd ⟨i, hi, he⟩ hex
      obtain ⟨F, hF, p1, p2⟩ := single mR hown (Or.inl (List.mem_of_getElem? g4)) hbeh
      refine ⟨_, ?_, ?_, p1, p2⟩
      · refine (initFace_eq e1 e3 fL fR (by simp) (by simp [hper]) e4 (mR := mR) (by simpa [matR, rd] using g4)).trans ?_
        simp only [solve, Option.bind_eq_bind, Option.bind_some, hF, wr_some hpL, e6]
        rw [scaleAt_some (List.getElem?_set_self hpL), List.set_set]
      · rw [List.length_set, hl]

/-- C96: for every mesh and in every order of the faces, each face of each element gets its solver: set up with the material of the element, the material behind
the face and the normal pointing out of the element, and scaled with area and volume. -/
theorem C96_solvers {I : In} {setUp} (h : Ok I) (hs : SetsUp I setUp) {ord : List Nat} (hord : ord.Perm (List.range I.nFas)) :
    ∃ fs, initFs I setUp ord = some fs ∧ fs.length = I.nEls * I.ty.nFa ∧
      ∀ el < I.nEls, ∀ i < I.ty.nFa, ∃ x, fs[el * I.ty.nFa + i]? = some (some x) ∧ Slot I setUp el i x := by
  have key : ∀ (ord : List Nat) (fs0 : List (Option FaceFs)), (∀ f ∈ ord, f < I.nFas) → fs0.length = I.nEls * I.ty.nFa →
      ∃ fs, ord.foldlM (fun fs fa => initFace I setUp fa fs) fs0 = some fs ∧ fs.length = I.nEls * I.ty.nFa ∧
        ∀ el < I.nEls, ∀ i < I.ty.nFa, ((∃ x, fs0[el * I.ty.nFa + i]? = some (some x) ∧ Slot I setUp el i x) ∨ ∃ f ∈ ord, I.elFa[el * I.ty.nFa + i]? = some f) →
          ∃ x, fs[el * I.ty.nFa + i]? = some (some x) ∧ Slot I setUp el i x := by
    intro ord
    induction ord with
    | nil =>
      intro fs0 _ hl
      refine ⟨fs0, rfl, hl, fun el hel i hi h' => ?_⟩
      rcases h' with h' | ⟨f, hf, -⟩
      · exact h'
      · cases hf
    | cons fa ord ih =>
      intro fs0 hlt hl
      obtain ⟨fs1, h1, h2, h3, h4⟩ := initFace_spec h hs (hlt fa (by simp)) hl
      obtain ⟨fs, k1, k2, k3⟩ := ih fs1 (fun f hf => hlt f (by simp [hf])) h2
      refine ⟨fs, by simp [List.foldlM_cons, h1, k1], k2, fun el hel i hi h' => ?_⟩
      by_cases he : I.elFa[el * I.ty.nFa + i]? = some fa
      · exact k3 el hel i hi (Or.inl (h3 el hel i hi he))
      · rcases h' with h' | ⟨f, hf, hf2⟩
        · exact k3 el hel i hi (Or.inl (by rw [h4 el hel i hi he]; exact h'))
        · rcases List.mem_cons.1 hf with rfl | hf
          · exact absurd hf2 he
          · exact k3 el hel i hi (Or.inr ⟨f, hf, hf2⟩)
  obtain ⟨fs, k1, k2, k3⟩ := key ord (List.replicate (I.nEls * I.ty.nFa) none) (fun f hf => by simpa using hord.mem_iff.1 hf) (by simp)
  refine ⟨fs, k1, k2, fun el hel i hi => k3 el hel i hi (Or.inr ?_)⟩
  obtain ⟨f, hf, hf2, -⟩ := h.owner el hel i hi
  exact ⟨f, hord.mem_iff.2 (by simpa using hf), hf2⟩

end Edge.Fs
