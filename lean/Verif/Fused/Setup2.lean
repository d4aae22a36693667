import Verif.Fused.Setup
/-!
Results of the constructors of the fused volume and surface integration.
-/
namespace Edge.Fused
open Edge Edge.Linalg Edge.Dg

variable {K : Type} [Field K] [LinearOrder K]

/-! ### Volume integration -/

/-- What the constructor of the volume integration leaves behind. -/
structure VolOk (c : Cfg) (ev : Env K) (pt : Pats) (st : List (List K)) (tp : Prep K) : Prop where
  pos : 0 < c.ck 1
  csc : ∀ di < c.nDis, ∃ a m vals, rd st di = some a ∧
    denseToCsc c.nMds c.nMds a ev.tol ev.big none none ev.qfma ⟨[], [], []⟩ = some m ∧
    rd tp.mats di = some vals ∧ (∀ (p : Nat) x, m.val[p]? = some x → vals[p]? = some x) ∧
    (groupOf tp.gs 0)[di]? = some ⟨false, m.ptr, m.idx, c.nQtsE, c.nMds, if c.nRms = 0 then c.ck 1 else c.nMds, 0, c.nMds, if c.nRms = 0 then 1 else 0⟩
  rows : ∀ di < c.nDis, ∀ a A, rd st di = some a → Mat c.nMds c.nMds c.nMds a A → ∀ r j, r < c.nMds → j < c.nMds → c.ck 1 ≤ r → ¬ |A r j| > ev.tol
  star : (groupOf tp.gs 1)[0]? = some ⟨true, pt.starE.ptr, pt.starE.idx, c.nQtsE, if c.nRms = 0 then c.ck 1 else c.nMds, 0, c.nMds, if c.nRms = 0 then c.ck 1 else c.nMds,
    if c.nRms = 0 then 0 else 1⟩
  an : 0 < c.nRms → pt.srcA.val.length = nzSrcA c.nDis ∧
    (groupOf tp.gs 2)[0]? = some ⟨true, pt.starA.ptr, pt.starA.idx, c.nQtsM, c.nMds, 0, c.nMds, c.nMds, 1⟩ ∧
    (groupOf tp.gs 2)[1]? = some ⟨true, pt.srcA.ptr, pt.srcA.idx, c.nQtsM, c.nMds, 0, c.nMds, c.nMds, 1⟩

theorem crdDims_spec {c : Cfg} {ev : Env K} {st : List (List K)} {cs : List (List (Entry K))} (h : crdDims c ev st = some cs) :
    ∀ di < c.nDis, ∃ a m, rd st di = some a ∧ denseToCrd c.nMds c.nMds a ev.tol = some m ∧ cs[di]? = some m := by
  have h' : forN c.nDis (fun di cs => do
      let m ← (rd st di).bind (fun a => denseToCrd c.nMds c.nMds a ev.tol)
      some (cs ++ [m])) [] = some cs := by
    rw [← h, crdDims]
    congr 1
    funext di ms
    cases rd st di <;> rfl
  obtain ⟨-, -, p3⟩ := forN_append h'
  intro di hdi
  obtain ⟨m, q1, q2⟩ := p3 di hdi
  obtain ⟨a, r1, r2⟩ := Option.bind_eq_some_iff.1 q1
  exact ⟨a, m, r1, r2, by simpa using q2⟩

omit [Field K] [LinearOrder K] in
theorem maxRow_spec {c : Cfg} {crds : List (List (Entry K))} {mx : Nat} (h : maxRow c crds = some mx) :
    ∀ di < c.nDis, ∀ crd, crds[di]? = some crd → ∀ e ∈ crd, e.ro < c.nMds → e.co < c.nMds → e.ro ≤ mx := by
  refine forN_post (P := fun n mx => ∀ di < n, ∀ crd, crds[di]? = some crd → ∀ e ∈ crd, e.ro < c.nMds → e.co < c.nMds → e.ro ≤ mx)
    (fun di hdi => absurd hdi (by omega)) ?_ h
  intro i t t' _ p he di hdi crd hcrd e hme h1 h2
  simp only [Option.bind_eq_bind, Option.bind_eq_some_iff] at he
  obtain ⟨crd', e1, b, e2, e3⟩ := he
  cases e3
  by_cases hd : di = i
  · subst hd
    rw [rd, hcrd] at e1
    cases e1
    have := ((C53_block crd (some 0) (some (c.nMds - 1)) (some 0) (some (c.nMds - 1))).2 b.1 b.2.1 b.2.2.1 b.2.2.2 e2).1 e hme (by
      simp only [InBounds, Option.some.injEq]
      refine ⟨by omega, by omega, by omega, by omega⟩)
    exact this.2.1.trans (Nat.le_max_right _ _)
  · exact (p di (by omega) crd hcrd e hme h1 h2).trans (Nat.le_max_left _ _)

theorem initVolInt_ok {c : Cfg} {ev : Env K} {pt : Pats} {st : List (List K)} {tp : Prep K} (h : initVolInt c ev pt st = some tp) : VolOk c ev pt st tp := by
  simp only [initVolInt, Option.bind_eq_bind, Option.bind_eq_some_iff] at h
  obtain ⟨⟨mx, o⟩, h1, mats, h2, gs, h3, h4⟩ := h
  cases h4
  simp only [getCscStiff, Option.bind_eq_bind, Option.bind_eq_some_iff] at h1
  obtain ⟨crds, c1, mx', c2, _, c3, ms, c4, o', c5, c6⟩ := h1
  cases c6
  have hmx : mx + 1 = c.ck 1 := by simpa using check_some.1 c3
  obtain ⟨o2, b1, b2, b3, -⟩ := pushAll_held ms (o := ⟨[], [0], [], ms⟩) (ms := []) ⟨rfl, rfl, fun k m hk => by simp at hk⟩
  rw [b1] at c5
  cases c5
  rw [List.nil_append] at b2
  obtain ⟨-, q2⟩ := cscDims_spec c4
  simp only [storeStiffSparse, Option.bind_eq_bind, Option.bind_eq_some_iff] at h2
  obtain ⟨_, -, h2⟩ := h2
  obtain ⟨-, -, a3⟩ := forN_append (f := fun k => (rd o.offs k).bind (fun off => some (o.nz.drop off))) (l0 := []) (l := mats) (by
    rw [← h2]
    congr 1
    funext k ps
    cases rd o.offs k <;> rfl)
  simp only [genVolInt, Option.bind_eq_bind, Option.bind_eq_some_iff] at h3
  obtain ⟨_, -, gs', h5, h6⟩ := h3
  have inner := forN_post (P := fun n (gs : List (List (Kern K))) => groupOf gs 2 = [] ∧ groupOf gs 1 = [] ∧ (groupOf gs 0).length = n ∧
      ∀ di < n, ∃ m, o.mats[di]? = some m ∧ (groupOf gs 0)[di]? = some ⟨false, m.ptr, m.idx, c.nQtsE, c.nMds, if c.nRms = 0 then c.ck 1 else c.nMds, 0, c.nMds,
        if c.nRms = 0 then 1 else 0⟩)
    (by exact ⟨rfl, rfl, rfl, fun _ hk => absurd hk (by omega)⟩)
    (by
      intro di u u' _ ⟨q1, q2, q3, q4⟩ he
      simp only [Option.bind_eq_some_iff] at he
      obtain ⟨m, f1, f2⟩ := he
      cases f2
      refine ⟨by rw [groupOf_add]; simpa using q1, by rw [groupOf_add]; simpa using q2, by rw [groupOf_add]; simp [q3], ?_⟩
      intro dj hdj
      rw [groupOf_add, if_pos rfl]
      by_cases e : dj = di
      · subst e
        exact ⟨m, f1, by rw [← q3, hmx]; simp⟩
      · obtain ⟨m', g1, g2⟩ := q4 dj (by omega)
        exact ⟨m', g1, by rw [List.getElem?_append_left (by omega)]; exact g2⟩) h5
  obtain ⟨i1, i2, i3, i4⟩ := inner
  rw [hmx] at h6
  have hgs : groupOf gs 0 = groupOf gs' 0 ∧ groupOf gs 1 = [⟨true, pt.starE.ptr, pt.starE.idx, c.nQtsE, if c.nRms = 0 then c.ck 1 else c.nMds, 0, c.nMds,
      if c.nRms = 0 then c.ck 1 else c.nMds, if c.nRms = 0 then 0 else 1⟩] := by
    split at h6
    · simp only [Option.bind_eq_some_iff] at h6
      obtain ⟨_, -, _, -, h6⟩ := h6
      cases h6
      simp [groupOf_add, i2]
    · cases h6
      simp [groupOf_add, i2]
  refine ⟨by omega, ?_, ?_, ?_, ?_⟩
  · intro di hdi
    obtain ⟨a, m, r1, r2, r3⟩ := q2 di hdi
    obtain ⟨vals, v1, v2⟩ := a3 di hdi
    simp only [List.length_nil, Nat.zero_add] at v2
    obtain ⟨off, w1, w2⟩ := Option.bind_eq_some_iff.1 v1
    cases w2
    refine ⟨a, m, _, r1, r2, v2, ?_, ?_⟩
    · intro p x hx
      obtain ⟨off', x1, x2⟩ := b2.get di m r3
      rw [rd, x1] at w1
      cases w1
      rw [List.getElem?_drop]
      exact x2 p x hx
    · obtain ⟨m', y1, y2⟩ := i4 di hdi
      rw [b3] at y1
      simp only [r3, Option.some.injEq] at y1
      subst y1
      rw [hgs.1, y2]
  · intro di hdi a A ha hA r j hr hj hk hgt
    obtain ⟨a', crd, d1, d2, d3⟩ := crdDims_spec c1 di hdi
    rw [ha] at d1
    cases d1
    obtain ⟨crd', f1, -, f3⟩ := C53_crd (tol := ev.tol) A hA
    rw [d2] at f1
    cases f1
    have := maxRow_spec c2 di hdi crd d3 ⟨r, j, A r j⟩ ((f3 _).2 ⟨hr, hj, rfl, hgt⟩) hr hj
    simp only at this
    omega
  · rw [hgs.2]; rfl
  · intro hr
    rw [if_pos hr] at h6
    simp only [Option.bind_eq_some_iff] at h6
    obtain ⟨_, -, _, f2, h6⟩ := h6
    cases h6
    refine ⟨by simpa using check_some.1 f2, ?_, ?_⟩ <;> simp [groupOf_add, i1]

/-! ### Surface integration -/

theorem cscFlux_spec {ev : Env K} {rows cols : Nat} (fs : List (List K)) : ∀ {o o' : CscOut K}, Held o o.mats → cscFlux ev rows cols fs o = some o' →
    Held o' o'.mats ∧ ∃ ms, o'.mats = o.mats ++ ms ∧ ms.length = fs.length ∧ ∀ (k : Nat) a, fs[k]? = some a → ∃ m, ms[k]? = some m ∧
      denseToCsc rows cols a ev.tol ev.big none none ev.qfma ⟨[], [], []⟩ = some m := by
  induction fs with
  | nil =>
    intro o o' h he
    simp only [cscFlux, List.foldlM_nil, Option.pure_def, Option.some.injEq] at he
    subst he
    exact ⟨h, [], by simp, rfl, fun k a hk => by simp at hk⟩
  | cons f fs ih =>
    intro o o' h he
    simp only [cscFlux, List.foldlM_cons, Option.bind_eq_bind, Option.bind_eq_some_iff] at he
    obtain ⟨o1, ⟨m, e1, e2⟩, e3⟩ := he
    obtain ⟨o2, a1, a2, a3, -⟩ := pushMat_held (o := { o with mats := o.mats ++ [m] }) (ms := o.mats) ⟨h.len, h.last, h.get⟩ m
    rw [a1] at e2
    cases e2
    obtain ⟨b1, ms, b2, b3, b4⟩ := ih (o := o1) (o' := o') (by rw [a3]; exact a2) e3
    refine ⟨b1, m :: ms, by rw [b2, a3]; simp, by simp [b3], ?_⟩
    intro k a hk
    cases k with
    | zero =>
      simp only [List.getElem?_cons_zero, Option.some.injEq] at hk
      subst hk
      exact ⟨m, by simp, e1⟩
    | succ k => exact b4 k a (by simpa using hk)

omit [LinearOrder K] in
theorem genFlux_spec {g off cnt m n ldA : Nat} {beta : K} {o : CscOut K} {gs gs' : List (List (Kern K))} (h : genFlux g off cnt m n ldA beta o gs = some gs') :
    (∀ g', g' ≠ g → groupOf gs' g' = groupOf gs g') ∧ ∃ ks, groupOf gs' g = groupOf gs g ++ ks ∧ ks.length = cnt ∧
      ∀ f < cnt, ∃ ma, o.mats[off + f]? = some ma ∧ ks[f]? = some ⟨false, ma.ptr, ma.idx, m, n, ldA, 0, n, beta⟩ := by
  refine forN_post (P := fun cnt gs' => (∀ g', g' ≠ g → groupOf gs' g' = groupOf gs g') ∧ ∃ ks, groupOf gs' g = groupOf gs g ++ ks ∧ ks.length = cnt ∧
      ∀ f < cnt, ∃ ma, o.mats[off + f]? = some ma ∧ ks[f]? = some ⟨false, ma.ptr, ma.idx, m, n, ldA, 0, n, beta⟩)
    ⟨fun _ _ => rfl, [], by simp, rfl, fun f hf => absurd hf (by omega)⟩ ?_ h
  intro i t t' _ ⟨p1, ks, p2, p3, p4⟩ he
  simp only [Option.bind_eq_bind, Option.bind_eq_some_iff] at he
  obtain ⟨ma, f1, f2⟩ := he
  cases f2
  refine ⟨fun g' hg' => by rw [groupOf_add, if_neg hg']; exact p1 g' hg', ks ++ [⟨false, ma.ptr, ma.idx, m, n, ldA, 0, n, beta⟩],
    by rw [groupOf_add, if_pos rfl, p2, List.append_assoc], by simp [p3], ?_⟩
  intro f hf
  by_cases e : f = i
  · subst e
    exact ⟨ma, f1, by rw [← p3]; simp⟩
  · obtain ⟨ma', g1, g2⟩ := p4 f (by omega)
    exact ⟨ma', g1, by rw [List.getElem?_append_left (by omega)]; exact g2⟩

/-- What the constructor of the surface integration leaves behind. -/
structure SurfOk (c : Cfg) (ev : Env K) (pt : Pats) (fL fN fT : List (List K)) (sp : Prep K) : Prop where
  ln : ∀ (k : Nat) a, (fL ++ fN)[k]? = some a → ∃ m vals, denseToCsc c.nMds c.nMdsFa a ev.tol ev.big none none ev.qfma ⟨[], [], []⟩ = some m ∧
    rd sp.mats k = some vals ∧ (∀ (p : Nat) x, m.val[p]? = some x → vals[p]? = some x) ∧
    (groupOf sp.gs 0)[k]? = some ⟨false, m.ptr, m.idx, c.nQtsE, c.nMdsFa, c.nMds, 0, c.nMdsFa, 0⟩
  t : ∀ (k : Nat) a, fT[k]? = some a → ∃ m vals, denseToCsc c.nMdsFa c.nMds a ev.tol ev.big none none ev.qfma ⟨[], [], []⟩ = some m ∧
    rd sp.mats (c.nFas + fN.length + k) = some vals ∧ (∀ (p : Nat) x, m.val[p]? = some x → vals[p]? = some x) ∧
    (groupOf sp.gs 2)[k]? = some ⟨false, m.ptr, m.idx, c.nQtsE, c.nMds, c.nMdsFa, 0, c.nMds, 1⟩ ∧
    (groupOf sp.gs 4)[k]? = some ⟨false, m.ptr, m.idx, c.nQtsM, c.nMds, c.nMdsFa, 0, c.nMds, 1⟩
  fsE : (groupOf sp.gs 1)[0]? = some ⟨true, pt.fsE.ptr, pt.fsE.idx, c.nQtsE, c.nMdsFa, 0, c.nMdsFa, c.nMdsFa, 0⟩
  fsA : 0 < c.nRms → (groupOf sp.gs 3)[0]? = some ⟨true, pt.fsA.ptr, pt.fsA.idx, c.nQtsM, c.nMdsFa, 0, c.nMdsFa, c.nMdsFa, 0⟩

theorem initSurfInt_ok {c : Cfg} {ev : Env K} {pt : Pats} {fL fN fT : List (List K)} (hL : fL.length = c.nFas) (hT : fT.length = c.nFas) {sp : Prep K}
    (h : initSurfInt c ev pt fL fN fT = some sp) : SurfOk c ev pt fL fN fT sp := by
  simp only [initSurfInt, Option.bind_eq_bind, Option.bind_eq_some_iff] at h
  obtain ⟨o, h1, mats, h2, gs, h3, h4⟩ := h
  cases h4
  simp only [getCscFlux, Option.bind_eq_bind, Option.bind_eq_some_iff] at h1
  obtain ⟨o1, c1, o2, c2, c3⟩ := h1
  obtain ⟨d1, m1, d2, d3, d4⟩ := cscFlux_spec fL (o := ⟨[], [0], [], []⟩) ⟨rfl, rfl, fun k m hk => by simp at hk⟩ c1
  obtain ⟨e1, m2, e2, e3, e4⟩ := cscFlux_spec fN d1 c2
  obtain ⟨f1, m3, f2, f3, f4⟩ := cscFlux_spec fT e1 c3
  rw [e2, d2] at f2
  simp only [List.nil_append] at f2
  have hlen : o.mats.length = c.nFas + fN.length + c.nFas := by rw [f2]; simp [d3, e3, f3, hL, hT]; try omega
  simp only [storeFluxSparse, Option.bind_eq_bind, Option.bind_eq_some_iff] at h2
  obtain ⟨_, -, h2⟩ := h2
  obtain ⟨-, -, a3⟩ := forN_append (f := fun k => (rd o.offs k).bind (fun off => some (o.nz.drop off))) (l0 := []) (l := mats) (by
    rw [← h2]
    congr 1
    funext k ps
    cases rd o.offs k <;> rfl)
  have hstore : ∀ (k : Nat) m, o.mats[k]? = some m → ∃ vals, rd mats k = some vals ∧ ∀ (p : Nat) x, m.val[p]? = some x → vals[p]? = some x := by
    intro k m hk
    have hlt : k < c.nFas + fN.length + c.nFas := by rw [← hlen]; exact (List.getElem?_eq_some_iff.1 hk).1
    obtain ⟨vals, v1, v2⟩ := a3 k hlt
    simp only [List.length_nil, Nat.zero_add] at v2
    obtain ⟨off, w1, w2⟩ := Option.bind_eq_some_iff.1 v1
    cases w2
    refine ⟨_, v2, fun p x hx => ?_⟩
    obtain ⟨off', x1, x2⟩ := f1.get k m hk
    rw [rd, x1] at w1
    cases w1
    rw [List.getElem?_drop]
    exact x2 p x hx
  simp only [genSurfInt, Option.bind_eq_bind, Option.bind_eq_some_iff] at h3
  obtain ⟨g1, k1, g2, k2, g3, k3, g4, k4, _, -, h6⟩ := h3
  obtain ⟨p1, l1, p2, p3, p4⟩ := genFlux_spec k1
  obtain ⟨q1, l2, q2, q3, q4⟩ := genFlux_spec k2
  obtain ⟨r1, l3, r2, r3, r4⟩ := genFlux_spec k3
  obtain ⟨s1, l4, s2, s3, s4⟩ := genFlux_spec k4
  have hnil : ∀ g, groupOf ([] : List (List (Kern K))) g = [] := fun g => by simp [groupOf]
  have hG : groupOf gs 0 = l1 ++ l2 ∧ groupOf gs 2 = l3 ∧ groupOf gs 4 = l4 ∧ groupOf gs 1 = [⟨true, pt.fsE.ptr, pt.fsE.idx, c.nQtsE, c.nMdsFa, 0, c.nMdsFa, c.nMdsFa, 0⟩] ∧
      (0 < c.nRms → groupOf gs 3 = [⟨true, pt.fsA.ptr, pt.fsA.idx, c.nQtsM, c.nMdsFa, 0, c.nMdsFa, c.nMdsFa, 0⟩]) := by
    have z0 : groupOf g4 0 = l1 ++ l2 := by rw [s1 0 (by omega), r1 0 (by omega), q2, p2, hnil]; rfl
    have z2 : groupOf g4 2 = l3 := by rw [s1 2 (by omega), r2, q1 2 (by omega), p1 2 (by omega), hnil]; rfl
    have z4 : groupOf g4 4 = l4 := by rw [s2, r1 4 (by omega), q1 4 (by omega), p1 4 (by omega), hnil]; rfl
    have z1 : groupOf g4 1 = [] := by rw [s1 1 (by omega), r1 1 (by omega), q1 1 (by omega), p1 1 (by omega), hnil]
    have z3 : groupOf g4 3 = [] := by rw [s1 3 (by omega), r1 3 (by omega), q1 3 (by omega), p1 3 (by omega), hnil]
    split at h6
    · simp only [Option.bind_eq_some_iff] at h6
      obtain ⟨_, -, h6⟩ := h6
      cases h6
      simp [groupOf_add, z0, z1, z2, z3, z4]
    · rename_i hr
      cases h6
      simp only [groupOf_add, z0, z1, z2, z4]
      exact ⟨rfl, rfl, rfl, rfl, fun h => absurd h hr⟩
  refine ⟨?_, ?_, by rw [hG.2.2.2.1]; rfl, fun h => by rw [hG.2.2.2.2 h]; rfl⟩
  · intro k a hk
    obtain ⟨m, hm1, hm2⟩ : ∃ m, o.mats[k]? = some m ∧ denseToCsc c.nMds c.nMdsFa a ev.tol ev.big none none ev.qfma ⟨[], [], []⟩ = some m := by
      rw [f2]
      by_cases hlt : k < fL.length
      · rw [List.getElem?_append_left hlt] at hk
        obtain ⟨m, y1, y2⟩ := d4 k a hk
        exact ⟨m, by rw [List.getElem?_append_left (by rw [List.length_append]; omega), List.getElem?_append_left (by omega)]; exact y1, y2⟩
      · rw [List.getElem?_append_right (by omega)] at hk
        obtain ⟨m, y1, y2⟩ := e4 _ a hk
        have := (List.getElem?_eq_some_iff.1 y1).1
        exact ⟨m, by rw [List.getElem?_append_left (by rw [List.length_append]; omega), List.getElem?_append_right (by omega), d3]; exact y1, y2⟩
    obtain ⟨vals, w1, w2⟩ := hstore k m hm1
    refine ⟨m, vals, hm2, w1, w2, ?_⟩
    rw [hG.1]
    have hkl : k < fL.length + fN.length := by rw [← List.length_append]; exact (List.getElem?_eq_some_iff.1 hk).1
    by_cases hlt : k < c.nFas
    · obtain ⟨ma, y1, y2⟩ := p4 k hlt
      rw [Nat.zero_add, hm1] at y1
      cases y1
      rw [List.getElem?_append_left (by omega), y2]
    · obtain ⟨ma, y1, y2⟩ := q4 (k - c.nFas) (by omega)
      rw [show c.nFas + (k - c.nFas) = k by omega, hm1] at y1
      cases y1
      rw [List.getElem?_append_right (by omega), p3, y2]
  · intro k a hk
    have hkl : k < fT.length := (List.getElem?_eq_some_iff.1 hk).1
    obtain ⟨m, y1, y2⟩ := f4 k a hk
    have hm1 : o.mats[c.nFas + fN.length + k]? = some m := by
      rw [f2, List.getElem?_append_right (by simp [d3, e3]; omega)]
      rw [← y1]
      congr 1
      simp [d3, e3]
      omega
    obtain ⟨vals, w1, w2⟩ := hstore _ m hm1
    refine ⟨m, vals, y2, w1, w2, ?_, ?_⟩
    · obtain ⟨ma, x1, x2⟩ := r4 k (by omega)
      rw [hm1] at x1
      cases x1
      rw [hG.2.1, x2]
    · obtain ⟨ma, x1, x2⟩ := s4 k (by omega)
      rw [hm1] at x1
      cases x1
      rw [hG.2.2.1, x2]

end Edge.Fused
