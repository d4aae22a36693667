import Verif.Rate.Spec
import Mathlib.Data.List.Induction
/-!
History of a sequence of updates.
-/
namespace Edge.Rate
open Edge Edge.Map Edge.Quad Edge.Basis Edge.Proj Edge.Gen Edge.Flux Edge.Step

variable {c : Dg.Cfg} {e : Ent} {o : Nat} {lT lV LN FT : List (List ℝ)} {els : List (REl ℝ)} {sc0 sc1 : List ℝ} {dt : Nat → Nat → ℝ} {tg : Nat → Nat}
  {F : Nat → Nat → MFace ℝ} {S FL FN : Nat → Nat → Nat → Nat → ℝ}

/-- State of an element after `nl` local and `nn` neighboring updates. -/
structure EInv (c : Dg.Cfg) (e : Ent) (o : Nat) (dt : Nat → Nat → ℝ) (tg : Nat → Nat) (F : Nat → Nat → MFace ℝ) (S FL FN : Nat → Nat → Nat → Nat → ℝ) (u0 : Nat → Modes)
    (V : Nat → Nat → Modes) (E : REl ℝ) (el nl nn : Nat) (x : RSt ℝ) : Prop where
  cl : x.nl = nl
  cn : x.nn = nn
  le : nl = nn ∨ nl = nn + 1
  out : Dg.CkOut c x.mem
  start : V el 0 = u0 el
  hist : ∀ k < nn, V el (k + 1) = next c e o dt tg F S FL FN V el k
  full : nl = nn → Dg.Rep c.nQtsE c.nMds c.nCrs x.dofs (V el nn)
  half : nl = nn + 1 → Dg.Rep c.nQtsE c.nMds c.nCrs x.dofs (V el nn + locTerm c e o (S el) (FL el) (tInt c e o (S el) (V el nn) (dt (tg el) nn)))
  eq : ∀ k, nl = k + 1 → Dg.Rep c.nQtsE c.nMds c.nCrs x.mem.tIntE (tInt c e o (S el) (V el k) (dt (tg el) k))
  lt : E.isLt = true → ∃ b s, x.lt = some b ∧ Dg.Rep c.nQtsE c.nMds c.nCrs b s ∧ ∀ k, (nl = 2 * k + 1 → s = tInt c e o (S el) (V el (2 * k)) (dt (tg el) (2 * k))) ∧
    (nl = 2 * k + 2 → s = tInt c e o (S el) (V el (2 * k)) (dt (tg el) (2 * k)) + tInt c e o (S el) (V el (2 * k + 1)) (dt (tg el) (2 * k + 1)))
  gt : E.isGt = true → ∃ b, x.gt = some b ∧ b.length = c.nQtsE * c.nMds * c.nCrs ∧ ∀ k, nl = k + 1 → Dg.Rep c.nQtsE c.nMds c.nCrs b (tInt c e o (S el) (V el k) (1 / 2 * dt (tg el) k))

theorem src_congr {V V' : Nat → Nat → Modes} {el ne k m : Nat} (h : ∀ i < m, V ne i = V' ne i) (ht : tg ne = tg el ∨ tg el = tg ne + 1 ∨ tg ne = tg el + 1)
    (h1 : tg ne = tg el → k < m) (h2 : tg el = tg ne + 1 → 2 * k + 1 < m) (h3 : tg ne = tg el + 1 → k / 2 < m) :
    src c e o dt tg S V el ne k = src c e o dt tg S V' el ne k := by
  rw [src, src]
  by_cases e1 : tg ne = tg el
  · rw [if_pos e1, if_pos e1, h _ (h1 e1)]
  rw [if_neg e1, if_neg e1]
  by_cases e2 : tg el = tg ne + 1
  · have := h2 e2
    rw [if_pos e2, if_pos e2, h (2 * k) (by omega), h _ this]
  rw [if_neg e2, if_neg e2, h _ (h3 (by tauto))]

theorem Ordered.front {K : Type} {F : Nat → Nat → MFace K} {N : Nat} {evs : List Ev} {ev : Ev} (h : Ordered e tg F N (evs ++ [ev])) : Ordered e tg F N evs :=
  fun pre ev' post h' => h pre ev' (post ++ [ev]) (by rw [h']; simp)

theorem Ordered.last {K : Type} {F : Nat → Nat → MFace K} {N : Nat} {evs : List Ev} {ev : Ev} (h : Ordered e tg F N (evs ++ [ev])) : ev.el < N ∧ Allowed e tg F evs ev := h evs ev [] rfl

theorem count_loc (evs : List Ev) (el el' : Nat) : (evs ++ [Ev.loc el]).count (.loc el') = evs.count (.loc el') + if el' = el then 1 else 0 := by
  rw [List.count_append]
  congr 1
  by_cases h : el' = el
  · subst h; simp
  · simp [h, Ne.symm h]

theorem count_loc_nei (evs : List Ev) (el el' : Nat) : (evs ++ [Ev.loc el]).count (.nei el') = evs.count (.nei el') := by
  rw [List.count_append]
  simp

theorem count_nei (evs : List Ev) (el el' : Nat) : (evs ++ [Ev.nei el]).count (.nei el') = evs.count (.nei el') + if el' = el then 1 else 0 := by
  rw [List.count_append]
  congr 1
  by_cases h : el' = el
  · subst h; simp
  · simp [h, Ne.symm h]

theorem count_nei_loc (evs : List Ev) (el el' : Nat) : (evs ++ [Ev.nei el]).count (.loc el') = evs.count (.loc el') := by
  rw [List.count_append]
  simp

/-- What was read by neighboring updates was predicted before. -/
theorem Ordered.read {N : Nat} {evs : List Ev} (h : Ordered e tg F N evs) {el fa : Nat} (hfa : fa < e.nFa) (hout : (F el fa).outflow = false) :
    (tg ((F el fa).nb el) = tg el → evs.count (.nei el) ≤ evs.count (.loc ((F el fa).nb el))) ∧
    (tg el = tg ((F el fa).nb el) + 1 → 2 * evs.count (.nei el) ≤ evs.count (.loc ((F el fa).nb el))) ∧
    (tg ((F el fa).nb el) = tg el + 1 → (evs.count (.nei el) + 1) / 2 ≤ evs.count (.loc ((F el fa).nb el))) := by
  induction evs using List.reverseRecOn with
  | nil => simp
  | append_singleton evs ev ih =>
    obtain ⟨i1, i2, i3⟩ := ih h.front
    cases ev with
    | loc el' =>
      rw [count_loc, count_loc_nei]
      exact ⟨fun h => (i1 h).trans (Nat.le_add_right _ _), fun h => (i2 h).trans (Nat.le_add_right _ _), fun h => (i3 h).trans (Nat.le_add_right _ _)⟩
    | nei el' =>
      rw [count_nei, count_nei_loc]
      by_cases hel : el = el'
      · subst hel
        obtain ⟨-, -, a⟩ := h.last
        obtain ⟨a1, a2, a3⟩ := a fa hfa hout
        rw [if_pos rfl]
        exact ⟨fun h => (a1 h).ge, fun h => (a2 h).ge, fun h => by rw [a3 h]; omega⟩
      · rw [if_neg hel]
        exact ⟨i1, i2, i3⟩

/-- Time integrals of an element which its neighbor reads. -/
theorem asm_spec {u0 : Nat → Modes} {V : Nat → Nat → Modes} {E : REl ℝ} {ne nl nn : Nat} {y : RSt ℝ} (h : EInv c e o dt tg F S FL FN u0 V E ne nl nn y) {el k : Nat} {a : Dg.AdBits}
    (b1 : a.eq = true ↔ tg ne = tg el) (b2 : a.gt = true ↔ tg el = tg ne + 1) (b3 : tg ne = tg el ∨ tg el = tg ne + 1 ∨ tg ne = tg el + 1)
    (b4 : tg el = tg ne + 1 → E.isLt = true) (b5 : tg ne = tg el + 1 → E.isGt = true)
    (a1 : tg ne = tg el → nl = k + 1) (a2 : tg el = tg ne + 1 → nl = 2 * (k + 1)) (a3 : tg ne = tg el + 1 → nl = k / 2 + 1) :
    ∃ t, Dg.assemble c a.eq a.gt (k % 2 == 0) y.tDofs = some t ∧ Dg.Rep c.nQtsE c.nMds c.nCrs t (src c e o dt tg S V el ne k) := by
  by_cases e1 : tg ne = tg el
  · rw [src, if_pos e1, b1.2 e1]
    exact Dg.assemble_eq (h.eq k (a1 e1)) _ _
  have f1 : a.eq = false := by rw [Bool.eq_false_iff, ne_eq, b1]; exact e1
  by_cases e2 : tg el = tg ne + 1
  · obtain ⟨b, s, c1, c2, c3⟩ := h.lt (b4 e2)
    rw [src, if_neg e1, if_pos e2, b2.2 e2, f1, ← (c3 k).2 (a2 e2)]
    exact Dg.assemble_lt c1 c2 _
  have e3 : tg ne = tg el + 1 := by tauto
  have f2 : a.gt = false := by rw [Bool.eq_false_iff, ne_eq, b2]; exact e2
  obtain ⟨b, c1, -, c3⟩ := h.gt (b5 e3)
  obtain ⟨t, t1, t2⟩ := Dg.assemble_half (lt := y.lt) (h.eq _ (a3 e3)) (c3 _ (a3 e3)) (k % 2 == 0)
  rw [f1, f2]
  refine ⟨t, ?_, t2.congr (fun q md r _ _ _ => ?_)⟩
  · rw [RSt.tDofs, c1]; exact t1
  · rw [src, if_neg e1, if_neg e2]
    by_cases hk : k % 2 = 0
    · simp [hk]
    · simp [hk]

/-- Any sequence of updates can be executed. The modes of the elements, before each of their steps, are given by the ones of the preceding steps. -/
theorem history (hF : Fits c e o) (hc : Fit c e o) (hst : Stored c e o lT lV LN FT) (h0 : sc0.length = c.nQtsE * c.nMdsFa * c.nCrs) (h1 : sc1.length = c.nQtsE * c.nMdsFa * c.nCrs)
    (hE : ElsOk c e tg els F S FL FN) {st : List (RSt ℝ)} {u0 : Nat → Modes} (hu : Ready c els st u0) {evs : List Ev} (hev : Ordered e tg F els.length evs) :
    ∃ st' V, runEv c dt lT lV LN FT els sc0 sc1 evs (sync st) = some st' ∧ st'.length = els.length ∧ ∀ el E, els[el]? = some E → ∃ x, st'[el]? = some x ∧
      EInv c e o dt tg F S FL FN u0 V E el (evs.count (.loc el)) (evs.count (.nei el)) x := by
  induction evs using List.reverseRecOn with
  | nil =>
    obtain ⟨l1, l2⟩ := hu
    refine ⟨sync st, fun el _ => u0 el, rfl, by rw [sync, List.length_map, l1], fun el E hel => ?_⟩
    obtain ⟨x, x1, x2, x3, x4, x5⟩ := l2 el E hel
    refine ⟨{ x with nl := 0, nn := 0 }, by rw [sync, List.getElem?_map, x1]; rfl, rfl, rfl, Or.inl rfl, x3, rfl, by simp, fun _ => x2, by simp, by simp, fun h => ?_, fun h => ?_⟩
    · obtain ⟨b, b1, b2⟩ := x4 h
      exact ⟨b, _, b1, Dg.rep_of_length b2, by simp⟩
    · obtain ⟨b, b1, b2⟩ := x5 h
      exact ⟨b, b1, b2, by simp⟩
  | append_singleton evs ev ih =>
    obtain ⟨st', V, i1, i2, i3⟩ := ih hev.front
    obtain ⟨l1, l2⟩ := hev.last
    have hrun : runEv c dt lT lV LN FT els sc0 sc1 (evs ++ [ev]) (sync st) = exec c dt lT lV LN FT els sc0 sc1 st' ev := by
      rw [runEv, List.foldlM_append]
      rw [runEv] at i1
      rw [i1]
      simp
    rw [hrun]
    cases ev with
    | loc el =>
      have hel : el < els.length := l1
      have l2 : evs.count (.nei el) = evs.count (.loc el) := l2
      have hEl : els[el]? = some els[el] := List.getElem?_eq_getElem hel
      obtain ⟨x, x1, x2⟩ := i3 el _ hEl
      have htg : els[el].tg = tg el := (hE.bits el _ hEl).1
      obtain ⟨s, hs⟩ : ∃ s : Modes, els[el].isLt = true → ∃ b, x.lt = some b ∧ Dg.Rep c.nQtsE c.nMds c.nCrs b s ∧
          ∀ k, (evs.count (.loc el) = 2 * k + 1 → s = tInt c e o (S el) (V el (2 * k)) (dt (tg el) (2 * k))) := by
        by_cases h : els[el].isLt = true
        · obtain ⟨b, s, b1, b2, b3⟩ := x2.lt h
          exact ⟨s, fun _ => ⟨b, b1, b2, fun k => (b3 k).1⟩⟩
        · exact ⟨0, fun h2 => absurd h2 h⟩
      obtain ⟨y, y1, y2, y3, y4, y5, y6, y7, y8⟩ := loc_spec hF hc hst h0 h1 (dt := dt) hEl (hE.star el _ hEl) (hE.fluxL el _ hEl) x1 (x2.full l2.symm) x2.out
        (s := s) (fun h => by obtain ⟨b, b1, b2, -⟩ := hs h; exact ⟨b, b1, b2⟩) (fun h => by obtain ⟨b, b1, b2, -⟩ := x2.gt h; exact ⟨b, b1, b2⟩)
      rw [htg, x2.cl, l2] at y4 y6 y7 y8
      rw [x2.cl] at y2
      rw [x2.cn] at y3
      refine ⟨st'.set el y, V, y1, by rw [List.length_set, i2], fun el' E' hel' => ?_⟩
      rw [count_loc, count_loc_nei]
      by_cases hee : el' = el
      · subst hee
        rw [hEl, Option.some.injEq] at hel'
        subst hel'
        refine ⟨y, List.getElem?_set_self (by rw [i2]; exact hel), ?_⟩
        rw [if_pos rfl]
        refine ⟨y2, y3, Or.inr (by omega), y5, x2.start, x2.hist, fun h => by omega, fun _ => by rw [l2]; exact y4, fun k hk => ?_, fun h => ?_, fun h => ?_⟩
        · obtain rfl : k = evs.count (.loc el') := by omega
          exact y6
        · obtain ⟨b, b1, b2⟩ := y7 h
          refine ⟨b, _, b1, b2, fun k => ⟨fun hk => ?_, fun hk => ?_⟩⟩
          · have hn : evs.count (.loc el') = 2 * k := by omega
            rw [hn]
            funext q md r
            rw [if_pos (by omega)]
            exact zero_add _
          · have hn : evs.count (.loc el') = 2 * k + 1 := by omega
            obtain ⟨-, -, -, hs2⟩ := hs h
            rw [hn, ← hs2 k hn]
            funext q md r
            rw [if_neg (by omega)]
            rfl
        · obtain ⟨b, b1, b2⟩ := y8 h
          refine ⟨b, b1, b2.1, fun k hk => ?_⟩
          obtain rfl : k = evs.count (.loc el') := by omega
          exact b2
      · rw [if_neg hee, add_zero, List.getElem?_set_ne (Ne.symm hee)]
        exact i3 el' E' hel'
    | nei el =>
      have hel : el < els.length := l1
      obtain ⟨l2, l3⟩ : Allowed e tg F evs (.nei el) := l2
      have hEl : els[el]? = some els[el] := List.getElem?_eq_getElem hel
      obtain ⟨x, x1, x2⟩ := i3 el _ hEl
      obtain ⟨htg, hbits⟩ := hE.bits el _ hEl
      have : Inhabited Dg.AdBits := ⟨⟨false, false, false⟩⟩
      choose! ad d1 d2 using hbits
      have hnb : ∀ fa < e.nFa, (F el fa).outflow = false → (F el fa).nb el < els.length := by
        intro fa hfa hout
        rw [MFace.nb]
        split
        · exact hel
        · rename_i hfs
          exact ((hE.faces el _ hEl).2 fa hfa).2.1 hout (by simpa using hfs)
      have hasm : ∀ fa < e.nFa, (F el fa).outflow = false → ∃ y, st'[(F el fa).nb el]? = some y ∧
          ∃ t, Dg.assemble c (ad fa).eq (ad fa).gt (x.nn % 2 == 0) y.tDofs = some t ∧ Dg.Rep c.nQtsE c.nMds c.nCrs t (src c e o dt tg S V el ((F el fa).nb el) (evs.count (.nei el))) := by
        intro fa hfa hout
        have hE' := List.getElem?_eq_getElem (hnb fa hfa hout)
        obtain ⟨y, y1, y2⟩ := i3 _ _ hE'
        obtain ⟨b1, b2, b3, b4, b5⟩ := d2 fa hfa hout _ hE'
        obtain ⟨a1, a2, a3⟩ := l3 fa hfa hout
        rw [x2.cn]
        exact ⟨y, y1, asm_spec y2 b1 b2 b3 b4 b5 a1 a2 a3⟩
      obtain ⟨d, g1, g2⟩ := nei_spec hF hc hst h0 h1 hEl (hE.faces el _ hEl) (hE.fluxN el _ hEl) d1 x1 (x2.half l2) hasm
      obtain ⟨k, hk⟩ : ∃ k, k = evs.count (.nei el) := ⟨_, rfl⟩
      rw [← hk] at l2 g2
      set V' : Nat → Nat → Modes := fun el' i => if el' = el ∧ i = k + 1 then next c e o dt tg F S FL FN V el k else V el' i with hV'
      have v1 : ∀ el' i, (el' = el → i ≤ k) → V' el' i = V el' i := by
        intro el' i h
        rw [hV']
        simp only
        rw [if_neg]
        rintro ⟨h1, h2⟩
        have := h h1
        omega
      have v2 : V' el (k + 1) = next c e o dt tg F S FL FN V el k := by
        rw [hV']; simp
      -- earlier steps do not change
      have v3 : ∀ el', el' < els.length → ∀ i, (el' = el → i ≤ k) → i < evs.count (.nei el') + (if el' = el then 1 else 0) → next c e o dt tg F S FL FN V' el' i = next c e o dt tg F S FL FN V el' i := by
        intro el' hel' i hi hi2
        rw [next, next, v1 el' i hi]
        congr 1
        refine neiTerm_congr (fun fa hfa hout => ?_)
        have hE2 := List.getElem?_eq_getElem hel'
        obtain ⟨-, hb⟩ := hE.bits el' _ hE2
        obtain ⟨_, -, hb⟩ := hb fa hfa
        have hnb' : (F el' fa).nb el' < els.length := by
          rw [MFace.nb]
          split
          · exact hel'
          · rename_i hfs
            exact ((hE.faces el' _ hE2).2 fa hfa).2.1 hout (by simpa using hfs)
        obtain ⟨-, -, b3, -⟩ := hb hout _ (List.getElem?_eq_getElem hnb')
        obtain ⟨r1, r2, r3⟩ := hev.read (el := el') hfa hout
        rw [count_nei, count_nei_loc] at r1 r2 r3
        refine src_congr (m := evs.count (.loc ((F el' fa).nb el'))) (fun j hj => v1 _ j (fun h => ?_)) b3 (fun h => ?_) (fun h => ?_) (fun h => ?_)
        · rw [h, l2] at hj; omega
        · have := r1 h; omega
        · have := r2 h; omega
        · have := r3 h; omega
      refine ⟨_, V', g1, by rw [List.length_set, i2], fun el' E' hel' => ?_⟩
      rw [count_nei, count_nei_loc]
      by_cases hee : el' = el
      · subst hee
        rw [hEl, Option.some.injEq] at hel'
        subst hel'
        refine ⟨_, List.getElem?_set_self (by rw [i2]; exact hel), ?_⟩
        rw [if_pos rfl, ← hk]
        have hn : x.nn = k := x2.cn.trans hk.symm
        refine ⟨x2.cl, by rw [hn], Or.inl l2, x2.out, by rw [v1 _ _ (fun _ => Nat.zero_le _)]; exact x2.start, fun i hi => ?_, fun _ => ?_, fun h => by omega, fun i hi => ?_, fun h => ?_, fun h => ?_⟩
        · rw [v3 el' hel i (fun _ => by omega) (by rw [if_pos rfl, ← hk]; exact hi)]
          rcases Nat.lt_or_ge i k with h | h
          · rw [v1 _ _ (fun _ => by omega)]
            exact x2.hist i (by rw [← hk]; exact h)
          · obtain rfl : i = k := by omega
            exact v2
        · rw [v2]
          exact g2
        · rw [v1 _ _ (fun _ => by omega)]
          exact x2.eq i hi
        · obtain ⟨b, s, b1, b2, b3⟩ := x2.lt h
          refine ⟨b, s, b1, b2, fun i => ⟨fun hi => ?_, fun hi => ?_⟩⟩
          · rw [v1 _ _ (fun _ => by omega)]
            exact (b3 i).1 hi
          · rw [v1 _ _ (fun _ => by omega), v1 _ _ (fun _ => by omega)]
            exact (b3 i).2 hi
        · obtain ⟨b, b1, b2, b3⟩ := x2.gt h
          refine ⟨b, b1, b2, fun i hi => ?_⟩
          rw [v1 _ _ (fun _ => by omega)]
          exact b3 i hi
      · have hVe : V' el' = V el' := funext (fun i => v1 el' i (fun h => absurd h hee))
        rw [if_neg hee, add_zero, List.getElem?_set_ne (Ne.symm hee)]
        obtain ⟨y, y1, y2⟩ := i3 el' E' hel'
        have hlt' : el' < els.length := (List.getElem?_eq_some_iff.1 hel').1
        refine ⟨y, y1, y2.cl, y2.cn, y2.le, y2.out, by rw [hVe]; exact y2.start, fun i hi => ?_, by rw [hVe]; exact y2.full, by rw [hVe]; exact y2.half, by rw [hVe]; exact y2.eq,
          by rw [hVe]; exact y2.lt, by rw [hVe]; exact y2.gt⟩
        rw [v3 el' hlt' i (fun h => absurd h hee) (by rw [if_neg hee]; exact hi), hVe]
        exact y2.hist i hi

end Edge.Rate
