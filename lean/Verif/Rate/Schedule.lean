import Verif.Rate.Run
/-!
C101: the order of the updates is irrelevant.
-/
namespace Edge.Rate
open Edge Edge.Map Edge.Dg Edge.Step

variable {K : Type} [Field K] [LinearOrder K] {c : Cfg} {e : Ent} {lT lV LN FT : List (List K)} {els : List (REl K)} {sc0 sc1 : List K} {dt : Nat → Nat → K} {tg : Nat → Nat}
  {F : Nat → Nat → MFace K}

omit [Field K] [LinearOrder K] in
theorem wr_other {l l' : List K} {i j : Nat} {v : K} (h : wr l i v = some l') (hij : i ≠ j) : l'[j]? = l[j]? := by
  unfold wr at h
  split at h
  · rw [← Option.some.inj h, List.getElem?_set_ne hij]
  · cases h

omit [Field K] [LinearOrder K] in
theorem wr_same {l l' : List K} {i : Nat} {v : K} (h : wr l i v = some l') : l'[i]? = some v := by
  unfold wr at h
  split at h
  · rename_i h2
    rw [← Option.some.inj h, List.getElem?_set_self h2]
  · cases h

/-- Update of the own state in a local update. -/
def ownLoc (c : Cfg) (dt : Nat → Nat → K) (stiffT stiffV fIntLN fIntT : List (List K)) (sc0 sc1 : List K) (E : REl K) (x : RSt K) : Option (RSt K) := do
  let y ← localEl c (dt E.tg x.nl) stiffT stiffV fIntLN fIntT E.starE [] [] E.fsL [] [] x.dofs [] x.mem sc0 sc1
  let t ← localLts c E.isLt E.isGt (x.nl % 2 == 0) (dt E.tg x.nl) y.2.2.derE ⟨y.2.2.tIntE, x.lt, x.gt⟩
  some ⟨y.1, y.2.2, t.lt, t.gt, x.nl + 1, x.nn⟩

/-- Update of the own state in a neighboring update. -/
def ownNei (c : Cfg) (fIntLN fIntT : List (List K)) (sc0 sc1 : List K) (fs : Option (List (FaceIn K))) (x : RSt K) : Option (RSt K) := do
  let fs ← fs
  let y ← neighEl c fIntLN fIntT [] (x.nn % 2 == 0) fs x.dofs [] sc0 sc1
  some { x with dofs := y.1, nn := x.nn + 1 }

theorem loc_inv {st st' : List (RSt K)} {el : Nat} (h : exec c dt lT lV LN FT els sc0 sc1 st (.loc el) = some st') :
    ∃ E x x', els[el]? = some E ∧ st[el]? = some x ∧ ownLoc c dt lT lV LN FT sc0 sc1 E x = some x' ∧ wr st el x' = some st' := by
  simp only [exec, locEl, rd, Option.bind_eq_bind, Option.bind_eq_some_iff] at h
  obtain ⟨E, h1, x, h2, y, h3, t, h4, h5⟩ := h
  exact ⟨E, x, _, h1, h2, by simp only [ownLoc, h3, h4, Option.bind_eq_bind, Option.bind_some], h5⟩

theorem nei_inv {st st' : List (RSt K)} {el : Nat} (h : exec c dt lT lV LN FT els sc0 sc1 st (.nei el) = some st') :
    ∃ E x x', els[el]? = some E ∧ st[el]? = some x ∧ ownNei c LN FT sc0 sc1 (facesIn (st.map (·.tDofs)) el E.faces E.ad) x = some x' ∧ wr st el x' = some st' := by
  simp only [exec, neiEl, rd, Option.bind_eq_bind, Option.bind_eq_some_iff] at h
  obtain ⟨E, h1, x, h2, fs, h3, y, h4, h5⟩ := h
  exact ⟨E, x, _, h1, h2, by simp only [ownNei, h3, h4, Option.bind_eq_bind, Option.bind_some], h5⟩

theorem exec_other {st st' : List (RSt K)} {ev : Ev} (h : exec c dt lT lV LN FT els sc0 sc1 st ev = some st') {el : Nat} (hel : ev.el ≠ el) : st'[el]? = st[el]? := by
  cases ev with
  | loc i =>
    obtain ⟨E, x, x', -, -, -, h⟩ := loc_inv h
    exact wr_other h hel
  | nei i =>
    obtain ⟨E, x, x', -, -, -, h⟩ := nei_inv h
    exact wr_other h hel

theorem nei_keeps {st st' : List (RSt K)} {i : Nat} (h : exec c dt lT lV LN FT els sc0 sc1 st (.nei i) = some st') (el : Nat) :
    st'[el]?.map (·.tDofs) = st[el]?.map (·.tDofs) := by
  by_cases hi : i = el
  · subst hi
    obtain ⟨E, x, x', -, h2, h3, h⟩ := nei_inv h
    rw [wr_same h, h2]
    simp only [ownNei, Option.bind_eq_bind, Option.bind_eq_some_iff] at h3
    obtain ⟨fs, -, y, -, h4⟩ := h3
    rw [← Option.some.inj h4]
    rfl
  · rw [exec_other h hi]

theorem run_snoc {st st' : List (RSt K)} {evs : List Ev} {ev : Ev} (h : runEv c dt lT lV LN FT els sc0 sc1 (evs ++ [ev]) st = some st') :
    ∃ s, runEv c dt lT lV LN FT els sc0 sc1 evs st = some s ∧ exec c dt lT lV LN FT els sc0 sc1 s ev = some st' := by
  simp only [runEv, List.foldlM_append, Option.bind_eq_bind, Option.bind_eq_some_iff] at h
  obtain ⟨s, h1, h2⟩ := h
  exact ⟨s, h1, by simpa using h2⟩

theorem count_other {evs : List Ev} {ev : Ev} {el : Nat} (h : ev.el ≠ el) : (evs ++ [ev]).count (.loc el) = evs.count (.loc el) ∧ (evs ++ [ev]).count (.nei el) = evs.count (.nei el) := by
  cases ev with
  | loc i => rw [count_loc, count_loc_nei, if_neg (show el ≠ i from Ne.symm h)]; simp
  | nei i => rw [count_nei_loc, count_nei, if_neg (show el ≠ i from Ne.symm h)]; simp

/-- Faces and time groups: what the schedule depends on. -/
def Meets (e : Ent) (tg : Nat → Nat) (F : Nat → Nat → MFace K) (els : List (REl K)) : Prop :=
  ∀ el E, els[el]? = some E → E.faces.length = e.nFa ∧ ∀ fa < e.nFa, E.faces[fa]? = some (F el fa) ∧ ((F el fa).outflow = false →
    tg ((F el fa).nb el) = tg el ∨ tg el = tg ((F el fa).nb el) + 1 ∨ tg ((F el fa).nb el) = tg el + 1)

omit [Field K] [LinearOrder K] in
theorem facesIn_congr {ts ts' : List (TDofs K)} {el : Nat} {fs : List (MFace K)} {ads : List AdBits}
    (h : ∀ (fa : Nat) (f : MFace K), fs[fa]? = some f → f.outflow = false → ts[f.nb el]? = ts'[f.nb el]?) : facesIn ts el fs ads = facesIn ts' el fs ads := by
  unfold facesIn
  congr 1
  funext fa
  rcases hf : rd fs fa with _ | f
  · rfl
  simp only [Option.bind_eq_bind, Option.bind_some]
  rcases ho : f.outflow with _ | _
  · have := h fa f hf ho
    simp only [rd, this]
  · rfl

/-- After any two sequences of updates: elements with the same number of local updates have the same time integrals, elements with the same number of local and of neighboring updates have the same
state. -/
theorem same (hm : Meets e tg F els) {st : List (RSt K)} : ∀ (n : Nat) (evs evs' : List Ev) (a b : List (RSt K)), evs.length + evs'.length = n → Ordered e tg F els.length evs →
    Ordered e tg F els.length evs' → runEv c dt lT lV LN FT els sc0 sc1 evs st = some a → runEv c dt lT lV LN FT els sc0 sc1 evs' st = some b →
    ∀ el, evs.count (.loc el) = evs'.count (.loc el) → a[el]?.map (·.tDofs) = b[el]?.map (·.tDofs) ∧ (evs.count (.nei el) = evs'.count (.nei el) → a[el]? = b[el]?) := by
  intro n
  induction n using Nat.strong_induction_on with
  | _ n ih =>
  intro evs evs' a b hn ho ho' ha hb el hcl
  -- first sequence: the last update is one of the element
  rcases List.eq_nil_or_concat evs with rfl | ⟨pre, ev, he⟩
  · rcases List.eq_nil_or_concat evs' with rfl | ⟨pre', ev', he'⟩
    · have : a = b := Option.some.inj (ha.symm.trans hb)
      subst this
      exact ⟨rfl, fun _ => rfl⟩
    · rw [List.concat_eq_append] at he'
      subst he'
      obtain ⟨s', hs', hx'⟩ := run_snoc hb
      by_cases h : ev'.el = el
      · exfalso
        have := ho'.last.2
        cases ev' with
        | loc i =>
          have : i = el := h
          subst this
          rw [count_loc, if_pos rfl] at hcl
          simp at hcl
        | nei i =>
          have h : i = el := h
          subst h
          rw [count_nei_loc, this.1] at hcl
          simp at hcl
      · obtain ⟨c1, c2⟩ := count_other (evs := pre') h
        rw [c1] at hcl
        rw [c2, exec_other hx' h]
        exact ih _ (by simp only [← hn, List.length_append, List.length_singleton]; omega) [] pre' a s' rfl ho ho'.front ha hs' el hcl
  rw [List.concat_eq_append] at he
  subst he
  obtain ⟨s, hs, hx⟩ := run_snoc ha
  by_cases h : ev.el = el
  swap
  · obtain ⟨c1, c2⟩ := count_other (evs := pre) h
    rw [c1] at hcl
    rw [c2, exec_other hx h]
    exact ih _ (by simp only [← hn, List.length_append, List.length_singleton]; omega) pre evs' s b rfl ho.front ho' hs hb el hcl
  have hal := ho.last.2
  rcases List.eq_nil_or_concat evs' with rfl | ⟨pre', ev', he'⟩
  · exfalso
    cases ev with
    | loc i =>
      have : i = el := h
      subst this
      rw [count_loc, if_pos rfl] at hcl
      simp at hcl
    | nei i =>
      have h : i = el := h
      subst h
      rw [count_nei_loc, hal.1] at hcl
      simp at hcl
  rw [List.concat_eq_append] at he'
  subst he'
  obtain ⟨s', hs', hx'⟩ := run_snoc hb
  have hal' := ho'.last.2
  by_cases h' : ev'.el = el
  swap
  · obtain ⟨c1, c2⟩ := count_other (evs := pre') h'
    rw [c1] at hcl
    rw [c2, exec_other hx' h']
    exact ih _ (by simp only [← hn, List.length_append, List.length_singleton]; omega) (pre ++ [ev]) pre' a s' rfl ho ho'.front ha hs' el hcl
  -- both end with updates of the element
  cases ev with
  | loc i =>
    have h : i = el := h
    subst h
    cases ev' with
    | loc j =>
      have h' : j = i := h'
      subst h'
      rw [count_loc, count_loc, if_pos rfl] at hcl
      have hcl' : pre.count (.loc j) = pre'.count (.loc j) := by omega
      have hcn : pre.count (.nei j) = pre'.count (.nei j) := by
        have h1 : pre.count (.nei j) = pre.count (.loc j) := hal
        have h2 : pre'.count (.nei j) = pre'.count (.loc j) := hal'
        omega
      have hst := (ih _ (by simp only [← hn, List.length_append, List.length_singleton]; omega) pre pre' s s' rfl ho.front ho'.front hs hs' j hcl').2 hcn
      obtain ⟨E, x, x', e1, e2, e3, e4⟩ := loc_inv hx
      obtain ⟨E', y, y', f1, f2, f3, f4⟩ := loc_inv hx'
      rw [e1, Option.some_inj] at f1
      subst f1
      rw [← hst, e2, Option.some_inj] at f2
      subst f2
      rw [e3, Option.some_inj] at f3
      subst f3
      rw [wr_same e4, wr_same f4]
      exact ⟨rfl, fun _ => rfl⟩
    | nei j =>
      have h' : j = i := h'
      subst h'
      rw [nei_keeps hx' j]
      rw [count_nei_loc] at hcl
      refine ⟨(ih _ (by simp only [← hn, List.length_append, List.length_singleton]; omega) (pre ++ [.loc j]) pre' a s' rfl ho ho'.front ha hs' j hcl).1, fun hcn => ?_⟩
      exfalso
      rw [count_loc, if_pos rfl] at hcl
      rw [count_nei, if_pos rfl, count_loc_nei] at hcn
      have h1 : pre.count (.nei j) = pre.count (.loc j) := hal
      have h2 := hal'.1
      omega
  | nei i =>
    have h : i = el := h
    subst h
    cases ev' with
    | loc j =>
      have h' : j = i := h'
      subst h'
      rw [nei_keeps hx j]
      rw [count_nei_loc] at hcl
      refine ⟨(ih _ (by simp only [← hn, List.length_append, List.length_singleton]; omega) pre (pre' ++ [.loc j]) s b rfl ho.front ho' hs hb j hcl).1, fun hcn => ?_⟩
      exfalso
      rw [count_loc, if_pos rfl] at hcl
      rw [count_nei, if_pos rfl, count_loc_nei] at hcn
      have h1 : pre'.count (.nei j) = pre'.count (.loc j) := hal'
      have h2 := hal.1
      omega
    | nei j =>
      have h' : j = i := h'
      subst h'
      rw [count_nei_loc, count_nei_loc] at hcl
      have hlt : pre.length + pre'.length < n := by simp only [← hn, List.length_append, List.length_singleton]; omega
      refine ⟨by rw [nei_keeps hx j, nei_keeps hx' j]; exact (ih _ hlt pre pre' s s' rfl ho.front ho'.front hs hs' j hcl).1, fun hcn => ?_⟩
      rw [count_nei, count_nei, if_pos rfl] at hcn
      have hcn' : pre.count (.nei j) = pre'.count (.nei j) := by omega
      have hst := (ih _ hlt pre pre' s s' rfl ho.front ho'.front hs hs' j hcl).2 hcn'
      obtain ⟨E, x, x', e1, e2, e3, e4⟩ := nei_inv hx
      obtain ⟨E', y, y', f1, f2, f3, f4⟩ := nei_inv hx'
      rw [e1, Option.some_inj] at f1
      subst f1
      rw [← hst, e2, Option.some_inj] at f2
      subst f2
      obtain ⟨m1, m2⟩ := hm j E e1
      have hfc : facesIn (s.map (·.tDofs)) j E.faces E.ad = facesIn (s'.map (·.tDofs)) j E.faces E.ad := by
        refine facesIn_congr (fun fa f hf hout => ?_)
        have hfa : fa < e.nFa := by rw [← m1]; exact (List.getElem?_eq_some_iff.1 hf).1
        obtain ⟨g1, g2⟩ := m2 fa hfa
        rw [hf, Option.some_inj] at g1
        subst g1
        have a1 := hal.2 fa hfa hout
        have a2 := hal'.2 fa hfa hout
        have hc : pre.count (.loc ((F j fa).nb j)) = pre'.count (.loc ((F j fa).nb j)) := by
          rcases g2 hout with t | t | t
          · rw [a1.1 t, a2.1 t, hcn']
          · rw [a1.2.1 t, a2.2.1 t, hcn']
          · rw [a1.2.2 t, a2.2.2 t, hcn']
        rw [List.getElem?_map, List.getElem?_map]
        exact (ih _ hlt pre pre' s s' rfl ho.front ho'.front hs hs' _ hc).1
      rw [hfc, f3, Option.some_inj] at e3
      subst e3
      rw [wr_same e4, wr_same f4]

theorem run_length {evs : List Ev} {st st' : List (RSt K)} (h : runEv c dt lT lV LN FT els sc0 sc1 evs st = some st') : st'.length = st.length := by
  induction evs using List.reverseRecOn generalizing st' with
  | nil => rw [Option.some.inj h]
  | append_singleton evs ev ih =>
    obtain ⟨s, h1, h2⟩ := run_snoc h
    rw [← ih h1]
    have hw : ∀ {α : Type} {l l' : List α} {i : Nat} {v : α}, wr l i v = some l' → l'.length = l.length := by
      intro α l l' i v h
      unfold wr at h
      split at h
      · rw [← Option.some.inj h, List.length_set]
      · cases h
    cases ev with
    | loc i =>
      obtain ⟨E, x, x', -, -, -, h⟩ := loc_inv h2
      exact hw h
    | nei i =>
      obtain ⟨E, x, x', -, -, -, h⟩ := nei_inv h2
      exact hw h

/-- C101: the order in which the updates are executed does not change the results: any two sequences of updates, with the rhythm of the scheduler, which start at a synchronization with the same
state and lead to the same synchronization, give the same state of all elements. No law of arithmetic is used: the statement is about identical operations, not about rounding. -/
theorem C101_schedule (hm : Meets e tg F els) {st a b : List (RSt K)} (hst : st.length = els.length) {evs evs' : List Ev} (ho : Ordered e tg F els.length evs) (ho' : Ordered e tg F els.length evs')
    {M : Nat} (hM : Complete tg els.length evs M) (hM' : Complete tg els.length evs' M) (ha : runEv c dt lT lV LN FT els sc0 sc1 evs (sync st) = some a)
    (hb : runEv c dt lT lV LN FT els sc0 sc1 evs' (sync st) = some b) : a = b := by
  have hs : (sync st).length = els.length := by rw [sync, List.length_map, hst]
  refine List.ext_getElem? (fun el => ?_)
  by_cases hel : el < els.length
  · obtain ⟨m1, m2⟩ := hM el hel
    obtain ⟨n1, n2⟩ := hM' el hel
    have hc : evs.count (.loc el) = evs'.count (.loc el) := Nat.eq_of_mul_eq_mul_right (Nat.two_pow_pos (tg el)) (m2.trans n2.symm)
    exact (same hm _ evs evs' a b rfl ho ho' ha hb el hc).2 (by rw [m1, n1, hc])
  · rw [List.getElem?_eq_none (by rw [run_length ha, hs]; omega), List.getElem?_eq_none (by rw [run_length hb, hs]; omega)]

/-- C101: the same for any number of intervals between synchronizations. -/
theorem C101_intervals (hm : Meets e tg F els) {ivs ivs' : List ((Nat → Nat → K) × List Ev)} {st a b : List (RSt K)} (hst : st.length = els.length)
    (h : List.Forall₂ (fun iv iv' => iv.1 = iv'.1 ∧ Ordered e tg F els.length iv.2 ∧ Ordered e tg F els.length iv'.2 ∧
      ∃ M, Complete tg els.length iv.2 M ∧ Complete tg els.length iv'.2 M) ivs ivs')
    (ha : runSync c lT lV LN FT els sc0 sc1 ivs st = some a) (hb : runSync c lT lV LN FT els sc0 sc1 ivs' st = some b) : a = b := by
  induction h generalizing st with
  | nil => exact Option.some.inj (ha.symm.trans hb)
  | cons h1 _ ih =>
    obtain ⟨e1, o1, o2, M, c1, c2⟩ := h1
    simp only [runSync, List.foldlM_cons, Option.bind_eq_bind, Option.bind_eq_some_iff] at ha hb
    obtain ⟨s, s1, s2⟩ := ha
    obtain ⟨s', s1', s2'⟩ := hb
    rw [← e1] at s1'
    have := C101_schedule hm hst o1 o2 c1 c2 s1 s1'
    subst this
    exact ih (by rw [run_length s1, sync, List.length_map, hst]) s2 s2'

end Edge.Rate
