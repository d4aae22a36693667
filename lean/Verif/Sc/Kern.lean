import Verif.Sc.Detect
/-!
Extrema of sub-cell solutions and replacement of fused simulations (C55, C76).
-/
namespace Edge.Sc
open Edge

variable {K : Type} [Field K] [LinearOrder K]

/-- What `scExtrema` returns. -/
theorem scExtrema_spec {big : K} {Q S C : Nat} {dofs : List K} (hd : dofs.length = Q * S * C) :
    ∃ ext, scExtrema big Q S C dofs = some ext ∧ ext.length = Q * C ∧
      ∀ qt < Q, ∀ cr < C, ∃ e, ext[qt * C + cr]? = some e ∧
        (∀ x, x ≤ e.1 ↔ x ≤ big ∧ ∀ sc < S, ∀ d, dofs[(qt * S + sc) * C + cr]? = some d → x ≤ d) ∧
        (∀ x, e.2 ≤ x ↔ -big ≤ x ∧ ∀ sc < S, ∀ d, dofs[(qt * S + sc) * C + cr]? = some d → d ≤ x) := by
  refine forN_inv (P := fun k (ext : Ext K) => ext.length = Q * C ∧
      ∀ qt < Q, ∀ cr < C, ∃ e, ext[qt * C + cr]? = some e ∧
        (∀ x, x ≤ e.1 ↔ x ≤ big ∧ ∀ sc < k, ∀ d, dofs[(qt * S + sc) * C + cr]? = some d → x ≤ d) ∧
        (∀ x, e.2 ≤ x ↔ -big ≤ x ∧ ∀ sc < k, ∀ d, dofs[(qt * S + sc) * C + cr]? = some d → d ≤ x)) ?_ ?_
  · refine ⟨by simp, fun qt hq cr hc => ⟨(big, -big), ?_, by simp, by simp⟩⟩
    rw [List.getElem?_replicate, if_pos (idx_lt hq hc)]
  · rintro sc ext hs ⟨hl, hp⟩
    have hb : ∀ qt cr, qt < Q → cr < C → (qt * S + sc) * C + cr < dofs.length := by
      intro qt cr hq hc
      rw [hd]
      exact idx_lt (idx_lt hq hs) hc
    obtain ⟨ext', h1, h2, h3⟩ := grid (Q := Q) (C := C) (c := ext) hl
      (body := fun qt cr ext => do
        let e ← rd ext (qt * C + cr)
        let d ← rd dofs ((qt * S + sc) * C + cr)
        wr ext (qt * C + cr) (min e.1 d, max e.2 d))
      (fun i e => match dofs[(i / C * S + sc) * C + i % C]? with | some d => (min e.1 d, max e.2 d) | none => e)
      (by
        intro qt cr c' x hq hc hl' hx
        have e0 : (qt * C + cr) / C = qt := by
          rw [Nat.mul_comm, Nat.mul_add_div (by omega), Nat.div_eq_of_lt hc]; rfl
        have e00 : (qt * C + cr) % C = cr := by rw [Nat.mul_comm, Nat.mul_add_mod, Nat.mod_eq_of_lt hc]
        have e1 : rd c' (qt * C + cr) = some x := hx
        have e2 : rd dofs ((qt * S + sc) * C + cr) = some (dofs[(qt * S + sc) * C + cr]'(hb qt cr hq hc)) := rd_some (hb qt cr hq hc)
        have e3 : dofs[(qt * S + sc) * C + cr]? = some (dofs[(qt * S + sc) * C + cr]'(hb qt cr hq hc)) := e2
        simp only [Option.bind_eq_bind, e1, e2, Option.bind_some, e0, e00, e3]
        rw [wr_some (by rw [hl', hl]; exact idx_lt hq hc)])
    refine ⟨ext', h1, h2.trans hl, fun qt hq cr hc => ?_⟩
    obtain ⟨e, e1, e2, e3⟩ := hp qt hq cr hc
    have e0 : (qt * C + cr) / C = qt := by
      rw [Nat.mul_comm, Nat.mul_add_div (by omega), Nat.div_eq_of_lt hc]; rfl
    have e00 : (qt * C + cr) % C = cr := by rw [Nat.mul_comm, Nat.mul_add_mod, Nat.mod_eq_of_lt hc]
    obtain ⟨d, ed⟩ : ∃ d, dofs[(qt * S + sc) * C + cr]? = some d := ⟨_, List.getElem?_eq_getElem (hb qt cr hq hc)⟩
    refine ⟨(min e.1 d, max e.2 d), by rw [h3, e1, Option.map_some, e0, e00, ed], fun x => ?_, fun x => ?_⟩
    · rw [le_min_iff, e2]
      constructor
      · rintro ⟨⟨a, b⟩, c⟩
        refine ⟨a, fun s hs' d' hd' => ?_⟩
        rcases Nat.lt_succ_iff_lt_or_eq.mp hs' with h | h
        · exact b s h d' hd'
        · subst h; rw [ed] at hd'; cases hd'; exact c
      · rintro ⟨a, b⟩
        exact ⟨⟨a, fun s hs' d' hd' => b s (by omega) d' hd'⟩, b sc (by omega) d ed⟩
    · rw [max_le_iff, e3]
      constructor
      · rintro ⟨⟨a, b⟩, c⟩
        refine ⟨a, fun s hs' d' hd' => ?_⟩
        rcases Nat.lt_succ_iff_lt_or_eq.mp hs' with h | h
        · exact b s h d' hd'
        · subst h; rw [ed] at hd'; cases hd'; exact c
      · rintro ⟨a, b⟩
        exact ⟨⟨a, fun s hs' d' hd' => b s (by omega) d' hd'⟩, b sc (by omega) d ed⟩

/-- The range of quantity and fused simulation `i` in the neighbourhood through faces, relaxed. -/
def InRelaxed (eps eps0 : K) (cur : Ext K) (ad : List (Ext K)) (nb : List Nat) (i : Nat) (x : K) : Prop :=
  ∃ lo hi : K, IsLeast (nbVals Prod.fst cur ad nb i) lo ∧ IsGreatest (nbVals Prod.snd cur ad nb i) hi ∧
    lo - max eps0 (eps * (hi - lo)) ≤ x ∧ x ≤ hi + max eps0 (eps * (hi - lo))

/-- C55, whole decision for a candidate sub-cell solution: extrema of the sub-cells followed by the check in the neighbourhood through
faces accept a fused simulation exactly if every value of every quantity in every sub-cell is in the relaxed range of its
neighbourhood.  Values are within the finite range of the number type and there is at least one sub-cell. -/
theorem C55_subcells (maxId : Nat) {big eps eps0 : K} {F Q S C : Nat} {cur : Ext K} {ad : List (Ext K)} {el : List Nat}
    {dofs : List K} (hS : 0 < S) (hd : dofs.length = Q * S * C) (hbig : ∀ d ∈ dofs, -big ≤ d ∧ d ≤ big)
    (hcur : cur.length = Q * C) (had : ∀ a ∈ ad, a.length = Q * C) (hel : el.length = F)
    (hnb : ∀ n ∈ el, n ≠ maxId → n < ad.length) :
    ∃ ext adm, scExtrema big Q S C dofs = some ext ∧ dmpFa maxId eps eps0 F Q C cur ad ext el = some adm ∧ adm.length = C ∧
      ∀ cr < C, (adm[cr]? = some true ↔ ∀ qt < Q, ∀ sc < S, ∀ d, dofs[(qt * S + sc) * C + cr]? = some d →
        InRelaxed eps eps0 cur ad (el.filter (· ≠ maxId)) (qt * C + cr) d) := by
  obtain ⟨ext, h1, h2, h3⟩ := scExtrema_spec (big := big) hd
  obtain ⟨adm, a1, a2, a3⟩ := C55_dmpFa maxId eps eps0 hcur h2 had hel hnb
  refine ⟨ext, adm, h1, a1, a2, fun cr hcr => (a3 cr hcr).trans ?_⟩
  constructor
  · intro h qt hq sc hs d hd'
    obtain ⟨e, e1, e2, e3⟩ := h3 qt hq cr hcr
    obtain ⟨lo, hi, l, g, p, q⟩ := h qt hq e e1
    exact ⟨lo, hi, l, g, p.trans (((e2 _).mp (le_refl _)).2 sc hs d hd'), (((e3 _).mp (le_refl _)).2 sc hs d hd').trans q⟩
  · intro h qt hq e he
    obtain ⟨e', e1, e2, e3⟩ := h3 qt hq cr hcr
    rw [he] at e1; cases e1
    have hlt : ∀ sc < S, (qt * S + sc) * C + cr < dofs.length := by
      intro sc hs; rw [hd]; exact idx_lt (idx_lt hq hs) hcr
    have hmem : ∀ sc (d : K), dofs[(qt * S + sc) * C + cr]? = some d → d ∈ dofs := fun sc d hh => List.mem_of_getElem? hh
    have e0 : dofs[(qt * S + 0) * C + cr]? = some (dofs[(qt * S + 0) * C + cr]'(hlt 0 hS)) := List.getElem?_eq_getElem (hlt 0 hS)
    obtain ⟨lo, hi, l, g, p, q⟩ := h qt hq 0 hS _ e0
    have hb := hbig _ (hmem 0 _ e0)
    refine ⟨lo, hi, l, g, (e2 _).mpr ⟨p.trans hb.2, fun sc hs d hd' => ?_⟩, (e3 _).mpr ⟨hb.1.trans q, fun sc hs d hd' => ?_⟩⟩
    · obtain ⟨lo', hi', l', g', p', q'⟩ := h qt hq sc hs d hd'
      have := l.unique l'; have := g.unique g'; subst lo' hi'
      exact p'
    · obtain ⟨lo', hi', l', g', p', q'⟩ := h qt hq sc hs d hd'
      have := l.unique l'; have := g.unique g'; subst lo' hi'
      exact q'

/-- A case which meets the hypotheses: two quantities, three sub-cells, two fused simulations, an element with one neighbour and one
boundary face. -/
example : ∃ ext adm, scExtrema (1000 : ℚ) 2 3 2 [1, 5, 2, 6, 3, 7, 0, 0, 0, 1, 0, 0] = some ext ∧
    dmpFa 99 (1/1000 : ℚ) (1/10000) 2 2 2 [(1, 2), (5, 6), (0, 0), (0, 0)] [[(1, 2), (5, 6), (0, 0), (0, 0)], [(1, 3), (5, 8), (0, 0), (0, 0)]]
      ext [1, 99] = some adm ∧ adm = [true, false] :=
  ⟨[(1, 3), (5, 7), (0, 0), (0, 1)], [true, false], by decide +kernel, by decide +kernel, rfl⟩

/-! ### Replacement of non-admissible fused simulations -/

/-- Three nested loops which update all entries of a tensor. -/
theorem grid3 {α : Type} {Q S C : Nat} {c : List α} (hc : c.length = Q * S * C) {body : Nat → Nat → Nat → List α → Option (List α)}
    (v : Nat → Nat → Nat → α → α)
    (hf : ∀ qt sc cr (c' : List α) (x : α), qt < Q → sc < S → cr < C → c'.length = c.length → c'[(qt * S + sc) * C + cr]? = some x →
      body qt sc cr c' = some (c'.set ((qt * S + sc) * C + cr) (v qt sc cr x))) :
    ∃ c', forN Q (fun qt s => forN S (fun sc s => forN C (fun cr s => body qt sc cr s) s) s) c = some c' ∧ c'.length = c.length ∧
      ∀ qt sc cr, qt < Q → sc < S → cr < C → c'[(qt * S + sc) * C + cr]? = (c[(qt * S + sc) * C + cr]?).map (v qt sc cr) := by
  rw [forN_triples]
  have inj2 : ∀ {A a b a' b' : Nat}, b < A → b' < A → a * A + b = a' * A + b' → a = a' ∧ b = b' := by
    intro A a b a' b' hb hb' e
    have e1 : a = a' := by
      have h := congrArg (· / A) e
      simp only [Nat.mul_comm _ A, Nat.mul_add_div (show 0 < A by omega), Nat.div_eq_of_lt hb, Nat.div_eq_of_lt hb'] at h
      omega
    subst e1
    exact ⟨rfl, by omega⟩
  obtain ⟨c', h1, h2, h3, h4⟩ := scatter (ts := triples Q S C) (idx := fun p => (p.1 * S + p.2.1) * C + p.2.2)
    (f := fun s p => body p.1 p.2.1 p.2.2 s) (c := c) (fun p => v p.1 p.2.1 p.2.2)
    (by
      refine nodup_map_of_inj (nodup_triples Q S C) ?_
      rintro ⟨a, b, d⟩ ha ⟨a', b', d'⟩ hb e
      have ha := mem_triples.mp ha
      have hb := mem_triples.mp hb
      simp only at ha hb e
      obtain ⟨x, y⟩ := inj2 ha.2.2 hb.2.2 e
      obtain ⟨z, w⟩ := inj2 ha.2.1 hb.2.1 x
      rw [y, z, w])
    (by
      intro p hp
      have := mem_triples.mp hp
      rw [hc]
      exact idx_lt (idx_lt this.1 this.2.1) this.2.2)
    (by
      intro p hp c' x hl hx _
      have := mem_triples.mp hp
      exact hf p.1 p.2.1 p.2.2 c' x this.1 this.2.1 this.2.2 hl hx)
  refine ⟨c', h1, h2, fun qt sc cr hq hs hc' => h3 (qt, sc, cr) (mem_triples.mpr ⟨hq, hs, hc'⟩)⟩

omit [Field K] [LinearOrder K] in
/-- C76, replacement: for every quantity and sub-cell (sub-face), exactly the non-admissible fused simulations obtain the stored
sub-cell solution, the others keep the projection. -/
theorem C76_replace {Q S C : Nat} {st o : List K} {adm : List Bool} (hst : st.length = Q * S * C) (ho : o.length = Q * S * C)
    (ha : adm.length = C) :
    ∃ o', replaceSc Q S C st adm o = some o' ∧ o'.length = Q * S * C ∧
      ∀ qt sc cr, qt < Q → sc < S → cr < C → o'[(qt * S + sc) * C + cr]? =
        if adm[cr]? = some true then o[(qt * S + sc) * C + cr]? else st[(qt * S + sc) * C + cr]? := by
  obtain ⟨o', h1, h2, h3⟩ := grid3 (Q := Q) (S := S) (C := C) (c := o) ho
    (body := fun qt sc cr o => do
      let a ← rd adm cr
      let s ← rd st ((qt * S + sc) * C + cr)
      let p ← rd o ((qt * S + sc) * C + cr)
      wr o ((qt * S + sc) * C + cr) (if a = false then s else p))
    (fun qt sc cr p => match adm[cr]?, st[(qt * S + sc) * C + cr]? with
      | some a, some s => if a = false then s else p
      | _, _ => p)
    (by
      intro qt sc cr c' x hq hs hc hl hx
      have hi := idx_lt (idx_lt hq hs) hc
      have e1 : rd adm cr = some adm[cr] := rd_some (by omega)
      have e2 : rd st ((qt * S + sc) * C + cr) = some st[(qt * S + sc) * C + cr] := rd_some (by omega)
      have e3 : rd c' ((qt * S + sc) * C + cr) = some x := hx
      have f1 : adm[cr]? = some adm[cr] := e1
      have f2 : st[(qt * S + sc) * C + cr]? = some st[(qt * S + sc) * C + cr] := e2
      simp only [Option.bind_eq_bind, e1, e2, e3, Option.bind_some, f1, f2]
      rw [wr_some (by omega)])
  refine ⟨o', h1, h2.trans ho, fun qt sc cr hq hs hc => ?_⟩
  have hi := idx_lt (idx_lt hq hs) hc
  have f1 : adm[cr]? = some adm[cr] := List.getElem?_eq_getElem (by omega)
  have f2 : st[(qt * S + sc) * C + cr]? = some st[(qt * S + sc) * C + cr] := List.getElem?_eq_getElem (by omega)
  have f3 : o[(qt * S + sc) * C + cr]? = some o[(qt * S + sc) * C + cr] := List.getElem?_eq_getElem (by omega)
  rw [h3 qt sc cr hq hs hc, f3, f2, f1]
  cases adm[cr] <;> simp

omit [Field K] [LinearOrder K] in
/-- C76, sub-cells at a face for the adjacent element: for the non-admissible fused simulations the sub-face `sf` of the adjacent
element obtains the solution of the element's sub-cell at the matching sub-face `scDgAd[sf]`, other simulations are not touched. -/
theorem C76_gather {Q N S C : Nat} {sc o : List K} {fs ad : List Nat} {adm : List Bool} (hsc : sc.length = Q * N * C)
    (ho : o.length = Q * S * C) (ha : adm.length = C) (had : ad.length = S) (hfs : fs.length = S) (h1 : ∀ x ∈ ad, x < S)
    (h2 : ∀ x ∈ fs, x < N) :
    ∃ o', gatherFa Q N S C sc fs ad adm o = some o' ∧ o'.length = Q * S * C ∧
      ∀ qt sf cr re cell, qt < Q → sf < S → cr < C → ad[sf]? = some re → fs[re]? = some cell →
        o'[(qt * S + sf) * C + cr]? = if adm[cr]? = some true then o[(qt * S + sf) * C + cr]? else sc[(qt * N + cell) * C + cr]? := by
  let cellOf : Nat → Nat := fun sf => match ad[sf]? with | some re => (match fs[re]? with | some x => x | none => 0) | none => 0
  have key : ∀ sf < S, ∃ re, ad[sf]? = some re ∧ fs[re]? = some (cellOf sf) ∧ cellOf sf < N := by
    intro sf hsf
    have g1 : ad[sf]? = some ad[sf] := List.getElem?_eq_getElem (by omega)
    have g2 := h1 _ (List.getElem_mem (l := ad) (n := sf) (by omega))
    have g3 : fs[ad[sf]]? = some fs[ad[sf]] := List.getElem?_eq_getElem (by omega)
    have g4 : cellOf sf = fs[ad[sf]] := by simp only [cellOf, g1, g3]
    refine ⟨ad[sf], g1, by rw [g4]; exact g3, by rw [g4]; exact h2 _ (List.getElem_mem _)⟩
  obtain ⟨o', q1, q2, q3⟩ := grid3 (Q := Q) (S := S) (C := C) (c := o) ho
    (body := fun qt sf cr o => do
      let a ← rd adm cr
      let s ← rd sc ((qt * N + cellOf sf) * C + cr)
      let p ← rd o ((qt * S + sf) * C + cr)
      wr o ((qt * S + sf) * C + cr) (if a = false then s else p))
    (fun qt sf cr p => match adm[cr]?, sc[(qt * N + cellOf sf) * C + cr]? with
      | some a, some s => if a = false then s else p
      | _, _ => p)
    (by
      intro qt sf cr c' x hq hs hc hl hx
      obtain ⟨re, k1, k2, k3⟩ := key sf hs
      have hi := idx_lt (idx_lt hq hs) hc
      have hj := idx_lt (idx_lt hq k3) hc
      have e1 : rd adm cr = some adm[cr] := rd_some (by omega)
      have e2 : rd sc ((qt * N + cellOf sf) * C + cr) = some sc[(qt * N + cellOf sf) * C + cr] := rd_some (by omega)
      have e3 : rd c' ((qt * S + sf) * C + cr) = some x := hx
      have f1 : adm[cr]? = some adm[cr] := e1
      have f2 : sc[(qt * N + cellOf sf) * C + cr]? = some sc[(qt * N + cellOf sf) * C + cr] := e2
      simp only [Option.bind_eq_bind, e1, e2, e3, Option.bind_some, f1, f2]
      rw [wr_some (by omega)])
  refine ⟨o', ?_, q2.trans ho, fun qt sf cr re cell hq hs hc e1 e2 => ?_⟩
  · rw [← q1, gatherFa]
    refine forN_congr _ (fun qt t hq => forN_congr _ (fun sf t hs => ?_))
    obtain ⟨re, k1, k2, k3⟩ := key sf hs
    have k1' : rd ad sf = some re := k1
    have k2' : rd fs re = some (cellOf sf) := k2
    simp only [Option.bind_eq_bind, k1', k2', Option.bind_some]
  · obtain ⟨re', k1, k2, k3⟩ := key sf hs
    rw [e1] at k1; cases k1
    rw [e2] at k2; cases k2
    have hi := idx_lt (idx_lt hq hs) hc
    have hj := idx_lt (idx_lt hq k3) hc
    have f1 : adm[cr]? = some adm[cr] := List.getElem?_eq_getElem (by omega)
    have f2 : sc[(qt * N + cellOf sf) * C + cr]? = some sc[(qt * N + cellOf sf) * C + cr] := List.getElem?_eq_getElem (by omega)
    have f3 : o[(qt * S + sf) * C + cr]? = some o[(qt * S + sf) * C + cr] := List.getElem?_eq_getElem (by omega)
    rw [q3 qt sf cr hq hs hc, f3, f2, f1]
    cases adm[cr] <;> simp

/-- C76, counters: exactly the counters of the limited elements among the given limited-plus elements are reset. -/
theorem C76_resetLimSync {maxId C first size : Nat} {lpLi cnt : List Nat} (hl : first + size ≤ lpLi.length)
    (hc : ∀ li ∈ lpLi, li ≠ maxId → (li + 1) * C ≤ cnt.length) :
    ∃ cnt', resetLimSync maxId C first size lpLi cnt = some cnt' ∧ cnt'.length = cnt.length ∧
      ∀ i : Nat, cnt'[i]? = if 0 < C ∧ i < cnt.length ∧ i / C ≠ maxId ∧ ∃ l < size, lpLi[first + l]? = some (i / C) then some 0 else cnt[i]? := by
  classical
  refine forN_inv (P := fun k (c : List Nat) => c.length = cnt.length ∧ ∀ i : Nat, c[i]? =
    if 0 < C ∧ i < cnt.length ∧ i / C ≠ maxId ∧ ∃ l < k, lpLi[first + l]? = some (i / C) then some 0 else cnt[i]?) ?_ ?_
  · exact ⟨rfl, fun i => by simp⟩
  · rintro k c hk ⟨p1, p2⟩
    have hkl : first + k < lpLi.length := by omega
    have e1 : rd lpLi (first + k) = some lpLi[first + k] := rd_some hkl
    have e1' : lpLi[first + k]? = some lpLi[first + k] := e1
    simp only [Option.bind_eq_bind, e1, Option.bind_some]
    have ex : ∀ j, (∃ l < k + 1, lpLi[first + l]? = some j) ↔ (∃ l < k, lpLi[first + l]? = some j) ∨ lpLi[first + k] = j := by
      intro j
      constructor
      · rintro ⟨l, hl, h⟩
        rcases Nat.lt_succ_iff_lt_or_eq.mp hl with h' | h'
        · exact Or.inl ⟨l, h', h⟩
        · subst h'; rw [e1'] at h; exact Or.inr (by simpa using h)
      · rintro (⟨l, hl, h⟩ | h)
        · exact ⟨l, by omega, h⟩
        · exact ⟨k, by omega, by rw [e1', h]⟩
    by_cases hm : lpLi[first + k] = maxId
    · rw [if_neg (by simp [hm])]
      refine ⟨c, rfl, p1, fun i => ?_⟩
      rw [p2]
      congr 1
      rw [ex]
      apply propext
      constructor
      · rintro ⟨a, b, d, e⟩; exact ⟨a, b, d, Or.inl e⟩
      · rintro ⟨a, b, d, e | e⟩
        · exact ⟨a, b, d, e⟩
        · exact absurd (e.symm.trans hm) d
    · rw [if_pos hm]
      have hcl := hc _ (List.getElem_mem hkl) hm
      obtain ⟨c', r1, r2, r3⟩ := forN_inv (n := C) (body := fun cr (c : List Nat) => wr c (lpLi[first + k] * C + cr) 0) (s := c)
        (P := fun j (d : List Nat) => d.length = cnt.length ∧ ∀ i : Nat, d[i]? =
          if lpLi[first + k] * C ≤ i ∧ i < lpLi[first + k] * C + j then some 0 else c[i]?)
        ⟨p1, fun i => by rw [if_neg (by omega)]⟩
        (by
          rintro j d hj ⟨d1, d2⟩
          have hlt : lpLi[first + k] * C + j < d.length := by
            rw [d1]; rw [Nat.add_mul, Nat.one_mul] at hcl; omega
          refine ⟨_, wr_some hlt 0, by simp [d1], fun i => ?_⟩
          rw [List.getElem?_set]
          by_cases e : lpLi[first + k] * C + j = i
          · rw [if_pos e, if_pos (by omega), if_pos (by omega)]
          · rw [if_neg e, d2]
            by_cases h : lpLi[first + k] * C ≤ i ∧ i < lpLi[first + k] * C + j
            · rw [if_pos h, if_pos (by omega)]
            · rw [if_neg h, if_neg (by omega)])
      refine ⟨c', r1, r2, fun i => ?_⟩
      rw [r3, p2]
      by_cases h : lpLi[first + k] * C ≤ i ∧ i < lpLi[first + k] * C + C
      · have hC : 0 < C := by omega
        have hdiv : i / C = lpLi[first + k] := Nat.div_eq_of_lt_le (by omega) (by rw [Nat.add_mul, Nat.one_mul]; omega)
        rw [if_pos h, if_pos ⟨hC, by rw [Nat.add_mul, Nat.one_mul] at hcl; omega, by rw [hdiv]; exact hm, (ex _).mpr (Or.inr hdiv.symm)⟩]
      · rw [if_neg h]
        congr 1
        rw [ex]
        apply propext
        constructor
        · rintro ⟨a, b, d, e⟩; exact ⟨a, b, d, Or.inl e⟩
        · rintro ⟨a, b, d, e | e⟩
          · exact ⟨a, b, d, e⟩
          · exfalso
            apply h
            rw [e]
            constructor
            · exact Nat.div_mul_le_self i C
            · have := Nat.lt_div_mul_add a (a := i); omega

/-- Cases which meet the hypotheses of C76. -/
example : replaceSc 1 2 2 [10, 11, 12, 13] [false, true] [(0 : ℚ), 1, 2, 3] = some [10, 1, 12, 3] := by decide +kernel
example : gatherFa 1 3 2 2 [(10 : ℚ), 11, 12, 13, 14, 15] [0, 2] [1, 0] [false, true] [0, 1, 2, 3] = some [14, 1, 10, 3] := by decide +kernel
example : resetLimSync 99 2 1 2 [0, 99, 1] [5, 6, 7, 8] = some [5, 6, 0, 0] := by decide

end Edge.Sc
