import Verif.Sc.Model
import Mathlib.Order.Bounds.Basic
import Mathlib.Tactic.Linarith
/-!
C55: a candidate solution is accepted exactly if it obeys the relaxed discrete maximum principle.
-/
namespace Edge.Sc
open Edge

variable {K : Type} [Field K] [LinearOrder K]

/-- Two nested loops which update all entries of a matrix. -/
theorem grid {α : Type} {Q C : Nat} {c : List α} (hc : c.length = Q * C) {body : Nat → Nat → List α → Option (List α)}
    (v : Nat → α → α)
    (hf : ∀ qt cr (c' : List α) (x : α), qt < Q → cr < C → c'.length = c.length → c'[qt * C + cr]? = some x →
      body qt cr c' = some (c'.set (qt * C + cr) (v (qt * C + cr) x))) :
    ∃ c', forN Q (fun qt s => forN C (fun cr s => body qt cr s) s) c = some c' ∧ c'.length = c.length ∧
      ∀ i : Nat, c'[i]? = (c[i]?).map (v i) := by
  rw [forN_pairs]
  have hlt : ∀ p ∈ pairs Q C, p.1 * C + p.2 < c.length := by
    intro p hp
    obtain ⟨h1, h2⟩ := mem_pairs.mp hp
    rw [hc]
    calc p.1 * C + p.2 < p.1 * C + C := by omega
      _ = (p.1 + 1) * C := by rw [Nat.add_mul, Nat.one_mul]
      _ ≤ Q * C := Nat.mul_le_mul_right _ h1
  obtain ⟨c', h1, h2, h3, h4⟩ := scatter (ts := pairs Q C) (idx := fun p => p.1 * C + p.2)
    (f := fun s p => body p.1 p.2 s) (c := c) (fun p => v (p.1 * C + p.2))
    (by
      refine nodup_map_of_inj (nodup_pairs Q C) ?_
      rintro ⟨a, b⟩ ha ⟨a', b'⟩ hb e
      have ha := mem_pairs.mp ha
      have hb := mem_pairs.mp hb
      simp only at ha hb e
      have hC : 0 < C := by omega
      have e1 : a = a' := by
        have h := congrArg (· / C) e
        simp only [Nat.mul_comm _ C, Nat.mul_add_div hC, Nat.div_eq_of_lt ha.2, Nat.div_eq_of_lt hb.2] at h
        omega
      subst e1
      have : b = b' := by omega
      rw [this])
    hlt
    (by
      intro p hp c' x hl hx _
      obtain ⟨q1, q2⟩ := mem_pairs.mp hp
      exact hf p.1 p.2 c' x q1 q2 hl hx)
  refine ⟨c', h1, h2, ?_⟩
  intro i
  by_cases hi : i < Q * C
  · have hC : 0 < C := by
      rcases Nat.eq_zero_or_pos C with h | h
      · simp [h] at hi
      · exact h
    have e : i / C * C + i % C = i := by rw [Nat.mul_comm]; exact Nat.div_add_mod i C
    have hm : (i / C, i % C) ∈ pairs Q C :=
      mem_pairs.mpr ⟨Nat.div_lt_of_lt_mul (by rw [Nat.mul_comm]; exact hi), Nat.mod_lt _ hC⟩
    have := h3 _ hm
    simp only [e] at this
    exact this
  · rw [List.getElem?_eq_none (by omega), List.getElem?_eq_none (by omega)]
    rfl

theorem idx_lt {Q C qt cr : Nat} (hq : qt < Q) (hc : cr < C) : qt * C + cr < Q * C := by
  calc qt * C + cr < qt * C + C := by omega
    _ = (qt + 1) * C := by rw [Nat.add_mul, Nat.one_mul]
    _ ≤ Q * C := Nat.mul_le_mul_right _ hq

omit [Field K] in
theorem reduceEl_spec {Q C : Nat} {ad red : Ext K} (ha : ad.length = Q * C) (hr : red.length = Q * C) :
    ∃ red', reduceEl Q C ad red = some red' ∧ red'.length = Q * C ∧
      ∀ (i : Nat) (r a : K × K), red[i]? = some r → ad[i]? = some a → red'[i]? = some (min r.1 a.1, max r.2 a.2) := by
  obtain ⟨c', h1, h2, h3⟩ := grid (Q := Q) (C := C) (c := red) hr
    (body := fun qt cr red => do
      let r ← rd red (qt * C + cr)
      let a ← rd ad (qt * C + cr)
      wr red (qt * C + cr) (min r.1 a.1, max r.2 a.2))
    (fun i r => match ad[i]? with | some a => (min r.1 a.1, max r.2 a.2) | none => r)
    (by
      intro qt cr c' x hq hc hl hx
      have hi := idx_lt hq hc
      have e1 : rd c' (qt * C + cr) = some x := hx
      have e2 : rd ad (qt * C + cr) = some ad[qt * C + cr] := rd_some (by omega)
      have e3 : ad[qt * C + cr]? = some ad[qt * C + cr] := List.getElem?_eq_getElem (by omega)
      simp only [Option.bind_eq_bind, e1, e2, Option.bind_some, e3]
      rw [wr_some (by omega)])
  refine ⟨c', h1, h2.trans hr, ?_⟩
  intro i r a e1 e2
  rw [h3, e1]
  simp [e2]

omit [LinearOrder K] in
theorem initRed_spec {Q C : Nat} {cur : Ext K} (hc : cur.length = Q * C) : initRed Q C cur = some cur := by
  obtain ⟨c', h1, h2, h3⟩ := grid (Q := Q) (C := C) (c := List.replicate (Q * C) ((0 : K), (0 : K))) (by simp)
    (body := fun qt cr red => do
      let c ← rd cur (qt * C + cr)
      wr red (qt * C + cr) c)
    (fun i r => match cur[i]? with | some a => a | none => r)
    (by
      intro qt cr c' x hq hc' hl hx
      have hi := idx_lt hq hc'
      rw [List.length_replicate] at hl
      have e2 : rd cur (qt * C + cr) = some cur[qt * C + cr] := rd_some (by omega)
      have e3 : cur[qt * C + cr]? = some cur[qt * C + cr] := List.getElem?_eq_getElem (by omega)
      simp only [Option.bind_eq_bind, e2, Option.bind_some, e3]
      rw [wr_some (by omega)])
  refine h1.trans (congrArg some ?_)
  apply List.ext_getElem?
  intro i
  rw [h3]
  rw [List.getElem?_replicate]
  by_cases hi : i < Q * C
  · rw [if_pos hi, List.getElem?_eq_getElem (by omega)]; simp
  · rw [if_neg hi, List.getElem?_eq_none (by omega)]; simp

open Classical in
/-- The check for one fused simulation, as a condition on all quantities. -/
theorem checkDmp_spec {eps eps0 : K} {Q C : Nat} {red can : Ext K} (hr : red.length = Q * C) (hc : can.length = Q * C) :
    ∃ adm, checkDmp eps eps0 Q C red can (List.replicate C true) = some adm ∧ adm.length = C ∧
      ∀ cr < C, (adm[cr]? = some true ↔ ∀ qt < Q, ∀ r c, red[qt * C + cr]? = some r → can[qt * C + cr]? = some c →
        r.1 - delta eps eps0 r ≤ c.1 ∧ c.2 ≤ r.2 + delta eps eps0 r) := by
  refine forN_inv (P := fun k (adm : List Bool) => adm.length = C ∧
      ∀ cr < C, (adm[cr]? = some true ↔ ∀ qt < k, ∀ r c, red[qt * C + cr]? = some r → can[qt * C + cr]? = some c →
        r.1 - delta eps eps0 r ≤ c.1 ∧ c.2 ≤ r.2 + delta eps eps0 r)) ?_ ?_
  · refine ⟨by simp, fun cr h => ?_⟩
    simp [h]
  · rintro qt adm hq ⟨hl, hp⟩
    obtain ⟨adm', h1, h2, h3⟩ := forN_inv (n := C) (body := fun cr adm => do
        let r ← rd red (qt * C + cr)
        let c ← rd can (qt * C + cr)
        if r.1 - delta eps eps0 r > c.1 ∨ c.2 > r.2 + delta eps eps0 r then wr adm cr false else some adm) (s := adm)
      (P := fun k (a : List Bool) => a.length = C ∧ ∀ cr : Nat, a[cr]? =
        if cr < k ∧ ¬ (∀ r c, red[qt * C + cr]? = some r → can[qt * C + cr]? = some c →
          r.1 - delta eps eps0 r ≤ c.1 ∧ c.2 ≤ r.2 + delta eps eps0 r) then some false else adm[cr]?)
      ⟨hl, fun cr => by simp⟩
      (by
        rintro cr a hcr ⟨al, ap⟩
        have hi := idx_lt hq hcr
        have e1 : rd red (qt * C + cr) = some red[qt * C + cr] := rd_some (by omega)
        have e2 : rd can (qt * C + cr) = some can[qt * C + cr] := rd_some (by omega)
        have e1' : red[qt * C + cr]? = some red[qt * C + cr] := List.getElem?_eq_getElem (by omega)
        have e2' : can[qt * C + cr]? = some can[qt * C + cr] := List.getElem?_eq_getElem (by omega)
        have key : (∀ r c, red[qt * C + cr]? = some r → can[qt * C + cr]? = some c →
          r.1 - delta eps eps0 r ≤ c.1 ∧ c.2 ≤ r.2 + delta eps eps0 r) ↔
          ¬ (red[qt * C + cr].1 - delta eps eps0 red[qt * C + cr] > can[qt * C + cr].1 ∨
            can[qt * C + cr].2 > red[qt * C + cr].2 + delta eps eps0 red[qt * C + cr]) := by
          simp only [not_or, gt_iff_lt, not_lt]
          constructor
          · intro h; exact h _ _ e1' e2'
          · intro h r c f1 f2
            rw [e1'] at f1; rw [e2'] at f2
            cases f1; cases f2; exact h
        simp only [Option.bind_eq_bind, e1, e2, Option.bind_some]
        by_cases h : red[qt * C + cr].1 - delta eps eps0 red[qt * C + cr] > can[qt * C + cr].1 ∨
            can[qt * C + cr].2 > red[qt * C + cr].2 + delta eps eps0 red[qt * C + cr]
        · rw [if_pos h, wr_some (by omega)]
          refine ⟨_, rfl, by simp [al], fun k => ?_⟩
          rw [List.getElem?_set]
          by_cases ek : cr = k
          · subst ek
            rw [if_pos rfl, if_pos (by omega), if_pos ⟨by omega, fun hh => (key.mp hh) h⟩]
          · rw [if_neg ek, ap]
            have : (k < cr + 1) ↔ k < cr := by omega
            simp only [this]
        · rw [if_neg h]
          refine ⟨_, rfl, al, fun k => ?_⟩
          rw [ap]
          by_cases ek : cr = k
          · subst ek
            rw [if_neg (by omega), if_neg (fun hh => hh.2 (key.mpr h))]
          · have : (k < cr + 1) ↔ k < cr := by omega
            simp only [this])
    refine ⟨adm', h1, h2, fun cr hcr => ?_⟩
    rw [h3]
    by_cases h : (∀ r c, red[qt * C + cr]? = some r → can[qt * C + cr]? = some c →
          r.1 - delta eps eps0 r ≤ c.1 ∧ c.2 ≤ r.2 + delta eps eps0 r)
    · rw [if_neg (fun hh => hh.2 h), hp cr hcr]
      constructor
      · intro hh q hq'
        rcases Nat.lt_succ_iff_lt_or_eq.mp hq' with h1 | h1
        · exact hh q h1
        · subst h1; exact h
      · intro hh q hq'
        exact hh q (by omega)
    · rw [if_pos ⟨hcr, h⟩]
      constructor
      · intro hh; cases hh
      · intro hh; exact absurd (hh qt (by omega)) h

/-! ### Specification -/

/-- The values of one quantity and fused simulation in the neighbourhood: the one of the element and those of the elements `nb`. -/
def nbVals (f : K × K → K) (cur : Ext K) (ad : List (Ext K)) (nb : List Nat) (i : Nat) : Set K :=
  { x | (∃ e, cur[i]? = some e ∧ x = f e) ∨ ∃ n ∈ nb, ∃ a e, ad[n]? = some a ∧ a[i]? = some e ∧ x = f e }

/-- The relaxed discrete maximum principle for quantity and fused simulation `i = qt*nCrs + cr`: with the smallest minimum `lo` and
the largest maximum `hi` of the neighbourhood, the extrema of the candidate solution are in `[lo - d, hi + d]`,
`d = max(eps0, eps*(hi - lo))`. -/
def RelaxedDmp (eps eps0 : K) (cur : Ext K) (ad : List (Ext K)) (nb : List Nat) (i : Nat) (canMin canMax : K) : Prop :=
  ∃ lo hi : K, IsLeast (nbVals Prod.fst cur ad nb i) lo ∧ IsGreatest (nbVals Prod.snd cur ad nb i) hi ∧
    lo - max eps0 (eps * (hi - lo)) ≤ canMin ∧ canMax ≤ hi + max eps0 (eps * (hi - lo))

/-- What the reduced extrema are. -/
def RedOf (cur : Ext K) (ad : List (Ext K)) (nb : List Nat) (n : Nat) (red : Ext K) : Prop :=
  red.length = n ∧ ∀ i r, red[i]? = some r →
    IsLeast (nbVals Prod.fst cur ad nb i) r.1 ∧ IsGreatest (nbVals Prod.snd cur ad nb i) r.2

omit [Field K] in
theorem redOf_nil {cur : Ext K} {ad : List (Ext K)} {n : Nat} (h : cur.length = n) : RedOf cur ad [] n cur := by
  refine ⟨h, fun i r e => ⟨⟨Or.inl ⟨r, e, rfl⟩, ?_⟩, ⟨Or.inl ⟨r, e, rfl⟩, ?_⟩⟩⟩
  · rintro x (⟨e', h', rfl⟩ | ⟨n, hn, _⟩)
    · rw [e] at h'; cases h'; exact le_refl _
    · simp at hn
  · rintro x (⟨e', h', rfl⟩ | ⟨n, hn, _⟩)
    · rw [e] at h'; cases h'; exact le_refl _
    · simp at hn

omit [Field K] in
theorem redOf_snoc {cur : Ext K} {ad : List (Ext K)} {nb : List Nat} {n k : Nat} {red a : Ext K} {red' : Ext K}
    (h : RedOf cur ad nb n red) (ha : ad[k]? = some a) (hal : a.length = n) (hl : red'.length = n)
    (hr : ∀ (i : Nat) (r x : K × K), red[i]? = some r → a[i]? = some x → red'[i]? = some (min r.1 x.1, max r.2 x.2)) :
    RedOf cur ad (nb ++ [k]) n red' := by
  refine ⟨hl, fun i r e => ?_⟩
  obtain ⟨hi, -⟩ := List.getElem?_eq_some_iff.mp e
  have hir : i < red.length := by rw [h.1]; omega
  have e1 : red[i]? = some red[i] := List.getElem?_eq_getElem hir
  have e2 : a[i]? = some a[i] := List.getElem?_eq_getElem (by omega)
  rw [hr i _ _ e1 e2] at e
  cases e
  obtain ⟨⟨m1, m2⟩, ⟨m3, m4⟩⟩ := h.2 i _ e1
  have sub : ∀ f : K × K → K, nbVals f cur ad (nb ++ [k]) i = nbVals f cur ad nb i ∪ {f a[i]} := by
    intro f
    ext x
    constructor
    · rintro (hx | ⟨n', hn', b, e', h1, h2, h3⟩)
      · exact Or.inl (Or.inl hx)
      · rcases List.mem_append.mp hn' with h' | h'
        · exact Or.inl (Or.inr ⟨n', h', b, e', h1, h2, h3⟩)
        · simp at h'; subst h'
          rw [ha] at h1; cases h1
          rw [e2] at h2; cases h2
          exact Or.inr h3
    · rintro ((hx | ⟨n', hn', r⟩) | hx)
      · exact Or.inl hx
      · exact Or.inr ⟨n', by simp [hn'], r⟩
      · exact Or.inr ⟨k, by simp, a, a[i], ha, e2, hx⟩
  rw [sub, sub]
  refine ⟨⟨?_, ?_⟩, ⟨?_, ?_⟩⟩
  · rcases min_choice red[i].1 a[i].1 with hh | hh
    · simp only [hh]; exact Or.inl m1
    · simp only [hh]; exact Or.inr rfl
  · rintro x (hx | rfl)
    · exact le_trans (min_le_left _ _) (m2 hx)
    · exact min_le_right _ _
  · rcases max_choice red[i].2 a[i].2 with hh | hh
    · simp only [hh]; exact Or.inl m3
    · simp only [hh]; exact Or.inr rfl
  · rintro x (hx | rfl)
    · exact le_trans (m4 hx) (le_max_left _ _)
    · exact le_max_right _ _

/-- From the reduced extrema to the specification. -/
theorem dmp_of_red {eps eps0 : K} {Q C : Nat} {cur can red : Ext K} {ad : List (Ext K)} {nb : List Nat}
    (hr : RedOf cur ad nb (Q * C) red) (hcan : can.length = Q * C) :
    ∃ adm, checkDmp eps eps0 Q C red can (List.replicate C true) = some adm ∧ adm.length = C ∧
      ∀ cr < C, (adm[cr]? = some true ↔ ∀ qt < Q, ∀ c, can[qt * C + cr]? = some c →
        RelaxedDmp eps eps0 cur ad nb (qt * C + cr) c.1 c.2) := by
  obtain ⟨adm, h1, h2, h3⟩ := checkDmp_spec (eps := eps) (eps0 := eps0) hr.1 hcan
  refine ⟨adm, h1, h2, fun cr hcr => (h3 cr hcr).trans ?_⟩
  constructor
  · intro h qt hq c hc
    have hi := idx_lt hq hcr
    have hir : qt * C + cr < red.length := by rw [hr.1]; exact hi
    have e1 : red[qt * C + cr]? = some red[qt * C + cr] := List.getElem?_eq_getElem hir
    obtain ⟨l, g⟩ := hr.2 _ _ e1
    obtain ⟨a, b⟩ := h qt hq _ c e1 hc
    exact ⟨_, _, l, g, a, b⟩
  · intro h qt hq r c er hc
    obtain ⟨lo, hi, l, g, a, b⟩ := h qt hq c hc
    obtain ⟨l', g'⟩ := hr.2 _ _ er
    have := l.unique l'
    have := g.unique g'
    subst lo hi
    exact ⟨a, b⟩

/-- C55, neighbourhood through vertices: the check finishes without leaving the arrays, and a fused simulation is accepted exactly if
all quantities obey the relaxed discrete maximum principle. -/
theorem C55_dmpVe (eps eps0 : K) {Q C : Nat} {cur can : Ext K} {ad : List (Ext K)} {nb : List Nat} (hcur : cur.length = Q * C)
    (hcan : can.length = Q * C) (had : ∀ a ∈ ad, a.length = Q * C) (hnb : ∀ n ∈ nb, n < ad.length) :
    ∃ adm, dmpVe eps eps0 Q C cur ad can nb = some adm ∧ adm.length = C ∧
      ∀ cr < C, (adm[cr]? = some true ↔ ∀ qt < Q, ∀ c, can[qt * C + cr]? = some c →
        RelaxedDmp eps eps0 cur ad nb (qt * C + cr) c.1 c.2) := by
  obtain ⟨red, h1, h2⟩ := forN_inv (n := nb.length) (body := fun ne red => do
      let id ← rd nb ne
      let a ← rd ad id
      reduceEl Q C a red) (s := cur)
    (P := fun k red => RedOf cur ad (nb.take k) (Q * C) red) (redOf_nil hcur)
    (by
      intro k red hk hr
      have e1 : rd nb k = some nb[k] := rd_some hk
      have hn := hnb nb[k] (List.getElem_mem hk)
      have e2 : rd ad nb[k] = some ad[nb[k]] := rd_some hn
      have hal := had ad[nb[k]] (List.getElem_mem hn)
      obtain ⟨red', q1, q2, q3⟩ := reduceEl_spec hal hr.1
      refine ⟨red', by simp only [Option.bind_eq_bind, e1, e2, Option.bind_some]; exact q1, ?_⟩
      rw [List.take_add_one, List.getElem?_eq_getElem hk]
      exact redOf_snoc hr e2 hal q2 q3)
  rw [List.take_length] at h2
  obtain ⟨adm, a1, a2, a3⟩ := dmp_of_red (eps := eps) (eps0 := eps0) h2 hcan
  refine ⟨adm, ?_, a2, a3⟩
  rw [dmpVe, initRed_spec hcur]
  simp only [Option.bind_eq_bind, Option.bind_some] at h1 ⊢
  rw [h1]
  exact a1

/-- C55, neighbourhood through faces: as `C55_dmpVe` for the elements across the faces which have one. -/
theorem C55_dmpFa (maxId : Nat) (eps eps0 : K) {F Q C : Nat} {cur can : Ext K} {ad : List (Ext K)} {el : List Nat}
    (hcur : cur.length = Q * C) (hcan : can.length = Q * C) (had : ∀ a ∈ ad, a.length = Q * C) (hel : el.length = F)
    (hnb : ∀ n ∈ el, n ≠ maxId → n < ad.length) :
    ∃ adm, dmpFa maxId eps eps0 F Q C cur ad can el = some adm ∧ adm.length = C ∧
      ∀ cr < C, (adm[cr]? = some true ↔ ∀ qt < Q, ∀ c, can[qt * C + cr]? = some c →
        RelaxedDmp eps eps0 cur ad (el.filter (· ≠ maxId)) (qt * C + cr) c.1 c.2) := by
  obtain ⟨red, h1, h2⟩ := forN_inv (n := F) (body := fun fa red => do
      let id ← rd el fa
      reduceFa maxId Q C ad id red) (s := cur)
    (P := fun k red => RedOf cur ad ((el.take k).filter (· ≠ maxId)) (Q * C) red) (redOf_nil hcur)
    (by
      intro k red hk hr
      have hk' : k < el.length := by omega
      have e1 : rd el k = some el[k] := rd_some hk'
      rw [List.take_add_one, List.getElem?_eq_getElem hk', List.filter_append]
      simp only [Option.bind_eq_bind, e1, Option.bind_some, Option.toList_some, reduceFa]
      by_cases hm : el[k] = maxId
      · rw [if_neg (by simp [hm])]
        refine ⟨red, rfl, ?_⟩
        simpa [hm] using hr
      · have hn := hnb el[k] (List.getElem_mem hk') hm
        have e2 : rd ad el[k] = some ad[el[k]] := rd_some hn
        have hal := had ad[el[k]] (List.getElem_mem hn)
        obtain ⟨red', q1, q2, q3⟩ := reduceEl_spec hal hr.1
        rw [if_pos hm, e2]
        refine ⟨red', q1, ?_⟩
        have : List.filter (fun x => decide (x ≠ maxId)) [el[k]] = [el[k]] := by simp [hm]
        rw [this]
        exact redOf_snoc hr e2 hal q2 q3)
  rw [← hel, List.take_length] at h2
  obtain ⟨adm, a1, a2, a3⟩ := dmp_of_red (eps := eps) (eps0 := eps0) h2 hcan
  refine ⟨adm, ?_, a2, a3⟩
  rw [dmpFa, initRed_spec hcur]
  simp only [Option.bind_eq_bind, Option.bind_some] at h1 ⊢
  rw [h1]
  exact a1

end Edge.Sc
