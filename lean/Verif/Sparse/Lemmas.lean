import Verif.Sparse.Spec
/-! Loop lemmas for the sparse-entity model. -/
namespace Edge.Sparse

theorem nSp_eq {nEn ty : Nat} {chars : List Nat} (h : nEn ≤ chars.length) :
    nSp nEn ty chars = some (rank (isSp chars ty) nEn) := by
  obtain ⟨t, ht, hp⟩ := forN_inv (n := nEn)
    (body := fun en n => do
      let c ← rd chars en
      return if hasTy c ty then n + 1 else n) (s := 0)
    (fun i n => n = rank (isSp chars ty) i) (by simp) (by
      intro i t hi ht
      have hi' : i < chars.length := by omega
      refine ⟨_, by simp only [rd_some hi']; rfl, ?_⟩
      rw [rank_succ, isSp_of hi', ← ht]
      split <;> simp_all)
  unfold nSp
  rw [ht, hp]

theorem linkSpDe_ok {nDe ty : Nat} {chars o : List Nat} (h : nDe ≤ chars.length)
    (ho : rank (isSp chars ty) nDe ≤ o.length) :
    ∃ o', linkSpDe nDe ty chars o = some o' ∧ o'.length = o.length ∧
      (∀ e, e < nDe → isSp chars ty e = true → o'[rank (isSp chars ty) e]? = some e) ∧
      (∀ i, rank (isSp chars ty) nDe ≤ i → o'[i]? = o[i]?) := by
  obtain ⟨t, ht, h1, h2, h3, h4⟩ := forN_inv (n := nDe)
    (body := fun de (s : Nat × List Nat) => do
      let c ← rd chars de
      if hasTy c ty then do
        let o ← wr s.2 s.1 de
        return (s.1 + 1, o)
      else return s) (s := (0, o))
    (fun i s => s.1 = rank (isSp chars ty) i ∧ s.2.length = o.length ∧
      (∀ e, e < i → isSp chars ty e = true → s.2[rank (isSp chars ty) e]? = some e) ∧
      (∀ j, rank (isSp chars ty) i ≤ j → s.2[j]? = o[j]?))
    (by simp) (by
      intro i t hi ⟨a1, a2, a3, a4⟩
      have hi' : i < chars.length := by omega
      have hsp := isSp_of (ty := ty) hi'
      simp only [rd_some hi', Option.bind_eq_bind, Option.bind_some]
      cases hc : hasTy chars[i] ty with
      | false =>
        rw [hc] at hsp
        refine ⟨t, by simp, ?_, a2, ?_, ?_⟩
        · rw [rank_succ, hsp]; simpa using a1
        · intro e he hsp'
          rcases Nat.lt_succ_iff_lt_or_eq.mp he with h' | h'
          · exact a3 e h' hsp'
          · subst h'; rw [hsp] at hsp'; simp at hsp'
        · intro j hj
          rw [rank_succ, hsp] at hj
          exact a4 j (by simpa using hj)
      | true =>
        rw [hc] at hsp
        have hlt : t.1 < t.2.length := by
          rw [a1, a2]; exact Nat.lt_of_lt_of_le (rank_lt _ hi hsp) ho
        refine ⟨(t.1 + 1, t.2.set t.1 i), by simp [wr_some hlt], ?_, by simp [a2], ?_, ?_⟩
        · rw [rank_succ, hsp]; simp [a1]
        · intro e he hsp'
          rcases Nat.lt_succ_iff_lt_or_eq.mp he with h' | h'
          · have := rank_lt (isSp chars ty) h' hsp'
            rw [List.getElem?_set_ne (by omega)]
            exact a3 e h' hsp'
          · subst h'; rw [← a1]; simp [hlt]
        · intro j hj
          rw [rank_succ, hsp] at hj
          simp at hj
          show (t.2.set t.1 i)[j]? = _
          rw [List.getElem?_set_ne (by omega)]
          exact a4 j (by omega))
  exact ⟨t.2, by unfold linkSpDe; rw [ht]; rfl, h2, h3, h4⟩

/-- Sum of the first `i` sizes. -/
def offs (l : List Nat) (i : Nat) : Nat := (l.take i).sum

@[simp] theorem offs_zero (l : List Nat) : offs l 0 = 0 := by simp [offs]

theorem offs_succ {l : List Nat} {i : Nat} (h : i < l.length) : offs l (i + 1) = offs l i + l[i] := by
  unfold offs
  rw [List.take_succ_eq_append_getElem h, List.sum_append]
  simp

theorem offs_mono {l : List Nat} {i j : Nat} (h : i ≤ j) : offs l i ≤ offs l j := by
  induction h with
  | refl => exact Nat.le_refl _
  | @step j _ ih =>
    by_cases hj : j < l.length
    · rw [offs_succ hj]; omega
    · unfold offs at *
      rw [List.take_of_length_le (show l.length ≤ j by omega)] at ih
      rw [List.take_of_length_le (show l.length ≤ j.succ by omega)]
      exact ih

theorem dtsGroup_ok {ty : Nat} {chars nElsDe o : List Nat} {tg first : Nat} (htg : tg < nElsDe.length)
    (ho : tg < o.length) (hc : first + nElsDe[tg] ≤ chars.length) :
    dtsGroup ty chars nElsDe tg (first, o) =
      some (first + nElsDe[tg], o.set tg (countIn (isSp chars ty) first nElsDe[tg])) := by
  unfold dtsGroup
  simp only [rd_some htg, wr_some ho, Option.bind_eq_bind, Option.bind_some]
  obtain ⟨t, ht, hp⟩ := forN_inv (n := nElsDe[tg])
    (body := fun el o => do
      let c ← rd chars (first + el)
      if hasTy c ty then do
        let v ← rd o tg
        wr o tg (v + 1)
      else return o) (s := o.set tg 0)
    (fun i s => s = o.set tg (countIn (isSp chars ty) first i)) (by simp) (by
      intro i t hi ht
      have hi' : first + i < chars.length := by omega
      have hsp := isSp_of (ty := ty) hi'
      simp only [rd_some hi', Option.bind_eq_bind, Option.bind_some]
      have hl : tg < t.length := by subst ht; simpa using ho
      have hv : t[tg] = countIn (isSp chars ty) first i := by subst ht; simp
      cases hc' : hasTy chars[first + i] ty with
      | false =>
        rw [hc'] at hsp
        exact ⟨t, by simp, by rw [countIn_succ, hsp]; simpa using ht⟩
      | true =>
        rw [hc'] at hsp
        refine ⟨t.set tg (t[tg] + 1), by simp [rd_some hl, wr_some hl], ?_⟩
        rw [hv, countIn_succ, hsp, ht]; simp)
  simp only [Option.bind_eq_bind] at ht
  rw [ht, hp]
  rfl

theorem dtsLoop_ok {ty nTgs : Nat} {chars nElsDe o : List Nat} {first : Nat} (hn : nTgs ≤ nElsDe.length)
    (ho : nTgs ≤ o.length) (hc : first + offs nElsDe nTgs ≤ chars.length) :
    ∃ o', forN nTgs (dtsGroup ty chars nElsDe) (first, o) = some (first + offs nElsDe nTgs, o') ∧
      o'.length = o.length ∧
      ∀ tg (h : tg < nElsDe.length), tg < nTgs →
        o'[tg]? = some (countIn (isSp chars ty) (first + offs nElsDe tg) nElsDe[tg]) := by
  obtain ⟨t, ht, h1, h2, h3⟩ := forN_inv (n := nTgs) (body := dtsGroup ty chars nElsDe) (s := (first, o))
    (fun i s => s.1 = first + offs nElsDe i ∧ s.2.length = o.length ∧
      ∀ tg (h : tg < nElsDe.length), tg < i →
        s.2[tg]? = some (countIn (isSp chars ty) (first + offs nElsDe tg) nElsDe[tg]))
    (by simp) (by
      rintro i ⟨f, oo⟩ hi ⟨a1, a2, a3⟩
      simp only at a1 a2 a3
      have hi' : i < nElsDe.length := by omega
      have hm := offs_mono (l := nElsDe) (show i + 1 ≤ nTgs from hi)
      rw [offs_succ hi'] at hm
      refine ⟨_, dtsGroup_ok (ty := ty) hi' (by omega : i < oo.length) (by omega), ?_, by simpa using a2, ?_⟩
      · rw [offs_succ hi']; simp only; omega
      · intro tg htg htg'
        by_cases h : tg = i
        · subst h; subst a1; simp [show tg < oo.length by omega]
        · simp only
          rw [List.getElem?_set_ne (by omega)]
          exact a3 tg htg (by omega))
  obtain ⟨t1, t2⟩ := t
  simp only at h1 h2 h3
  exact ⟨t2, by rw [ht, h1], h2, h3⟩

/-- Inner loop of `subRgnsSpId`. -/
theorem subInner_ok {ty sr : Nat} {chars : List Nat} (sz : Nat) (s : SubSt) (hs : sr < s.oSize.length)
    (h0 : s.oSize[sr]? = some 0) (hc : s.en + sz ≤ chars.length) :
    forN sz (fun _ (t : SubSt) => do
      let c ← rd chars t.en
      if hasTy c ty then do
        let v ← rd t.oSize sr
        let oSize ← wr t.oSize sr (v + 1)
        return { t with first := t.first + 1, en := t.en + 1, oSize := oSize }
      else return { t with en := t.en + 1 }) s =
    some { s with
      first := s.first + countIn (isSp chars ty) s.en sz
      en := s.en + sz
      oSize := s.oSize.set sr (countIn (isSp chars ty) s.en sz) } := by
  induction sz with
  | zero =>
    have : s.oSize.set sr 0 = s.oSize := by
      apply List.ext_getElem?
      intro i
      by_cases h : sr = i
      · subst h; rw [h0]; simp [hs]
      · rw [List.getElem?_set_ne h]
    simp [this]
  | succ n ih =>
    rw [forN_succ, ih (by omega)]
    have hi' : s.en + n < chars.length := by omega
    have hsp := isSp_of (ty := ty) hi'
    simp only [Option.bind_some, rd_some hi', Option.bind_eq_bind]
    cases hc' : hasTy chars[s.en + n] ty with
    | false => rw [hc'] at hsp; simp [countIn_succ, hsp]; omega
    | true =>
      rw [hc'] at hsp
      have hl : sr < (s.oSize.set sr (countIn (isSp chars ty) s.en n)).length := by simpa using hs
      simp [countIn_succ, hsp, rd_some hl, wr_some hl]
      omega

theorem subRgns_ok {rgnFirst nSub ty : Nat} {sizes chars oFirst oSize : List Nat}
    (hn : nSub ≤ sizes.length) (h1 : nSub ≤ oFirst.length) (h2 : nSub ≤ oSize.length)
    (hc : rgnFirst + offs sizes nSub ≤ chars.length) :
    ∃ f z, subRgnsSpId rgnFirst nSub sizes ty chars oFirst oSize = some (f, z) ∧
      ∀ sr (h : sr < sizes.length), sr < nSub →
        f[sr]? = some (rank (isSp chars ty) (rgnFirst + offs sizes sr)) ∧
        z[sr]? = some (countIn (isSp chars ty) (rgnFirst + offs sizes sr) sizes[sr]) := by
  have hf := nSp_eq (ty := ty) (show rgnFirst ≤ chars.length by omega)
  unfold nSp at hf
  unfold subRgnsSpId
  rw [hf]
  simp only [Option.bind_eq_bind, Option.bind_some]
  obtain ⟨t, ht, p1, p2, p3, p4, p5⟩ := forN_inv (n := nSub)
    (body := fun sr (s : SubSt) => do
      let oFirst ← wr s.oFirst sr s.first
      let sz ← rd sizes sr
      let oSize ← wr s.oSize sr 0
      forN sz (fun _ (t : SubSt) => do
        let c ← rd chars t.en
        if hasTy c ty then do
          let v ← rd t.oSize sr
          let oSize ← wr t.oSize sr (v + 1)
          return { t with first := t.first + 1, en := t.en + 1, oSize := oSize }
        else return { t with en := t.en + 1 }) { s with oFirst := oFirst, oSize := oSize })
    (s := { first := rank (isSp chars ty) rgnFirst, en := rgnFirst, oFirst := oFirst, oSize := oSize })
    (fun i s => s.first = rank (isSp chars ty) (rgnFirst + offs sizes i) ∧
      s.en = rgnFirst + offs sizes i ∧ s.oFirst.length = oFirst.length ∧ s.oSize.length = oSize.length ∧
      ∀ sr (h : sr < sizes.length), sr < i →
        s.oFirst[sr]? = some (rank (isSp chars ty) (rgnFirst + offs sizes sr)) ∧
        s.oSize[sr]? = some (countIn (isSp chars ty) (rgnFirst + offs sizes sr) sizes[sr]))
    (by simp) (by
      rintro i s hi ⟨a1, a2, a3, a4, a5⟩
      have hi' : i < sizes.length := by omega
      have hm := offs_mono (l := sizes) (show i + 1 ≤ nSub from hi)
      rw [offs_succ hi'] at hm
      simp only [wr_some (show i < s.oFirst.length by omega), rd_some hi',
        wr_some (show i < s.oSize.length by omega), Option.bind_eq_bind, Option.bind_some]
      refine ⟨_, subInner_ok _ _ (by simp; omega) (by simp [show i < s.oSize.length by omega]) (by simp only; omega), ?_⟩
      refine ⟨?_, ?_, by simpa using a3, by simpa using a4, ?_⟩
      · simp only; rw [offs_succ hi', ← Nat.add_assoc, rank_add, a1, a2]
      · simp only; rw [offs_succ hi']; omega
      · intro sr hsr hsr'
        by_cases h : sr = i
        · subst h; simp [a1, a2, show sr < s.oSize.length by omega, show sr < s.oFirst.length by omega]
        · simp only
          rw [List.getElem?_set_ne (by omega), List.getElem?_set_ne (by omega), List.getElem?_set_ne (by omega)]
          exact a5 sr hsr (by omega))
  simp only [Option.bind_eq_bind] at ht
  rw [ht]
  exact ⟨_, _, rfl, p5⟩

/-- `s` is `c` with the bits `t` added at exactly the positions in `T`. -/
def Marked (c s : List Nat) (t : Nat) (T : Nat → Prop) : Prop :=
  s.length = c.length ∧ ∀ e, (T e → s[e]? = (c[e]?).map (· ||| t)) ∧ (¬ T e → s[e]? = c[e]?)

theorem Marked.refl {c : List Nat} {t : Nat} {T : Nat → Prop} (h : ∀ e, ¬ T e) : Marked c c t T :=
  ⟨rfl, fun e => ⟨fun h' => (h e h').elim, fun _ => rfl⟩⟩

theorem Marked.congr {c s : List Nat} {t : Nat} {T U : Nat → Prop} (h : Marked c s t T)
    (hTU : ∀ e, U e ↔ T e) : Marked c s t U :=
  ⟨h.1, fun e => ⟨fun hu => (h.2 e).1 ((hTU e).1 hu), fun hu => (h.2 e).2 (fun ht => hu ((hTU e).2 ht))⟩⟩

theorem Marked.write {c s : List Nat} {t a : Nat} {T : Nat → Prop} (h : Marked c s t T)
    (ha : a < s.length) : Marked c (s.set a (s[a] ||| t)) t (fun e => T e ∨ e = a) := by
  refine ⟨by simp [h.1], fun e => ?_⟩
  by_cases he : e = a
  · subst he
    have hc : e < c.length := h.1 ▸ ha
    refine ⟨fun _ => ?_, fun hn => (hn (Or.inr rfl)).elim⟩
    by_cases hT : T e
    · have := (h.2 e).1 hT
      simp [ha, hc] at this ⊢
      rw [this, Nat.or_assoc, Nat.or_self]
    · have := (h.2 e).2 hT
      simp [ha, hc] at this ⊢
      rw [this]
  · rw [List.getElem?_set_ne (by omega)]
    refine ⟨fun hu => (h.2 e).1 (hu.resolve_right he), fun hu => (h.2 e).2 (fun ht => hu (Or.inl ht))⟩

theorem inherit_ok {nEn tyIn tyOut : Nat} {chars : List Nat} (h : nEn ≤ chars.length) :
    ∃ s, inherit nEn tyIn tyOut chars = some s ∧
      Marked chars s tyOut (fun e => e < nEn ∧ isSp chars tyIn e = true) := by
  unfold inherit
  refine forN_inv (fun i s => Marked chars s tyOut (fun e => e < i ∧ isSp chars tyIn e = true))
    (Marked.refl (by simp)) ?_
  intro i s hi hm
  have hi' : i < s.length := by have := hm.1; omega
  have hic : i < chars.length := by omega
  have hsp := isSp_of (ty := tyIn) hic
  have heq : s[i] = chars[i] := by
    have := (hm.2 i).2 (by simp)
    simpa [hi', hic] using this
  simp only [rd_some hi', Option.bind_eq_bind, Option.bind_some, heq]
  cases hc : hasTy chars[i] tyIn with
  | false =>
    rw [hc] at hsp
    refine ⟨s, by simp, hm.congr (fun e => ⟨fun ⟨h1, h2⟩ => ⟨?_, h2⟩, fun ⟨h1, h2⟩ => ⟨by omega, h2⟩⟩)⟩
    rcases Nat.lt_succ_iff_lt_or_eq.mp h1 with h' | h'
    · exact h'
    · subst h'; rw [hsp] at h2; simp at h2
  | true =>
    rw [hc] at hsp
    refine ⟨s.set i (s[i] ||| tyOut), by simp [wr_some hi', heq], (hm.write hi').congr (fun e => ?_)⟩
    constructor
    · rintro ⟨h1, h2⟩
      rcases Nat.lt_succ_iff_lt_or_eq.mp h1 with h' | h'
      · exact Or.inl ⟨h', h2⟩
      · exact Or.inr h'
    · rintro (⟨h1, h2⟩ | h')
      · exact ⟨by omega, h2⟩
      · subst h'; exact ⟨by omega, hsp⟩

/-- One row of a propagation. -/
theorem propRow_ok {mx tyOut : Nat} {c s : List Nat} {T : Nat → Prop} (n : Nat) (get : Nat → Option Nat)
    (hg : ∀ a, a < n → ∃ id, get a = some id ∧ (id ≠ mx → id < c.length)) (hm : Marked c s tyOut T) :
    ∃ s', forN n (fun ae chars1 => do
        let aeId ← get ae
        if aeId ≠ mx then do
          let d ← rd chars1 aeId
          wr chars1 aeId (d ||| tyOut)
        else return chars1) s = some s' ∧
      Marked c s' tyOut (fun e => T e ∨ ∃ a, a < n ∧ get a = some e ∧ e ≠ mx) := by
  refine forN_inv (fun i s => Marked c s tyOut (fun e => T e ∨ ∃ a, a < i ∧ get a = some e ∧ e ≠ mx))
    (hm.congr (by simp)) ?_
  intro i t hi ht
  obtain ⟨id, hid, hlt⟩ := hg i hi
  simp only [hid, Option.bind_eq_bind, Option.bind_some]
  by_cases hmx : id = mx
  · refine ⟨t, by simp [hmx], ht.congr (fun e => ?_)⟩
    constructor
    · rintro (h | ⟨a, ha, hga, hne⟩)
      · exact Or.inl h
      · rcases Nat.lt_succ_iff_lt_or_eq.mp ha with h' | h'
        · exact Or.inr ⟨a, h', hga, hne⟩
        · subst h'; rw [hid] at hga; cases hga; exact (hne hmx).elim
    · rintro (h | ⟨a, ha, h'⟩)
      · exact Or.inl h
      · exact Or.inr ⟨a, by omega, h'⟩
  · have hl : id < t.length := by rw [ht.1]; exact hlt hmx
    refine ⟨t.set id (t[id] ||| tyOut), by simp [hmx, rd_some hl, wr_some hl], (ht.write hl).congr (fun e => ?_)⟩
    constructor
    · rintro (h | ⟨a, ha, hga, hne⟩)
      · exact Or.inl (Or.inl h)
      · rcases Nat.lt_succ_iff_lt_or_eq.mp ha with h' | h'
        · exact Or.inl (Or.inr ⟨a, h', hga, hne⟩)
        · subst h'; rw [hid] at hga; cases hga; exact Or.inr rfl
    · rintro ((h | ⟨a, ha, h'⟩) | h)
      · exact Or.inl h
      · exact Or.inr ⟨a, by omega, h'⟩
      · subst h; exact Or.inr ⟨i, by omega, hid, hmx⟩

theorem propLoop_ok {mx nEn0 tyIn tyOut : Nat} {chars0 chars1 : List Nat} (len : Nat → Nat)
    (get : Nat → Nat → Option Nat) (body : Nat → List Nat → Option (List Nat))
    (hg : ∀ en, en < nEn0 → isSp chars0 tyIn en = true → ∀ a, a < len en →
      ∃ id, get en a = some id ∧ (id ≠ mx → id < chars1.length))
    (hb : ∀ en s, en < nEn0 → body en s = if isSp chars0 tyIn en then
        forN (len en) (fun ae chars1 => do
          let aeId ← get en ae
          if aeId ≠ mx then do
            let d ← rd chars1 aeId
            wr chars1 aeId (d ||| tyOut)
          else return chars1) s else some s) :
    ∃ s, forN nEn0 body chars1 = some s ∧ Marked chars1 s tyOut (fun e => ∃ en a, en < nEn0 ∧
      isSp chars0 tyIn en = true ∧ a < len en ∧ get en a = some e ∧ e ≠ mx) := by
  refine forN_inv (fun i s => Marked chars1 s tyOut (fun e => ∃ en a, en < i ∧
      isSp chars0 tyIn en = true ∧ a < len en ∧ get en a = some e ∧ e ≠ mx)) (Marked.refl (by simp)) ?_
  intro i s hi hm
  rw [hb i s hi]
  by_cases hsp : isSp chars0 tyIn i = true
  · rw [if_pos hsp]
    obtain ⟨s', hs', hm'⟩ := propRow_ok (len i) (get i) (hg i hi hsp) hm
    refine ⟨s', hs', hm'.congr (fun e => ?_)⟩
    constructor
    · rintro ⟨en, a, h1, h2, h3⟩
      rcases Nat.lt_succ_iff_lt_or_eq.mp h1 with h' | h'
      · exact Or.inl ⟨en, a, h', h2, h3⟩
      · subst h'; exact Or.inr ⟨a, h3⟩
    · rintro (⟨en, a, h1, h2⟩ | ⟨a, h⟩)
      · exact ⟨en, a, by omega, h2⟩
      · exact ⟨i, a, by omega, hsp, h⟩
  · rw [if_neg hsp]
    refine ⟨s, rfl, hm.congr (fun e => ?_)⟩
    constructor
    · rintro ⟨en, a, h1, h2, h3⟩
      rcases Nat.lt_succ_iff_lt_or_eq.mp h1 with h' | h'
      · exact ⟨en, a, h', h2, h3⟩
      · subst h'; exact (hsp h2).elim
    · rintro ⟨en, a, h1, h2⟩
      exact ⟨en, a, by omega, h2⟩

theorem linkSpSp_ok {mx nDe ty0 ty1 : Nat} {chars o : List Nat} (h : nDe ≤ chars.length)
    (ho : rank (isSp chars ty0) nDe ≤ o.length) :
    ∃ o', linkSpSp mx nDe ty0 ty1 chars o = some o' ∧ o'.length = o.length ∧
      (∀ e, e < nDe → isSp chars ty0 e = true → o'[rank (isSp chars ty0) e]? =
        some (if isSp chars ty1 e then rank (isSp chars ty1) e else mx)) ∧
      (∀ i, rank (isSp chars ty0) nDe ≤ i → o'[i]? = o[i]?) := by
  unfold linkSpSp
  suffices hs : ∃ s, forN nDe (fun de (s : Nat × Nat × List Nat) => do
        let c ← rd chars de
        let s ← (if hasTy c ty0 then do
            let o ← wr s.2.2 s.1 (if hasTy c ty1 then s.2.1 else mx)
            return (s.1 + 1, s.2.1, o)
          else return s)
        return if hasTy c ty1 then (s.1, s.2.1 + 1, s.2.2) else s) (0, 0, o) = some s ∧
      (s.1 = rank (isSp chars ty0) nDe ∧ s.2.1 = rank (isSp chars ty1) nDe ∧ s.2.2.length = o.length ∧
      (∀ e, e < nDe → isSp chars ty0 e = true → s.2.2[rank (isSp chars ty0) e]? =
        some (if isSp chars ty1 e then rank (isSp chars ty1) e else mx)) ∧
      (∀ j, rank (isSp chars ty0) nDe ≤ j → s.2.2[j]? = o[j]?)) by
    obtain ⟨s, hs, _, _, h1, h2, h3⟩ := hs
    exact ⟨s.2.2, by rw [hs]; rfl, h1, h2, h3⟩
  refine forN_inv (fun n (s : Nat × Nat × List Nat) => s.1 = rank (isSp chars ty0) n ∧ s.2.1 = rank (isSp chars ty1) n ∧
      s.2.2.length = o.length ∧
      (∀ e, e < n → isSp chars ty0 e = true → s.2.2[rank (isSp chars ty0) e]? =
        some (if isSp chars ty1 e then rank (isSp chars ty1) e else mx)) ∧
      (∀ j, rank (isSp chars ty0) n ≤ j → s.2.2[j]? = o[j]?)) (by simp) ?_
  rintro i ⟨s0, s1, oo⟩ hi ⟨a1, a2, a3, a4, a5⟩
  simp only at a1 a2 a3 a4 a5
  have hi' : i < chars.length := by omega
  have hsp0 := isSp_of (ty := ty0) hi'
  have hsp1 := isSp_of (ty := ty1) hi'
  simp only [rd_some hi', Option.bind_eq_bind, Option.bind_some, ← hsp0, ← hsp1]
  cases h0 : isSp chars ty0 i with
  | false =>
    refine ⟨if isSp chars ty1 i then (s0, s1 + 1, oo) else (s0, s1, oo), by simp, ?_⟩
    have e1 : (if isSp chars ty1 i then (s0, s1 + 1, oo) else (s0, s1, oo)) =
        (s0, rank (isSp chars ty1) (i + 1), oo) := by
      rw [rank_succ]; split <;> simp [a2]
    rw [e1]
    refine ⟨by simp only; rw [rank_succ, h0]; simpa using a1, rfl, a3, ?_, ?_⟩
    · intro e he hsp'
      rcases Nat.lt_succ_iff_lt_or_eq.mp he with h' | h'
      · exact a4 e h' hsp'
      · subst h'; rw [h0] at hsp'; simp at hsp'
    · intro j hj
      rw [rank_succ, h0] at hj
      exact a5 j (by simpa using hj)
  | true =>
    have hlt : s0 < oo.length := by
      rw [a1, a3]; exact Nat.lt_of_lt_of_le (rank_lt _ hi h0) ho
    refine ⟨(s0 + 1, rank (isSp chars ty1) (i + 1), oo.set s0 (if isSp chars ty1 i then s1 else mx)),
      ?_, ?_, rfl, by simpa using a3, ?_, ?_⟩
    · simp only [wr_some hlt]
      rw [rank_succ]
      cases isSp chars ty1 i <;> simp [a2]
    · simp only; rw [rank_succ, h0]; simp [a1]
    · intro e he hsp'
      rcases Nat.lt_succ_iff_lt_or_eq.mp he with h' | h'
      · have := rank_lt (isSp chars ty0) h' hsp'
        simp only
        rw [List.getElem?_set_ne (by omega)]
        exact a4 e h' hsp'
      · subst h'; rw [← a1]; simp [hlt, a2]
    · intro j hj
      rw [rank_succ, h0] at hj
      simp at hj
      simp only
      rw [List.getElem?_set_ne (by omega)]
      exact a5 j (by omega)

end Edge.Sparse
