import Verif.Sparse.Dyn
/-!
Properties C21–C25: sparse entities.

Specification (Verif/Sparse/Spec.lean): `isSp chars ty e` — the dense entity `e` exists and has all bits of `ty`;
`rank p e` — how many of `0..e-1` satisfy `p`, that is the sparse id of a member `e`; `countIn p a n` — how many of
`a..a+n-1` satisfy `p`; `offs l i` — the sum of the first `i` sizes.
-/
namespace Edge.Sparse

/-- **C21** (membership): an entity is a member of a sparse type iff every bit of the type is set in it. -/
theorem C21_membership (chars : List Nat) (ty e : Nat) :
    isSp chars ty e = true ↔ ∃ c, chars[e]? = some c ∧ ∀ b, ty.testBit b = true → c.testBit b = true := by
  unfold isSp
  cases hc : chars[e]? with
  | none => simp
  | some c =>
    simp only [Option.any_some, hasTy, beq_iff_eq, Option.some.injEq, exists_eq_left']
    constructor
    · intro h b hb
      have := congrArg (fun x => x.testBit b) h
      simp only [Nat.testBit_and, hb, Bool.and_true] at this
      exact this
    · intro h
      apply Nat.eq_of_testBit_eq
      intro b
      rw [Nat.testBit_and]
      cases hb : ty.testBit b with
      | false => simp
      | true => simp [h b hb]

example : isSp [5, 7, 2] 5 1 = true ∧ isSp [5, 7, 2] 5 2 = false := by decide

/-- **C21** (count): `nSp` returns the number of members among the first `nEn` dense entities. -/
theorem C21_count {nEn ty : Nat} {chars : List Nat} (h : nEn ≤ chars.length) :
    nSp nEn ty chars = some ((List.range nEn).filter (isSp chars ty)).length :=
  nSp_eq h

example : nSp 4 1 [1, 0, 3, 2, 1] = some 2 := by decide

/-- **C21** (links): into a buffer with `nSp` entries, `linkSpDe` writes exactly the ascending list of the dense ids
of the members, and the sparse id of member `e` — its position in that list — is the number of members before `e`;
so the link inverts the map, and ids are consecutive in dense order. -/
theorem C21_links {nDe ty k : Nat} {chars o : List Nat} (h : nDe ≤ chars.length)
    (hk : nSp nDe ty chars = some k) (ho : o.length = k) :
    linkSpDe nDe ty chars o = some ((List.range nDe).filter (isSp chars ty)) ∧
    ∀ e, e < nDe → isSp chars ty e = true →
      ((List.range nDe).filter (isSp chars ty))[rank (isSp chars ty) e]? = some e := by
  rw [nSp_eq h] at hk
  cases hk
  obtain ⟨o', h1, h2, h3, h4⟩ := linkSpDe_ok (ty := ty) (o := o) h (by omega)
  suffices hx : o' = (List.range nDe).filter (isSp chars ty) by
    subst hx
    exact ⟨h1, fun e he hsp => h3 e he hsp⟩
  clear h1 h4
  have key : ∀ n, n ≤ nDe → o'.take (rank (isSp chars ty) n) = (List.range n).filter (isSp chars ty) := by
    intro n hn
    induction n with
    | zero => simp
    | succ n ih =>
      rw [List.range_succ, List.filter_append, rank_succ]
      cases hp : isSp chars ty n with
      | false => simpa [hp] using ih (by omega)
      | true =>
        have h5 := h3 n (by omega) hp
        have hl : rank (isSp chars ty) n < o'.length := by
          rw [h2, ho]; exact rank_lt _ (by omega) hp
        rw [List.getElem?_eq_getElem hl] at h5
        simp only [if_true]
        rw [List.take_succ_eq_append_getElem hl, ih (by omega)]
        simp [hp, Option.some.inj h5]
  have h6 := key nDe (Nat.le_refl _)
  rw [← h6, List.take_of_length_le (by omega)]

example : linkSpDe 5 1 [1, 0, 3, 2, 1] [9, 9, 9] = some [0, 2, 4] := by decide

/-- **C21** (no foreign writes): in any buffer large enough, only the entries below the number of members change. -/
theorem C21_links_frame {nDe ty : Nat} {chars o : List Nat} (h : nDe ≤ chars.length)
    (ho : rank (isSp chars ty) nDe ≤ o.length) :
    ∃ o', linkSpDe nDe ty chars o = some o' ∧ o'.length = o.length ∧
      (∀ e, e < nDe → isSp chars ty e = true → o'[rank (isSp chars ty) e]? = some e) ∧
      (∀ i, rank (isSp chars ty) nDe ≤ i → o'[i]? = o[i]?) :=
  linkSpDe_ok h ho

/-- **C21** (per time group): `denseToSparse` returns for every group the number of members in the group's block of
the dense numbering, inner blocks first, then the send blocks. -/
theorem C21_per_group {nTgs ty : Nat} {chars nIn nSe oIn oSe : List Nat} (h1 : nTgs ≤ nIn.length)
    (h2 : nTgs ≤ nSe.length) (h3 : nTgs ≤ oIn.length) (h4 : nTgs ≤ oSe.length)
    (hc : offs nIn nTgs + offs nSe nTgs ≤ chars.length) :
    ∃ rIn rSe, denseToSparse nTgs ty chars nIn nSe oIn oSe = some (rIn, rSe) ∧
      ∀ tg (ha : tg < nIn.length) (hb : tg < nSe.length), tg < nTgs →
        rIn[tg]? = some (countIn (isSp chars ty) (offs nIn tg) nIn[tg]) ∧
        rSe[tg]? = some (countIn (isSp chars ty) (offs nIn nTgs + offs nSe tg) nSe[tg]) := by
  obtain ⟨rIn, e1, _, f1⟩ := dtsLoop_ok (ty := ty) (first := 0) (chars := chars) h1 h3 (by omega)
  obtain ⟨rSe, e2, _, f2⟩ := dtsLoop_ok (ty := ty) (first := 0 + offs nIn nTgs) (chars := chars) h2 h4 (by omega)
  refine ⟨rIn, rSe, ?_, ?_⟩
  · unfold denseToSparse
    rw [e1]
    simp only [Option.bind_eq_bind, Option.bind_some]
    rw [e2]
    rfl
  · intro tg ha hb htg
    refine ⟨by simpa using f1 tg ha htg, by simpa using f2 tg hb htg⟩

example : denseToSparse 2 1 [1, 0, 1, 1, 1, 0, 1] [2, 1] [3, 1] [0, 0] [0, 0] =
    some ([1, 1], [2, 1]) := by decide

/-- **C21** (consistency): the members counted per group add up to the total number of members. -/
theorem C21_group_sum {nTgs ty : Nat} {chars nIn nSe oIn oSe rIn rSe : List Nat} (h1 : nIn.length = nTgs)
    (h2 : nSe.length = nTgs) (h3 : oIn.length = nTgs) (h4 : oSe.length = nTgs)
    (hc : nIn.sum + nSe.sum ≤ chars.length)
    (h : denseToSparse nTgs ty chars nIn nSe oIn oSe = some (rIn, rSe)) :
    some (rIn.sum + rSe.sum) = nSp (nIn.sum + nSe.sum) ty chars := by
  have o1 : offs nIn nTgs = nIn.sum := by unfold offs; rw [List.take_of_length_le (by omega)]
  have o2 : offs nSe nTgs = nSe.sum := by unfold offs; rw [List.take_of_length_le (by omega)]
  obtain ⟨r1, e1, l1, f1⟩ := dtsLoop_ok (ty := ty) (first := 0) (chars := chars) (nElsDe := nIn) (o := oIn)
    (nTgs := nTgs) (by omega) (by omega) (by omega)
  obtain ⟨r2, e2, l2, f2⟩ := dtsLoop_ok (ty := ty) (first := 0 + offs nIn nTgs) (chars := chars) (nElsDe := nSe)
    (o := oSe) (nTgs := nTgs) (by omega) (by omega) (by omega)
  have hr : (r1, r2) = (rIn, rSe) := by
    unfold denseToSparse at h
    rw [e1] at h
    simp only [Option.bind_eq_bind, Option.bind_some] at h
    rw [e2] at h
    exact Option.some.inj h
  cases hr
  have sum : ∀ (r n : List Nat) (first : Nat), r.length = nTgs → n.length = nTgs →
      (∀ tg (h : tg < n.length), tg < nTgs →
        r[tg]? = some (countIn (isSp chars ty) (first + offs n tg) n[tg])) →
      rank (isSp chars ty) first + r.sum = rank (isSp chars ty) (first + n.sum) := by
    intro r n first hr hn hf
    have : ∀ i, i ≤ nTgs → rank (isSp chars ty) first + (r.take i).sum =
        rank (isSp chars ty) (first + (n.take i).sum) := by
      intro i hi
      induction i with
      | zero => simp
      | succ i ih =>
        have a := hf i (by omega) (by omega)
        rw [List.getElem?_eq_getElem (by omega)] at a
        rw [List.take_succ_eq_append_getElem (by omega), List.take_succ_eq_append_getElem (by omega),
          List.sum_append, List.sum_append, ← Nat.add_assoc, ih (by omega), ← Nat.add_assoc]
        simp only [List.sum_cons, List.sum_nil, Nat.add_zero]
        rw [Option.some.inj a, rank_add _ (first + _)]; rfl
    have := this nTgs (Nat.le_refl _)
    rwa [List.take_of_length_le (by omega), List.take_of_length_le (by omega)] at this
  have s1 := sum rIn nIn 0 (by omega) (by omega) f1
  have s2 := sum rSe nSe nIn.sum (by omega) (by omega) (by simpa [o1] using f2)
  rw [nSp_eq hc, ← s2, ← Nat.zero_add nIn.sum, ← s1]
  simp

/-- **C22**: the first sparse id of a sub-region is the number of members before the sub-region's first dense entity,
its sparse size the number of members inside it. -/
theorem C22_sub_regions {rgnFirst nSub ty : Nat} {sizes chars oFirst oSize : List Nat}
    (hn : nSub ≤ sizes.length) (h1 : nSub ≤ oFirst.length) (h2 : nSub ≤ oSize.length)
    (hc : rgnFirst + offs sizes nSub ≤ chars.length) :
    ∃ f z, subRgnsSpId rgnFirst nSub sizes ty chars oFirst oSize = some (f, z) ∧
      ∀ sr (h : sr < sizes.length), sr < nSub →
        f[sr]? = some (rank (isSp chars ty) (rgnFirst + offs sizes sr)) ∧
        z[sr]? = some (countIn (isSp chars ty) (rgnFirst + offs sizes sr) sizes[sr]) :=
  subRgns_ok hn h1 h2 hc

/-- **C22** (partition): the sub-regions' sparse ids are consecutive — the next sub-region starts where the previous
one ends — and a member belongs to the sub-region which contains it: its sparse id lies in the id range of the
sub-region iff its dense id lies in the dense range. -/
theorem C22_partition {rgnFirst nSub ty : Nat} {sizes chars oFirst oSize f z : List Nat}
    (hn : nSub ≤ sizes.length) (h1 : nSub ≤ oFirst.length) (h2 : nSub ≤ oSize.length)
    (hc : rgnFirst + offs sizes nSub ≤ chars.length)
    (h : subRgnsSpId rgnFirst nSub sizes ty chars oFirst oSize = some (f, z)) :
    ∀ sr (h : sr < sizes.length), sr < nSub → ∃ fi si, f[sr]? = some fi ∧ z[sr]? = some si ∧
      (sr + 1 < nSub → f[sr + 1]? = some (fi + si)) ∧
      ∀ e, isSp chars ty e = true →
        ((fi ≤ rank (isSp chars ty) e ∧ rank (isSp chars ty) e < fi + si) ↔
          (rgnFirst + offs sizes sr ≤ e ∧ e < rgnFirst + offs sizes sr + sizes[sr])) := by
  obtain ⟨f', z', he, hall⟩ := subRgns_ok (ty := ty) hn h1 h2 hc
  rw [he] at h
  cases h
  intro sr hsr hlt
  obtain ⟨q1, q2⟩ := hall sr hsr hlt
  refine ⟨_, _, q1, q2, ?_, ?_⟩
  · intro hlt'
    obtain ⟨q3, _⟩ := hall (sr + 1) (by omega) hlt'
    rw [q3, offs_succ hsr, ← Nat.add_assoc, rank_add]
  · intro e hsp
    rw [← rank_add]
    constructor
    · rintro ⟨a, b⟩
      constructor
      · apply Nat.le_of_not_lt
        intro hh
        have := rank_lt (isSp chars ty) hh hsp
        omega
      · apply Nat.lt_of_not_le
        intro hh
        have := rank_mono (isSp chars ty) hh
        omega
    · rintro ⟨a, b⟩
      exact ⟨rank_mono _ a, rank_lt _ b hsp⟩

example : subRgnsSpId 1 2 [2, 3] 1 [1, 1, 0, 1, 1, 0, 1] [0, 0] [0, 0] = some ([1, 2], [1, 2]) := by decide

/-- **C23**: for every dense entity of type `ty0`, the link at its sparse id holds the entity's sparse id of type
`ty1`, or the undefined marker `mx` if it is not of type `ty1`; entries beyond the number of members are untouched. -/
theorem C23_links_exact {mx nDe ty0 ty1 : Nat} {chars o : List Nat} (h : nDe ≤ chars.length)
    (ho : rank (isSp chars ty0) nDe ≤ o.length) :
    ∃ o', linkSpSp mx nDe ty0 ty1 chars o = some o' ∧ o'.length = o.length ∧
      (∀ e, e < nDe → isSp chars ty0 e = true → o'[rank (isSp chars ty0) e]? =
        some (if isSp chars ty1 e then rank (isSp chars ty1) e else mx)) ∧
      (∀ i, rank (isSp chars ty0) nDe ≤ i → o'[i]? = o[i]?) :=
  linkSpSp_ok h ho

example : linkSpSp 999 5 1 2 [3, 1, 2, 3, 0] [7, 7, 7, 7] = some [0, 999, 2, 7] := by decide

/-- **C24** (double sparse type, flat adjacency): the slot `a` of every from-entity `e` of the from-type, stored at the
from-entity's sparse id, holds the sparse id of the adjacent entity if it exists and has the to-type, and the
undefined marker otherwise (also for undefined adjacencies); nothing else changes. -/
theorem C24_dst {mx nEn nAdj tyFrom tyTo : Nat} {enEn charsFrom charsTo o : List Nat}
    (hadj : AdjOk mx nEn nAdj enEn charsTo) (hF : nEn ≤ charsFrom.length) (hnA : 0 < nAdj)
    (ho : rank (isSp charsFrom tyFrom) nEn * nAdj ≤ o.length) :
    ∃ o', linkSpAdjDst mx nEn nAdj enEn tyFrom tyTo charsFrom charsTo o = some o' ∧ o'.length = o.length ∧
      (∀ e a id, e < nEn → isSp charsFrom tyFrom e = true → a < nAdj → enEn[e * nAdj + a]? = some id →
        o'[rank (isSp charsFrom tyFrom) e * nAdj + a]? = some
          (if id = mx then mx else if isSp charsTo tyTo id then rank (isSp charsTo tyTo) id else mx)) ∧
      (∀ j, rank (isSp charsFrom tyFrom) nEn * nAdj ≤ j → o'[j]? = o[j]?) :=
  linkSpAdjDst_ok hadj hF hnA ho

example : linkSpAdjDst 99 3 2 [1, 99, 0, 2, 2, 1] 1 1 [1, 0, 1] [1, 0, 1] [7, 7, 7, 7] =
    some [99, 99, 1, 99] := by decide

example : AdjOk 99 3 2 [1, 99, 0, 2, 2, 1] [1, 0, 1] := by
  refine ⟨by decide, by decide, ?_⟩
  intro e a id he ha h hne
  have h1 : e = 0 ∨ e = 1 ∨ e = 2 := by omega
  have h2 : a = 0 ∨ a = 1 := by omega
  rcases h1 with rfl | rfl | rfl <;> rcases h2 with rfl | rfl <;> simp at h <;> subst h <;> simp at hne ⊢

/-- **C24** (single sparse type): as `C24_dst` for the from-entities having an adjacent entity of the type. The slots
of undefined adjacencies keep the caller's value: the claim holds for every slot if the output buffer was filled with
the undefined marker before the call. Missing for the full property: buffers with other contents, for which it is
false (`C24_sst_refuted`). -/
theorem C24_sst_partial {mx nEn nAdj ty : Nat} {enEn charsAdj o : List Nat}
    (hadj : AdjOk mx nEn nAdj enEn charsAdj) (hnA : 0 < nAdj)
    (ho : rank (anyAdj mx nAdj enEn charsAdj ty) nEn * nAdj ≤ o.length)
    (hfill : ∀ v, v ∈ o → v = mx) :
    ∃ o', linkSpAdjSst mx nEn nAdj enEn ty charsAdj o = some o' ∧ o'.length = o.length ∧
      (∀ e a id, e < nEn → anyAdj mx nAdj enEn charsAdj ty e = true → a < nAdj →
        enEn[e * nAdj + a]? = some id →
        o'[rank (anyAdj mx nAdj enEn charsAdj ty) e * nAdj + a]? = some
          (if id = mx then mx else if isSp charsAdj ty id then rank (isSp charsAdj ty) id else mx)) ∧
      (∀ j, rank (anyAdj mx nAdj enEn charsAdj ty) nEn * nAdj ≤ j → o'[j]? = o[j]?) := by
  obtain ⟨o', h1, h2, h3, h4⟩ := linkSpAdjSst_ok hadj hnA ho
  refine ⟨o', h1, h2, ?_, h4⟩
  intro e a id he hp ha hid
  rw [h3 e a id he hp ha hid]
  by_cases hmx : id = mx
  · have hl : rank (anyAdj mx nAdj enEn charsAdj ty) e * nAdj + a < o.length := by
      have : (rank (anyAdj mx nAdj enEn charsAdj ty) e + 1) * nAdj ≤ _ :=
        Nat.mul_le_mul_right nAdj (rank_lt (anyAdj mx nAdj enEn charsAdj ty) he hp)
      rw [Nat.succ_mul] at this
      omega
    simp only [if_pos hmx, List.getElem?_eq_getElem hl, Option.some.injEq]
    exact hfill _ (List.getElem_mem hl)
  · simp only [if_neg hmx, linkVal]

/-- **C24** (single sparse type, all adjacencies defined): no condition on the buffer is needed if no adjacency is
undefined. -/
theorem C24_sst_defined_partial {mx nEn nAdj ty : Nat} {enEn charsAdj o : List Nat}
    (hadj : AdjOk mx nEn nAdj enEn charsAdj) (hnA : 0 < nAdj)
    (ho : rank (anyAdj mx nAdj enEn charsAdj ty) nEn * nAdj ≤ o.length)
    (hdef : ∀ id, id ∈ enEn → id ≠ mx) :
    ∃ o', linkSpAdjSst mx nEn nAdj enEn ty charsAdj o = some o' ∧ o'.length = o.length ∧
      (∀ e a id, e < nEn → anyAdj mx nAdj enEn charsAdj ty e = true → a < nAdj →
        enEn[e * nAdj + a]? = some id →
        o'[rank (anyAdj mx nAdj enEn charsAdj ty) e * nAdj + a]? = some
          (if isSp charsAdj ty id then rank (isSp charsAdj ty) id else mx)) := by
  obtain ⟨o', h1, h2, h3, _⟩ := linkSpAdjSst_ok hadj hnA ho
  refine ⟨o', h1, h2, ?_⟩
  intro e a id he hp ha hid
  have hne := hdef id (List.mem_of_getElem? hid)
  rw [h3 e a id he hp ha hid]
  simp [hne, linkVal]

example : linkSpAdjSst 99 3 2 [1, 99, 0, 1, 2, 0] 1 [1, 0, 1] [99, 99, 99, 99] =
    some [0, 99, 1, 0] := by decide

/-- **C24** is false for `linkSpAdjSst` with an arbitrary output buffer: the slot of an undefined adjacency (`99`, the
marker) of a linked entity is not written, so the caller reads the stale value `7` instead of the marker. -/
theorem C24_sst_refuted :
    ∃ o', linkSpAdjSst 99 1 2 [0, 99] 1 [1] [7, 7] = some o' ∧ o'[1]? = some 7 ∧
      AdjOk 99 1 2 [0, 99] [1] ∧ anyAdj 99 2 [0, 99] [1] 1 0 = true := by
  refine ⟨[0, 7], by decide, by decide, ⟨by decide, by decide, ?_⟩, by decide⟩
  intro e a id he ha h hne
  have h1 : e = 0 := by omega
  have h2 : a = 0 ∨ a = 1 := by omega
  subst h1
  rcases h2 with rfl | rfl <;> simp at h <;> subst h <;> simp at hne ⊢

/-- **C24** (dynamic adjacency): buffers of the sizes returned by `nLinkSpAdjDst` suffice, and the link then consists
of one row per from-entity of the from-type, in dense order, which holds the sparse ids of the adjacent entities having
the to-type, in adjacency order; pointer `k` is the offset of row `k`, the ghost pointer the end. -/
theorem C24_dynamic {mx nEn tF tT nRaw nPtr : Nat} {enEn : List (List Nat)} {cF cT oRaw oPtr : List Nat}
    (hr : RowsOk mx nEn enEn cT) (hF : nEn ≤ cF.length)
    (hn : nLinkSpAdjDst mx nEn enEn tF tT cF cT = some (nRaw, nPtr))
    (hRaw : oRaw.length = nRaw) (hPtr : oPtr.length = nPtr + 1) :
    ∃ ptr, linkSpAdjDstDyn mx nEn enEn tF tT cF cT oRaw oPtr =
        some ((dynRows enEn cF cT tF tT nEn).flatten, ptr) ∧
      nPtr = rank (isSp cF tF) nEn ∧
      ∀ k, k ≤ nPtr → ptr[k]? = some ((dynRows enEn cF cT tF tT nEn).take k).flatten.length := by
  rw [nLink_ok hr hF] at hn
  cases hn
  obtain ⟨raw, ptr, h1, h2, h3⟩ := linkSpAdjDstDyn_ok (tF := tF) (tT := tT) hr hF
    (oRaw := oRaw) (oPtr := oPtr) (by omega) (by omega)
  refine ⟨ptr, ?_, dynRows_length .., h3⟩
  rw [h1, ← h2, List.take_of_length_le]
  have : raw.length = oRaw.length := by
    unfold linkSpAdjDstDyn at h1
    simp only [Option.bind_eq_bind, Option.bind_eq_some_iff, Option.pure_def, Option.some.injEq,
      Prod.mk.injEq] at h1
    obtain ⟨p, hp, m, hm, look, hl, s, hs, p2, hp2, e1, e2⟩ := h1
    subst e1
    refine forN_post (fun _ (s : DynSt) => s.oRaw.length = oRaw.length) rfl ?_ hs
    intro i t t' _ ht hb
    simp only [Option.bind_eq_some_iff] at hb
    obtain ⟨c, hc, hb⟩ := hb
    split at hb
    · simp only [Option.bind_eq_some_iff, Option.some.injEq] at hb
      obtain ⟨q, hq, row, hrow, u, hu, rfl⟩ := hb
      show u.oRaw.length = _
      refine forN_post (fun _ (s : DynSt) => s.oRaw.length = oRaw.length) (s := ⟨_, _, _, q⟩) ht ?_ hu
      intro j v v' _ hv hb
      simp only [Option.bind_eq_some_iff] at hb
      obtain ⟨a, ha, c2, hc2, hb⟩ := hb
      split at hb
      · simp only [Option.bind_eq_some_iff, Option.some.injEq] at hb
        obtain ⟨w, hw, x, hx, rfl⟩ := hb
        unfold wr at hx
        split at hx
        · cases hx; simpa using hv
        · cases hx
      · cases hb; exact hv
    · cases hb; exact ht
  omega

/-- Meaning of the rows in `C24_dynamic`: row `k` belongs to the from-entity with sparse id `k`. -/
theorem C24_dynamic_row (enEn : List (List Nat)) (cF cT : List Nat) (tF tT n e : Nat) (row : List Nat)
    (he : e < n) (hsp : isSp cF tF e = true) (hrow : enEn[e]? = some row) :
    (dynRows enEn cF cT tF tT n)[rank (isSp cF tF) e]? =
      some ((row.filter (isSp cT tT)).map (rank (isSp cT tT))) := by
  obtain ⟨t, ht⟩ := dynRows_prefix enEn cF cT tF tT (show e + 1 ≤ n from he)
  have hl := dynRows_length enEn cF cT tF tT e
  rw [ht, dynRows_succ, hsp]
  simp only [if_true, hrow, Option.getD_some]
  rw [List.append_assoc, List.getElem?_append_right (by omega), hl]
  simp

example : linkSpAdjDstDyn 99 3 [[1, 0], [2], [2, 1, 0]] 1 1 [1, 0, 1] [1, 0, 1] [7, 7, 7] [7, 7, 7] =
    some ([0, 1, 0], [0, 1, 3]) ∧
    nLinkSpAdjDst 99 3 [[1, 0], [2], [2, 1, 0]] 1 1 [1, 0, 1] [1, 0, 1] = some (3, 2) := by decide

/-- **C25** (flat adjacency): exactly the entities adjacent to an entity of the source type get the bits `tyOut` added;
every other entity keeps all of its bits. -/
theorem C25_propagation {mx nEn0 nPer tyIn tyOut : Nat} {adj chars0 chars1 : List Nat}
    (h0 : nEn0 ≤ chars0.length) (hl : nEn0 * nPer ≤ adj.length)
    (hid : ∀ id, id ∈ adj → id ≠ mx → id < chars1.length) :
    ∃ s, propAdj mx nEn0 nPer adj tyIn tyOut chars0 chars1 = some s ∧ s.length = chars1.length ∧
      ∀ e, e ≠ mx →
        ((∃ en a, en < nEn0 ∧ isSp chars0 tyIn en = true ∧ a < nPer ∧ adj[en * nPer + a]? = some e) →
          s[e]? = (chars1[e]?).map (· ||| tyOut)) ∧
        ((¬ ∃ en a, en < nEn0 ∧ isSp chars0 tyIn en = true ∧ a < nPer ∧ adj[en * nPer + a]? = some e) →
          s[e]? = chars1[e]?) := by
  have hlt : ∀ en a, en < nEn0 → a < nPer → en * nPer + a < adj.length := by
    intro en a h1 h2
    have : (en + 1) * nPer ≤ nEn0 * nPer := Nat.mul_le_mul_right _ h1
    rw [Nat.succ_mul] at this
    omega
  obtain ⟨s, hs, hm⟩ := propLoop_ok (mx := mx) (nEn0 := nEn0) (tyIn := tyIn) (tyOut := tyOut) (chars0 := chars0)
    (chars1 := chars1) (fun _ => nPer) (fun en a => rd adj (en * nPer + a))
    (fun en chars1 => do
      let c ← rd chars0 en
      if hasTy c tyIn then
        forN nPer (fun ae chars1 => do
          let aeId ← rd adj (en * nPer + ae)
          if aeId ≠ mx then do
            let d ← rd chars1 aeId
            wr chars1 aeId (d ||| tyOut)
          else return chars1) chars1
      else return chars1)
    (by
      intro en he _ a ha
      exact ⟨_, rd_some (hlt en a he ha), hid _ (List.getElem_mem _)⟩)
    (by
      intro en s he
      have he' : en < chars0.length := by omega
      simp only [rd_some he', Option.bind_eq_bind, Option.bind_some, ← isSp_of (ty := tyIn) he']
      rfl)
  refine ⟨s, hs, hm.1, ?_⟩
  intro e hne
  refine ⟨fun ⟨en, a, h1, h2, h3, h4⟩ => (hm.2 e).1 ⟨en, a, h1, h2, h3, h4, hne⟩, fun hn => (hm.2 e).2 ?_⟩
  rintro ⟨en, a, h1, h2, h3, h4, _⟩
  exact hn ⟨en, a, h1, h2, h3, h4⟩

example : propAdj 99 3 2 [0, 1, 1, 99, 2, 2] 2 4 [2, 2, 0] [0, 1, 1] = some [4, 5, 1] := by decide

/-- **C25** (dynamic adjacency): as `C25_propagation` for rows of up to 65535 entries. -/
theorem C25_propagation_dynamic {mx nEn0 tyIn tyOut : Nat} {adj : List (List Nat)} {chars0 chars1 : List Nat}
    (h0 : nEn0 ≤ chars0.length) (hl : nEn0 ≤ adj.length)
    (hid : ∀ row, row ∈ adj → row.length ≤ 65535 ∧ ∀ id, id ∈ row → id ≠ mx → id < chars1.length) :
    ∃ s, propAdjDyn mx nEn0 adj tyIn tyOut chars0 chars1 = some s ∧ s.length = chars1.length ∧
      ∀ e, e ≠ mx →
        ((∃ en row, en < nEn0 ∧ isSp chars0 tyIn en = true ∧ adj[en]? = some row ∧ e ∈ row) →
          s[e]? = (chars1[e]?).map (· ||| tyOut)) ∧
        ((¬ ∃ en row, en < nEn0 ∧ isSp chars0 tyIn en = true ∧ adj[en]? = some row ∧ e ∈ row) →
          s[e]? = chars1[e]?) := by
  obtain ⟨s, hs, hm⟩ := propLoop_ok (mx := mx) (nEn0 := nEn0) (tyIn := tyIn) (tyOut := tyOut) (chars0 := chars0)
    (chars1 := chars1) (fun en => (adj[en]?.getD []).length) (fun en a => rd (adj[en]?.getD []) a)
    (fun en chars1 => do
      let c ← rd chars0 en
      if hasTy c tyIn then do
        let row ← rd adj en
        check (row.length ≤ 65535)
        forN row.length (fun ae chars1 => do
          let aeId ← rd row ae
          if aeId ≠ mx then do
            let d ← rd chars1 aeId
            wr chars1 aeId (d ||| tyOut)
          else return chars1) chars1
      else return chars1)
    (by
      intro en he _ a ha
      have he' : en < adj.length := by omega
      simp only [List.getElem?_eq_getElem he', Option.getD_some] at ha ⊢
      exact ⟨_, rd_some ha, (hid _ (List.getElem_mem he')).2 _ (List.getElem_mem _)⟩)
    (by
      intro en s he
      have he' : en < chars0.length := by omega
      have he2 : en < adj.length := by omega
      simp only [rd_some he', rd_some he2, Option.bind_eq_bind, Option.bind_some, ← isSp_of (ty := tyIn) he',
        List.getElem?_eq_getElem he2, Option.getD_some,
        decide_eq_true (hid _ (List.getElem_mem he2)).1, check_true]
      rfl)
  have conv : ∀ (en e : Nat) (row : List Nat), adj[en]? = some row →
      ((∃ a, a < (adj[en]?.getD []).length ∧ rd (adj[en]?.getD []) a = some e) ↔ e ∈ row) := by
    intro en e row hrow
    rw [hrow]
    simp only [Option.getD_some, rd]
    rw [List.mem_iff_getElem?]
    constructor
    · rintro ⟨a, _, h⟩; exact ⟨a, h⟩
    · rintro ⟨a, h⟩; exact ⟨a, (List.getElem?_eq_some_iff.mp h).1, h⟩
  refine ⟨s, hs, hm.1, ?_⟩
  intro e hne
  constructor
  · rintro ⟨en, row, h1, h2, h3, h4⟩
    obtain ⟨a, ha, hq⟩ := (conv en e row h3).2 h4
    exact (hm.2 e).1 ⟨en, a, h1, h2, ha, hq, hne⟩
  · intro hn
    apply (hm.2 e).2
    rintro ⟨en, a, h1, h2, h3, h4, _⟩
    have he2 : en < adj.length := by omega
    have h5 := List.getElem?_eq_getElem he2
    exact hn ⟨en, _, h1, h2, h5, (conv en e _ h5).1 ⟨a, h3, h4⟩⟩

example : propAdjDyn 99 2 [[0, 1], [99, 1, 2]] 2 4 [0, 2] [0, 1, 1] = some [0, 5, 5] := by decide

/-- **C25** (inheritance): exactly the entities of the source type get the bits `tyOut` added. -/
theorem C25_inherit {nEn tyIn tyOut : Nat} {chars : List Nat} (h : nEn ≤ chars.length) :
    ∃ s, inherit nEn tyIn tyOut chars = some s ∧ s.length = chars.length ∧
      ∀ e, ((e < nEn ∧ isSp chars tyIn e = true) → s[e]? = (chars[e]?).map (· ||| tyOut)) ∧
        (¬ (e < nEn ∧ isSp chars tyIn e = true) → s[e]? = chars[e]?) := by
  obtain ⟨s, hs, hm⟩ := inherit_ok (tyIn := tyIn) (tyOut := tyOut) h
  exact ⟨s, hs, hm.1, hm.2⟩

example : inherit 3 1 2 [1, 0, 3, 1] = some [3, 0, 3, 1] := by decide

end Edge.Sparse
