import Verif.Sparse.Adj
/-! Loop lemmas for the dynamic adjacency links of sparse entities. -/
namespace Edge.Sparse

/-- The rows a dynamic link should have: one row per from-entity of the type, in dense order, holding the sparse ids
of those of its adjacent entities which have the to-type, in adjacency order. -/
def dynRows (enEn : List (List Nat)) (charsFrom charsTo : List Nat) (tyFrom tyTo n : Nat) : List (List Nat) :=
  ((List.range n).filter (isSp charsFrom tyFrom)).map (fun e =>
    ((enEn[e]?.getD []).filter (isSp charsTo tyTo)).map (rank (isSp charsTo tyTo)))

/-- Rows exist, are short enough for the 16-bit loop counter, and every id is an entity. -/
def RowsOk (mx nEn : Nat) (enEn : List (List Nat)) (charsTo : List Nat) : Prop :=
  nEn ≤ enEn.length ∧ 0 < charsTo.length ∧ charsTo.length ≤ mx ∧
    ∀ row, row ∈ enEn → row.length ≤ 65535 ∧ ∀ id, id ∈ row → id < charsTo.length

theorem dynRows_succ (enEn : List (List Nat)) (cF cT : List Nat) (tF tT n : Nat) :
    dynRows enEn cF cT tF tT (n + 1) = dynRows enEn cF cT tF tT n ++
      if isSp cF tF n then [((enEn[n]?.getD []).filter (isSp cT tT)).map (rank (isSp cT tT))] else [] := by
  unfold dynRows
  rw [List.range_succ, List.filter_append, List.map_append]
  cases h : isSp cF tF n <;> simp [h]

theorem dynRows_prefix (enEn : List (List Nat)) (cF cT : List Nat) (tF tT : Nat) {i n : Nat} (h : i ≤ n) :
    ∃ t, dynRows enEn cF cT tF tT n = dynRows enEn cF cT tF tT i ++ t := by
  induction h with
  | refl => exact ⟨[], by simp⟩
  | step _ ih =>
    obtain ⟨t, ht⟩ := ih
    exact ⟨_, by rw [dynRows_succ, ht, List.append_assoc]⟩

theorem dynRows_length (enEn : List (List Nat)) (cF cT : List Nat) (tF tT n : Nat) :
    (dynRows enEn cF cT tF tT n).length = rank (isSp cF tF) n := by
  simp [dynRows, rank]

theorem take_set_succ {α : Type _} {l : List α} {k : Nat} {v : α} (h : k < l.length) :
    (l.set k v).take (k + 1) = l.take k ++ [v] := by
  rw [List.take_succ_eq_append_getElem (by simpa using h)]
  congr 1
  · rw [List.take_set_of_le (Nat.le_refl k)]
  · simp

theorem nLink_ok {mx nEn tF tT : Nat} {enEn : List (List Nat)} {cF cT : List Nat}
    (hr : RowsOk mx nEn enEn cT) (hF : nEn ≤ cF.length) :
    nLinkSpAdjDst mx nEn enEn tF tT cF cT =
      some ((dynRows enEn cF cT tF tT nEn).flatten.length, (dynRows enEn cF cT tF tT nEn).length) := by
  unfold nLinkSpAdjDst
  obtain ⟨s, hs, hp⟩ : ∃ s, forN nEn (fun de (s : Nat × Nat) => do
    let c ← rd cF de
    if hasTy c tF then do
      let row ← rd enEn de
      check (row.length ≤ 65535)
      let raw ← forN row.length (fun ae raw => do
        let aeId ← rd row ae
        check (aeId ≠ mx)
        let c ← rd cT aeId
        return if hasTy c tT then raw + 1 else raw) s.1
      return (raw, s.2 + 1)
    else return s) (0, 0) = some s ∧
    s = ((dynRows enEn cF cT tF tT nEn).flatten.length, (dynRows enEn cF cT tF tT nEn).length) := by
    refine forN_inv (fun n s =>
      s = ((dynRows enEn cF cT tF tT n).flatten.length, (dynRows enEn cF cT tF tT n).length)) (by simp [dynRows]) ?_
    rintro i s hi rfl
    have hi' : i < cF.length := by omega
    have hr' : i < enEn.length := by have := hr.1; omega
    rw [dynRows_succ]
    simp only [rd_some hi', rd_some hr', Option.bind_eq_bind, Option.bind_some, ← isSp_of (ty := tF) hi']
    cases isSp cF tF i with
    | false => exact ⟨_, by simp; rfl, by simp⟩
    | true =>
      obtain ⟨hlen, hids⟩ := hr.2.2.2 enEn[i] (List.getElem_mem hr')
      simp only [if_true, decide_eq_true hlen, check_true, Option.bind_some]
      obtain ⟨raw, hraw, hq⟩ := forN_inv (n := enEn[i].length)
        (s := (dynRows enEn cF cT tF tT i).flatten.length)
        (body := fun ae raw => do
          let aeId ← rd enEn[i] ae
          check (aeId ≠ mx)
          let c ← rd cT aeId
          return if hasTy c tT then raw + 1 else raw)
        (fun n r => r = (dynRows enEn cF cT tF tT i).flatten.length +
          ((enEn[i].take n).filter (isSp cT tT)).length) (by simp) (by
          rintro j t hj rfl
          have hid := hids _ (List.getElem_mem hj)
          have hne : enEn[i][j] ≠ mx := by have := hr.2.2.1; omega
          simp only [rd_some hj, Option.bind_eq_bind, Option.bind_some, decide_eq_true hne, check_true,
            rd_some hid, ← isSp_of (ty := tT) hid]
          refine ⟨_, rfl, ?_⟩
          rw [List.take_succ_eq_append_getElem hj, List.filter_append, List.length_append]
          cases h : isSp cT tT enEn[i][j] <;> simp [h]
          omega)
      simp only [Option.bind_eq_bind] at hraw
      rw [hraw]
      refine ⟨_, rfl, ?_⟩
      rw [hq]
      simp [hr']
  rw [hs, hp]

theorem dyn_maxAdj {mx nEn : Nat} {enEn : List (List Nat)} {cT : List Nat} (hr : RowsOk mx nEn enEn cT) :
    ∃ m, forN nEn (fun de m => do
        let row ← rd enEn de
        check (row.length ≤ 65535)
        forN row.length (fun ae m => do
          let aeId ← rd row ae
          return max m aeId) m) 0 = some m ∧ (m < cT.length ∧
        ∀ e (h : e < enEn.length), e < nEn → ∀ id, id ∈ enEn[e] → id ≤ m) := by
  refine forN_inv (fun n m => m < cT.length ∧
    ∀ e (h : e < enEn.length), e < n → ∀ id, id ∈ enEn[e] → id ≤ m) ⟨hr.2.1, by simp⟩ ?_
  intro i m hi ⟨h1, h2⟩
  have hr' : i < enEn.length := by have := hr.1; omega
  obtain ⟨hlen, hids⟩ := hr.2.2.2 enEn[i] (List.getElem_mem hr')
  simp only [rd_some hr', Option.bind_eq_bind, Option.bind_some, decide_eq_true hlen, check_true]
  obtain ⟨m', hm', q1, q2, q3⟩ := forN_inv (n := enEn[i].length) (s := m)
    (body := fun ae m => do
      let aeId ← rd enEn[i] ae
      return max m aeId)
    (fun n m' => m ≤ m' ∧ m' < cT.length ∧ ∀ a (h : a < enEn[i].length), a < n → enEn[i][a] ≤ m')
    (by simp [h1]) (by
      intro j t hj ⟨a1, a2, a3⟩
      have hid := hids _ (List.getElem_mem hj)
      simp only [rd_some hj, Option.bind_eq_bind, Option.bind_some]
      refine ⟨_, rfl, by omega, by omega, ?_⟩
      intro a ha ha'
      rcases Nat.lt_succ_iff_lt_or_eq.mp ha' with h' | h'
      · have := a3 a ha h'; omega
      · subst h'; omega)
  simp only [Option.bind_eq_bind] at hm'
  refine ⟨m', hm', q2, ?_⟩
  intro e he he' id hid
  rcases Nat.lt_succ_iff_lt_or_eq.mp he' with h' | h'
  · have := h2 e he h' id hid; omega
  · subst h'
    obtain ⟨a, ha, rfl⟩ := List.getElem_of_mem hid
    exact q3 a ha ha

theorem linkSpAdjDstDyn_ok {mx nEn tF tT : Nat} {enEn : List (List Nat)} {cF cT oRaw oPtr : List Nat}
    (hr : RowsOk mx nEn enEn cT) (hF : nEn ≤ cF.length)
    (hRaw : (dynRows enEn cF cT tF tT nEn).flatten.length ≤ oRaw.length)
    (hPtr : (dynRows enEn cF cT tF tT nEn).length + 1 ≤ oPtr.length) :
    ∃ raw ptr, linkSpAdjDstDyn mx nEn enEn tF tT cF cT oRaw oPtr = some (raw, ptr) ∧
      raw.take (dynRows enEn cF cT tF tT nEn).flatten.length = (dynRows enEn cF cT tF tT nEn).flatten ∧
      ∀ k, k ≤ (dynRows enEn cF cT tF tT nEn).length →
        ptr[k]? = some ((dynRows enEn cF cT tF tT nEn).take k).flatten.length := by
  unfold linkSpAdjDstDyn
  have hp0 : 0 < oPtr.length := by omega
  obtain ⟨m, hm, m1, m2⟩ := dyn_maxAdj hr
  obtain ⟨look, hlook, l1, l2⟩ := deToSp_ok (mx := mx) (ty := tT) (show m + 1 ≤ cT.length from m1)
  simp only [Option.bind_eq_bind] at hm
  simp only [wr_some hp0, hm, hlook, Option.bind_eq_bind, Option.bind_some]
  obtain ⟨s, hs, s1, s2, s3, s4, s5, s6⟩ := forN_inv (n := nEn)
    (s := ({ spId := 0, raw := 0, oRaw := oRaw, oPtr := oPtr.set 0 0 } : DynSt))
    (body := fun de (s : DynSt) => do
      let c ← rd cF de
      if hasTy c tF then do
        let oPtr ← wr s.oPtr s.spId s.raw
        let row ← rd enEn de
        let t ← forN row.length (fun ae (t : DynSt) => do
          let aeId ← rd row ae
          let c ← rd cT aeId
          if hasTy c tT then do
            let v ← rd look aeId
            let oRaw ← wr t.oRaw t.raw v
            return { t with oRaw := oRaw, raw := t.raw + 1 }
          else return t) { s with oPtr := oPtr }
        return { t with spId := t.spId + 1 }
      else return s)
    (fun n s => s.spId = (dynRows enEn cF cT tF tT n).length ∧
      s.raw = (dynRows enEn cF cT tF tT n).flatten.length ∧ s.oRaw.length = oRaw.length ∧
      s.oPtr.length = oPtr.length ∧ s.oRaw.take s.raw = (dynRows enEn cF cT tF tT n).flatten ∧
      ∀ k, k < (dynRows enEn cF cT tF tT n).length →
        s.oPtr[k]? = some ((dynRows enEn cF cT tF tT n).take k).flatten.length) (by simp [dynRows]) (by
      rintro i s hi ⟨a1, a2, a3, a4, a5, a6⟩
      have hi' : i < cF.length := by omega
      have hr' : i < enEn.length := by have := hr.1; omega
      obtain ⟨tl, htl⟩ := dynRows_prefix enEn cF cT tF tT (show i + 1 ≤ nEn from hi)
      rw [htl] at hRaw hPtr
      rw [dynRows_succ] at hRaw hPtr ⊢
      simp only [rd_some hi', rd_some hr', Option.bind_eq_bind, Option.bind_some, ← isSp_of (ty := tF) hi']
      cases hsp : isSp cF tF i with
      | false =>
        simp only [Bool.false_eq_true, if_false, List.append_nil]
        exact ⟨s, rfl, a1, a2, a3, a4, a5, a6⟩
      | true =>
        obtain ⟨hlen, hids⟩ := hr.2.2.2 enEn[i] (List.getElem_mem hr')
        simp only [hsp, if_true, List.getElem?_eq_getElem hr', Option.getD_some, List.length_append,
          List.flatten_append, List.length_cons, List.length_nil, List.flatten_cons, List.flatten_nil,
          List.append_nil, List.length_map] at hRaw hPtr ⊢
        have hpl : s.spId < s.oPtr.length := by omega
        simp only [wr_some hpl, Option.bind_some]
        obtain ⟨t, ht, t1, t2, t3, t4, t5⟩ := forN_inv (n := enEn[i].length)
          (s := { s with oPtr := s.oPtr.set s.spId s.raw })
          (body := fun ae (t : DynSt) => do
            let aeId ← rd enEn[i] ae
            let c ← rd cT aeId
            if hasTy c tT then do
              let v ← rd look aeId
              let oRaw ← wr t.oRaw t.raw v
              return { t with oRaw := oRaw, raw := t.raw + 1 }
            else return t)
          (fun n t => t.spId = s.spId ∧ t.oPtr = s.oPtr.set s.spId s.raw ∧
            t.raw = s.raw + ((enEn[i].take n).filter (isSp cT tT)).length ∧ t.oRaw.length = oRaw.length ∧
            t.oRaw.take t.raw = (dynRows enEn cF cT tF tT i).flatten ++
              ((enEn[i].take n).filter (isSp cT tT)).map (rank (isSp cT tT))) (by simp [a3, a5]) (by
            rintro j t hj ⟨b1, b2, b3, b4, b5⟩
            have hid := hids _ (List.getElem_mem hj)
            have hle := m2 i hr' hi _ (List.getElem_mem hj)
            simp only [rd_some hj, Option.bind_eq_bind, Option.bind_some, rd_some hid, ← isSp_of (ty := tT) hid]
            rw [List.take_succ_eq_append_getElem hj, List.filter_append, List.map_append, List.length_append]
            have hlk := l2 enEn[i][j] (by omega)
            have hfl : ((enEn[i].take (j + 1)).filter (isSp cT tT)).length ≤
                (enEn[i].filter (isSp cT tT)).length :=
              ((List.take_sublist _ _).filter _).length_le
            rw [List.take_succ_eq_append_getElem hj, List.filter_append, List.length_append] at hfl
            cases hc : isSp cT tT enEn[i][j] with
            | false => exact ⟨t, by simp, b1, b2, by simpa [hc] using b3, b4, by simpa [hc] using b5⟩
            | true =>
              simp only [hc, if_true] at hlk
              simp only [List.filter_cons, hc, if_true, List.filter_nil, List.length_cons, List.length_nil] at hfl
              have hrl : t.raw < t.oRaw.length := by omega
              refine ⟨{ t with oRaw := t.oRaw.set t.raw (rank (isSp cT tT) enEn[i][j]), raw := t.raw + 1 },
                by simp [rd, hlk, wr_some hrl], b1, b2, by simp [hc]; omega, by simpa using b4, ?_⟩
              simp only
              rw [take_set_succ hrl, b5]
              simp [hc])
        simp only [Option.bind_eq_bind] at ht
        rw [List.take_length] at t3 t5
        rw [ht]
        refine ⟨_, rfl, by simp only; omega, by simp only; omega, t4, by simp only [t2]; simpa using a4,
          by simpa using t5, ?_⟩
        intro k hk
        simp only [t2]
        by_cases hk' : k = s.spId
        · subst hk'
          rw [List.take_append_of_le_length (by omega), List.take_of_length_le (by omega)]
          simp [hpl, a2]
        · rw [List.getElem?_set_ne (by omega), List.take_append_of_le_length (by omega)]
          exact a6 k (by omega))
  simp only [Option.bind_eq_bind] at hs
  have hpl : s.spId < s.oPtr.length := by omega
  rw [hs]
  simp only [Option.bind_some, wr_some hpl]
  refine ⟨_, _, rfl, by rw [← s2]; exact s5, ?_⟩
  intro k hk
  by_cases hk' : k = s.spId
  · subst hk'
    rw [List.take_of_length_le (by omega)]
    simp [hpl, s2]
  · rw [List.getElem?_set_ne (by omega)]
    exact s6 k (by omega)

end Edge.Sparse
