import Verif.Sparse.Lemmas
/-! Loop lemmas for the adjacency links of sparse entities. -/
namespace Edge.Sparse

theorem forN_congr {σ : Type _} {n : Nat} {f g : Nat → σ → Option σ} {s : σ}
    (h : ∀ i t, i < n → f i t = g i t) : forN n f s = forN n g s := by
  induction n with
  | zero => rfl
  | succ n ih =>
    rw [forN_succ, forN_succ, ih (fun i t hi => h i t (by omega))]
    cases forN n g s with
    | none => rfl
    | some t => exact h n t (by omega)

/-- Writing (optionally) the slots of one block. -/
theorem blk_ok {b n : Nat} {v : Nat → Option Nat} {o : List Nat} (h : b + n ≤ o.length) :
    ∃ o', forN n (fun a o => match v a with
        | some x => wr o (b + a) x
        | none => some o) o = some o' ∧ o'.length = o.length ∧
      (∀ a, a < n → o'[b + a]? = match v a with | some x => some x | none => o[b + a]?) ∧
      (∀ j, j < b ∨ b + n ≤ j → o'[j]? = o[j]?) := by
  refine forN_inv (fun i (s : List Nat) => s.length = o.length ∧
      (∀ a, a < i → s[b + a]? = match v a with | some x => some x | none => o[b + a]?) ∧
      (∀ j, j < b ∨ b + i ≤ j → s[j]? = o[j]?)) (by simp) ?_
  intro i s hi ⟨h1, h2, h3⟩
  cases hv : v i with
  | none =>
    refine ⟨s, rfl, h1, ?_, fun j hj => h3 j (by omega)⟩
    intro a ha
    rcases Nat.lt_succ_iff_lt_or_eq.mp ha with h' | h'
    · exact h2 a h'
    · subst h'; rw [hv]; exact h3 _ (by omega)
  | some x =>
    have hl : b + i < s.length := by omega
    refine ⟨s.set (b + i) x, wr_some hl x, by simpa using h1, ?_, ?_⟩
    · intro a ha
      rcases Nat.lt_succ_iff_lt_or_eq.mp ha with h' | h'
      · rw [List.getElem?_set_ne (by omega)]; exact h2 a h'
      · subst h'; rw [hv]; simp [hl]
    · intro j hj
      rw [List.getElem?_set_ne (by omega)]
      exact h3 j (by omega)

theorem maxAdj_ok {mx nEn nAdj : Nat} {enEn : List Nat} (h : nEn * nAdj ≤ enEn.length) :
    ∃ m, maxAdj mx nEn nAdj enEn = some m ∧
      (∀ e a id, e < nEn → a < nAdj → enEn[e * nAdj + a]? = some id → id ≠ mx → id ≤ m) ∧
      (m = 0 ∨ ∃ e a, e < nEn ∧ a < nAdj ∧ enEn[e * nAdj + a]? = some m ∧ m ≠ mx) := by
  unfold maxAdj
  refine forN_inv (fun n m =>
      (∀ e a id, e < n → a < nAdj → enEn[e * nAdj + a]? = some id → id ≠ mx → id ≤ m) ∧
      (m = 0 ∨ ∃ e a, e < n ∧ a < nAdj ∧ enEn[e * nAdj + a]? = some m ∧ m ≠ mx)) (by simp) ?_
  intro i m hi ⟨h1, h2⟩
  suffices hh : ∃ m', forN nAdj (fun ae m => do
        let aeId ← rd enEn (i * nAdj + ae)
        return if aeId = mx then m else max m aeId) m = some m' ∧
      (m ≤ m' ∧ (∀ a id, a < nAdj → enEn[i * nAdj + a]? = some id → id ≠ mx → id ≤ m') ∧
        (m' = m ∨ ∃ a, a < nAdj ∧ enEn[i * nAdj + a]? = some m' ∧ m' ≠ mx)) by
    obtain ⟨m', hm', q1, q2, q3⟩ := hh
    refine ⟨m', hm', ?_, ?_⟩
    · intro e a id he ha hid hne
      rcases Nat.lt_succ_iff_lt_or_eq.mp he with h' | h'
      · exact Nat.le_trans (h1 e a id h' ha hid hne) q1
      · subst h'; exact q2 a id ha hid hne
    · rcases q3 with q3 | ⟨a, ha, hq⟩
      · rcases h2 with h2 | ⟨e, a, he, hq⟩
        · exact Or.inl (by omega)
        · exact Or.inr ⟨e, a, by omega, by rw [q3]; exact hq⟩
      · exact Or.inr ⟨i, a, by omega, ha, hq⟩
  refine forN_inv (fun n m' => m ≤ m' ∧ (∀ a id, a < n → enEn[i * nAdj + a]? = some id → id ≠ mx → id ≤ m') ∧
        (m' = m ∨ ∃ a, a < n ∧ enEn[i * nAdj + a]? = some m' ∧ m' ≠ mx)) (by simp) ?_
  intro j t hj ⟨q1, q2, q3⟩
  have hlt : i * nAdj + j < enEn.length := by
    have : (i + 1) * nAdj ≤ nEn * nAdj := Nat.mul_le_mul_right _ hi
    rw [Nat.succ_mul] at this
    omega
  simp only [rd_some hlt, Option.bind_eq_bind, Option.bind_some]
  refine ⟨_, rfl, ?_, ?_, ?_⟩
  · split <;> omega
  · intro a id ha hid hne
    rcases Nat.lt_succ_iff_lt_or_eq.mp ha with h' | h'
    · have := q2 a id h' hid hne
      split <;> omega
    · subst h'
      simp [hlt] at hid
      rw [hid, if_neg hne]; omega
  · by_cases hm : enEn[i * nAdj + j] = mx
    · rw [if_pos hm]
      rcases q3 with q3 | ⟨a, ha, hq⟩
      · exact Or.inl q3
      · exact Or.inr ⟨a, by omega, hq⟩
    · rw [if_neg hm]
      by_cases hle : enEn[i * nAdj + j] ≤ t
      · rw [Nat.max_eq_left hle]
        rcases q3 with q3 | ⟨a, ha, hq⟩
        · exact Or.inl q3
        · exact Or.inr ⟨a, by omega, hq⟩
      · rw [Nat.max_eq_right (by omega)]
        exact Or.inr ⟨j, by omega, by simp [hlt], hm⟩

theorem deToSp_ok {mx n ty : Nat} {chars : List Nat} (h : n ≤ chars.length) :
    ∃ l, deToSp mx n ty chars = some l ∧ l.length = n ∧
      ∀ e, e < n → l[e]? = some (if isSp chars ty e then rank (isSp chars ty) e else mx) := by
  unfold deToSp
  suffices hs : ∃ s, forN n (fun de (s : Nat × List Nat) => do
        let c ← rd chars de
        if hasTy c ty then do
          let l ← wr s.2 de s.1
          return (s.1 + 1, l)
        else do
          let l ← wr s.2 de mx
          return (s.1, l)) (0, List.replicate n 0) = some s ∧
      (s.1 = rank (isSp chars ty) n ∧ s.2.length = n ∧
        ∀ e, e < n → s.2[e]? = some (if isSp chars ty e then rank (isSp chars ty) e else mx)) by
    obtain ⟨s, hs, _, h1, h2⟩ := hs
    exact ⟨s.2, by rw [hs]; rfl, h1, h2⟩
  refine forN_inv (fun i (s : Nat × List Nat) => s.1 = rank (isSp chars ty) i ∧ s.2.length = n ∧
        ∀ e, e < i → s.2[e]? = some (if isSp chars ty e then rank (isSp chars ty) e else mx)) (by simp) ?_
  rintro i ⟨r, l⟩ hi ⟨a1, a2, a3⟩
  simp only at a1 a2 a3
  have hi' : i < chars.length := by omega
  have hl : i < l.length := by omega
  have hsp := isSp_of (ty := ty) hi'
  simp only [rd_some hi', Option.bind_eq_bind, Option.bind_some, ← hsp, wr_some hl]
  refine ⟨(rank (isSp chars ty) (i + 1), l.set i (if isSp chars ty i then rank (isSp chars ty) i else mx)),
    ?_, rfl, by simpa using a2, ?_⟩
  · cases hq : isSp chars ty i <;> simp [rank_succ, hq, a1]
  · intro e he
    simp only
    rcases Nat.lt_succ_iff_lt_or_eq.mp he with h' | h'
    · rw [List.getElem?_set_ne (by omega)]; exact a3 e h'
    · subst h'; simp [hl]

/-- The value a link slot should have for adjacent id `id`. -/
def linkVal (mx : Nat) (chars : List Nat) (ty id : Nat) : Nat :=
  if id = mx then mx else if isSp chars ty id then rank (isSp chars ty) id else mx

/-- Compressing loop: every from-entity of the set `pF` gets the next block of `nAdj` slots. -/
theorem compress_ok {nEn nAdj : Nat} {o : List Nat} (pF : Nat → Bool) (v : Nat → Nat → Option Nat)
    (body : Nat → Nat × List Nat → Option (Nat × List Nat))
    (hb : ∀ e s, e < nEn → body e s = if pF e then
        (forN nAdj (fun a o => match v e a with
          | some x => wr o (s.1 * nAdj + a) x
          | none => some o) s.2).map (fun o => (s.1 + 1, o)) else some s)
    (ho : rank pF nEn * nAdj ≤ o.length) :
    ∃ s, forN nEn body (0, o) = some s ∧ (s.1 = rank pF nEn ∧ s.2.length = o.length ∧
      (∀ e a, e < nEn → pF e = true → a < nAdj → s.2[rank pF e * nAdj + a]? =
        match v e a with | some x => some x | none => o[rank pF e * nAdj + a]?) ∧
      (∀ j, rank pF nEn * nAdj ≤ j → s.2[j]? = o[j]?)) := by
  refine forN_inv (fun n (s : Nat × List Nat) => s.1 = rank pF n ∧ s.2.length = o.length ∧
      (∀ e a, e < n → pF e = true → a < nAdj → s.2[rank pF e * nAdj + a]? =
        match v e a with | some x => some x | none => o[rank pF e * nAdj + a]?) ∧
      (∀ j, rank pF n * nAdj ≤ j → s.2[j]? = o[j]?)) (by simp) ?_
  rintro i ⟨r, l⟩ hi ⟨a1, a2, a3, a4⟩
  simp only at a1 a2 a3 a4
  rw [hb i _ hi]
  cases hp : pF i with
  | false =>
    have hr : rank pF (i + 1) = rank pF i := by rw [rank_succ, hp]; simp
    refine ⟨(r, l), by simp, by simp only; omega, a2, ?_, by rw [hr]; exact a4⟩
    intro e a he hpe ha
    rcases Nat.lt_succ_iff_lt_or_eq.mp he with h' | h'
    · exact a3 e a h' hpe ha
    · subst h'; rw [hp] at hpe; simp at hpe
  | true =>
    have hr : rank pF (i + 1) = rank pF i + 1 := by rw [rank_succ, hp]; simp
    have hle : (rank pF i + 1) * nAdj ≤ rank pF nEn * nAdj :=
      Nat.mul_le_mul_right _ (rank_lt pF hi hp)
    rw [Nat.succ_mul] at hle
    obtain ⟨o', ho', q1, q2, q3⟩ := blk_ok (b := r * nAdj) (n := nAdj) (v := v i) (o := l) (by
      rw [a1]; omega)
    refine ⟨(r + 1, o'), ?_, by simp only; omega, by simp only; omega, ?_, ?_⟩
    · simp only [if_true, ho', Option.map_some]
    · intro e a he hpe ha
      simp only
      rcases Nat.lt_succ_iff_lt_or_eq.mp he with h' | h'
      · have h1 : (rank pF e + 1) * nAdj ≤ rank pF i * nAdj := Nat.mul_le_mul_right _ (rank_lt pF h' hpe)
        rw [Nat.succ_mul] at h1
        rw [q3 _ (Or.inl (by rw [a1]; omega))]
        exact a3 e a h' hpe ha
      · subst h'
        rw [← a1, q2 a ha]
        cases v e a with
        | some x => rfl
        | none => simp only; rw [a4 _ (by rw [a1]; omega)]
    · intro j hj
      simp only
      rw [hr, Nat.succ_mul] at hj
      rw [q3 _ (Or.inr (by rw [a1]; omega))]
      exact a4 j (by omega)

/-- What is needed of the adjacency: all slots exist, and every defined id is an entity. -/
def AdjOk (mx nEn nAdj : Nat) (enEn charsTo : List Nat) : Prop :=
  nEn * nAdj ≤ enEn.length ∧ 0 < charsTo.length ∧
    ∀ e a id, e < nEn → a < nAdj → enEn[e * nAdj + a]? = some id → id ≠ mx → id < charsTo.length

theorem adj_lt {mx nEn nAdj : Nat} {enEn charsTo : List Nat} (h : AdjOk mx nEn nAdj enEn charsTo)
    {e a : Nat} (he : e < nEn) (ha : a < nAdj) : e * nAdj + a < enEn.length := by
  have : (e + 1) * nAdj ≤ nEn * nAdj := Nat.mul_le_mul_right _ he
  rw [Nat.succ_mul] at this
  have := h.1
  omega

theorem linkSpAdjDst_ok {mx nEn nAdj tyFrom tyTo : Nat} {enEn charsFrom charsTo o : List Nat}
    (hadj : AdjOk mx nEn nAdj enEn charsTo) (hF : nEn ≤ charsFrom.length) (hnA : 0 < nAdj)
    (ho : rank (isSp charsFrom tyFrom) nEn * nAdj ≤ o.length) :
    ∃ o', linkSpAdjDst mx nEn nAdj enEn tyFrom tyTo charsFrom charsTo o = some o' ∧ o'.length = o.length ∧
      (∀ e a id, e < nEn → isSp charsFrom tyFrom e = true → a < nAdj → enEn[e * nAdj + a]? = some id →
        o'[rank (isSp charsFrom tyFrom) e * nAdj + a]? = some (linkVal mx charsTo tyTo id)) ∧
      (∀ j, rank (isSp charsFrom tyFrom) nEn * nAdj ≤ j → o'[j]? = o[j]?) := by
  unfold linkSpAdjDst
  by_cases h0 : nEn = 0
  · subst h0
    exact ⟨o, by simp, rfl, fun e a id he => absurd he (Nat.not_lt_zero _), fun _ _ => rfl⟩
  rw [if_neg h0]
  obtain ⟨m, hm, m1, m2⟩ := maxAdj_ok (mx := mx) hadj.1
  have hml : m + 1 ≤ charsTo.length := by
    rcases m2 with m2 | ⟨e, a, he, ha, hid, hne⟩
    · have := hadj.2.1; omega
    · exact hadj.2.2 e a m he ha hid hne
  obtain ⟨look, hlook, l1, l2⟩ := deToSp_ok (mx := mx) (ty := tyTo) hml
  simp only [decide_eq_true hnA, gt_iff_lt, check_true, hm, hlook, Option.bind_eq_bind, Option.bind_some]
  obtain ⟨s, hs, s1, s2, s3, s4⟩ := compress_ok (nEn := nEn) (nAdj := nAdj) (o := o) (isSp charsFrom tyFrom)
    (fun e a => (enEn[e * nAdj + a]?).map (linkVal mx charsTo tyTo))
    (fun de (s : Nat × List Nat) => do
      let c ← rd charsFrom de
      if hasTy c tyFrom then do
        let o ← forN nAdj (fun ae o => do
          let aeId ← rd enEn (de * nAdj + ae)
          if aeId = mx then wr o (s.1 * nAdj + ae) mx
          else do
            let c ← rd charsTo aeId
            if hasTy c tyTo then do
              let v ← rd look aeId
              wr o (s.1 * nAdj + ae) v
            else wr o (s.1 * nAdj + ae) mx) s.2
        return (s.1 + 1, o)
      else return s) (by
      intro e s he
      have he' : e < charsFrom.length := by omega
      simp only [rd_some he', Option.bind_eq_bind, Option.bind_some, ← isSp_of (ty := tyFrom) he']
      cases isSp charsFrom tyFrom e with
      | false => simp
      | true =>
        simp only [if_true]
        rw [Option.map_eq_bind]
        refine congrArg (fun x => Option.bind x _) (forN_congr ?_)
        intro a t ha
        have hl := adj_lt hadj he ha
        simp only [rd_some hl, Option.bind_some, List.getElem?_eq_getElem hl, Option.map_some, linkVal]
        by_cases hmx : enEn[e * nAdj + a] = mx
        · simp [hmx]
        · have hid := hadj.2.2 e a _ he ha (List.getElem?_eq_getElem hl) hmx
          have hle := m1 e a _ he ha (List.getElem?_eq_getElem hl) hmx
          simp only [if_neg hmx, rd_some hid, Option.bind_some, ← isSp_of (ty := tyTo) hid]
          have := l2 _ (show enEn[e * nAdj + a] < m + 1 by omega)
          cases hsp : isSp charsTo tyTo enEn[e * nAdj + a] with
          | false => simp
          | true => rw [hsp] at this; simp [rd, this]) ho
  refine ⟨s.2, ?_, s2, ?_, s4⟩
  · simp only [Option.bind_eq_bind] at hs
    rw [hs]; rfl
  · intro e a id he hsp ha hid
    rw [s3 e a he hsp ha, hid]; rfl

/-- Some adjacent entity of `e` has the type. -/
def anyAdj (mx nAdj : Nat) (enEn chars : List Nat) (ty e : Nat) : Bool :=
  (List.range nAdj).any (fun a => (enEn[e * nAdj + a]?).any (fun id => id ≠ mx && isSp chars ty id))

theorem any_range_succ (f : Nat → Bool) (n : Nat) :
    (List.range (n + 1)).any f = ((List.range n).any f || f n) := by
  rw [List.range_succ, List.any_append]; simp

theorem linkSpAdjSst_ok {mx nEn nAdj ty : Nat} {enEn charsAdj o : List Nat}
    (hadj : AdjOk mx nEn nAdj enEn charsAdj) (hnA : 0 < nAdj)
    (ho : rank (anyAdj mx nAdj enEn charsAdj ty) nEn * nAdj ≤ o.length) :
    ∃ o', linkSpAdjSst mx nEn nAdj enEn ty charsAdj o = some o' ∧ o'.length = o.length ∧
      (∀ e a id, e < nEn → anyAdj mx nAdj enEn charsAdj ty e = true → a < nAdj →
        enEn[e * nAdj + a]? = some id →
        o'[rank (anyAdj mx nAdj enEn charsAdj ty) e * nAdj + a]? =
          if id = mx then o[rank (anyAdj mx nAdj enEn charsAdj ty) e * nAdj + a]?
          else some (linkVal mx charsAdj ty id)) ∧
      (∀ j, rank (anyAdj mx nAdj enEn charsAdj ty) nEn * nAdj ≤ j → o'[j]? = o[j]?) := by
  unfold linkSpAdjSst
  by_cases h0 : nEn = 0
  · subst h0
    exact ⟨o, by simp, rfl, fun e a id he => absurd he (Nat.not_lt_zero _), fun _ _ => rfl⟩
  rw [if_neg h0]
  obtain ⟨m, hm, m1, m2⟩ := maxAdj_ok (mx := mx) hadj.1
  have hml : m + 1 ≤ charsAdj.length := by
    rcases m2 with m2 | ⟨e, a, he, ha, hid, hne⟩
    · have := hadj.2.1; omega
    · exact hadj.2.2 e a m he ha hid hne
  obtain ⟨look, hlook, l1, l2⟩ := deToSp_ok (mx := mx) (ty := ty) hml
  simp only [decide_eq_true hnA, gt_iff_lt, check_true, hm, hlook, Option.bind_eq_bind, Option.bind_some]
  obtain ⟨s, hs, s1, s2, s3, s4⟩ := compress_ok (nEn := nEn) (nAdj := nAdj) (o := o)
    (anyAdj mx nAdj enEn charsAdj ty)
    (fun e a => (enEn[e * nAdj + a]?).bind (fun id => if id = mx then none else some (linkVal mx charsAdj ty id)))
    (fun de (s : Nat × List Nat) => do
      let sp ← forN nAdj (fun ae sp => do
        let aeId ← rd enEn (de * nAdj + ae)
        if aeId = mx then return sp
        else do
          let c ← rd charsAdj aeId
          return if hasTy c ty then true else sp) false
      if sp then do
        let o ← forN nAdj (fun ae o => do
          let aeId ← rd enEn (de * nAdj + ae)
          if aeId = mx then return o
          else do
            let c ← rd charsAdj aeId
            if hasTy c ty then do
              let v ← rd look aeId
              wr o (s.1 * nAdj + ae) v
            else wr o (s.1 * nAdj + ae) mx) s.2
        return (s.1 + 1, o)
      else return s) (by
      intro e s he
      obtain ⟨sp, hsp, hsp'⟩ := forN_inv (n := nAdj) (s := false)
        (body := fun ae sp => do
          let aeId ← rd enEn (e * nAdj + ae)
          if aeId = mx then return sp
          else do
            let c ← rd charsAdj aeId
            return if hasTy c ty then true else sp)
        (fun i sp => sp = (List.range i).any (fun a => (enEn[e * nAdj + a]?).any
          (fun id => id ≠ mx && isSp charsAdj ty id))) (by simp) (by
          intro a t ha ht
          have hl := adj_lt hadj he ha
          simp only [rd_some hl, Option.bind_eq_bind, Option.bind_some]
          rw [any_range_succ, ← ht]
          by_cases hmx : enEn[e * nAdj + a] = mx
          · exact ⟨t, by simp [hmx], by simp [hl, hmx]⟩
          · have hid := hadj.2.2 e a _ he ha (List.getElem?_eq_getElem hl) hmx
            refine ⟨_, by simp only [if_neg hmx, rd_some hid, Option.bind_some]; rfl, ?_⟩
            simp only [List.getElem?_eq_getElem hl, Option.any_some, ← isSp_of (ty := ty) hid]
            cases isSp charsAdj ty enEn[e * nAdj + a] <;> simp [hmx])
      have hsp'' : sp = anyAdj mx nAdj enEn charsAdj ty e := hsp'
      simp only [Option.bind_eq_bind] at hsp
      simp only [hsp, hsp'', Option.bind_eq_bind, Option.bind_some]
      cases anyAdj mx nAdj enEn charsAdj ty e with
      | false => simp
      | true =>
        simp only [if_true]
        rw [Option.map_eq_bind]
        refine congrArg (fun x => Option.bind x _) (forN_congr ?_)
        intro a t ha
        have hl := adj_lt hadj he ha
        simp only [rd_some hl, Option.bind_some, List.getElem?_eq_getElem hl, linkVal]
        by_cases hmx : enEn[e * nAdj + a] = mx
        · simp [hmx]
        · have hid := hadj.2.2 e a _ he ha (List.getElem?_eq_getElem hl) hmx
          have hle := m1 e a _ he ha (List.getElem?_eq_getElem hl) hmx
          simp only [if_neg hmx, rd_some hid, Option.bind_some, ← isSp_of (ty := ty) hid]
          have := l2 _ (show enEn[e * nAdj + a] < m + 1 by omega)
          cases hsp : isSp charsAdj ty enEn[e * nAdj + a] with
          | false => simp
          | true => rw [hsp] at this; simp [rd, this]) ho
  refine ⟨s.2, ?_, s2, ?_, s4⟩
  · simp only [Option.bind_eq_bind] at hs
    rw [hs]; rfl
  · intro e a id he hsp ha hid
    rw [s3 e a he hsp ha, hid]
    by_cases hmx : id = mx <;> simp [hmx]

end Edge.Sparse
