import Verif.Recv.One
/-!
All receivers: operations act receiver by receiver.
-/
namespace Edge.Recv
open Edge

/-- Entities of receivers and the first receivers of the entities: the entities are ascending and `sp` lists, in ascending
order, the receivers whose predecessors all have smaller entities. -/
structure Grouped (ens sp : List Nat) : Prop where
  sorted : ens.Pairwise (· ≤ ·)
  asc : sp.Pairwise (· < ·)
  mem : ∀ i, i ∈ sp ↔ ∃ e, ens[i]? = some e ∧ ∀ j e', j < i → ens[j]? = some e' → e' < e

variable {K : Type} [Field K]

/-- The entities of the receivers. -/
def St.ens (s : St K) : List Nat := s.recvs.map Rcv.en

/-- Invariant of the receivers. -/
structure St.WF (c : Cfg K) (s : St K) : Prop where
  grp : Grouped s.ens s.sp
  rcv : ∀ r ∈ s.recvs, r.WF c

/-- Effect of a write to entity `e` on a receiver (total version). -/
def upd (c : Cfg K) (e : Nat) (dofs : List K) (r : Rcv K) : Rcv K :=
  if r.en = e then (writeRecv c dofs r).getD r else r

theorem writeFrom_spec {c : Cfg K} {e : Nat} {dofs : List K} {l : List (Rcv K)} (hs : (l.map Rcv.en).Pairwise (· ≤ ·))
    (hg : ∀ r ∈ l, e ≤ r.en) (hw : ∀ r ∈ l, r.WF c) (hD : dofs.length = c.nQts * c.nMds * c.nCrs)
    (hn : ∀ r ∈ l, r.en = e → r.nBuff < c.buffSize) : writeFrom c e dofs l = some (l.map (upd c e dofs)) := by
  induction l with
  | nil => rfl
  | cons r l ih =>
    unfold writeFrom
    rw [List.map_cons, List.pairwise_cons] at hs
    by_cases h : r.en = e
    · rw [if_pos h]
      obtain ⟨r', e1, -⟩ := writeRecv_spec (hw r (by simp)) hD (hn r (by simp) h)
      simp only [Option.bind_eq_bind]
      rw [e1, ih hs.2 (fun r' h' => hg r' (by simp [h'])) (fun r' h' => hw r' (by simp [h'])) (fun r' h' => hn r' (by simp [h']))]
      simp [upd, h, e1]
    · rw [if_neg h]
      have h1 := hg r (by simp)
      have : l.map (upd c e dofs) = l := by
        conv_rhs => rw [← List.map_id l]
        apply List.map_congr_left
        intro r' h'
        have := hs.1 r'.en (List.mem_map_of_mem h')
        simp [upd, show r'.en ≠ e by omega]
      rw [List.map_cons, this]
      simp [upd, h]

theorem writeFrom_none {c : Cfg K} {e : Nat} {dofs : List K} {l : List (Rcv K)} (hs : (l.map Rcv.en).Pairwise (· ≤ ·))
    (hg : ∀ r ∈ l, e ≤ r.en) (hn : ∃ r ∈ l, r.en = e ∧ c.buffSize ≤ r.nBuff) : writeFrom c e dofs l = none := by
  induction l with
  | nil => obtain ⟨r, h, _⟩ := hn; simp at h
  | cons r l ih =>
    rw [List.map_cons, List.pairwise_cons] at hs
    obtain ⟨r', hm, he, hb⟩ := hn
    have hre : r.en = e := by
      have h1 := hg r (by simp)
      rcases List.mem_cons.mp hm with rfl | h'
      · exact he
      · have := hs.1 r'.en (List.mem_map_of_mem h'); omega
    unfold writeFrom
    rw [if_pos hre]
    simp only [Option.bind_eq_bind]
    rcases List.mem_cons.mp hm with rfl | h'
    · rw [writeRecv_full hb]; rfl
    · rw [ih hs.2 (fun r' h' => hg r' (by simp [h'])) ⟨r', h', he, hb⟩]
      cases writeRecv c dofs r <;> rfl

/-- The entity of a sparse entity. -/
def St.enOf (s : St K) (k : Nat) : Option Nat := (s.sp[k]?).bind (fun i => s.ens[i]?)

theorem enOf_some {c : Cfg K} {s : St K} (hs : s.WF c) {k : Nat} (hk : k < s.sp.length) :
    ∃ e r i, s.sp[k]? = some i ∧ s.recvs[i]? = some r ∧ r.en = e ∧ s.enOf k = some e ∧
      (∀ r ∈ s.recvs.take i, r.en < e) ∧ ∀ r ∈ s.recvs.drop i, e ≤ r.en := by
  have hm := (hs.grp.mem s.sp[k]).mp (List.getElem_mem hk)
  obtain ⟨e, he, hlt⟩ := hm
  have he' := he
  simp only [St.ens, List.getElem?_map, Option.map_eq_some_iff] at he'
  obtain ⟨r, hr, hre⟩ := he'
  refine ⟨e, r, s.sp[k], List.getElem?_eq_getElem hk, hr, hre, ?_, ?_, ?_⟩
  · simp [St.enOf, List.getElem?_eq_getElem hk, he]
  · intro r' hr'
    obtain ⟨j, hj, hjr⟩ := List.getElem_of_mem hr'
    have hj2 : j < s.sp[k] := by have := hj; rw [List.length_take] at this; omega
    have hj3 : j < s.recvs.length := by have := hj; rw [List.length_take] at this; omega
    refine hlt j r'.en hj2 ?_
    rw [List.getElem_take] at hjr
    simp [St.ens, List.getElem?_eq_getElem hj3, hjr]
  · intro r' hr'
    obtain ⟨j, hj, hjr⟩ := List.getElem_of_mem hr'
    rw [List.getElem_drop] at hjr
    rw [List.length_drop] at hj
    have hp := List.pairwise_iff_getElem.mp hs.grp.sorted
    have hi : s.sp[k] < s.ens.length := by
      by_contra h
      rw [List.getElem?_eq_none (by omega)] at he
      cases he
    have e1 : s.ens[s.sp[k]] = e := by rw [List.getElem?_eq_getElem hi] at he; exact Option.some.inj he
    have hl : s.ens.length = s.recvs.length := by simp [St.ens]
    have e2 : s.ens[s.sp[k] + j]'(by omega) = r'.en := by simp [St.ens, hjr]
    rcases Nat.eq_zero_or_pos j with rfl | h0
    · rw [← e1, ← e2]; simp
    · rw [← e1, ← e2]
      exact hp _ _ hi (by omega) (by omega)

theorem writeRecvAll_cases {c : Cfg K} {s : St K} (hs : s.WF c) {k e : Nat} (hk : s.enOf k = some e) {dofs : List K}
    (hD : dofs.length = c.nQts * c.nMds * c.nCrs) :
    ((∀ r ∈ s.recvs, r.en = e → r.nBuff < c.buffSize) →
      writeRecvAll c s k dofs = some { s with recvs := s.recvs.map (upd c e dofs) }) ∧
    ((∃ r ∈ s.recvs, r.en = e ∧ c.buffSize ≤ r.nBuff) → writeRecvAll c s k dofs = none) := by
  have hkl : k < s.sp.length := by
    by_contra h
    rw [St.enOf, List.getElem?_eq_none (by omega)] at hk
    cases hk
  obtain ⟨e', r, i, h1, h2, h3, h4, h5, h6⟩ := enOf_some hs hkl
  rw [hk] at h4
  obtain rfl := Option.some.inj h4
  have hsort : ((s.recvs.drop i).map Rcv.en).Pairwise (· ≤ ·) := by
    rw [← List.map_drop.symm]
    exact hs.grp.sorted.sublist (List.drop_sublist i _)
  have hun : writeRecvAll c s k dofs = (writeFrom c e dofs (s.recvs.drop i)).bind
      (fun l => some { s with recvs := s.recvs.take i ++ l }) := by
    unfold writeRecvAll
    simp only [rd, Option.bind_eq_bind, h1, h2, Option.bind_some, h3]
  rw [hun]
  constructor
  · intro hn
    rw [writeFrom_spec hsort h6 (fun r hr => hs.rcv r (List.mem_of_mem_drop hr)) hD
      (fun r hr => hn r (List.mem_of_mem_drop hr))]
    simp only [Option.bind_some, Option.some.injEq, St.mk.injEq, and_true]
    conv_rhs => rw [← List.take_append_drop i s.recvs, List.map_append]
    congr 1
    conv_lhs => rw [← List.map_id (s.recvs.take i)]
    apply List.map_congr_left
    intro r' hr'
    have := h5 r' hr'
    simp [upd, show r'.en ≠ e by omega]
  · rintro ⟨r', hr', he, hb⟩
    rw [writeFrom_none hsort h6]
    · rfl
    · refine ⟨r', ?_, he, hb⟩
      rw [← List.take_append_drop i s.recvs, List.mem_append] at hr'
      rcases hr' with h | h
      · have := h5 r' h; omega
      · exact h

/-- A write to an unknown sparse entity fails. -/
theorem writeRecvAll_unknown {c : Cfg K} {s : St K} {k : Nat} {dofs : List K} (hk : s.sp.length ≤ k) :
    writeRecvAll c s k dofs = none := by
  unfold writeRecvAll
  simp [rd, List.getElem?_eq_none hk]

/-- Loops over all receivers. -/
theorem forAll_spec {s : St K} {f : St K → Nat → Option (St K)} {P : Rcv K → Prop} (g : Rcv K → Rcv K)
    (hf : ∀ (s : St K) i r, s.recvs[i]? = some r → P r → f s i = some { s with recvs := s.recvs.set i (g r) })
    (hP : ∀ r ∈ s.recvs, P r) :
    forN s.recvs.length (fun i s => f s i) s = some { s with recvs := s.recvs.map g } := by
  obtain ⟨t, ht, hp⟩ := forN_inv (n := s.recvs.length) (s := s) (body := fun i s => f s i)
    (P := fun k t => t = { s with recvs := (s.recvs.take k).map g ++ s.recvs.drop k }) (by simp) (by
      rintro i t hi rfl
      have hr : ((s.recvs.take i).map g ++ s.recvs.drop i)[i]? = some s.recvs[i] := by
        rw [List.getElem?_append_right (by simp)]
        simp [List.getElem?_drop, Nat.min_eq_left (Nat.le_of_lt hi), List.getElem?_eq_getElem hi]
      refine ⟨_, hf _ i _ hr (hP _ (List.getElem_mem hi)), ?_⟩
      simp only [St.mk.injEq, and_true]
      rw [List.set_append_right _ _ (by simp), List.take_succ_eq_append_getElem hi, List.map_append, List.append_assoc]
      congr 1
      rw [show i - ((s.recvs.take i).map g).length = 0 by simp [Nat.le_of_lt hi], List.drop_eq_getElem_cons hi]
      rfl)
  rw [ht, hp]
  simp

/-- Effect of a flush. -/
def fl (c : Cfg K) (r : Rcv K) : Rcv K := { r with file := rows c r, nBuff := 0 }

theorem flush_spec {c : Cfg K} {s : St K} {i : Nat} {r : Rcv K} (hr : s.recvs[i]? = some r) (hw : r.WF c) :
    flush c s i = some { s with recvs := s.recvs.set i (fl c r) } := by
  unfold flush
  have hi : i < s.recvs.length := by
    by_contra h
    rw [List.getElem?_eq_none (by omega)] at hr
    cases hr
  simp only [Option.bind_eq_bind, rd, hr, Option.bind_some, flushOne_spec hw]
  rw [wr_some hi]
  rfl

theorem flushAll_spec {c : Cfg K} {s : St K} (hw : ∀ r ∈ s.recvs, r.WF c) :
    flushAll c s = some { s with recvs := s.recvs.map (fl c) } :=
  forAll_spec (f := fun s i => flush c s i) (P := fun r => r.WF c) (fl c) (fun _ _ _ hr hw => flush_spec hr hw) hw

/-- Effect of a conditional flush. -/
def flIf (c : Cfg K) (th : Nat) (r : Rcv K) : Rcv K := if c.buffSize - r.nBuff < th then fl c r else r

theorem room_eq {a b M : Nat} (h : a < M) (hb : b ≤ a) : (a + M - b) % M = a - b := by
  rw [show a + M - b = (a - b) + M by omega, Nat.add_mod_right]
  exact Nat.mod_eq_of_lt (by omega)

theorem flushIf_spec {c : Cfg K} {th : Nat} {s : St K} (hw : ∀ r ∈ s.recvs, r.WF c) (hB : c.buffSize < c.uint) :
    flushIf c th s = some { s with recvs := s.recvs.map (flIf c th) } := by
  refine forAll_spec (f := fun s i => flushIfOne c th s i) (P := fun r => r.WF c) (flIf c th) ?_ hw
  intro s i r hr hw
  have hrd : rd s.recvs i = some r := hr
  have e0 : flushIfOne c th s i = if (c.buffSize + c.uint - r.nBuff) % c.uint < th then flush c s i else some s := by
    unfold flushIfOne
    rw [hrd]
    rfl
  have e1 := room_eq hB hw.nb
  rw [e0, e1]
  by_cases h : c.buffSize - r.nBuff < th
  · rw [if_pos h, flIf, if_pos h]
    exact flush_spec hr hw
  · rw [if_neg h, flIf, if_neg h]
    have hi : i < s.recvs.length := by
      by_contra h
      rw [List.getElem?_eq_none (by omega)] at hr
      cases hr
    have e : s.recvs.set i r = s.recvs := by
      rw [List.getElem?_eq_getElem hi] at hr
      rw [← Option.some.inj hr, List.set_getElem_self]
    rw [e]

/-! ### Facts about the effects on a receiver -/

theorem fl_wf {c : Cfg K} {r : Rcv K} (h : r.WF c) : (fl c r).WF c := ⟨h.buf, h.tim, Nat.zero_le _, h.bas⟩

theorem rows_fl (c : Cfg K) (r : Rcv K) : rows c (fl c r) = rows c r := by
  rw [rows, buffered_zero (r := fl c r) rfl]
  simp [fl]

theorem flIf_wf {c : Cfg K} {th : Nat} {r : Rcv K} (h : r.WF c) : (flIf c th r).WF c := by
  unfold flIf; split
  · exact fl_wf h
  · exact h

theorem rows_flIf (c : Cfg K) (th : Nat) (r : Rcv K) : rows c (flIf c th r) = rows c r := by
  unfold flIf; split
  · exact rows_fl c r
  · rfl

/-- What a receiver keeps for ever. -/
def Same (r r' : Rcv K) : Prop := r'.en = r.en ∧ r'.id = r.id ∧ r'.basis = r.basis

theorem Same.rfl {r : Rcv K} : Same r r := ⟨Eq.refl _, Eq.refl _, Eq.refl _⟩
theorem Same.trans {r r' r'' : Rcv K} (h : Same r r') (h' : Same r' r'') : Same r r'' :=
  ⟨h'.1.trans h.1, h'.2.1.trans h.2.1, h'.2.2.trans h.2.2⟩

theorem fl_same (c : Cfg K) (r : Rcv K) : Same r (fl c r) := ⟨rfl, rfl, rfl⟩
theorem flIf_same (c : Cfg K) (th : Nat) (r : Rcv K) : Same r (flIf c th r) := by unfold flIf; split <;> exact ⟨rfl, rfl, rfl⟩
theorem flIf_time (c : Cfg K) (th : Nat) (r : Rcv K) : (flIf c th r).time = r.time := by unfold flIf; split <;> rfl

theorem upd_spec {c : Cfg K} {e : Nat} {dofs : List K} {r : Rcv K} (hw : r.WF c) (hD : dofs.length = c.nQts * c.nMds * c.nCrs)
    (hn : r.en = e → r.nBuff < c.buffSize) :
    (upd c e dofs r).WF c ∧ Same r (upd c e dofs r) ∧
      (upd c e dofs r).time = (if r.en = e then r.time + c.freq else r.time) ∧
      (upd c e dofs r).nBuff = (if r.en = e then r.nBuff + 1 else r.nBuff) ∧
      rows c (upd c e dofs r) = rows c r ++ (if r.en = e then [(r.time, sample c r.basis dofs)] else []) := by
  unfold upd
  by_cases h : r.en = e
  · obtain ⟨r', e1, h1, h2, h3, h4, h5, h6, h7, h8⟩ := writeRecv_spec hw hD (hn h)
    simp only [if_pos h, e1, Option.getD_some]
    exact ⟨h1, ⟨h2, h3, h4⟩, h5, h6, by rw [rows, rows, h7, h8, List.append_assoc]⟩
  · simp only [if_neg h]
    exact ⟨hw, Same.rfl, by simp⟩

/-- Operations which keep the entities keep the invariant. -/
theorem St.WF.map {c : Cfg K} {s : St K} (h : s.WF c) {f : Rcv K → Rcv K} (hf : ∀ r ∈ s.recvs, (f r).WF c ∧ Same r (f r)) :
    St.WF c { s with recvs := s.recvs.map f } ∧ St.ens { s with recvs := s.recvs.map f } = s.ens := by
  have he : St.ens { s with recvs := s.recvs.map f } = s.ens := by
    simp only [St.ens, List.map_map]
    apply List.map_congr_left
    intro r hr
    exact (hf r hr).2.1
  refine ⟨⟨by rw [he]; exact h.grp, ?_⟩, he⟩
  intro r hr
  obtain ⟨r', h', rfl⟩ := List.mem_map.mp hr
  exact (hf r' h').1

theorem St.WF.set {c : Cfg K} {s : St K} (h : s.WF c) {i : Nat} {r r' : Rcv K} (hr : s.recvs[i]? = some r) (hw : r'.WF c)
    (hs : Same r r') : St.WF c { s with recvs := s.recvs.set i r' } ∧ St.ens { s with recvs := s.recvs.set i r' } = s.ens := by
  have he : St.ens { s with recvs := s.recvs.set i r' } = s.ens := by
    simp only [St.ens, List.map_set]
    apply List.ext_getElem?
    intro j
    rw [List.getElem?_set]
    split
    · next h =>
      subst h
      have : i < s.recvs.length := by
        by_contra h
        rw [List.getElem?_eq_none (by omega)] at hr
        cases hr
      simp [this, hs.1]
      rw [List.getElem?_eq_getElem this] at hr
      rw [Option.some.inj hr]
    · rfl
  refine ⟨⟨by rw [he]; exact h.grp, ?_⟩, he⟩
  intro r'' hr''
  rcases List.mem_or_eq_of_mem_set hr'' with h1 | h1
  · exact h.rcv r'' h1
  · rw [h1]; exact hw

end Edge.Recv
