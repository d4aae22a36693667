import Verif.Data.Spec
/-!
C28: pointers of adjacency-dependent data (`DataLayout::adj`).
-/
namespace Edge.Data
open Edge

/-- All pairs of an entity of the region and a local adjacency, in the order of the loops. -/
def pairs (nAd : Nat) (r : Reg) : List (Nat × Nat) :=
  (List.range r.size).flatMap (fun i => (List.range nAd).map (fun a => (r.first + i, a)))

/-- The adjacency `a` of entity `e` leads to an entity for which `to` holds, and the adjacency carries data: without
sparse types always, otherwise if one of the two entities is sparse. -/
def adjTo (inp : AdjIn) (to : Nat → Bool) (p : Nat × Nat) : Bool :=
  match inp.enAdEn[p.1 * inp.nAd + p.2]? with
  | some (some e') =>
    (match inp.enSpEn with
     | none => true
     | some sp => (sp[p.1]?).any (·.isSome) || (sp[e']?).any (·.isSome)) && to e'
  | _ => false

/-- The pointers belong to the items `log`: item `i` is that of the `i`-th pair. -/
def Log (nAd : Nat) (s : AdjS) (log : List (Nat × Nat)) : Prop :=
  s.raw = log.length ∧ (∀ row ∈ s.ptrs, row.length = nAd) ∧ log.Nodup ∧
  ∀ (e a : Nat) (row : List (Option Nat)), s.ptrs[e]? = some row → ∀ i : Nat,
    row[a]? = some (some i) ↔ log[i]? = some (e, a)

theorem adjIgnore_some {inp : AdjIn} {e e' : Nat} {b : Bool} (h : adjIgnore inp e e' = some b) :
    (match inp.enSpEn with
     | none => true
     | some sp => (sp[e]?).any (·.isSome) || (sp[e']?).any (·.isSome)) = !b := by
  unfold adjIgnore at h
  cases hs : inp.enSpEn with
  | none => rw [hs] at h; simp at h; simp [← h]
  | some sp =>
    rw [hs] at h
    simp only [Option.bind_eq_bind, rd] at h
    cases h1 : sp[e]? with
    | none => rw [h1] at h; simp at h
    | some x =>
      rw [h1] at h
      cases x with
      | some y => simp at h; simp [h, h1]
      | none =>
        cases h2 : sp[e']? with
        | none => rw [h2] at h; simp at h
        | some z =>
          rw [h2] at h
          simp at h
          simp only [h1, h2]
          cases z <;> simp_all

theorem visitOne_log {inp : AdjIn} {guard : Nat → Option Bool} {to : Nat → Bool} {e a : Nat} {s s' : AdjS}
    {log : List (Nat × Nat)} (hg : ∀ x b, guard x = some b → to x = b) (hl : Log inp.nAd s log)
    (h : visitOne inp guard e a s = some s') :
    Log inp.nAd s' (log ++ if adjTo inp to (e, a) then [(e, a)] else []) ∧ s'.send = s.send ∧ s'.recv = s.recv ∧
      s'.ptrs.length = s.ptrs.length := by
  unfold visitOne at h
  simp only [Option.bind_eq_bind, Option.bind_eq_some_iff, Option.pure_def] at h
  obtain ⟨x, hx, h⟩ := h
  rw [rd] at hx
  cases x with
  | none =>
    simp at h; subst h
    simp [adjTo, hx, hl]
  | some e' =>
    simp only [Option.bind_eq_some_iff] at h
    obtain ⟨b, hb, h⟩ := h
    have hi := adjIgnore_some hb
    cases b with
    | true =>
      simp at h; subst h
      have : adjTo inp to (e, a) = false := by unfold adjTo; rw [hx]; simp only [hi]; simp
      simp [this, hl]
    | false =>
      simp only [Bool.false_eq_true, if_false, Option.bind_eq_some_iff] at h
      obtain ⟨g, hgd, h⟩ := h
      have hto := hg _ _ hgd
      cases g with
      | false =>
        simp at h; subst h
        have : adjTo inp to (e, a) = false := by unfold adjTo; rw [hx]; simp [hto]
        simp [this, hl]
      | true =>
        have ht : adjTo inp to (e, a) = true := by unfold adjTo; rw [hx]; simp only [hi, hto]; simp
        simp only [if_true, Option.bind_eq_some_iff] at h
        obtain ⟨row, hrow, p, hp, u, hu, row', hrow', ptrs', hptrs', h⟩ := h
        injection h with h
        subst h
        rw [check_some] at hu
        simp only [rd] at hrow hp
        obtain ⟨he, hrow2⟩ := List.getElem?_eq_some_iff.1 hrow
        obtain ⟨ha, hp2⟩ := List.getElem?_eq_some_iff.1 hp
        rw [wr_some ha] at hrow'
        rw [wr_some he] at hptrs'
        injection hrow' with hrow'
        injection hptrs' with hptrs'
        subst hrow' hptrs'
        obtain ⟨l1, l2, l3, l4⟩ := hl
        have hp0 : p = none := by simpa using hu
        subst hp0
        have hnew : ∀ i : Nat, log[i]? ≠ some (e, a) := by
          intro i hi'
          have := (l4 e a row hrow i).2 hi'
          rw [hp] at this
          simp at this
        simp only [ht, if_true]
        refine ⟨⟨by simp [l1], ?_, ?_, ?_⟩, trivial, trivial, by simp⟩
        · intro r hr
          rcases List.mem_or_eq_of_mem_set hr with h | h
          · exact l2 r h
          · rw [h, List.length_set]
            exact l2 row (List.mem_of_getElem? hrow)
        · rw [List.nodup_append]
          refine ⟨l3, by simp, ?_⟩
          intro x hx y hy
          simp at hy
          subst hy
          intro hxy
          subst hxy
          obtain ⟨i, hi'⟩ := List.getElem?_of_mem hx
          exact hnew i hi'
        · intro e2 a2 row2 hr2 i
          by_cases ee : e2 = e
          · subst ee
            simp [he] at hr2
            subst hr2
            by_cases ea : a2 = a
            · subst ea
              simp only [List.getElem?_set_self ha, l1]
              constructor
              · intro h; simp at h; subst h; simp
              · intro h
                by_cases hlt : i < log.length
                · rw [List.getElem?_append_left hlt] at h
                  exact absurd h (hnew i)
                · rw [List.getElem?_append_right (by omega)] at h
                  have := (List.getElem?_eq_some_iff.1 h).1
                  simp at this
                  simp; omega
            · rw [List.getElem?_set_ne (Ne.symm ea), l4 e2 a2 row hrow i]
              constructor
              · intro h
                rw [List.getElem?_append_left (List.getElem?_eq_some_iff.1 h).1]; exact h
              · intro h
                by_cases hlt : i < log.length
                · rwa [List.getElem?_append_left hlt] at h
                · rw [List.getElem?_append_right (by omega)] at h
                  have := List.mem_of_getElem? h
                  simp at this
                  exact absurd this ea
          · rw [List.getElem?_set_ne (Ne.symm ee)] at hr2
            rw [l4 e2 a2 row2 hr2 i]
            constructor
            · intro h
              rw [List.getElem?_append_left (List.getElem?_eq_some_iff.1 h).1]; exact h
            · intro h
              by_cases hlt : i < log.length
              · rwa [List.getElem?_append_left hlt] at h
              · rw [List.getElem?_append_right (by omega)] at h
                have := List.mem_of_getElem? h
                simp at this
                exact absurd this.1 ee

theorem visit_log {inp : AdjIn} {guard : Nat → Option Bool} {to : Nat → Bool} {r : Reg} {s s' : AdjS}
    {log : List (Nat × Nat)} (hg : ∀ x b, guard x = some b → to x = b) (hl : Log inp.nAd s log)
    (h : visit inp r guard s = some s') :
    Log inp.nAd s' (log ++ (pairs inp.nAd r).filter (adjTo inp to)) ∧ s'.send = s.send ∧ s'.recv = s.recv ∧
      s'.ptrs.length = s.ptrs.length := by
  unfold visit at h
  refine forN_post (n := r.size) (s := s) (t := s')
    (P := fun k (t : AdjS) => Log inp.nAd t (log ++ (pairs inp.nAd ⟨r.first, k⟩).filter (adjTo inp to)) ∧
      t.send = s.send ∧ t.recv = s.recv ∧ t.ptrs.length = s.ptrs.length) (by simpa [pairs] using hl) ?_ h
  rintro k t t' hk ⟨h1, h2, h3, h4⟩ hb
  have := forN_post (n := inp.nAd) (s := t) (t := t')
    (P := fun m (u : AdjS) => Log inp.nAd u ((log ++ (pairs inp.nAd ⟨r.first, k⟩).filter (adjTo inp to))
      ++ ((List.range m).map (fun a => (r.first + k, a))).filter (adjTo inp to)) ∧
      u.send = s.send ∧ u.recv = s.recv ∧ u.ptrs.length = s.ptrs.length)
    (by simpa using ⟨h1, h2, h3, h4⟩)
    (by
      rintro m u u' hm ⟨k1, k2, k3, k4⟩ hv
      obtain ⟨a1, a2, a3, a4⟩ := visitOne_log hg k1 hv
      refine ⟨?_, by rw [a2, k2], by rw [a3, k3], by rw [a4, k4]⟩
      rw [List.range_succ, List.map_append, List.filter_append, ← List.append_assoc]
      simp only [List.map_cons, List.map_nil, List.filter_cons, List.filter_nil]
      exact a1)
    hb
  refine ⟨?_, this.2⟩
  have h5 : pairs inp.nAd ⟨r.first, k + 1⟩ = pairs inp.nAd ⟨r.first, k⟩ ++
      (List.range inp.nAd).map (fun a => (r.first + k, a)) := by
    simp [pairs, List.range_succ]
  rw [h5, List.filter_append, ← List.append_assoc]
  exact this.1

/-! ### Items of a time group -/

/-- Data of inner entities. -/
def innerItems (inp : AdjIn) (g : TG) : List (Nat × Nat) := (pairs inp.nAd g.inner).filter (adjTo inp (fun _ => true))

/-- Data of the send region `p.1` which does not go to its receive region `p.2`. -/
def otherItems (inp : AdjIn) (p : Reg × Reg) : List (Nat × Nat) :=
  (pairs inp.nAd p.1).filter (adjTo inp (fun e => !inReg p.2 e))

/-- Data of the send region `p.1` for its receive region `p.2`: the message which is sent. -/
def sendItems (inp : AdjIn) (p : Reg × Reg) : List (Nat × Nat) :=
  (pairs inp.nAd p.1).filter (adjTo inp (fun e => inReg p.2 e))

/-- Data of the receive region `r` for owned entities: the message which is received. -/
def recvItems (inp : AdjIn) (g : TG) (r : Reg) : List (Nat × Nat) :=
  (pairs inp.nAd r).filter (adjTo inp (fun e => decide (e < g.inner.first + g.nOwn)))

/-- All data of a time group in the order of the memory. -/
def items (inp : AdjIn) (g : TG) : List (Nat × Nat) :=
  innerItems inp g ++ (g.send.zip g.recv).flatMap (otherItems inp) ++ (g.send.zip g.recv).flatMap (sendItems inp) ++
    g.recv.flatMap (recvItems inp g)

/-- Begins of consecutive segments from `off`. -/
def starts {α : Type _} : Nat → List (List α) → List Nat
  | _, [] => []
  | off, s :: ss => off :: starts (off + s.length) ss

/-- Begins of consecutive segments from `off`, and the end of the last one. -/
def cuts {α : Type _} (off : Nat) (segs : List (List α)) : List Nat := starts off segs ++ [off + segs.flatten.length]

theorem starts_concat {α : Type _} (segs : List (List α)) (s : List α) (off : Nat) :
    starts off (segs ++ [s]) = cuts off segs := by
  induction segs generalizing off with
  | nil => simp [starts, cuts]
  | cons q qs ih => simp [starts, cuts, ih] at *; simp [Nat.add_assoc]

theorem starts_length {α : Type _} (segs : List (List α)) (off : Nat) : (starts off segs).length = segs.length := by
  induction segs generalizing off with
  | nil => rfl
  | cons q qs ih => simp [starts, ih]

theorem cuts_cons {α : Type _} (s : List α) (segs : List (List α)) (off : Nat) :
    cuts off (s :: segs) = off :: cuts (off + s.length) segs := by
  simp [cuts, starts, Nat.add_assoc]

/-- Consecutive begins cut out the segments. -/
theorem cuts_seg {α : Type _} (segs : List (List α)) (pre post : List α) (i : Nat) (sg : List α)
    (h : segs[i]? = some sg) :
    ∃ lo hi, (cuts pre.length segs)[i]? = some lo ∧ (cuts pre.length segs)[i + 1]? = some hi ∧ lo ≤ hi ∧
      ((pre ++ segs.flatten ++ post).take hi).drop lo = sg := by
  induction segs generalizing pre i with
  | nil => simp at h
  | cons q qs ih =>
    cases i with
    | zero =>
      simp at h
      subst h
      refine ⟨pre.length, pre.length + q.length, by simp [cuts_cons], ?_, by omega, ?_⟩
      · cases qs <;> simp [cuts, starts]
      · simp [List.take_append]
    | succ i =>
      obtain ⟨lo, hi, h1, h2, h3, h4⟩ := ih (pre ++ q) i (by simpa using h)
      refine ⟨lo, hi, by simpa [cuts_cons] using h1, by simpa [cuts_cons] using h2, h3, ?_⟩
      rw [← h4]
      simp

theorem inner_log {inp : AdjIn} {g : TG} {s s' : AdjS} {log : List (Nat × Nat)} (hl : Log inp.nAd s log)
    (h : adjInner inp g s = some s') :
    Log inp.nAd s' (log ++ innerItems inp g) ∧ s'.send = s.send ++ [[]] ∧ s'.recv = s.recv ++ [[]] ∧
      s'.ptrs.length = s.ptrs.length := by
  unfold adjInner at h
  exact visit_log (to := fun _ => true) (by simp) (s := { s with send := s.send ++ [[]], recv := s.recv ++ [[]] }) hl h

theorem other_log {inp : AdjIn} {g : TG} {s s' : AdjS} {log : List (Nat × Nat)} (hl : Log inp.nAd s log)
    (h : adjOther inp g s = some s') :
    Log inp.nAd s' (log ++ (g.send.zip g.recv).flatMap (otherItems inp)) ∧ s'.send = s.send ∧ s'.recv = s.recv ∧
      s'.ptrs.length = s.ptrs.length ∧ g.send.length ≤ g.recv.length := by
  unfold adjOther at h
  have := forN_post (n := g.send.length) (s := s) (t := s')
    (P := fun k (t : AdjS) => Log inp.nAd t (log ++ ((g.send.zip g.recv).take k).flatMap (otherItems inp)) ∧
      t.send = s.send ∧ t.recv = s.recv ∧ t.ptrs.length = s.ptrs.length ∧ k ≤ g.recv.length) (by simpa using hl) 
    (by
      rintro k t t' hk ⟨h1, h2, h3, h4, h5⟩ hb
      simp only [Option.bind_eq_bind, Option.bind_eq_some_iff, rd] at hb
      obtain ⟨r, hr, q, hq, hv⟩ := hb
      obtain ⟨v1, v2, v3, v4⟩ := visit_log (to := fun e => !inReg q e)
        (by
          intro x b hx
          injection hx with hx
          rw [← hx, inReg, Bool.eq_iff_iff]
          simp) h1 hv
      have hqk := (List.getElem?_eq_some_iff.1 hq).1
      refine ⟨?_, by rw [v2, h2], by rw [v3, h3], by rw [v4, h4], hqk⟩
      have hz : (g.send.zip g.recv)[k]? = some (r, q) := by
        rw [List.getElem?_zip_eq_some]; exact ⟨hr, hq⟩
      rw [List.take_add_one, hz, List.flatMap_append, ← List.append_assoc]
      simpa [otherItems] using v1) h
  obtain ⟨a1, a2, a3, a4, a5⟩ := this
  refine ⟨?_, a2, a3, a4, a5⟩
  rwa [List.take_of_length_le (by simp; omega)] at a1

theorem pushBack_some {l : List (List Nat)} {b : List Nat} {v : Nat} {l' : List (List Nat)}
    (h : pushBack (l ++ [b]) v = some l') : l' = l ++ [b ++ [v]] := by
  simpa [pushBack] using h.symm

theorem send_log {inp : AdjIn} {g : TG} {s s' : AdjS} {log : List (Nat × Nat)} {pre : List (List Nat)}
    (hl : Log inp.nAd s log) (hp : s.send = pre ++ [[]]) (h : adjSend inp g s = some s')
    (hle : g.send.length ≤ g.recv.length) :
    Log inp.nAd s' (log ++ (g.send.zip g.recv).flatMap (sendItems inp)) ∧
      s'.send = pre ++ [cuts log.length ((g.send.zip g.recv).map (sendItems inp))] ∧ s'.recv = s.recv ∧
      s'.ptrs.length = s.ptrs.length := by
  unfold adjSend at h
  simp only [Option.bind_eq_bind, Option.bind_eq_some_iff] at h
  obtain ⟨s1, h, snd, hsnd, h'⟩ := h
  have := forN_post (n := g.send.length) (s := s) (t := s1)
    (P := fun k (t : AdjS) => Log inp.nAd t (log ++ ((g.send.zip g.recv).take k).flatMap (sendItems inp)) ∧
      t.send = pre ++ [starts log.length (((g.send.zip g.recv).take k).map (sendItems inp))] ∧
      t.recv = s.recv ∧ t.ptrs.length = s.ptrs.length) (by simpa [starts] using ⟨hl, hp⟩)
    (by
      rintro k t t' hk ⟨h1, h2, h3, h4⟩ hb
      simp only [Option.bind_eq_some_iff, rd] at hb
      obtain ⟨snd, hs, r, hr, q, hq, hv⟩ := hb
      rw [h2] at hs
      have hs := pushBack_some hs
      obtain ⟨v1, v2, v3, v4⟩ := visit_log (to := fun e => inReg q e)
        (by
          intro x b hx
          injection hx) (s := { t with send := snd }) h1 hv
      have hz : (g.send.zip g.recv)[k]? = some (r, q) := by
        rw [List.getElem?_zip_eq_some]; exact ⟨hr, hq⟩
      have hraw := h1.1
      refine ⟨?_, ?_, by rw [v3, ← h3], by rw [v4, ← h4]⟩
      · rw [List.take_add_one, hz, List.flatMap_append, ← List.append_assoc]
        simpa [sendItems] using v1
      · rw [v2]
        simp only [hs]
        rw [List.take_add_one, hz, List.map_append]
        simp only [Option.toList, List.map_cons, List.map_nil]
        rw [starts_concat, cuts, hraw, List.length_append, List.flatMap_def]) h
  obtain ⟨a1, a2, a3, a4⟩ := this
  rw [List.take_of_length_le (by simp; omega)] at a1 a2
  rw [a2] at hsnd
  have hs := pushBack_some hsnd
  injection h' with h'
  subst h'
  refine ⟨a1, ?_, a3, a4⟩
  simp only [hs]
  rw [cuts, a1.1, List.length_append, List.flatMap_def]

theorem recv_log {inp : AdjIn} {tg : Nat} {g : TG} {s s' : AdjS} {log : List (Nat × Nat)} {pre : List (List Nat)}
    (hl : Log inp.nAd s log) (hp : s.recv = pre ++ [[]]) (h : adjRecv inp tg g s = some s') :
    Log inp.nAd s' (log ++ g.recv.flatMap (recvItems inp g)) ∧
      s'.recv = pre ++ [cuts log.length (g.recv.map (recvItems inp g))] ∧ s'.send = s.send ∧
      s'.ptrs.length = s.ptrs.length := by
  unfold adjRecv at h
  simp only [Option.bind_eq_bind, Option.bind_eq_some_iff] at h
  obtain ⟨s1, h, snd, hsnd, h'⟩ := h
  have := forN_post (n := g.recv.length) (s := s) (t := s1)
    (P := fun k (t : AdjS) => Log inp.nAd t (log ++ (g.recv.take k).flatMap (recvItems inp g)) ∧
      t.recv = pre ++ [starts log.length ((g.recv.take k).map (recvItems inp g))] ∧
      t.send = s.send ∧ t.ptrs.length = s.ptrs.length) (by simpa [starts] using ⟨hl, hp⟩)
    (by
      rintro k t t' hk ⟨h1, h2, h3, h4⟩ hb
      simp only [Option.bind_eq_some_iff, rd] at hb
      obtain ⟨snd, hs, r, hr, hv⟩ := hb
      rw [h2] at hs
      have hs := pushBack_some hs
      obtain ⟨v1, v2, v3, v4⟩ := visit_log (to := fun e => decide (e < g.inner.first + g.nOwn))
        (by
          intro x b hx
          simp only [Option.bind_eq_some_iff] at hx
          obtain ⟨-, -, -, -, hx⟩ := hx
          injection hx) (s := { t with recv := snd }) h1 hv
      have hraw := h1.1
      refine ⟨?_, ?_, by rw [v2, ← h3], by rw [v4, ← h4]⟩
      · rw [List.take_add_one, hr, List.flatMap_append, ← List.append_assoc]
        simpa [recvItems] using v1
      · rw [v3]
        simp only [hs]
        rw [List.take_add_one, hr, List.map_append]
        simp only [Option.toList, List.map_cons, List.map_nil]
        rw [starts_concat, cuts, hraw, List.length_append, List.flatMap_def]) h
  obtain ⟨a1, a2, a3, a4⟩ := this
  rw [List.take_length] at a1 a2
  rw [a2] at hsnd
  have hs := pushBack_some hsnd
  injection h' with h'
  subst h'
  refine ⟨a1, ?_, a3, a4⟩
  simp only [hs]
  rw [cuts, a1.1, List.length_append, List.flatMap_def]

/-- Messages of a time group cut out of the items `log` by the boundaries `bs`: segment `i` of `segs` lies between
the boundaries `i` and `i+1`. -/
def CutOut (log : List (Nat × Nat)) (bs : List Nat) (segs : List (List (Nat × Nat))) : Prop :=
  bs.length = segs.length + 1 ∧ ∀ (i : Nat) (sg : List (Nat × Nat)), segs[i]? = some sg →
    ∃ lo hi, bs[i]? = some lo ∧ bs[i + 1]? = some hi ∧ lo ≤ hi ∧ (log.take hi).drop lo = sg

theorem cutOut_cuts (pre post : List (Nat × Nat)) (segs : List (List (Nat × Nat))) :
    CutOut (pre ++ segs.flatten ++ post) (cuts pre.length segs) segs :=
  ⟨by simp [cuts, starts_length], fun i sg h => cuts_seg segs pre post i sg h⟩

/-- **C28**, adjacency-dependent data. Whenever the assembly of the pointers ends normally, then
* the item of the memory of every pointer is its own: the pairs of entity and adjacency with data are enumerated without
  repetition by `log`, and pair number `i` points to item `i`;
* the pairs with data are those of the time groups, in their order;
* for each time group the send pointers cut out one message per send region, consisting of exactly the data for its
  receive region; the receive pointers cut out one message per receive region, consisting of exactly the data for owned
  entities. -/
theorem C28_adj (inp : AdjIn) (lay : Layout) (s : AdjS) (h : adj inp lay = some s) :
    ∃ log : List (Nat × Nat), log = lay.tgs.flatMap (items inp) ∧ log.Nodup ∧ s.raw = log.length ∧
      s.ptrs.length = lay.nEnts ∧ s.send.length = lay.tgs.length ∧ s.recv.length = lay.tgs.length ∧
      (∀ (e a : Nat) (row : List (Option Nat)), s.ptrs[e]? = some row → row.length = inp.nAd ∧
        ∀ i : Nat, row[a]? = some (some i) ↔ log[i]? = some (e, a)) ∧
      ∀ (tg : Nat) (g : TG), lay.tgs[tg]? = some g → ∃ snd rcv, s.send[tg]? = some snd ∧ s.recv[tg]? = some rcv ∧
        CutOut log snd ((g.send.zip g.recv).map (sendItems inp)) ∧
        CutOut log rcv (g.recv.map (recvItems inp g)) := by
  unfold adj at h
  have := forN_post (n := lay.tgs.length) (t := s)
    (P := fun k (t : AdjS) => Log inp.nAd t ((lay.tgs.take k).flatMap (items inp)) ∧ t.ptrs.length = lay.nEnts ∧
      t.send.length = k ∧ t.recv.length = k ∧
      ∀ (tg : Nat) (g : TG), tg < k → lay.tgs[tg]? = some g → ∃ snd rcv, t.send[tg]? = some snd ∧
        t.recv[tg]? = some rcv ∧ ∀ post,
        CutOut ((lay.tgs.take k).flatMap (items inp) ++ post) snd ((g.send.zip g.recv).map (sendItems inp)) ∧
        CutOut ((lay.tgs.take k).flatMap (items inp) ++ post) rcv (g.recv.map (recvItems inp g)))
    (by
      refine ⟨⟨rfl, ?_, by simp, ?_⟩, by simp, rfl, rfl, by intro tg g h; omega⟩
      · intro row hr; simp at hr; simp [hr]
      · intro e a row hr i
        simp [List.getElem?_replicate] at hr
        obtain ⟨-, rfl⟩ := hr
        simp [List.getElem?_replicate])
    (by
      rintro k t t' hk ⟨h1, h2, h3, h4, h5⟩ hb
      simp only [Option.bind_eq_bind, Option.bind_eq_some_iff] at hb
      obtain ⟨g, hg, s1, b1, s2, b2, s3, b3, b4⟩ := hb
      rw [rd] at hg
      obtain ⟨i1, i2, i3, i4⟩ := inner_log h1 b1
      obtain ⟨o1, o2, o3, o4, o5⟩ := other_log i1 b2
      obtain ⟨e1, e2, e3, e4⟩ := send_log (pre := t.send) o1 (by rw [o2, i2]) b3 o5
      obtain ⟨r1, r2, r3, r4⟩ := recv_log (pre := t.recv) e1 (by rw [e3, o3, i3]) b4
      have hit : (lay.tgs.take (k + 1)).flatMap (items inp) = (lay.tgs.take k).flatMap (items inp) ++ items inp g := by
        rw [List.take_add_one, hg, List.flatMap_append]; simp
      refine ⟨?_, by rw [r4, e4, o4, i4, h2], by rw [r3, e2]; simp [h3], by rw [r2]; simp [h4], ?_⟩
      · rw [hit]
        simpa [items] using r1
      · intro tg g' htg hg'
        by_cases e : tg = k
        · subst e
          rw [hg] at hg'
          cases hg'
          refine ⟨_, _, by rw [r3, e2, List.getElem?_append_right (by omega), h3]; simp; rfl,
            by rw [r2, List.getElem?_append_right (by omega), h4]; simp; rfl, ?_⟩
          intro post
          constructor
          · have := cutOut_cuts ((lay.tgs.take tg).flatMap (items inp) ++ innerItems inp g ++
              (g.send.zip g.recv).flatMap (otherItems inp)) (g.recv.flatMap (recvItems inp g) ++ post)
              ((g.send.zip g.recv).map (sendItems inp))
            rw [hit]
            rw [← List.flatMap_def] at this
            simpa [items] using this
          · have := cutOut_cuts ((lay.tgs.take tg).flatMap (items inp) ++ innerItems inp g ++
              (g.send.zip g.recv).flatMap (otherItems inp) ++ (g.send.zip g.recv).flatMap (sendItems inp)) post
              (g.recv.map (recvItems inp g))
            rw [hit]
            rw [← List.flatMap_def] at this
            simpa [items] using this
        · obtain ⟨snd, rcv, c1, c2, c3⟩ := h5 tg g' (by omega) hg'
          refine ⟨snd, rcv, ?_, ?_, ?_⟩
          · rw [r3, e2, List.getElem?_append_left (by omega)]; exact c1
          · rw [r2, List.getElem?_append_left (by omega)]; exact c2
          · intro post
            rw [hit]
            have := c3 (items inp g ++ post)
            simpa using this) h
  obtain ⟨⟨a1, a2, a3, a4⟩, a5, a6, a7, a8⟩ := this
  rw [List.take_length] at a1 a3 a4 a8
  refine ⟨_, rfl, a3, a1, a5, a6, a7, ?_, ?_⟩
  · intro e a row hr
    exact ⟨a2 row (List.mem_of_getElem? hr), a4 e a row hr⟩
  · intro tg g hg
    obtain ⟨snd, rcv, c1, c2, c3⟩ := a8 tg g (List.getElem?_eq_some_iff.1 hg).1 hg
    exact ⟨snd, rcv, c1, c2, by simpa using c3 []⟩

/-! ### Normal end -/

/-- The inputs cover all entities: adjacency for `nEnts` entities, leading to entities; sparse ids for all of them. -/
structure AdjIn.Ok (inp : AdjIn) (nEnts : Nat) : Prop where
  len : nEnts * inp.nAd ≤ inp.enAdEn.length
  rng : ∀ (i e : Nat), inp.enAdEn[i]? = some (some e) → e < nEnts
  sp : ∀ l, inp.enSpEn = some l → nEnts ≤ l.length

theorem mem_pairs {nAd : Nat} {r : Reg} {p : Nat × Nat} : p ∈ pairs nAd r ↔ inReg r p.1 = true ∧ p.2 < nAd := by
  obtain ⟨e, a⟩ := p
  simp only [pairs, List.mem_flatMap, List.mem_range, List.mem_map, inReg, Bool.and_eq_true, decide_eq_true_eq]
  constructor
  · rintro ⟨i, hi, b, hb, h⟩
    injection h with h1 h2
    omega
  · rintro ⟨⟨h1, h2⟩, h3⟩
    exact ⟨e - r.first, by omega, a, h3, by rw [Prod.mk.injEq]; exact ⟨by omega, rfl⟩⟩

theorem visitOne_total {inp : AdjIn} {nEnts : Nat} (hin : inp.Ok nEnts) {guard : Nat → Option Bool} {to : Nat → Bool}
    {e a : Nat} {s : AdjS} {log : List (Nat × Nat)} (he : e < nEnts) (ha : a < inp.nAd)
    (hg : ∀ x, inp.enAdEn[e * inp.nAd + a]? = some (some x) → guard x = some (to x)) (hl : Log inp.nAd s log)
    (hlen : s.ptrs.length = nEnts) (hnew : adjTo inp to (e, a) = true → (e, a) ∉ log) :
    ∃ s', visitOne inp guard e a s = some s' := by
  have hix : e * inp.nAd + a < inp.enAdEn.length := by
    calc e * inp.nAd + a < (e + 1) * inp.nAd := by rw [Nat.add_mul]; omega
      _ ≤ nEnts * inp.nAd := Nat.mul_le_mul_right _ he
      _ ≤ _ := hin.len
  unfold visitOne
  simp only [rd, List.getElem?_eq_getElem hix, Option.bind_eq_bind, Option.bind_some]
  cases hx : inp.enAdEn[e * inp.nAd + a] with
  | none => exact ⟨s, rfl⟩
  | some e' =>
    have hx' : inp.enAdEn[e * inp.nAd + a]? = some (some e') := by rw [List.getElem?_eq_getElem hix, hx]
    have he' := hin.rng _ _ hx'
    have hig : ∃ b, adjIgnore inp e e' = some b := by
      unfold adjIgnore
      cases hs : inp.enSpEn with
      | none => exact ⟨_, rfl⟩
      | some l =>
        have hll := hin.sp l hs
        simp only [rd_some (show e < l.length by omega), rd_some (show e' < l.length by omega), Option.bind_eq_bind,
          Option.bind_some]
        split <;> exact ⟨_, rfl⟩
    obtain ⟨b, hb⟩ := hig
    simp only [hb, Option.bind_some]
    cases b with
    | true => exact ⟨s, rfl⟩
    | false =>
      simp only [Bool.false_eq_true, if_false, hg _ hx', Option.bind_some]
      cases ht : to e' with
      | false => exact ⟨s, rfl⟩
      | true =>
        have hi := adjIgnore_some hb
        have hto : adjTo inp to (e, a) = true := by unfold adjTo; rw [hx']; simp only [hi, ht]; simp
        have hn := hnew hto
        have hes : e < s.ptrs.length := by omega
        have hrl := hl.2.1 s.ptrs[e] (List.getElem_mem _)
        have hp : s.ptrs[e][a]'(by omega) = none := by
          cases hq : s.ptrs[e][a]'(by omega) with
          | none => rfl
          | some i =>
            exfalso
            apply hn
            exact List.mem_of_getElem? ((hl.2.2.2 e a _ (List.getElem?_eq_getElem hes) i).1
              (by rw [List.getElem?_eq_getElem (by omega), hq]))
        simp only [if_true, List.getElem?_eq_getElem hes, Option.bind_some,
          List.getElem?_eq_getElem (show a < s.ptrs[e].length by omega), hp, Option.isNone_none, check_true,
          wr_some (show a < s.ptrs[e].length by omega), wr_some hes]
        exact ⟨_, rfl⟩

theorem visit_total {inp : AdjIn} {nEnts : Nat} (hin : inp.Ok nEnts) {guard : Nat → Option Bool} {to : Nat → Bool}
    {r : Reg} {s : AdjS} {log : List (Nat × Nat)} (hr : r.first + r.size ≤ nEnts)
    (hg : ∀ e a x, inReg r e = true → a < inp.nAd → inp.enAdEn[e * inp.nAd + a]? = some (some x) →
      guard x = some (to x)) (hl : Log inp.nAd s log)
    (hlen : s.ptrs.length = nEnts) (hnew : ∀ p ∈ (pairs inp.nAd r).filter (adjTo inp to), p ∉ log) :
    ∃ s', visit inp r guard s = some s' ∧ Log inp.nAd s' (log ++ (pairs inp.nAd r).filter (adjTo inp to)) ∧
      s'.send = s.send ∧ s'.recv = s.recv ∧ s'.ptrs.length = s.ptrs.length := by
  have hg' : ∀ e a, inReg r e = true → a < inp.nAd → ∀ t t' lg, Log inp.nAd t lg →
      visitOne inp guard e a t = some t' → Log inp.nAd t' (lg ++ if adjTo inp to (e, a) then [(e, a)] else []) ∧
        t'.send = t.send ∧ t'.recv = t.recv ∧ t'.ptrs.length = t.ptrs.length := by
    intro e a he ha t t' lg hlg hv
    have hv2 : visitOne inp (fun x => some (to x)) e a t = some t' := by
      rw [← hv]
      unfold visitOne
      simp only [Option.bind_eq_bind]
      apply Option.bind_congr
      intro x hx
      cases x with
      | none => rfl
      | some e' => simp only [hg e a e' he ha hx]
    exact visitOne_log (by simp) hlg hv2
  unfold visit
  obtain ⟨t, h1, h2⟩ := forN_inv (n := r.size) (s := s)
    (body := fun i (s : AdjS) => forN inp.nAd (fun ad (s : AdjS) => visitOne inp guard (r.first + i) ad s) s)
    (P := fun k (t : AdjS) => Log inp.nAd t (log ++ (pairs inp.nAd ⟨r.first, k⟩).filter (adjTo inp to)) ∧
      t.send = s.send ∧ t.recv = s.recv ∧ t.ptrs.length = s.ptrs.length) (by simpa [pairs] using hl)
    (by
      rintro k t hk ⟨h1, h2, h3, h4⟩
      have hin1 : inReg r (r.first + k) = true := by simp [inReg]; omega
      obtain ⟨u, g1, g2, g3, g4, g5⟩ := forN_inv (n := inp.nAd) (s := t)
        (body := fun ad (s : AdjS) => visitOne inp guard (r.first + k) ad s)
        (P := fun m (u : AdjS) => Log inp.nAd u ((log ++ (pairs inp.nAd ⟨r.first, k⟩).filter (adjTo inp to))
          ++ ((List.range m).map (fun a => (r.first + k, a))).filter (adjTo inp to)) ∧
          u.send = s.send ∧ u.recv = s.recv ∧ u.ptrs.length = s.ptrs.length)
        (by simpa using ⟨h1, h2, h3, h4⟩)
        (by
          rintro m u hm ⟨k1, k2, k3, k4⟩
          obtain ⟨u', hu'⟩ := visitOne_total (to := to) hin (show r.first + k < nEnts by omega) hm
            (fun x hx => hg _ _ x hin1 hm hx) k1 (by rw [k4, hlen])
            (by
              intro hto hmem
              simp only [List.mem_append] at hmem
              rcases hmem with (hmem | hmem) | hmem
              · exact hnew (r.first + k, m) (List.mem_filter.2 ⟨mem_pairs.2 ⟨hin1, hm⟩, hto⟩) hmem
              · have := mem_pairs.1 (List.mem_filter.1 hmem).1
                simp [inReg] at this
              · have := (List.mem_filter.1 hmem).1
                simp at this)
          obtain ⟨a1, a2, a3, a4⟩ := hg' _ _ hin1 hm _ _ _ k1 hu'
          refine ⟨u', hu', ?_, by rw [a2, k2], by rw [a3, k3], by rw [a4, k4]⟩
          rw [List.range_succ, List.map_append, List.filter_append, ← List.append_assoc]
          simp only [List.map_cons, List.map_nil, List.filter_cons, List.filter_nil]
          exact a1)
      refine ⟨u, g1, ?_, g3, g4, g5⟩
      have h5 : pairs inp.nAd ⟨r.first, k + 1⟩ = pairs inp.nAd ⟨r.first, k⟩ ++
          (List.range inp.nAd).map (fun a => (r.first + k, a)) := by
        simp [pairs, List.range_succ]
      rw [h5, List.filter_append, ← List.append_assoc]
      exact g2)
  exact ⟨t, h1, h2⟩

/-- Two regions have no common entity. -/
def Disj (a b : Reg) : Prop := ∀ e, inReg a e = true → inReg b e = false

/-- A layout with a single time group whose regions are disjoint; adjacencies of receive entities lead to send or
receive entities. -/
structure OneGroup (inp : AdjIn) (nEnts : Nat) (g : TG) : Prop where
  same : g.send.length = g.recv.length
  inner : g.inner.first + g.inner.size ≤ nEnts
  send : ∀ r ∈ g.send, r.first + r.size ≤ nEnts
  recv : ∀ r ∈ g.recv, r.first + r.size ≤ nEnts
  innerSend : ∀ r ∈ g.send, Disj g.inner r
  innerRecv : ∀ r ∈ g.recv, Disj g.inner r
  sendRecv : ∀ r ∈ g.send, ∀ q ∈ g.recv, Disj r q
  sendSend : ∀ (i j : Nat) (r q : Reg), g.send[i]? = some r → g.send[j]? = some q → i ≠ j → Disj r q
  recvRecv : ∀ (i j : Nat) (r q : Reg), g.recv[i]? = some r → g.recv[j]? = some q → i ≠ j → Disj r q
  recvAdj : ∀ r ∈ g.recv, ∀ e a x, inReg r e = true → a < inp.nAd → inp.enAdEn[e * inp.nAd + a]? = some (some x) →
    g.inner.first + g.inner.size ≤ x

theorem pushBack_concat (l : List (List Nat)) (b : List Nat) (v : Nat) :
    pushBack (l ++ [b]) v = some (l ++ [b ++ [v]]) := by simp [pushBack]

/-- **C28**, adjacency-dependent data: for one time group with disjoint regions the assembly ends normally. -/
theorem C28_adj_ends (inp : AdjIn) (nEnts : Nat) (g : TG) (hin : inp.Ok nEnts) (hg : OneGroup inp nEnts g) :
    ∃ s, adj inp ⟨nEnts, [g]⟩ = some s := by
  have hlog0 : Log inp.nAd ⟨List.replicate nEnts (List.replicate inp.nAd none), 0, [] ++ [[]], [] ++ [[]]⟩ [] := by
    refine ⟨rfl, ?_, by simp, ?_⟩
    · intro row hr; simp at hr; simp [hr]
    · intro e a row hr i
      simp [List.getElem?_replicate] at hr
      obtain ⟨-, rfl⟩ := hr
      simp [List.getElem?_replicate]
  obtain ⟨s1, a1, a2, a3, a4, a5⟩ := visit_total hin (to := fun _ => true) (guard := fun _ => some true) hg.inner
    (by simp) hlog0 (by simp) (by simp)
  simp only [List.length_replicate] at a5
  -- send regions, first pass
  obtain ⟨s2, b1, b2, b3, b4, b5⟩ := forN_inv (n := g.send.length) (s := s1)
    (body := fun sr (s : AdjS) => do
      let r ← rd g.send sr
      let q ← rd g.recv sr
      visit inp r (fun enAd => some (decide (enAd < q.first) || decide (enAd ≥ q.first + q.size))) s)
    (P := fun k (t : AdjS) => Log inp.nAd t (([] ++ innerItems inp g) ++
      ((g.send.zip g.recv).take k).flatMap (otherItems inp)) ∧
      t.send = s1.send ∧ t.recv = s1.recv ∧ t.ptrs.length = nEnts)
    (by simpa [innerItems] using ⟨a2, a5⟩)
    (by
      rintro k t hk ⟨h1, h2, h3, h4⟩
      have hk' : k < g.recv.length := by rw [← hg.same]; exact hk
      have hz : (g.send.zip g.recv)[k]? = some (g.send[k], g.recv[k]) := by
        rw [List.getElem?_zip_eq_some]; exact ⟨List.getElem?_eq_getElem hk, List.getElem?_eq_getElem hk'⟩
      obtain ⟨t', v1, v2, v3, v4, v5⟩ := visit_total hin (to := fun e => !inReg g.recv[k] e)
        (guard := fun enAd => some (decide (enAd < g.recv[k].first) || decide (enAd ≥ g.recv[k].first + g.recv[k].size)))
        (r := g.send[k]) (hg.send _ (List.getElem_mem _))
        (by
          intro e a x _ _ _
          congr 1
          rw [inReg, Bool.eq_iff_iff]
          simp) h1 h4
        (by
          intro p hp hm
          have hp1 := (mem_pairs.1 (List.mem_filter.1 hp).1).1
          simp only [List.nil_append, List.mem_append] at hm
          rcases hm with hm | hm
          · have := (mem_pairs.1 (List.mem_filter.1 hm).1).1
            have := hg.innerSend _ (List.getElem_mem hk) _ this
            rw [hp1] at this
            simp at this
          · obtain ⟨⟨r', q'⟩, hrq, hm⟩ := List.mem_flatMap.1 hm
            obtain ⟨j, hj⟩ := List.getElem?_of_mem hrq
            rw [List.getElem?_take] at hj
            by_cases hjk : j < k
            · rw [if_pos hjk] at hj
              obtain ⟨hj1, -⟩ := List.getElem?_zip_eq_some.1 hj
              have := hg.sendSend j k _ _ hj1 (List.getElem?_eq_getElem hk) (by omega) p.1
                (mem_pairs.1 (List.mem_filter.1 hm).1).1
              rw [hp1] at this
              simp at this
            · rw [if_neg hjk] at hj; simp at hj)
      refine ⟨t', ?_, ?_, by rw [v3, h2], by rw [v4, h3], by rw [v5, h4]⟩
      · simp only [rd_some hk, rd_some hk', Option.bind_eq_bind, Option.bind_some]; exact v1
      · rw [List.take_add_one, hz, List.flatMap_append, ← List.append_assoc]
        simpa [otherItems] using v2)
  rw [List.take_of_length_le (by simp; omega)] at b2
  -- send regions, second pass
  obtain ⟨s3, c1, c2, c3, c4, c5⟩ := forN_inv (n := g.send.length) (s := s2)
    (body := fun sr (s : AdjS) => do
      let snd ← pushBack s.send s.raw
      let r ← rd g.send sr
      let q ← rd g.recv sr
      visit inp r (fun enAd => some (decide (enAd ≥ q.first) && decide (enAd < q.first + q.size)))
        { s with send := snd })
    (P := fun k (t : AdjS) => Log inp.nAd t (([] ++ innerItems inp g) ++ (g.send.zip g.recv).flatMap (otherItems inp) ++
      ((g.send.zip g.recv).take k).flatMap (sendItems inp)) ∧
      (∃ l b, t.send = l ++ [b]) ∧ t.recv = s2.recv ∧ t.ptrs.length = nEnts)
    (by exact ⟨by simpa using b2, ⟨[], [], by rw [b3, a3]⟩, rfl, b5⟩)
    (by
      rintro k t hk ⟨h1, ⟨l, b, h2⟩, h3, h4⟩
      have hk' : k < g.recv.length := by rw [← hg.same]; exact hk
      have hz : (g.send.zip g.recv)[k]? = some (g.send[k], g.recv[k]) := by
        rw [List.getElem?_zip_eq_some]; exact ⟨List.getElem?_eq_getElem hk, List.getElem?_eq_getElem hk'⟩
      obtain ⟨t', v1, v2, v3, v4, v5⟩ := visit_total hin (to := fun e => inReg g.recv[k] e)
        (guard := fun enAd => some (decide (enAd ≥ g.recv[k].first) && decide (enAd < g.recv[k].first + g.recv[k].size)))
        (r := g.send[k]) (hg.send _ (List.getElem_mem _))
        (by
          intro e a x _ _ _
          rw [inReg]) (s := { t with send := l ++ [b ++ [t.raw]] }) h1 h4
        (by
          intro p hp hm
          have hp1 := (mem_pairs.1 (List.mem_filter.1 hp).1).1
          have hp2 := (List.mem_filter.1 hp).2
          have hz' := List.getElem?_eq_some_iff.1 hz
          simp only [List.nil_append, List.mem_append] at hm
          rcases hm with (hm | hm) | hm
          · have := (mem_pairs.1 (List.mem_filter.1 hm).1).1
            have := hg.innerSend _ (List.getElem_mem hk) _ this
            rw [hp1] at this
            simp at this
          · obtain ⟨⟨r', q'⟩, hrq, hm⟩ := List.mem_flatMap.1 hm
            obtain ⟨j, hj⟩ := List.getElem?_of_mem hrq
            obtain ⟨hj1, hj2⟩ := List.getElem?_zip_eq_some.1 hj
            by_cases hjk : j = k
            · subst hjk
              have hm2 := (List.mem_filter.1 hm).2
              rw [List.getElem?_eq_getElem hk'] at hj2
              have hq : g.recv[j] = q' := Option.some.inj hj2
              unfold adjTo at hp2 hm2
              split at hp2
              · rename_i e' he'
                rw [he'] at hm2
                simp only [Bool.and_eq_true] at hp2 hm2
                rw [← hq, hp2.2] at hm2
                simp at hm2
              · simp at hp2
            · have := hg.sendSend j k _ _ hj1 (List.getElem?_eq_getElem hk) hjk p.1
                (mem_pairs.1 (List.mem_filter.1 hm).1).1
              rw [hp1] at this
              simp at this
          · obtain ⟨⟨r', q'⟩, hrq, hm⟩ := List.mem_flatMap.1 hm
            obtain ⟨j, hj⟩ := List.getElem?_of_mem hrq
            rw [List.getElem?_take] at hj
            by_cases hjk : j < k
            · rw [if_pos hjk] at hj
              obtain ⟨hj1, -⟩ := List.getElem?_zip_eq_some.1 hj
              have := hg.sendSend j k _ _ hj1 (List.getElem?_eq_getElem hk) (by omega) p.1
                (mem_pairs.1 (List.mem_filter.1 hm).1).1
              rw [hp1] at this
              simp at this
            · rw [if_neg hjk] at hj; simp at hj)
      refine ⟨t', ?_, ?_, ⟨l, _, by rw [v3]⟩, by rw [v4, ← h3], by rw [v5, ← h4]⟩
      · simp only [rd_some hk, rd_some hk', Option.bind_eq_bind, Option.bind_some, h2, pushBack_concat]; exact v1
      · rw [List.take_add_one, hz, List.flatMap_append, ← List.append_assoc]
        simpa [sendItems] using v2)
  rw [List.take_of_length_le (by simp; omega)] at c2
  obtain ⟨l3, b3', c3⟩ := c3
  -- receive regions
  obtain ⟨s4, d1, d2, d3, d4⟩ := forN_inv (n := g.recv.length) (s := { s3 with send := l3 ++ [b3' ++ [s3.raw]] })
    (body := fun rr (s : AdjS) => do
      let rcv ← pushBack s.recv s.raw
      let r ← rd g.recv rr
      visit inp r (fun enAd => do
          check (decide (enAd ≥ g.inner.first + g.inner.size))
          check (decide (0 = 0))
          return decide (enAd < g.inner.first + g.nOwn))
        { s with recv := rcv })
    (P := fun k (t : AdjS) => Log inp.nAd t (([] ++ innerItems inp g) ++ (g.send.zip g.recv).flatMap (otherItems inp) ++
      (g.send.zip g.recv).flatMap (sendItems inp) ++ (g.recv.take k).flatMap (recvItems inp g)) ∧
      (∃ l b, t.recv = l ++ [b]) ∧ t.ptrs.length = nEnts)
    (by exact ⟨by rw [List.take_zero, List.flatMap_nil, List.append_nil]; exact c2, ⟨[], [], by simp only [c4]; rw [b4, a4]⟩, c5⟩)
    (by
      rintro k t hk ⟨h1, ⟨l, b, h2⟩, h4⟩
      obtain ⟨t', v1, v2, v3, v4, v5⟩ := visit_total hin (to := fun e => decide (e < g.inner.first + g.nOwn))
        (guard := fun enAd => do
          check (decide (enAd ≥ g.inner.first + g.inner.size))
          check (decide (0 = 0))
          return decide (enAd < g.inner.first + g.nOwn))
        (r := g.recv[k]) (hg.recv _ (List.getElem_mem _))
        (by
          intro e a x he ha hx
          have := hg.recvAdj _ (List.getElem_mem hk) e a x he ha hx
          simp [check, this]) (s := { t with recv := l ++ [b ++ [t.raw]] }) h1 h4
        (by
          intro p hp hm
          have hp1 := (mem_pairs.1 (List.mem_filter.1 hp).1).1
          simp only [List.nil_append, List.mem_append] at hm
          have hsend : ∀ (j : Nat) (r' q' : Reg), (g.send.zip g.recv)[j]? = some (r', q') → inReg r' p.1 = true → False := by
            intro j r' q' hj hr'
            obtain ⟨hj1, -⟩ := List.getElem?_zip_eq_some.1 hj
            have := hg.sendRecv _ (List.mem_of_getElem? hj1) _ (List.getElem_mem hk) p.1 hr'
            rw [hp1] at this
            simp at this
          rcases hm with ((hm | hm) | hm) | hm
          · have := (mem_pairs.1 (List.mem_filter.1 hm).1).1
            have := hg.innerRecv _ (List.getElem_mem hk) _ this
            rw [hp1] at this
            simp at this
          · obtain ⟨⟨r', q'⟩, hrq, hm⟩ := List.mem_flatMap.1 hm
            obtain ⟨j, hj⟩ := List.getElem?_of_mem hrq
            exact hsend j r' q' hj (mem_pairs.1 (List.mem_filter.1 hm).1).1
          · obtain ⟨⟨r', q'⟩, hrq, hm⟩ := List.mem_flatMap.1 hm
            obtain ⟨j, hj⟩ := List.getElem?_of_mem hrq
            exact hsend j r' q' hj (mem_pairs.1 (List.mem_filter.1 hm).1).1
          · obtain ⟨r', hrq, hm⟩ := List.mem_flatMap.1 hm
            obtain ⟨j, hj⟩ := List.getElem?_of_mem hrq
            rw [List.getElem?_take] at hj
            by_cases hjk : j < k
            · rw [if_pos hjk] at hj
              have := hg.recvRecv j k _ _ hj (List.getElem?_eq_getElem hk) (by omega) p.1
                (mem_pairs.1 (List.mem_filter.1 hm).1).1
              rw [hp1] at this
              simp at this
            · rw [if_neg hjk] at hj; simp at hj)
      refine ⟨t', ?_, ?_, ⟨l, _, by rw [v4]⟩, by rw [v5, ← h4]⟩
      · simp only [rd_some hk, Option.bind_eq_bind, Option.bind_some, h2, pushBack_concat]; exact v1
      · rw [List.take_add_one, List.getElem?_eq_getElem hk, List.flatMap_append, ← List.append_assoc]
        simpa [recvItems] using v2)
  obtain ⟨l4, b4', d3⟩ := d3
  refine ⟨{ s4 with recv := l4 ++ [b4' ++ [s4.raw]] }, ?_⟩
  have e1 : adjInner inp g ⟨List.replicate nEnts (List.replicate inp.nAd none), 0, [], []⟩ = some s1 := a1
  have e2 : adjOther inp g s1 = some s2 := b1
  have e3 : adjSend inp g s2 = some { s3 with send := l3 ++ [b3' ++ [s3.raw]] } := by
    unfold adjSend
    rw [c1]
    simp only [Option.bind_eq_bind, Option.bind_some, c3, pushBack_concat]
    rfl
  have e4 : adjRecv inp 0 g { s3 with send := l3 ++ [b3' ++ [s3.raw]] } =
      some { s4 with recv := l4 ++ [b4' ++ [s4.raw]] } := by
    unfold adjRecv
    rw [d1]
    simp only [Option.bind_eq_bind, Option.bind_some, d3, pushBack_concat]
    rfl
  show forN 1 _ _ = _
  rw [forN_succ, forN_zero]
  simp only [Option.bind_some, Option.bind_eq_bind, rd, List.getElem?_cons_zero, e1, e2, e3, e4]

/-- Two inner entities, two send regions, two receive regions; the sparse type covers all but entity 0. -/
def exIn : AdjIn := ⟨2, [some 1, none, some 0, some 2, some 1, some 4, some 2, some 5, some 2, none, some 3, some 2],
  some [none, some 0, some 1, some 2, some 3, some 4]⟩

def exTG : TG := ⟨4, 2, ⟨0, 2⟩, [⟨2, 1⟩, ⟨3, 1⟩], [⟨4, 1⟩, ⟨5, 1⟩], [1, 2], [0, 0]⟩

example : OneGroup exIn 6 exTG ∧ exIn.Ok 6 := by
  refine ⟨⟨by decide, by decide, by decide, by decide, ?_, ?_, ?_, ?_, ?_, ?_⟩, ⟨by decide, ?_, by decide⟩⟩
  all_goals simp only [exTG, exIn, Disj, inReg]
  · intro r hr e; simp at hr; rcases hr with rfl | rfl <;> simp <;> omega
  · intro r hr e; simp at hr; rcases hr with rfl | rfl <;> simp <;> omega
  · intro r hr q hq e; simp at hr hq; rcases hr with rfl | rfl <;> rcases hq with rfl | rfl <;> simp <;> omega
  · intro i j r q hi hj hij e
    match i, j with
    | 0, 0 => omega
    | 0, 1 => simp at hi hj; subst hi hj; simp; omega
    | 1, 0 => simp at hi hj; subst hi hj; simp; omega
    | 1, 1 => omega
    | (i + 2), _ => simp at hi
    | _, (j + 2) => simp at hj
  · intro i j r q hi hj hij e
    match i, j with
    | 0, 0 => omega
    | 0, 1 => simp at hi hj; subst hi hj; simp; omega
    | 1, 0 => simp at hi hj; subst hi hj; simp; omega
    | 1, 1 => omega
    | (i + 2), _ => simp at hi
    | _, (j + 2) => simp at hj
  · intro r hr e a x he ha hx
    simp at hr
    rcases hr with rfl | rfl
    · simp at he
      obtain rfl : e = 4 := by omega
      rcases (by omega : a = 0 ∨ a = 1) with rfl | rfl <;> simp at hx <;> simp <;> omega
    · simp at he
      obtain rfl : e = 5 := by omega
      rcases (by omega : a = 0 ∨ a = 1) with rfl | rfl <;> simp at hx <;> simp <;> omega
  · intro i e hi
    have := List.mem_of_getElem? hi
    simp at this
    omega

/-- Entity 3 sends two items: one to an owned entity, one to its receive region. -/
example : adj exIn ⟨6, [exTG]⟩ = some ⟨[[some 0, none], [some 1, some 2], [some 3, some 5], [some 4, some 6],
    [some 7, none], [some 8, some 9]], 10, [[5, 6, 7]], [[7, 8, 10]]⟩ := by decide

end Edge.Data
