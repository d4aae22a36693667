import Verif.Data.Spec
/-!
C27: layouts derived from sizes.
-/
namespace Edge.Data
open Edge

/-- `first` of all regions is zero. -/
def zeroed (l : List Reg) : List Reg := l.map (fun r => { r with first := 0 })

theorem set_map_take {α β : Type _} (f : α → β) (l : List α) (k : Nat) (hk : k < l.length) :
    (l.map f).take (k + 1) = (l.map f).take k ++ [f l[k]] := by
  rw [List.take_add_one]
  simp [hk]

theorem reset_regs (l m : List Reg) (h : l.length = m.length) :
    forN l.length (fun nr (s : List Reg × List Reg) => do
      let a ← rd s.1 nr
      let send ← wr s.1 nr { a with first := 0 }
      let b ← rd s.2 nr
      let recv ← wr s.2 nr { b with first := 0 }
      return (send, recv)) (l, m) = some (zeroed l, zeroed m) := by
  obtain ⟨t, ht, h1, h2, h3, h4⟩ := forN_inv (n := l.length) (body := fun nr (s : List Reg × List Reg) => do
      let a ← rd s.1 nr
      let send ← wr s.1 nr { a with first := 0 }
      let b ← rd s.2 nr
      let recv ← wr s.2 nr { b with first := 0 }
      return (send, recv)) (s := (l, m))
    (P := fun k (s : List Reg × List Reg) => s.1.length = l.length ∧ s.2.length = m.length ∧
      (∀ (i : Nat), s.1[i]? = if i < k then (zeroed l)[i]? else l[i]?) ∧
      (∀ (i : Nat), s.2[i]? = if i < k then (zeroed m)[i]? else m[i]?))
    (by simp)
    (by
      rintro k ⟨s1, s2⟩ hk ⟨h1, h2, h3, h4⟩
      simp only at h1 h2 h3 h4
      have e1 : s1[k]'(by omega) = l[k] := by
        have := h3 k; simp [hk] at this; exact (List.getElem?_eq_some_iff.1 this).2
      have e2 : s2[k]'(by omega) = m[k]'(by omega) := by
        have := h4 k; simp [h ▸ hk] at this; exact (List.getElem?_eq_some_iff.1 this).2
      refine ⟨(s1.set k { l[k] with first := 0 }, s2.set k { m[k]'(by omega) with first := 0 }), ?_, by simp [h1],
        by simp [h2], ?_, ?_⟩
      · simp only [rd_some (show k < s1.length by omega), wr_some (show k < s1.length by omega),
          rd_some (show k < s2.length by omega), wr_some (show k < s2.length by omega), Option.bind_eq_bind,
          Option.bind_some, Option.pure_def, e1, e2]
      · intro i
        by_cases e : i = k
        · subst e; simp [h1, hk, zeroed]
        · simp only [List.getElem?_set_ne (Ne.symm e), h3]
          by_cases h' : i < k
          · rw [if_pos h', if_pos (by omega)]
          · rw [if_neg h', if_neg (by omega)]
      · intro i
        by_cases e : i = k
        · subst e; simp [h2, h ▸ hk, zeroed]
        · simp only [List.getElem?_set_ne (Ne.symm e), h4]
          by_cases h' : i < k
          · rw [if_pos h', if_pos (by omega)]
          · rw [if_neg h', if_neg (by omega)])
  rw [ht]
  congr 1
  refine Prod.ext ?_ ?_
  · apply List.ext_getElem?
    intro i
    rw [h3]
    by_cases hi : i < l.length
    · rw [if_pos hi]
    · simp [hi, zeroed]
  · apply List.ext_getElem?
    intro i
    rw [h4]
    by_cases hi : i < l.length
    · rw [if_pos hi]
    · rw [if_neg hi, List.getElem?_eq_none (by omega), List.getElem?_eq_none (by simp [zeroed]; omega)]

/-- A loop replacing the entries of an array one by one, with an accumulator. -/
theorem forN_map {α σ : Type _} (f : α → σ → Option (α × σ)) (l : List α) (s : σ)
    (Q : List α → σ → Prop) (h0 : Q [] s)
    (hs : ∀ k (hk : k < l.length) (p : List α) (t : σ), p.length = k → Q p t →
      ∃ y t', f l[k] t = some (y, t') ∧ Q (p ++ [y]) t') :
    ∃ l' t, forN l.length (fun i (st : List α × σ) => do
      let x ← rd st.1 i
      let (y, t) ← f x st.2
      let l' ← wr st.1 i y
      return (l', t)) (l, s) = some (l', t) ∧ l'.length = l.length ∧ Q l' t := by
  obtain ⟨t, ht, h1, h2, h3⟩ := forN_inv (n := l.length) (body := fun i (st : List α × σ) => do
      let x ← rd st.1 i
      let (y, t) ← f x st.2
      let l' ← wr st.1 i y
      return (l', t)) (s := (l, s))
    (P := fun k (st : List α × σ) => st.1.length = l.length ∧ st.1.drop k = l.drop k ∧ Q (st.1.take k) st.2)
    (by simpa using h0)
    (by
      rintro k ⟨a, t⟩ hk ⟨h1, h2, h3⟩
      simp only at h1 h2 h3
      have e : a[k]'(by omega) = l[k] := by
        have := congrArg (fun x => x[0]?) h2
        simp only [List.getElem?_drop, Nat.add_zero] at this
        rw [List.getElem?_eq_getElem (by omega : k < a.length), List.getElem?_eq_getElem hk] at this
        exact Option.some.inj this
      obtain ⟨y, t', hf, hq⟩ := hs k hk (a.take k) t (by simp; omega) h3
      refine ⟨(a.set k y, t'), ?_, by simp [h1], ?_, ?_⟩
      · simp only [rd_some (show k < a.length by omega), wr_some (show k < a.length by omega), Option.bind_eq_bind,
          Option.bind_some, Option.pure_def, e, hf]
      · rw [List.drop_set_of_lt (by omega)]
        have := congrArg (List.drop 1) h2
        simpa [Nat.add_comm] using this
      · rw [List.take_add_one]
        simp [List.take_set_of_le, h1, hk]
        exact hq)
  refine ⟨t.1, t.2, ht, h1, ?_⟩
  rw [← h1, List.take_length] at h3
  exact h3


/-- The time group after the reset: sizes, ranks and neighboring groups are kept. -/
def resetTG (g : TG) : TG :=
  ⟨0, 0, ⟨0, g.inner.size⟩, zeroed g.send, zeroed g.recv, g.neRanks, g.neTgs⟩

theorem reset_spec (tgs : List TG) (h : ∀ g ∈ tgs, g.send.length = g.recv.length) :
    stlReset tgs = some (tgs.map resetTG) := by
  unfold stlReset
  obtain ⟨t, ht, h4, h5, h6⟩ := forN_inv (n := tgs.length) (body := fun tg (tgs : List TG) => do
      let g ← rd tgs tg
      check (g.send.length == g.recv.length)
      let (send, recv) ← forN g.send.length (fun nr (s : List Reg × List Reg) => do
        let a ← rd s.1 nr
        let send ← wr s.1 nr { a with first := 0 }
        let b ← rd s.2 nr
        let recv ← wr s.2 nr { b with first := 0 }
        return (send, recv)) (g.send, g.recv)
      wr tgs tg { g with nOwn := 0, nNotOwn := 0, inner := { g.inner with first := 0 }, send := send, recv := recv })
    (s := tgs)
    (P := fun k (t : List TG) => t.length = tgs.length ∧ t.drop k = tgs.drop k ∧
      t.take k = (tgs.take k).map resetTG)
    (by simp)
    (by
      rintro k a hk ⟨h1, h2, h3⟩
      have e : a[k]'(by omega) = tgs[k] := by
        have := congrArg (fun x => x[0]?) h2
        simp only [List.getElem?_drop, Nat.add_zero] at this
        rw [List.getElem?_eq_getElem (by omega : k < a.length), List.getElem?_eq_getElem hk] at this
        exact Option.some.inj this
      have hg := h tgs[k] (List.getElem_mem _)
      refine ⟨a.set k (resetTG tgs[k]), ?_, by simp [h1], ?_, ?_⟩
      · simp only [rd_some (show k < a.length by omega), Option.bind_eq_bind,
          Option.bind_some, Option.pure_def, e, check]
        rw [if_pos (by simpa using hg)]
        have hr := reset_regs _ _ hg
        simp only [Option.bind_eq_bind, Option.pure_def] at hr
        simp only [Option.bind_some, hr, wr_some (show k < a.length by omega)]
        rfl
      · rw [List.drop_set_of_lt (by omega)]
        have := congrArg (List.drop 1) h2
        simpa [Nat.add_comm] using this
      · rw [List.take_add_one, List.take_add_one, List.map_append, ← h3]
        simp [List.take_set_of_le, h1, hk])
  rw [ht]
  rw [← h4, List.take_length, h4, List.take_length] at h6
  rw [h6]

theorem inner_spec (tgs : List TG) (off : Nat) :
    ∃ tgs' off', stlInner tgs off = some (tgs', off') ∧ tgs'.length = tgs.length ∧
      Contig off (tgs'.map (·.inner)) off' ∧
      ∀ (i : Nat) (g : TG), tgs[i]? = some g → ∃ a, tgs'[i]? = some { g with
        inner := ⟨a, g.inner.size⟩, nOwn := g.nOwn + g.inner.size } := by
  obtain ⟨l', t, h1, h2, h3, h4⟩ := forN_map (α := TG) (σ := Nat) (fun g off =>
      some ({ g with inner := { g.inner with first := off }, nOwn := g.nOwn + g.inner.size }, off + g.inner.size))
    tgs off
    (Q := fun p o => Contig off (p.map (·.inner)) o ∧ ∀ (i : Nat) (g : TG), i < p.length → tgs[i]? = some g →
      ∃ a, p[i]? = some { g with inner := ⟨a, g.inner.size⟩, nOwn := g.nOwn + g.inner.size })
    (by simp [Contig])
    (by
      intro k hk p t hp ⟨hq1, hq2⟩
      refine ⟨_, _, rfl, ?_, ?_⟩
      · rw [List.map_append]; exact contig_concat hq1 _
      · intro i g hi hg
        by_cases e : i = k
        · subst e
          rw [List.getElem?_eq_getElem hk] at hg
          cases hg
          exact ⟨t, by rw [List.getElem?_append_right (by omega)]; simp [hp]⟩
        · simp only [List.length_append, List.length_singleton] at hi
          obtain ⟨a, ha⟩ := hq2 i g (by omega) hg
          exact ⟨a, by rw [List.getElem?_append_left (by omega)]; exact ha⟩)
  refine ⟨l', t, ?_, h2, h3, ?_⟩
  · simpa [stlInner] using h1
  · intro i g hg
    exact h4 i g (by rw [h2]; exact (List.getElem?_eq_some_iff.1 hg).1) hg

theorem send_one (l : List Reg) (own off : Nat) :
    ∃ l' own' off', forN l.length (fun nr (t : List Reg × Nat × Nat) => do
      let r ← rd t.1 nr
      let send ← wr t.1 nr { r with first := t.2.2 }
      return (send, t.2.1 + r.size, t.2.2 + r.size)) (l, own, off) = some (l', own', off') ∧
      Contig off l' off' ∧ l'.map (·.size) = l.map (·.size) ∧ own' = own + (l.map (·.size)).sum := by
  obtain ⟨l', ⟨o, t⟩, h1, h2, h3, h4, h5⟩ := forN_map (α := Reg) (σ := Nat × Nat) (fun r (s : Nat × Nat) =>
      some ({ r with first := s.2 }, s.1 + r.size, s.2 + r.size)) l (own, off)
    (Q := fun p s => Contig off p s.2 ∧ p.map (·.size) = (l.take p.length).map (·.size) ∧
      s.1 = own + (p.map (·.size)).sum)
    (by simp [Contig])
    (by
      intro k hk p t hp ⟨hq1, hq2, hq3⟩
      refine ⟨_, _, rfl, contig_concat hq1 _, ?_, ?_⟩
      · rw [List.length_append, List.length_singleton, hp, List.take_add_one, List.map_append, List.map_append]
        rw [hp] at hq2
        rw [← hq2]
        simp [hk]
      · simp [hq3]; omega)
  have h6 : l'.map (·.size) = l.map (·.size) := by rw [h4, h2, List.take_length]
  refine ⟨l', o, t, ?_, h3, h6, by rw [← h6]; exact h5⟩
  simpa using h1

theorem send_spec (tgs : List TG) (off : Nat) :
    ∃ tgs' off', stlSend tgs off = some (tgs', off') ∧ tgs'.length = tgs.length ∧
      Contig off (tgs'.flatMap (·.send)) off' ∧
      ∀ (i : Nat) (g : TG), tgs[i]? = some g → ∃ send, send.map (·.size) = g.send.map (·.size) ∧
        tgs'[i]? = some { g with send := send, nOwn := g.nOwn + (g.send.map (·.size)).sum } := by
  obtain ⟨l', t, h1, h2, h3, h4⟩ := forN_map (α := TG) (σ := Nat) (fun g off => do
      let (send, own, off) ← forN g.send.length (fun nr (t : List Reg × Nat × Nat) => do
        let r ← rd t.1 nr
        let send ← wr t.1 nr { r with first := t.2.2 }
        return (send, t.2.1 + r.size, t.2.2 + r.size)) (g.send, g.nOwn, off)
      return ({ g with send := send, nOwn := own }, off)) tgs off
    (Q := fun p o => Contig off (p.flatMap (·.send)) o ∧ ∀ (i : Nat) (g : TG), i < p.length → tgs[i]? = some g →
      ∃ send, send.map (·.size) = g.send.map (·.size) ∧
        p[i]? = some { g with send := send, nOwn := g.nOwn + (g.send.map (·.size)).sum })
    (by simp [Contig])
    (by
      intro k hk p t hp ⟨hq1, hq2⟩
      obtain ⟨l', own', off', s1, s2, s3, s4⟩ := send_one tgs[k].send tgs[k].nOwn t
      refine ⟨{ tgs[k] with send := l', nOwn := own' }, off', ?_, ?_, ?_⟩
      · simp only [Option.bind_eq_bind, Option.pure_def] at s1 ⊢
        rw [s1]; rfl
      · rw [List.flatMap_append, contig_append]
        exact ⟨t, hq1, by simpa using s2⟩
      · intro i g hi hg
        by_cases e : i = k
        · subst e
          rw [List.getElem?_eq_getElem hk] at hg
          cases hg
          exact ⟨l', s3, by rw [List.getElem?_append_right (by omega), s4]; simp [hp]⟩
        · simp only [List.length_append, List.length_singleton] at hi
          obtain ⟨a, ha, hb⟩ := hq2 i g (by omega) hg
          exact ⟨a, ha, by rw [List.getElem?_append_left (by omega)]; exact hb⟩)
  refine ⟨l', t, ?_, h2, h3, ?_⟩
  · rw [← h1]
    unfold stlSend
    congr 1
    funext i s
    simp only [Option.bind_eq_bind, Option.pure_def, Option.bind_assoc, Option.bind_some]
  · intro i g hg
    exact h4 i g (by rw [h2]; exact (List.getElem?_eq_some_iff.1 hg).1) hg

/-- **C27**. For every table of sizes the derived layout places the inner regions of all time groups, followed by the
send regions of all time groups, without gaps from zero to the number of entities. Sizes, ranks and neighboring groups
of the input are kept; the owned entities of a group are those of its inner and send regions; receive regions own no
entities (their first entity is zero). -/
theorem C27_layout (lay : Layout) (h : ∀ g ∈ lay.tgs, g.send.length = g.recv.length) :
    ∃ out, sizesToLayout lay = some out ∧ Contig 0 (regions out) out.nEnts ∧ out.tgs.length = lay.tgs.length ∧
      ∀ (i : Nat) (g : TG), lay.tgs[i]? = some g → ∃ g', out.tgs[i]? = some g' ∧
        g'.inner.size = g.inner.size ∧ g'.send.map (·.size) = g.send.map (·.size) ∧
        g'.nOwn = g.inner.size + (g.send.map (·.size)).sum ∧ g'.nNotOwn = 0 ∧ g'.recv = zeroed g.recv ∧
        g'.neRanks = g.neRanks ∧ g'.neTgs = g.neTgs := by
  obtain ⟨t1, o1, a1, a2, a3, a4⟩ := inner_spec (lay.tgs.map resetTG) 0
  obtain ⟨t2, o2, b1, b2, b3, b4⟩ := send_spec t1 o1
  have hz : ∀ l : List Reg, (zeroed l).map (·.size) = l.map (·.size) := by intro l; simp [zeroed, Function.comp_def]
  have key : ∀ (i : Nat) (g : TG), lay.tgs[i]? = some g → ∃ a send, t1[i]? = some ⟨g.inner.size, 0,
      ⟨a, g.inner.size⟩, zeroed g.send, zeroed g.recv, g.neRanks, g.neTgs⟩ ∧ send.map (·.size) = g.send.map (·.size) ∧
      t2[i]? = some ⟨g.inner.size + (g.send.map (·.size)).sum, 0, ⟨a, g.inner.size⟩, send, zeroed g.recv, g.neRanks,
        g.neTgs⟩ := by
    intro i g hg
    obtain ⟨a, ha⟩ := a4 i (resetTG g) (by simp [hg])
    obtain ⟨send, hs, hb⟩ := b4 i _ ha
    refine ⟨a, send, by simpa [resetTG] using ha, ?_, ?_⟩
    · rw [hs]; exact hz _
    · simpa [resetTG, hz] using hb
  refine ⟨⟨o2, t2⟩, ?_, ?_, by simp [b2, a2], ?_⟩
  · unfold sizesToLayout
    simp only [reset_spec lay.tgs h, Option.bind_eq_bind, Option.bind_some, a1, b1, Option.pure_def]
  · unfold regions
    simp only
    rw [contig_append]
    refine ⟨o1, ?_, b3⟩
    have : t2.map (·.inner) = t1.map (·.inner) := by
      apply List.ext_getElem?
      intro i
      rw [List.getElem?_map, List.getElem?_map]
      by_cases hi : i < lay.tgs.length
      · obtain ⟨a, send, k1, -, k2⟩ := key i _ (List.getElem?_eq_getElem hi)
        rw [k1, k2]; rfl
      · rw [List.getElem?_eq_none (by simp [b2, a2]; omega), List.getElem?_eq_none (by simp [a2]; omega)]
    rw [this]
    exact a3
  · intro i g hg
    obtain ⟨a, send, -, k1, k2⟩ := key i g hg
    exact ⟨_, k2, rfl, k1, rfl, rfl, rfl, rfl, rfl⟩

/-- **C27**, consequence: every entity of the derived layout belongs to exactly one region, and every region consists
of entities of the layout. -/
theorem C27_partition (lay : Layout) (h : ∀ g ∈ lay.tgs, g.send.length = g.recv.length) :
    ∃ out, sizesToLayout lay = some out ∧
      out.nEnts = (lay.tgs.map (fun g => g.inner.size)).sum + (lay.tgs.flatMap (fun g => g.send.map (·.size))).sum ∧
      (∀ r ∈ regions out, ∀ e, inReg r e = true → e < out.nEnts) ∧
      ∀ e, e < out.nEnts → ∃ i : Nat, (∃ r, (regions out)[i]? = some r ∧ inReg r e = true) ∧
        ∀ (j : Nat) (q : Reg), (regions out)[j]? = some q → inReg q e = true → j = i := by
  obtain ⟨out, h1, h2, h3, h4⟩ := C27_layout lay h
  refine ⟨out, h1, ?_, ?_, ?_⟩
  · have := contig_total h2
    rw [this, regions, List.map_append, List.sum_append, Nat.zero_add]
    congr 2
    · rw [List.map_map]
      apply List.ext_getElem?
      intro i
      rw [List.getElem?_map, List.getElem?_map]
      by_cases hi : i < lay.tgs.length
      · obtain ⟨g', k1, k2, -⟩ := h4 i _ (List.getElem?_eq_getElem hi)
        rw [k1, List.getElem?_eq_getElem hi]; simp [k2]
      · rw [List.getElem?_eq_none (by omega), List.getElem?_eq_none (by omega)]; rfl
    · rw [List.map_flatMap]
      simp only [List.flatMap_def]
      congr 1
      apply List.ext_getElem?
      intro i
      rw [List.getElem?_map, List.getElem?_map]
      by_cases hi : i < lay.tgs.length
      · obtain ⟨g', k1, -, k2, -⟩ := h4 i _ (List.getElem?_eq_getElem hi)
        rw [k1, List.getElem?_eq_getElem hi]; simp [k2]
      · rw [List.getElem?_eq_none (by omega), List.getElem?_eq_none (by omega)]
  · intro r hr e he
    have := contig_mem h2 hr
    simp [inReg] at he
    omega
  · intro e he
    obtain ⟨i, r, hi, hr⟩ := contig_cover h2 (Nat.zero_le e) he
    exact ⟨i, ⟨r, hi, hr⟩, fun j q hj hq => contig_unique h2 hj hi hq hr⟩

/-- A layout with different numbers of send and receive regions is rejected. -/
theorem C27_rejects (lay : Layout) (g : TG) (hg : g ∈ lay.tgs) (hne : g.send.length ≠ g.recv.length) :
    sizesToLayout lay = none := by
  have : stlReset lay.tgs = none := by
    apply Classical.byContradiction
    intro hc
    obtain ⟨out, ho⟩ := Option.ne_none_iff_exists'.1 hc
    obtain ⟨k, hk, hkg⟩ := List.mem_iff_getElem.1 hg
    unfold stlReset at ho
    refine absurd ?_ hne
    have := forN_post (P := fun m (t : List TG) => t.length = lay.tgs.length ∧ (∀ (i : Nat), m ≤ i → t[i]? = lay.tgs[i]?) ∧
        (k < m → g.send.length = g.recv.length)) (by simp)
      (by
        rintro m t t' hm ⟨h1, h2, h3⟩ hb
        simp only [Option.bind_eq_bind, Option.bind_eq_some_iff] at hb
        obtain ⟨x, hx, u, hu, v, -, hw⟩ := hb
        rw [check_some] at hu
        simp only [wr] at hw
        split at hw
        · injection hw with hw
          subst hw
          refine ⟨by simp [h1], ?_, ?_⟩
          · intro i hi
            rw [List.getElem?_set_ne (by omega)]
            exact h2 i (by omega)
          · intro hk'
            by_cases e : k = m
            · subst e
              have hx' : lay.tgs[k]? = some x := by rw [← h2 k (Nat.le_refl _)]; exact hx
              rw [List.getElem?_eq_getElem hk, hkg] at hx'
              cases hx'
              simpa using hu
            · exact h3 (by omega)
        · exact absurd hw (by simp)) ho
    exact this.2.2 hk
  simp [sizesToLayout, this]

example : (sizesToLayout ⟨7, [⟨1, 1, ⟨5, 3⟩, [⟨9, 2⟩, ⟨9, 0⟩], [⟨4, 1⟩, ⟨4, 2⟩], [1, 2], [0, 1]⟩,
    ⟨1, 1, ⟨5, 4⟩, [⟨9, 5⟩], [⟨4, 1⟩], [1], [0]⟩]⟩) =
    some ⟨14, [⟨5, 0, ⟨0, 3⟩, [⟨7, 2⟩, ⟨9, 0⟩], [⟨0, 1⟩, ⟨0, 2⟩], [1, 2], [0, 1]⟩,
      ⟨9, 0, ⟨3, 4⟩, [⟨9, 5⟩], [⟨0, 1⟩], [1], [0]⟩]⟩ := by decide

end Edge.Data
