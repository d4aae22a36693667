import Verif.Mesh.Build
/-!
Sparse types of faces (C37) and lexicographic sorting of rows (C39).
-/
namespace Edge.Mesh
open Edge

variable {m : Nat} {de sp : List (List Nat)} {add : Nat} {t : List Nat}

/-- Body of the loop over the entities. -/
def spStep (m : Nat) (de sp : List (List Nat)) (add : Nat) (i : Nat) (s : Nat × List Nat) : Option (Nat × List Nat) :=
  if sp.length ≤ s.1 then some s
  else do
    let d ← rd de i
    let q ← rd sp s.1
    let k ← nShared m d q
    if k = m then do
      let t ← rd s.2 i
      let r ← wr s.2 i (t ||| add)
      return (s.1 + 1, r)
    else return s

theorem addSparse_eq : addSparse m de sp add t = (do
    let s ← forN de.length (spStep m de sp add) (0, t)
    check (decide (s.1 = sp.length))
    return s.2) := rfl

/-- The three outcomes of an iteration. -/
theorem spStep_spec (hd : ∀ r ∈ de, r.length = m) (hq : ∀ r ∈ sp, r.length = m) {i : Nat} {s : Nat × List Nat} {d : List Nat}
    {v : Nat} (hi : de[i]? = some d) (hv : s.2[i]? = some v) :
    (sp[s.1]? = some d ∧ spStep m de sp add i s = some (s.1 + 1, s.2.set i (v ||| add))) ∨
    (sp[s.1]? ≠ some d ∧ spStep m de sp add i s = some s) := by
  unfold spStep
  by_cases hs : sp.length ≤ s.1
  · right; rw [if_pos hs, List.getElem?_eq_none hs]; simp
  · rw [if_neg hs]
    have hs' : s.1 < sp.length := by omega
    obtain ⟨k, hk, hkm⟩ := nShared_spec (n := m) (hd d (List.mem_of_getElem? hi)) (hq _ (List.getElem_mem hs'))
    have hil : i < s.2.length := (List.getElem?_eq_some_iff.1 hv).1
    by_cases hc : d = sp[s.1]
    · left
      refine ⟨by simp [hs', hc], ?_⟩
      have hx : rd sp s.1 = some sp[s.1] := rd_some hs'
      simp only [rd, Option.bind_eq_bind] at hx ⊢
      rw [hi, Option.bind_some, hx, Option.bind_some, hk, Option.bind_some, if_pos (hkm.2 hc), hv, Option.bind_some,
        wr_some hil]
      rfl
    · right
      refine ⟨by simp [hs']; exact fun h => hc h.symm, ?_⟩
      have hx : rd sp s.1 = some sp[s.1] := rd_some hs'
      simp only [rd, Option.bind_eq_bind] at hx ⊢
      rw [hi, Option.bind_some, hx, Option.bind_some, hk, Option.bind_some, if_neg (fun h => hc (hkm.1 h))]
      rfl

/-- State after `i` entities. -/
structure SInv (de sp : List (List Nat)) (add : Nat) (t : List Nat) (i : Nat) (s : Nat × List Nat) : Prop where
  k : s.1 ≤ sp.length
  len : s.2.length = t.length
  set : ∀ (j : Nat) (d : List Nat) (v : Nat), de[j]? = some d → t[j]? = some v →
    s.2[j]? = some (if j < i ∧ d ∈ sp.take s.1 then v ||| add else v)
  found : ∀ d ∈ sp.take s.1, ∃ j < i, de[j]? = some d
  asc : (sp.take s.1).Pairwise (fun a b => lexLt a b = true)

theorem get_lt (hde : de.Pairwise (fun a b => lexLt a b = true)) {i j : Nat} {a b : List Nat} (hij : i < j)
    (ha : de[i]? = some a) (hb : de[j]? = some b) : lexLt a b = true := by
  obtain ⟨hi, rfl⟩ := List.getElem?_eq_some_iff.1 ha
  obtain ⟨hj, rfl⟩ := List.getElem?_eq_some_iff.1 hb
  exact List.pairwise_iff_getElem.1 hde i j hi hj hij

theorem spStep_inv (hd : ∀ r ∈ de, r.length = m) (hq : ∀ r ∈ sp, r.length = m)
    (hde : de.Pairwise (fun a b => lexLt a b = true)) (ht : t.length = de.length) {i : Nat} {s : Nat × List Nat}
    (hi : i < de.length) (h : SInv de sp add t i s) :
    ∃ s', spStep m de sp add i s = some s' ∧ SInv de sp add t (i + 1) s' ∧
      ((sp[s.1]? = some de[i] ∧ s'.1 = s.1 + 1) ∨ (sp[s.1]? ≠ some de[i] ∧ s' = s)) := by
  have hdi : de[i]? = some de[i] := by simp [hi]
  have hti : t[i]? = some t[i] := by simp [ht, hi]
  have hsi := h.set i _ _ hdi hti
  rw [if_neg (by omega)] at hsi
  have nlt : ∀ {j : Nat} {d : List Nat}, de[j]? = some d → j ≠ i → d ≠ de[i] := by
    intro j d hj hji
    rcases Nat.lt_or_gt_of_ne hji with h' | h'
    · exact lexLt_ne (get_lt hde h' hj hdi)
    · exact (lexLt_ne (get_lt hde h' hdi hj)).symm
  have hnot : de[i] ∉ sp.take s.1 := by
    intro hc
    obtain ⟨j, hj, hjd⟩ := h.found _ hc
    exact nlt hjd (by omega) rfl
  rcases spStep_spec (add := add) hd hq hdi hsi with ⟨h1, h2⟩ | ⟨h1, h2⟩
  · refine ⟨_, h2, ?_, Or.inl ⟨h1, rfl⟩⟩
    have hsl : s.1 < sp.length := (List.getElem?_eq_some_iff.1 h1).1
    have htk : sp.take (s.1 + 1) = sp.take s.1 ++ [de[i]] := by
      rw [List.take_succ, h1]; rfl
    constructor
    · show s.1 + 1 ≤ sp.length; omega
    · simp [h.len]
    · intro j d v hj hv
      show (s.2.set i (t[i] ||| add))[j]? = some (if j < i + 1 ∧ d ∈ sp.take (s.1 + 1) then v ||| add else v)
      rw [htk]
      by_cases hji : j = i
      · subst hji
        rw [hdi] at hj; cases hj
        rw [hti] at hv; cases hv
        rw [List.getElem?_set_self (by rw [h.len, ht]; exact hi), if_pos ⟨by omega, by simp⟩]
      · rw [List.getElem?_set_ne (fun e => hji e.symm), h.set j d v hj hv]
        congr 1
        have := nlt hj hji
        simp only [List.mem_append, List.mem_singleton, this, or_false]
        by_cases hlt : j < i
        · simp [hlt, show j < i + 1 by omega]
        · simp [hlt, show ¬ j < i + 1 by omega]
    · intro d hd'
      show ∃ j < i + 1, _
      have hd' : d ∈ sp.take (s.1 + 1) := hd'
      rw [htk, List.mem_append, List.mem_singleton] at hd'
      rcases hd' with h' | rfl
      · obtain ⟨j, hj, hjd⟩ := h.found d h'; exact ⟨j, by omega, hjd⟩
      · exact ⟨i, by omega, hdi⟩
    · show (sp.take (s.1 + 1)).Pairwise _
      rw [htk, List.pairwise_append]
      refine ⟨h.asc, by simp, fun a ha b hb => ?_⟩
      simp at hb; subst hb
      obtain ⟨j, hj, hja⟩ := h.found a ha
      exact get_lt hde hj hja hdi
  · refine ⟨s, h2, ⟨h.k, h.len, ?_, ?_, h.asc⟩, Or.inr ⟨h1, rfl⟩⟩
    · intro j d v hj hv
      rw [h.set j d v hj hv]
      congr 1
      by_cases hji : j = i
      · subst hji
        rw [hdi] at hj; cases hj
        rw [if_neg (by omega), if_neg (fun h => hnot h.2)]
      · by_cases hlt : j < i
        · simp [hlt, show j < i + 1 by omega]
        · simp [hlt, show ¬ j < i + 1 by omega]
    · intro d hd'
      obtain ⟨j, hj, hjd⟩ := h.found d hd'; exact ⟨j, by omega, hjd⟩

/-- C37: if a sparse type is attached to listed entities, then exactly the entities in the list get it in addition to what
they had, and all entities of the list exist. `de` has the vertices of the entities, all different and in ascending order;
`sp` has those of the listed ones. -/
theorem C37_sparse (hd : ∀ r ∈ de, r.length = m) (hq : ∀ r ∈ sp, r.length = m)
    (hde : de.Pairwise (fun a b => lexLt a b = true)) (ht : t.length = de.length) {r : List Nat}
    (h : addSparse m de sp add t = some r) :
    r.length = t.length ∧
    (∀ (i : Nat) (ves : List Nat) (v : Nat), de[i]? = some ves → t[i]? = some v →
      r[i]? = some (if ves ∈ sp then v ||| add else v)) ∧
    (∀ ves ∈ sp, ves ∈ de) ∧ sp.Nodup := by
  rw [addSparse_eq] at h
  simp only [Option.bind_eq_bind, Option.bind_eq_some_iff, check_some, decide_eq_true_eq, Option.pure_def,
    Option.some.injEq] at h
  obtain ⟨s, hs, _, hk, rfl⟩ := h
  have inv := forN_post (P := fun i s => SInv de sp add t i s)
    ⟨by simp, rfl, fun j d v _ hv => by simp [hv], by simp, by simp⟩
    (fun i s s' hi hp hb => by
      obtain ⟨s'', h1, h2, _⟩ := spStep_inv hd hq hde ht hi hp
      rw [hb] at h1; cases h1; exact h2) hs
  have htk : sp.take s.1 = sp := List.take_of_length_le (by omega)
  refine ⟨inv.len, fun i ves v hi hv => ?_, fun ves hv => ?_, ?_⟩
  · rw [inv.set i ves v hi hv, htk]
    simp [(List.getElem?_eq_some_iff.1 hi).1]
  · obtain ⟨j, _, hj⟩ := inv.found ves (by rw [htk]; exact hv)
    exact List.mem_of_getElem? hj
  · have := inv.asc
    rw [htk] at this
    exact this.imp lexLt_ne

/-- C37: lists in ascending order are attached if all their entities exist and none is listed twice. -/
theorem C37_total (hd : ∀ r ∈ de, r.length = m) (hq : ∀ r ∈ sp, r.length = m)
    (hde : de.Pairwise (fun a b => lexLt a b = true)) (ht : t.length = de.length)
    (hsp : sp.Pairwise (fun a b => lexLt b a = false)) (hnd : sp.Nodup) (hex : ∀ ves ∈ sp, ves ∈ de) :
    ∃ r, addSparse m de sp add t = some r := by
  have hst : sp.Pairwise (fun a b => lexLt a b = true) := by
    rw [List.pairwise_iff_getElem] at hsp ⊢
    intro i j hi hj hij
    rcases lexLt_tri (a := sp[i]) (b := sp[j]) (by rw [hq _ (List.getElem_mem hi), hq _ (List.getElem_mem hj)]) with h | h | h
    · exact h
    · have := (List.Nodup.getElem_inj_iff hnd).1 h; omega
    · rw [hsp i j hi hj hij] at h; cases h
  obtain ⟨s, hs, inv, hrest⟩ := forN_inv (n := de.length) (body := spStep m de sp add) (s := (0, t))
    (fun i s => SInv de sp add t i s ∧ ∀ (k : Nat) (d : List Nat), s.1 ≤ k → sp[k]? = some d → ∃ j, i ≤ j ∧ de[j]? = some d)
    ⟨⟨by simp, rfl, fun j d v _ hv => by simp [hv], by simp, by simp⟩, fun k d _ hk => by
      obtain ⟨j, hj⟩ := List.getElem?_of_mem (hex d (List.mem_of_getElem? hk))
      exact ⟨j, by omega, hj⟩⟩
    (by
      rintro i s hi ⟨inv, hr⟩
      obtain ⟨s', h1, h2, h3⟩ := spStep_inv (add := add) hd hq hde ht hi inv
      have hdi : de[i]? = some de[i] := by simp [hi]
      refine ⟨s', h1, h2, fun k d hk hd' => ?_⟩
      rcases h3 with ⟨g1, g2⟩ | ⟨g1, rfl⟩
      · obtain ⟨j, hj, hjd⟩ := hr k d (by omega) hd'
        refine ⟨j, ?_, hjd⟩
        have : lexLt de[i] d = true := get_lt hst (i := s.1) (j := k) (by omega) g1 hd'
        rcases Nat.eq_or_lt_of_le hj with h | h
        · subst h; rw [hdi] at hjd; cases hjd
          exact absurd rfl (lexLt_ne this)
        · omega
      · obtain ⟨j, hj, hjd⟩ := hr k d hk hd'
        refine ⟨j, ?_, hjd⟩
        rcases Nat.eq_or_lt_of_le hj with h | h
        · subst h; rw [hdi] at hjd; cases hjd
          have hkl : k < sp.length := (List.getElem?_eq_some_iff.1 hd').1
          rcases Nat.eq_or_lt_of_le hk with h' | h'
          · subst h'; exact absurd hd' g1
          · have hs1 : sp[s'.1]? = some sp[s'.1] := by simp [show s'.1 < sp.length by omega]
            obtain ⟨j', hj', hjd'⟩ := hr s'.1 _ (le_refl _) hs1
            have l1 := get_lt hst h' hs1 hd'
            rcases Nat.eq_or_lt_of_le hj' with h'' | h''
            · subst h''; rw [hdi] at hjd'; exact absurd (hs1.trans hjd'.symm) g1
            · have l2 := get_lt hde h'' hdi hjd'
              rw [lexLt_asymm l1] at l2; cases l2
        · omega)
  have hk : s.1 = sp.length := by
    by_contra hc
    have hlt : s.1 < sp.length := by have := inv.k; omega
    obtain ⟨j, hj, hjd⟩ := hrest s.1 sp[s.1] (le_refl _) (by simp [hlt])
    have := (List.getElem?_eq_some_iff.1 hjd).1
    omega
  refine ⟨s.2, ?_⟩
  rw [addSparse_eq]
  simp only [Option.bind_eq_bind]
  rw [hs, Option.bind_some]
  simp [check, hk]

/-- C39: `sortLex` returns the rows in ascending order together with their former positions: every row of the input once. -/
theorem C39_sortLex {srt : List (List Nat) → List Nat → List Nat} (hs : ∀ d l, StdSort (entryLess d) l (srt d l))
    (data : List (List Nat)) :
    ∃ rows ids, sortLex srt data = some (rows, ids) ∧ rows.Perm data ∧ rows.Pairwise (fun a b => lexLt b a = false) ∧
      ids.Perm (List.range data.length) ∧
      ∀ (i : Nat) (id : Nat), ids[i]? = some id → ∃ row, rows[i]? = some row ∧ data[id]? = some row := by
  obtain ⟨hp, ho⟩ := hs data (List.range data.length)
  have hlt : ∀ id ∈ srt data (List.range data.length), id < data.length := fun id h => by
    have := hp.mem_iff.1 h; simpa using this
  have hm := mapM_map (f := fun id => rd data id) (g := fun id => data.getD id []) (l := srt data (List.range data.length))
    (fun id h => by simp [rd, hlt id h])
  refine ⟨_, _, by unfold sortLex; simp only [Option.bind_eq_bind]; rw [hm, Option.bind_some]; rfl, ?_, ?_, hp, ?_⟩
  · refine (hp.map _).trans ?_
    have : (List.range data.length).map (fun id => data.getD id []) = data := by
      apply List.ext_getElem?
      intro i
      rw [List.getElem?_map]
      by_cases hi : i < data.length
      · rw [List.getElem?_range hi]; simp [hi]
      · rw [List.getElem?_eq_none (by simp; omega), List.getElem?_eq_none (by omega)]; rfl
    rw [this]
  · rw [List.pairwise_map]
    refine ho.imp_of_mem fun {a b} ha hb hab => ?_
    have h1 := hlt a ha
    have h2 := hlt b hb
    simpa [entryLess, h1, h2] using hab
  · intro i id hi
    have := hlt id (List.mem_of_getElem? hi)
    exact ⟨data[id], by rw [List.getElem?_map, hi]; simp [this], by simp [this]⟩

/-! ### Physical groups -/

/-- Sparse type of a face with vertices `ves` after adding the groups in which the face is listed. -/
def groupsOf (ves : List Nat) (groups : List (Nat × List (List Nat))) (v : Nat) : Nat :=
  groups.foldl (fun v g => if ∃ row ∈ g.2, row.Perm ves then v ||| g.1 else v) v

theorem sorted_mem {ves : List Nat} (hv : ves.Pairwise (· ≤ ·)) {l : List (List Nat)} :
    ves ∈ l.map sortNat ↔ ∃ row ∈ l, row.Perm ves := by
  rw [List.mem_map]
  constructor
  · rintro ⟨row, h, rfl⟩; exact ⟨row, h, (sortNat_perm row).symm⟩
  · rintro ⟨row, h, hp⟩; exact ⟨row, h, by rw [sortNat_eq_iff.2 hp, sortNat_id hv]⟩

variable {srt : List (List Nat) → List Nat → List Nat}

/-- C37: after reading the physical groups, the sparse type of a face combines the ids of exactly those groups in which the
face is listed, whatever the order of the faces in the group and of the vertices of a face; every listed face is a face of
the mesh. -/
theorem C37_groups (hs : ∀ d l, StdSort (entryLess d) l (srt d l)) (hd : ∀ r ∈ de, r.length = m)
    (hds : ∀ r ∈ de, r.Pairwise (· ≤ ·)) (hde : de.Pairwise (fun a b => lexLt a b = true))
    {groups : List (Nat × List (List Nat))} (hg : ∀ g ∈ groups, ∀ row ∈ g.2, row.length = m) (ht : t.length = de.length)
    {r : List Nat} (h : addGroups srt m de groups t = some r) :
    r.length = de.length ∧
    (∀ (i : Nat) (ves : List Nat) (v : Nat), de[i]? = some ves → t[i]? = some v →
      r[i]? = some (groupsOf ves groups v)) ∧
    ∀ g ∈ groups, ∀ row ∈ g.2, ∃ ves ∈ de, row.Perm ves := by
  induction groups generalizing t with
  | nil =>
    simp [addGroups] at h; subst h
    exact ⟨ht, fun i ves v _ hv => hv, by simp⟩
  | cons g gs ih =>
    simp only [addGroups, List.foldlM_cons, Option.bind_eq_bind, Option.bind_eq_some_iff] at h
    obtain ⟨t', ⟨⟨rows, ids⟩, h1, h2⟩, h3⟩ := h
    obtain ⟨rows', ids', e1, e2, e3, _, _⟩ := C39_sortLex hs (g.2.map sortNat)
    rw [e1] at h1; cases h1
    obtain ⟨a1, a2, a3, a4⟩ := C37_sparse hd (fun r hr => by
      have := e2.mem_iff.1 hr
      rw [List.mem_map] at this
      obtain ⟨row, hrow, rfl⟩ := this
      rw [sortNat_length]; exact hg g (by simp) row hrow) hde ht h2
    obtain ⟨b1, b2, b3⟩ := ih (fun g' hg' => hg g' (by simp [hg'])) (t := t') (by rw [a1, ht]) h3
    refine ⟨b1, fun i ves v hi hv => ?_, fun g' hg' row hrow => ?_⟩
    · rw [b2 i ves _ hi (a2 i ves v hi hv)]
      have hiff : ves ∈ rows ↔ ∃ row ∈ g.2, row.Perm ves :=
        e2.mem_iff.trans (sorted_mem (hds ves (List.mem_of_getElem? hi)))
      show _ = some (groupsOf ves gs (if ∃ row ∈ g.2, row.Perm ves then v ||| g.1 else v))
      simp only [hiff]
    · rcases List.mem_cons.1 hg' with rfl | hg'
      · have : sortNat row ∈ rows := e2.mem_iff.2 (List.mem_map.2 ⟨row, hrow, rfl⟩)
        exact ⟨_, a3 _ this, (sortNat_perm row).symm⟩
      · exact b3 g' hg' row hrow

/-- C37: groups listing faces of the mesh, none of them twice, are always attached. -/
theorem C37_groups_total (hs : ∀ d l, StdSort (entryLess d) l (srt d l)) (hd : ∀ r ∈ de, r.length = m)
    (hds : ∀ r ∈ de, r.Pairwise (· ≤ ·)) (hde : de.Pairwise (fun a b => lexLt a b = true))
    {groups : List (Nat × List (List Nat))} (hg : ∀ g ∈ groups, ∀ row ∈ g.2, ∃ ves ∈ de, row.Perm ves)
    (hn : ∀ g ∈ groups, g.2.Pairwise (fun a b => ¬ a.Perm b)) (ht : t.length = de.length) :
    ∃ r, addGroups srt m de groups t = some r := by
  induction groups generalizing t with
  | nil => exact ⟨t, rfl⟩
  | cons g gs ih =>
    obtain ⟨rows, ids, e1, e2, e3, _, _⟩ := C39_sortLex hs (g.2.map sortNat)
    have hmem : ∀ r ∈ rows, r ∈ de := by
      intro r hr
      have := e2.mem_iff.1 hr
      rw [List.mem_map] at this
      obtain ⟨row, hrow, rfl⟩ := this
      obtain ⟨ves, hv, hp⟩ := hg g (by simp) row hrow
      rw [sortNat_eq_iff.2 hp, sortNat_id (hds ves hv)]; exact hv
    have hnd : rows.Nodup := by
      rw [e2.nodup_iff, List.Nodup, List.pairwise_map]
      exact (hn g (by simp)).imp fun h he => h (sortNat_eq_iff.1 he)
    obtain ⟨t', h1⟩ := C37_total (add := g.1) hd (fun r hr => hd r (hmem r hr)) hde ht e3 hnd hmem
    have hl := (C37_sparse hd (fun r hr => hd r (hmem r hr)) hde ht h1).1
    obtain ⟨r, hr⟩ := ih (fun g' hg' => hg g' (by simp [hg'])) (fun g' hg' => hn g' (by simp [hg'])) (t := t') (by rw [hl, ht])
    refine ⟨r, ?_⟩
    simp only [addGroups, List.foldlM_cons, Option.bind_eq_bind] at hr ⊢
    rw [e1, Option.bind_some, h1, Option.bind_some, hr]

end Edge.Mesh
