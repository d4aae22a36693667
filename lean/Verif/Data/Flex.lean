import Verif.Data.Layout
/-!
C28: memory of entities with a base part and optional sparse parts.
-/
namespace Edge.Data
open Edge

/-- Size of the part `slot` of an entity: slot zero is the base part, slot `st+1` the part of sparse type `st`, which
an entity has if and only if its sparse type contains all bits of the type. `none`: the entity has no such part. -/
def partSize (bSize : Nat) (spTypes spSizes enChars : List Nat) (slot en : Nat) : Option Nat :=
  if slot = 0 then some bSize
  else match enChars[en]?, spTypes[slot - 1]?, spSizes[slot - 1]? with
    | some c, some t, some z => if c &&& t = t then some z else none
    | _, _, _ => none

/-- Size of a part, zero if the entity does not have it. -/
def sizeOf' (bSize : Nat) (spTypes spSizes enChars : List Nat) (slot en : Nat) : Nat :=
  match partSize bSize spTypes spSizes enChars slot en with
  | some z => z
  | none => 0

/-- Offset of the part `slot` of entity `en`: all parts of the slots before, and those of the entities before. -/
def partOff (nEn bSize : Nat) (spTypes spSizes enChars : List Nat) (slot en : Nat) : Nat :=
  ((List.range slot).map (fun s => ((List.range nEn).map (sizeOf' bSize spTypes spSizes enChars s)).sum)).sum +
    ((List.range en).map (sizeOf' bSize spTypes spSizes enChars slot)).sum

theorem sum_range_succ (f : Nat → Nat) (n : Nat) : ((List.range (n + 1)).map f).sum = ((List.range n).map f).sum + f n := by
  simp [List.range_succ]

theorem sum_add (f g : Nat → Nat) (n : Nat) :
    ((List.range n).map (fun i => f i + g i)).sum = ((List.range n).map f).sum + ((List.range n).map g).sum := by
  induction n with
  | zero => rfl
  | succ n ih => simp only [sum_range_succ, ih]; omega

theorem sum_comm (f : Nat → Nat → Nat) (n m : Nat) :
    ((List.range n).map (fun i => ((List.range m).map (f i)).sum)).sum =
      ((List.range m).map (fun j => ((List.range n).map (fun i => f i j)).sum)).sum := by
  induction n with
  | zero => induction m with
    | zero => rfl
    | succ m ih => rw [sum_range_succ, ← ih]; rfl
  | succ n ih => simp only [sum_range_succ, ih, sum_add]

variable {nEn nSp bSize : Nat} {spTypes spSizes enChars : List Nat}

theorem part_zero (en : Nat) : sizeOf' bSize spTypes spSizes enChars 0 en = bSize := by simp [sizeOf', partSize]

theorem part_succ {st en : Nat} (h1 : st < spTypes.length) (h2 : st < spSizes.length) (h3 : en < enChars.length) :
    partSize bSize spTypes spSizes enChars (st + 1) en =
      if hasTy enChars[en] spTypes[st] then some spSizes[st] else none := by
  simp [partSize, h1, h2, h3, hasTy]

theorem flexMem_spec (hT : nSp ≤ spTypes.length) (hZ : nSp ≤ spSizes.length) (hE : nEn ≤ enChars.length) :
    flexMem nEn nSp bSize spTypes spSizes enChars =
      some (partOff nEn bSize spTypes spSizes enChars (nSp + 1) 0) := by
  unfold flexMem
  obtain ⟨t, ht, hp⟩ := forN_inv (n := nEn) (body := fun en (mem : Nat) =>
      forN nSp (fun st (mem : Nat) => do
        let c ← rd enChars en
        let t ← rd spTypes st
        if hasTy c t then do
          let z ← rd spSizes st
          return mem + z
        else return mem) (mem + bSize)) (s := 0)
    (P := fun k (m : Nat) => m = ((List.range k).map (fun en =>
      ((List.range (nSp + 1)).map (fun s => sizeOf' bSize spTypes spSizes enChars s en)).sum)).sum)
    (by simp)
    (by
      intro en mem hen hm
      obtain ⟨u, hu, hq⟩ := forN_inv (n := nSp) (body := fun st (mem : Nat) => do
          let c ← rd enChars en
          let t ← rd spTypes st
          if hasTy c t then do
            let z ← rd spSizes st
            return mem + z
          else return mem) (s := mem + bSize)
        (P := fun k (m : Nat) => m = mem +
          ((List.range (k + 1)).map (fun s => sizeOf' bSize spTypes spSizes enChars s en)).sum)
        (by simp [part_zero])
        (by
          intro st m hst hm'
          have hp := part_succ (bSize := bSize) (show st < spTypes.length by omega) (show st < spSizes.length by omega)
            (show en < enChars.length by omega)
          rw [rd_some (show en < enChars.length by omega), rd_some (show st < spTypes.length by omega),
            rd_some (show st < spSizes.length by omega)]
          simp only [Option.bind_eq_bind, Option.bind_some, Option.pure_def]
          rw [sum_range_succ, ← Nat.add_assoc, ← hm', sizeOf', hp]
          by_cases hh : hasTy enChars[en] spTypes[st] = true
          · simp [hh]
          · simp [hh])
      exact ⟨u, hu, by rw [hq, sum_range_succ _ en, ← hm]⟩)
  rw [ht, hp, sum_comm]
  simp [partOff]

/-- What the pointers of `flex` are to be: the pointer of part `slot` of entity `en` is null if the entity does not
have the part, and the offset of the part otherwise. -/
def wantPtr (nEn bSize : Nat) (spTypes spSizes enChars : List Nat) (slot en : Nat) : Ptr :=
  match partSize bSize spTypes spSizes enChars slot en with
  | none => .null
  | some _ => .at (partOff nEn bSize spTypes spSizes enChars slot en)

theorem partOff_en (slot en : Nat) : partOff nEn bSize spTypes spSizes enChars slot (en + 1) =
    partOff nEn bSize spTypes spSizes enChars slot en + sizeOf' bSize spTypes spSizes enChars slot en := by
  unfold partOff; rw [sum_range_succ]; omega

theorem partOff_slot (slot : Nat) : partOff nEn bSize spTypes spSizes enChars (slot + 1) 0 =
    partOff nEn bSize spTypes spSizes enChars slot nEn := by
  unfold partOff; rw [sum_range_succ]; simp

/-- **C28**. `flex` reserves as much memory as it hands out, and sets all pointers: the pointer of every part of every
entity, null if and only if the entity lacks the part, and a last one to the end of the memory. -/
theorem C28_flex (hT : nSp ≤ spTypes.length) (hZ : nSp ≤ spSizes.length) (hE : nEn ≤ enChars.length) :
    ∃ ptrs mem, flexPtrs nEn nSp bSize spTypes spSizes enChars = some (ptrs, mem) ∧
      flexMem nEn nSp bSize spTypes spSizes enChars = some mem ∧ ptrs.length = (nSp + 1) * nEn + 1 ∧
      ptrs[(nSp + 1) * nEn]? = some (some (.at mem)) ∧
      ∀ slot en, slot ≤ nSp → en < nEn →
        ptrs[nEn * slot + en]? = some (some (wantPtr nEn bSize spTypes spSizes enChars slot en)) := by
  have hidx : ∀ st en, st < nSp + 1 → en < nEn → nEn * st + en < (nSp + 1) * nEn := by
    intro st en h1 h2
    calc nEn * st + en < nEn * st + nEn := by omega
      _ = (st + 1) * nEn := by rw [Nat.add_mul, Nat.mul_comm]; omega
      _ ≤ (nSp + 1) * nEn := Nat.mul_le_mul_right _ (by omega)
  have hinj : ∀ s e s' e', e < nEn → e' < nEn → nEn * s + e = nEn * s' + e' → s = s' ∧ e = e' := by
    intro s e s' e' h1 h2 h
    have hs : s = s' := by
      have a := Nat.mul_add_div (show 0 < nEn by omega) s e
      have b := Nat.mul_add_div (show 0 < nEn by omega) s' e'
      rw [h, b, Nat.div_eq_of_lt h1, Nat.div_eq_of_lt h2] at a
      omega
    subst hs
    exact ⟨rfl, by omega⟩
  unfold flexPtrs
  obtain ⟨⟨p1, r1⟩, e1, l1, q1, f1⟩ := forN_inv (n := nEn) (body := fun en (s : List (Option Ptr) × Nat) => do
      let ptrs ← wr s.1 en (some (.at s.2))
      return (ptrs, s.2 + bSize)) (s := (List.replicate ((nSp + 1) * nEn + 1) none, 0))
    (P := fun k (s : List (Option Ptr) × Nat) => s.1.length = (nSp + 1) * nEn + 1 ∧
      s.2 = partOff nEn bSize spTypes spSizes enChars 0 k ∧
      ∀ en, en < k → s.1[en]? = some (some (wantPtr nEn bSize spTypes spSizes enChars 0 en)))
    (by simp [partOff])
    (by
      rintro k ⟨p, r⟩ hk ⟨h1, h2, h3⟩
      simp only at h1 h2 h3
      have hlt : k < p.length := by have := hidx 0 k (by omega) hk; omega
      refine ⟨(p.set k (some (.at r)), r + bSize), ?_, by simp [h1], ?_, ?_⟩
      · simp only [wr_some hlt, Option.bind_eq_bind, Option.bind_some, Option.pure_def]
      · simp only; rw [partOff_en, part_zero, h2]
      · intro en hen
        by_cases e : en = k
        · subst e; simp [hlt, wantPtr, partSize, h2]
        · simp only [List.getElem?_set_ne (Ne.symm e)]
          exact h3 en (by omega))
  obtain ⟨⟨p2, r2⟩, e2, l2, q2, f2⟩ := forN_inv (n := nSp) (body := fun st (s : List (Option Ptr) × Nat) =>
      forN nEn (fun en (s : List (Option Ptr) × Nat) => do
        let ptrId := nEn * (st + 1) + en
        let c ← rd enChars en
        let t ← rd spTypes st
        if hasTy c t then do
          let ptrs ← wr s.1 ptrId (some (.at s.2))
          let z ← rd spSizes st
          return (ptrs, s.2 + z)
        else do
          let ptrs ← wr s.1 ptrId (some .null)
          return (ptrs, s.2)) s) (s := (p1, r1))
    (P := fun k (s : List (Option Ptr) × Nat) => s.1.length = (nSp + 1) * nEn + 1 ∧
      s.2 = partOff nEn bSize spTypes spSizes enChars (k + 1) 0 ∧
      ∀ slot en, slot ≤ k → en < nEn →
        s.1[nEn * slot + en]? = some (some (wantPtr nEn bSize spTypes spSizes enChars slot en)))
    (by
      refine ⟨l1, by rw [partOff_slot]; exact q1, ?_⟩
      intro slot en hs he
      obtain rfl : slot = 0 := by omega
      simpa using f1 en he)
    (by
      rintro k ⟨p, r⟩ hk ⟨h1, h2, h3⟩
      simp only at h1 h2 h3
      obtain ⟨⟨p', r'⟩, e', l', q', f', g'⟩ := forN_inv (n := nEn) (body := fun en (s : List (Option Ptr) × Nat) => do
          let ptrId := nEn * (k + 1) + en
          let c ← rd enChars en
          let t ← rd spTypes k
          if hasTy c t then do
            let ptrs ← wr s.1 ptrId (some (.at s.2))
            let z ← rd spSizes k
            return (ptrs, s.2 + z)
          else do
            let ptrs ← wr s.1 ptrId (some .null)
            return (ptrs, s.2)) (s := (p, r))
        (P := fun m (s : List (Option Ptr) × Nat) => s.1.length = (nSp + 1) * nEn + 1 ∧
          s.2 = partOff nEn bSize spTypes spSizes enChars (k + 1) m ∧
          (∀ slot en, slot ≤ k → en < nEn →
            s.1[nEn * slot + en]? = some (some (wantPtr nEn bSize spTypes spSizes enChars slot en))) ∧
          ∀ en, en < m →
            s.1[nEn * (k + 1) + en]? = some (some (wantPtr nEn bSize spTypes spSizes enChars (k + 1) en)))
        ⟨h1, h2, h3, by intro en h; omega⟩
        (by
          rintro m ⟨p, r⟩ hm ⟨h1, h2, h3, h4⟩
          simp only at h1 h2 h3 h4
          have hlt : nEn * (k + 1) + m < p.length := by have := hidx (k + 1) m (by omega) hm; omega
          have hp := part_succ (bSize := bSize) (show k < spTypes.length by omega) (show k < spSizes.length by omega)
            (show m < enChars.length by omega)
          rw [rd_some (show m < enChars.length by omega), rd_some (show k < spTypes.length by omega),
            rd_some (show k < spSizes.length by omega)]
          simp only [Option.bind_eq_bind, Option.bind_some, Option.pure_def, wr_some hlt]
          have hset : ∀ v, some v = some (wantPtr nEn bSize spTypes spSizes enChars (k + 1) m) →
              (∀ slot en, slot ≤ k → en < nEn → (p.set (nEn * (k + 1) + m) (some v))[nEn * slot + en]? =
                some (some (wantPtr nEn bSize spTypes spSizes enChars slot en))) ∧
              ∀ en, en < m + 1 → (p.set (nEn * (k + 1) + m) (some v))[nEn * (k + 1) + en]? =
                some (some (wantPtr nEn bSize spTypes spSizes enChars (k + 1) en)) := by
            intro v hv
            refine ⟨?_, ?_⟩
            · intro slot en hs he
              rw [List.getElem?_set_ne]
              · exact h3 slot en hs he
              · intro h; have := (hinj _ _ _ _ hm he h).1; omega
            · intro en he
              by_cases e : en = m
              · subst e; rw [List.getElem?_set_self hlt, hv]
              · rw [List.getElem?_set_ne (by omega)]
                exact h4 en (by omega)
          by_cases hh : hasTy enChars[m] spTypes[k] = true
          · rw [if_pos hh] at hp ⊢
            refine ⟨_, rfl, by simp [h1], ?_, hset _ ?_⟩
            · simp only; rw [partOff_en, sizeOf', hp, h2]
            · rw [wantPtr, hp, h2]
          · rw [if_neg hh] at hp ⊢
            refine ⟨_, rfl, by simp [h1], ?_, hset _ ?_⟩
            · simp only; rw [partOff_en, sizeOf', hp, h2]; rfl
            · rw [wantPtr, hp])
      refine ⟨(p', r'), e', l', by rw [partOff_slot]; exact q', ?_⟩
      intro slot en hs he
      by_cases e : slot = k + 1
      · subst e; exact g' en he
      · exact f' slot en (by omega) he)
  simp only at l2 q2 f2
  have hlt : (nSp + 1) * nEn < p2.length := by omega
  refine ⟨p2.set ((nSp + 1) * nEn) (some (.at r2)), r2, ?_, ?_, by simp [l2], by simp [hlt], ?_⟩
  · simp only [Option.bind_eq_bind, Option.pure_def] at e1 e2 ⊢
    simp only [e1, Option.bind_some, e2, wr_some hlt]
  · rw [flexMem_spec hT hZ hE, q2]
  · intro slot en hs he
    rw [List.getElem?_set_ne]
    · exact f2 slot en hs he
    · have := hidx slot en (by omega) he; omega

theorem partOff_mono_en {slot a b : Nat} (h : a ≤ b) : partOff nEn bSize spTypes spSizes enChars slot a ≤
    partOff nEn bSize spTypes spSizes enChars slot b := by
  induction h with
  | refl => exact Nat.le_refl _
  | step _ ih => rw [partOff_en]; omega

theorem partOff_mono_slot {a b : Nat} (h : a ≤ b) : partOff nEn bSize spTypes spSizes enChars a 0 ≤
    partOff nEn bSize spTypes spSizes enChars b 0 := by
  induction h with
  | refl => exact Nat.le_refl _
  | step _ ih =>
    rw [partOff_slot]
    exact Nat.le_trans ih (partOff_mono_en (Nat.zero_le _))

/-- **C28**. The parts handed out by `flex` lie inside of the reserved memory and do not overlap: for two different
parts (of the same or of different entities) the memory of one ends before that of the other begins. -/
theorem C28_flex_disjoint (hT : nSp ≤ spTypes.length) (hZ : nSp ≤ spSizes.length) (hE : nEn ≤ enChars.length) :
    ∃ ptrs mem, flexPtrs nEn nSp bSize spTypes spSizes enChars = some (ptrs, mem) ∧
      flexMem nEn nSp bSize spTypes spSizes enChars = some mem ∧
      ∀ slot en o z, slot ≤ nSp → en < nEn → ptrs[nEn * slot + en]? = some (some (.at o)) →
        partSize bSize spTypes spSizes enChars slot en = some z → o + z ≤ mem ∧
        ∀ slot' en' o' z', slot' ≤ nSp → en' < nEn → ptrs[nEn * slot' + en']? = some (some (.at o')) →
          partSize bSize spTypes spSizes enChars slot' en' = some z' → (slot, en) ≠ (slot', en') →
          o + z ≤ o' ∨ o' + z' ≤ o := by
  obtain ⟨ptrs, mem, h1, h2, h3, h4, h5⟩ := C28_flex hT hZ hE
  refine ⟨ptrs, mem, h1, h2, ?_⟩
  have hoff : ∀ slot en o z, slot ≤ nSp → en < nEn → ptrs[nEn * slot + en]? = some (some (.at o)) →
      partSize bSize spTypes spSizes enChars slot en = some z →
      o = partOff nEn bSize spTypes spSizes enChars slot en ∧
      o + z = partOff nEn bSize spTypes spSizes enChars slot (en + 1) := by
    intro slot en o z a b c d
    rw [h5 slot en a b, wantPtr, d] at c
    simp at c
    rw [partOff_en, sizeOf', d]
    simp [c]
  have hmem : mem = partOff nEn bSize spTypes spSizes enChars (nSp + 1) 0 := by
    rw [flexMem_spec hT hZ hE] at h2
    exact (Option.some.inj h2).symm
  have hrow : ∀ slot en, en < nEn → partOff nEn bSize spTypes spSizes enChars slot (en + 1) ≤
      partOff nEn bSize spTypes spSizes enChars (slot + 1) 0 := by
    intro slot en he
    rw [partOff_slot]
    exact partOff_mono_en he
  have hlt : ∀ slot en slot' en', en < nEn → slot < slot' →
      partOff nEn bSize spTypes spSizes enChars slot (en + 1) ≤ partOff nEn bSize spTypes spSizes enChars slot' en' := by
    intro slot en slot' en' he hs
    exact Nat.le_trans (hrow slot en he) (Nat.le_trans (partOff_mono_slot hs) (partOff_mono_en (Nat.zero_le _)))
  intro slot en o z a b c d
  obtain ⟨e1, e2⟩ := hoff slot en o z a b c d
  refine ⟨?_, ?_⟩
  · rw [e2, hmem]
    exact Nat.le_trans (hrow slot en b) (partOff_mono_slot (by omega))
  · intro slot' en' o' z' a' b' c' d' hne
    obtain ⟨e1', e2'⟩ := hoff slot' en' o' z' a' b' c' d'
    rw [e2, e2', e1, e1']
    rcases Nat.lt_trichotomy slot slot' with h | h | h
    · exact .inl (hlt _ _ _ _ b h)
    · subst h
      rcases Nat.lt_trichotomy en en' with h | h | h
      · exact .inl (partOff_mono_en h)
      · subst h; exact absurd rfl hne
      · exact .inr (partOff_mono_en h)
    · exact .inr (hlt _ _ _ _ b' h)

/-- Example of the documentation of `flex` (src/data/Dynamic.h:76-92). -/
example : flexPtrs 5 3 2 [0b010, 0b011, 0b100] [5, 3, 8] [0b100, 0b010, 0b011, 0b001, 0b111] =
    some ([.at 0, .at 2, .at 4, .at 6, .at 8, .null, .at 10, .at 15, .null, .at 20, .null, .null, .at 25, .null,
      .at 28, .at 31, .null, .null, .null, .at 39, .at 47].map some, 47) ∧
    flexMem 5 3 2 [0b010, 0b011, 0b100] [5, 3, 8] [0b100, 0b010, 0b011, 0b001, 0b111] = some 47 := by decide

end Edge.Data
