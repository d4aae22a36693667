import Verif.Shared.Lemmas
/-! The static split and the zero-initialisation by the workers. -/
namespace Edge.Shared
open Edge.Sparse

/-- Start of the block of worker `w`. -/
def bs (nW n w : Nat) : Nat := n / nW * w + min (n % nW) w

theorem numaBlock_eq {nW : Nat} (h : 0 < nW) (n w : Nat) :
    numaBlock nW n w = some (bs nW n w, bs nW n (w + 1) - bs nW n w) := by
  unfold numaBlock bs
  have : nW ≠ 0 := by omega
  simp only [this, ne_eq, not_false_eq_true, decide_true, check_true, Option.bind_eq_bind, Option.bind_some,
    Option.pure_def, Option.some.injEq, Prod.mk.injEq, Nat.mul_add_one]
  generalize n / nW = q
  generalize n % nW = r
  constructor
  · split <;> omega
  · split <;> omega

theorem bs_mono (nW n w : Nat) : bs nW n w ≤ bs nW n (w + 1) := by
  unfold bs; rw [Nat.mul_add_one]; generalize n / nW = q; generalize n % nW = r; omega

theorem bs_mono' (nW n : Nat) {w w' : Nat} (h : w ≤ w') : bs nW n w ≤ bs nW n w' := by
  induction w' with
  | zero => have : w = 0 := by omega
            subst this; exact Nat.le_refl _
  | succ k ih =>
    rcases Nat.lt_or_ge w (k + 1) with h' | h'
    · exact Nat.le_trans (ih (by omega)) (bs_mono _ _ _)
    · have : w = k + 1 := by omega
      subst this; exact Nat.le_refl _

theorem bs_zero (nW n : Nat) : bs nW n 0 = 0 := by simp [bs]

theorem bs_end {nW : Nat} (h : 0 < nW) (n : Nat) : bs nW n nW = n := by
  unfold bs
  have h1 := Nat.mod_lt n h
  have h2 := Nat.div_add_mod n nW
  rw [Nat.mul_comm] at h2
  omega

/-- Monotone starts cover. -/
theorem cover (f : Nat → Nat) (h0 : f 0 = 0) (k e : Nat) (he : e < f k) : ∃ w, w < k ∧ f w ≤ e ∧ e < f (w + 1) := by
  induction k with
  | zero => omega
  | succ k ih =>
    rcases Nat.lt_or_ge e (f k) with h | h
    · obtain ⟨w, a, b, c⟩ := ih h
      exact ⟨w, by omega, b, c⟩
    · exact ⟨k, by omega, h, he⟩

theorem numaInit_ok {nW n off w : Nat} {arr : List Int} (h : 0 < nW) (hw : w < nW) (ha : off + n ≤ arr.length) :
    ∃ arr', numaInit nW n off w arr = some arr' ∧ arr'.length = arr.length ∧
      ∀ i, arr'[i]? = if off + bs nW n w ≤ i ∧ i < off + bs nW n (w + 1) then some 0 else arr[i]? := by
  unfold numaInit
  simp only [numaBlock_eq h, Option.bind_eq_bind, Option.bind_some]
  have hle : bs nW n (w + 1) ≤ n := by
    have := bs_mono' nW n (show w + 1 ≤ nW by omega)
    rwa [bs_end h] at this
  have hm := bs_mono nW n w
  obtain ⟨t, ht, h1, h2⟩ := forN_inv (n := bs nW n (w + 1) - bs nW n w)
    (body := fun en arr => wr arr (off + bs nW n w + en) (0 : Int)) (s := arr)
    (fun k (a : List Int) => a.length = arr.length ∧
      ∀ i, a[i]? = if off + bs nW n w ≤ i ∧ i < off + bs nW n w + k then some 0 else arr[i]?)
    ⟨rfl, by intro i; rw [if_neg (by omega)]⟩ (by
      rintro k a hk ⟨a1, a2⟩
      have hl : off + bs nW n w + k < a.length := by omega
      refine ⟨_, wr_some hl 0, by simpa using a1, ?_⟩
      intro i
      by_cases hi : i = off + bs nW n w + k
      · subst hi
        rw [List.getElem?_set_self hl, if_pos (by omega)]
      · rw [List.getElem?_set_ne (by omega), a2]
        by_cases hc : off + bs nW n w ≤ i ∧ i < off + bs nW n w + k
        · rw [if_pos hc, if_pos (by omega)]
        · rw [if_neg hc, if_neg (by omega)])
  refine ⟨t, ht, h1, ?_⟩
  intro i
  rw [h2 i, show off + bs nW n w + (bs nW n (w + 1) - bs nW n w) = off + bs nW n (w + 1) by omega]

/-- Entry `i` belongs to worker `w` when consecutive groups of the given sizes are split one by one from `off`. -/
def mine (nW w : Nat) (ns : List Nat) (off i : Nat) : Prop :=
  ∃ tg, ∃ h : tg < ns.length, off + offs ns tg + bs nW ns[tg] w ≤ i ∧ i < off + offs ns tg + bs nW ns[tg] (w + 1)

theorem mine_unique {nW : Nat} {ns : List Nat} (h : 0 < nW) (off i : Nat) (h1 : off ≤ i) (h2 : i < off + ns.sum) :
    ∃ w, w < nW ∧ mine nW w ns off i ∧ ∀ w', w' < nW → mine nW w' ns off i → w' = w := by
  rw [← offs_total] at h2
  obtain ⟨tg, t1, t2, t3⟩ := cover (offs ns) (by simp [offs]) ns.length (i - off) (by omega)
  rw [offs_succ t1] at t3
  have hb := bs_end h ns[tg]
  obtain ⟨w, w1, w2, w3⟩ := cover (bs nW ns[tg]) (bs_zero _ _) nW (i - off - offs ns tg) (by omega)
  refine ⟨w, w1, ⟨tg, t1, by omega, by omega⟩, ?_⟩
  rintro w' hw' ⟨tg', t1', t2', t3'⟩
  have hle' : bs nW ns[tg'] (w' + 1) ≤ ns[tg'] := by
    have := bs_mono' nW ns[tg'] (show w' + 1 ≤ nW by omega)
    rwa [bs_end h] at this
  have hs' := offs_succ t1'
  have htg : tg' = tg := by
    rcases Nat.lt_trichotomy tg tg' with hlt | heq | hgt
    · have := offs_mono (l := ns) (show tg + 1 ≤ tg' by omega)
      rw [offs_succ t1] at this
      omega
    · exact heq.symm
    · have := offs_mono (l := ns) (show tg' + 1 ≤ tg by omega)
      omega
  subst htg
  rcases Nat.lt_trichotomy w w' with hlt | heq | hgt
  · have := bs_mono' nW ns[tg'] (show w + 1 ≤ w' by omega)
    omega
  · exact heq.symm
  · have := bs_mono' nW ns[tg'] (show w' + 1 ≤ w by omega)
    omega

theorem mine_range {nW w : Nat} {ns : List Nat} (h : 0 < nW) (hw : w < nW) {off i : Nat} (hm : mine nW w ns off i) :
    off ≤ i ∧ i < off + ns.sum := by
  obtain ⟨tg, h1, h2, h3⟩ := hm
  have hle : bs nW ns[tg] (w + 1) ≤ ns[tg] := by
    have := bs_mono' nW ns[tg] (show w + 1 ≤ nW by omega)
    rwa [bs_end h] at this
  have := offs_succ h1
  have := offs_le_sum (l := ns) (tg + 1)
  omega

open Classical in
theorem numaGroups_ok {nW nTgs nVas w off : Nat} {nEns : List Nat} {arr : List Int} (h : 0 < nW) (hw : w < nW)
    (hn : nEns.length = nTgs) (ha : off + (nEns.map (· * nVas)).sum ≤ arr.length) :
    ∃ arr', numaGroups nW nTgs nVas w nEns (off, arr) = some (off + (nEns.map (· * nVas)).sum, arr') ∧
      arr'.length = arr.length ∧
      ∀ i, arr'[i]? = if mine nW w (nEns.map (· * nVas)) off i then some 0 else arr[i]? := by
  unfold numaGroups
  obtain ⟨t, ht, h1, h2, h3⟩ := forN_inv (n := nTgs)
    (body := fun tg (s : Nat × List Int) => do
      let n ← rd nEns tg
      let arr ← numaInit nW (n * nVas) s.1 w s.2
      return (s.1 + n * nVas, arr)) (s := (off, arr))
    (fun k (s : Nat × List Int) => s.1 = off + offs (nEns.map (· * nVas)) k ∧ s.2.length = arr.length ∧
      ∀ i, s.2[i]? = if ∃ tg, ∃ h : tg < (nEns.map (· * nVas)).length, tg < k ∧
        off + offs (nEns.map (· * nVas)) tg + bs nW (nEns.map (· * nVas))[tg] w ≤ i ∧
        i < off + offs (nEns.map (· * nVas)) tg + bs nW (nEns.map (· * nVas))[tg] (w + 1) then some 0 else arr[i]?)
    ⟨by simp [offs], rfl, by
      intro i; rw [if_neg]; rintro ⟨_, _, hh, _⟩; omega⟩ (by
    rintro k ⟨o, a⟩ hk ⟨a1, a2, a3⟩
    simp only at a1 a2 a3
    have hk' : k < nEns.length := by omega
    have hk2 : k < (nEns.map (· * nVas)).length := by simpa using hk'
    have hs := offs_succ hk2
    have hle := offs_le_sum (l := nEns.map (· * nVas)) (k + 1)
    have hel : (nEns.map (· * nVas))[k] = nEns[k] * nVas := by simp
    obtain ⟨a', b1, b2, b3⟩ := numaInit_ok (n := nEns[k] * nVas) (off := o) (arr := a) h hw (by omega)
    refine ⟨(o + nEns[k] * nVas, a'), ?_, ?_, by simp only; omega, ?_⟩
    · simp only [rd_some hk', Option.bind_eq_bind, Option.bind_some, b1]; rfl
    · simp only; omega
    · intro i
      simp only
      rw [b3 i, a3 i]
      by_cases hc : ∃ tg, ∃ h : tg < (nEns.map (· * nVas)).length, tg < k ∧
        off + offs (nEns.map (· * nVas)) tg + bs nW (nEns.map (· * nVas))[tg] w ≤ i ∧
        i < off + offs (nEns.map (· * nVas)) tg + bs nW (nEns.map (· * nVas))[tg] (w + 1)
      · obtain ⟨tg, c1, c2, c3, c4⟩ := id hc
        have hx : ∃ tg, ∃ h : tg < (nEns.map (· * nVas)).length, tg < k + 1 ∧
            off + offs (nEns.map (· * nVas)) tg + bs nW (nEns.map (· * nVas))[tg] w ≤ i ∧
            i < off + offs (nEns.map (· * nVas)) tg + bs nW (nEns.map (· * nVas))[tg] (w + 1) :=
          ⟨tg, c1, by omega, c3, c4⟩
        rw [if_pos hc, if_pos hx]
        split <;> rfl
      · rw [if_neg hc]
        by_cases hd : o + bs nW (nEns[k] * nVas) w ≤ i ∧ i < o + bs nW (nEns[k] * nVas) (w + 1)
        · rw [if_pos hd, if_pos]
          refine ⟨k, hk2, by omega, ?_, ?_⟩
          · rw [hel, ← a1]; exact hd.1
          · rw [hel, ← a1]; exact hd.2
        · rw [if_neg hd, if_neg]
          rintro ⟨tg, c1, c2, c3, c4⟩
          by_cases htk : tg = k
          · subst htk
            apply hd
            rw [hel, ← a1] at c3 c4
            exact ⟨c3, c4⟩
          · exact hc ⟨tg, c1, by omega, c3, c4⟩)
  simp only [Option.bind_eq_bind] at ht ⊢
  refine ⟨t.2, ?_, h2, ?_⟩
  · rw [ht]
    congr 1
    have : offs (nEns.map (· * nVas)) nTgs = (nEns.map (· * nVas)).sum := by
      rw [← offs_total]; simp [hn]
    rw [← this, ← h1]
  · intro i
    rw [h3 i]
    have : (∃ tg, ∃ h : tg < (nEns.map (· * nVas)).length, tg < nTgs ∧
        off + offs (nEns.map (· * nVas)) tg + bs nW (nEns.map (· * nVas))[tg] w ≤ i ∧
        i < off + offs (nEns.map (· * nVas)) tg + bs nW (nEns.map (· * nVas))[tg] (w + 1)) ↔
        mine nW w (nEns.map (· * nVas)) off i := by
      constructor
      · rintro ⟨tg, a, _, b, c⟩; exact ⟨tg, a, b, c⟩
      · rintro ⟨tg, a, b, c⟩; exact ⟨tg, a, by rw [List.length_map, hn] at a; exact a, b, c⟩
    simp only [this]

/-- The entries zeroed by a worker in the initialisation by time groups. -/
def mineTgs (nW w nVas : Nat) (nIn nSe : List Nat) (i : Nat) : Prop :=
  mine nW w (nIn.map (· * nVas)) 0 i ∨ mine nW w (nSe.map (· * nVas)) (nIn.map (· * nVas)).sum i

open Classical in
theorem numaInitTgs_ok {nW nTgs nVas w : Nat} {nIn nSe : List Nat} {arr : List Int} (h : 0 < nW) (hw : w < nW)
    (h1 : nIn.length = nTgs) (h2 : nSe.length = nTgs)
    (ha : (nIn.map (· * nVas)).sum + (nSe.map (· * nVas)).sum ≤ arr.length) :
    ∃ arr', numaInitTgs nW nTgs nVas w nIn nSe arr = some arr' ∧ arr'.length = arr.length ∧
      ∀ i, arr'[i]? = if mineTgs nW w nVas nIn nSe i then some 0 else arr[i]? := by
  obtain ⟨a1, e1, l1, g1⟩ := numaGroups_ok (nVas := nVas) (off := 0) (arr := arr) h hw h1 (by omega)
  obtain ⟨a2, e2, l2, g2⟩ := numaGroups_ok (nVas := nVas) (off := (nIn.map (· * nVas)).sum) (arr := a1) h hw h2 (by omega)
  refine ⟨a2, ?_, by omega, ?_⟩
  · unfold numaInitTgs
    rw [Nat.zero_add] at e1
    simp only [Option.bind_eq_bind, e1, e2, Option.bind_some]
    rfl
  · intro i
    rw [g2, g1]
    unfold mineTgs
    by_cases hA : mine nW w (nSe.map (· * nVas)) (nIn.map (· * nVas)).sum i
    · rw [if_pos hA, if_pos (Or.inr hA)]
    · rw [if_neg hA]
      by_cases hB : mine nW w (nIn.map (· * nVas)) 0 i
      · rw [if_pos hB, if_pos (Or.inl hB)]
      · rw [if_neg hB, if_neg (by rintro (h | h); exact hB h; exact hA h)]

/-- The initialisation executed by several workers one after the other. -/
def runAll (f : Nat → List Int → Option (List Int)) : List Nat → List Int → Option (List Int)
  | [], a => some a
  | w :: ws, a => (f w a).bind (runAll f ws)

open Classical in
theorem runAll_ok {f : Nat → List Int → Option (List Int)} {Z : Nat → Nat → Prop} {nW L : Nat}
    (hf : ∀ w arr, w < nW → arr.length = L → ∃ arr', f w arr = some arr' ∧ arr'.length = L ∧
      ∀ i, arr'[i]? = if Z w i then some 0 else arr[i]?) :
    ∀ (ws : List Nat) (arr : List Int), (∀ w, w ∈ ws → w < nW) → arr.length = L →
    ∃ arr', runAll f ws arr = some arr' ∧ arr'.length = L ∧
      ∀ i, arr'[i]? = if ∃ w, w ∈ ws ∧ Z w i then some 0 else arr[i]?
  | [], arr, _, hl => ⟨arr, rfl, hl, by simp⟩
  | w :: ws, arr, hws, hl => by
    obtain ⟨a1, e1, l1, g1⟩ := hf w arr (hws w List.mem_cons_self) hl
    obtain ⟨a2, e2, l2, g2⟩ := runAll_ok hf ws a1 (fun v hv => hws v (List.mem_cons_of_mem _ hv)) l1
    refine ⟨a2, by simp [runAll, e1, e2], l2, ?_⟩
    intro i
    rw [g2, g1]
    by_cases hA : ∃ v, v ∈ ws ∧ Z v i
    · obtain ⟨v, hv, hz⟩ := hA
      rw [if_pos ⟨v, hv, hz⟩, if_pos ⟨v, List.mem_cons_of_mem _ hv, hz⟩]
    · rw [if_neg hA]
      by_cases hB : Z w i
      · rw [if_pos hB, if_pos ⟨w, List.mem_cons_self, hB⟩]
      · rw [if_neg hB, if_neg]
        rintro ⟨v, hv, hz⟩
        rcases List.mem_cons.1 hv with rfl | hv
        · exact hB hz
        · exact hA ⟨v, hv, hz⟩

end Edge.Shared
