import Verif.Lts.Model
import Verif.Dist.Spec
import Mathlib.Tactic.Common
import Mathlib.Algebra.BigOperators.Group.List.Basic
/-!
Local time stepping types of the elements (C85): the bits which steer the solver's choice of data are the relations of the
elements' time groups.
-/
namespace Edge.Lts
open Edge

/-! ### Specification -/

/-- Element `el` is in time group `t`: the inner elements of the groups are stored one group after the other, then the send
elements of the groups. -/
def InTg (nIn nSe : List Nat) (el t : Nat) : Prop :=
  (t < nIn.length ∧ (nIn.take t).sum ≤ el ∧ el < (nIn.take (t + 1)).sum) ∨
  (t < nSe.length ∧ nIn.sum + (nSe.take t).sum ≤ el ∧ el < nIn.sum + (nSe.take (t + 1)).sum)

/-- Face `fa` of element `el` is one of channel `c` of the list of channels. -/
def Sends (sendEl sendFa : List Nat) (chs : List Dist.Chan) (c : Dist.Chan) (el fa : Nat) : Prop :=
  ∃ ch co, chs[ch]? = some c ∧ co < c.n ∧ sendEl[Dist.firstFace chs ch + co]? = some el ∧
    sendFa[Dist.firstFace chs ch + co]? = some fa

/-- Communication of a rank: channels, elements and faces in the order of the messages. `none` for a run on a single rank. -/
structure CommSpec where
  chs : List Dist.Chan
  el : List Nat
  fa : List Nat

/-- The arrays describe the communication: every face is listed once; the groups fit into the type of the code. -/
structure CommSpec.Ok (c : CommSpec) : Prop where
  len : c.el.length = Dist.nFaces c.chs
  lenF : c.fa.length = Dist.nFaces c.chs
  once : ∀ i j : Nat, i < c.el.length → j < c.el.length → c.el[i]? = c.el[j]? → c.fa[i]? = c.fa[j]? → i = j
  small : ∀ ch ∈ c.chs, ch.tgAd < 65535

/-- The arrays handed to the code. -/
def CommSpec.arrays (c : CommSpec) : Comm where
  fa := c.fa
  el := c.el
  cs := Dist.encode c.chs

/-- Time group `t'` of the element at a face of element `el`, which is in group `t`: the group of the neighbour, if there is
one on the same rank; the remote group, if the face is communicated; at the boundary of the domain the group of the element
itself. -/
def AdTg (nElFas : Nat) (elFaEl : List (Option Nat)) (nIn nSe : List Nat) (comm : Option CommSpec) (el fa t t' : Nat) : Prop :=
  (∃ ad, elFaEl[el * nElFas + fa]? = some (some ad) ∧ InTg nIn nSe ad t') ∨
  (elFaEl[el * nElFas + fa]? = some none ∧
    ((∃ c ch, comm = some c ∧ Sends c.el c.fa c.chs ch el fa ∧ ch.tgAd = t') ∨
     ((∀ c ch, comm = some c → ¬ Sends c.el c.fa c.chs ch el fa) ∧ t' = t)))

/-! ### Time groups -/

theorem take_sum_succ {l : List Nat} {i : Nat} (h : i < l.length) : (l.take (i + 1)).sum = (l.take i).sum + l[i] := by
  rw [List.take_add_one, List.getElem?_eq_getElem h, List.sum_append_nat]
  simp

theorem take_sum_mono (l : List Nat) {i j : Nat} (h : i ≤ j) : (l.take i).sum ≤ (l.take j).sum := by
  rw [show l.take i = (l.take j).take i by rw [List.take_take, Nat.min_eq_left h]]
  conv => rhs; rw [← List.take_append_drop i (l.take j)]
  rw [List.sum_append_nat]
  omega

theorem take_sum_le (l : List Nat) (i : Nat) : (l.take i).sum ≤ l.sum := by
  conv => rhs; rw [← List.take_append_drop i l]
  rw [List.sum_append_nat]
  omega

theorem take_sum_lt_inj {l : List Nat} {i j el : Nat} (h1 : (l.take i).sum ≤ el) (h2 : el < (l.take (i + 1)).sum)
    (h3 : (l.take j).sum ≤ el) (h4 : el < (l.take (j + 1)).sum) : i = j := by
  rcases Nat.lt_trichotomy i j with h | h | h
  · have := take_sum_mono l (show i + 1 ≤ j by omega); omega
  · exact h
  · have := take_sum_mono l (show j + 1 ≤ i by omega); omega

theorem InTg.unique {nIn nSe : List Nat} {el t t' : Nat} (h : InTg nIn nSe el t) (h' : InTg nIn nSe el t') : t = t' := by
  rcases h with ⟨_, h1, h2⟩ | ⟨_, h1, h2⟩ <;> rcases h' with ⟨_, k1, k2⟩ | ⟨_, k1, k2⟩
  · exact take_sum_lt_inj h1 h2 k1 k2
  · have := take_sum_le nIn (t + 1); omega
  · have := take_sum_le nIn (t' + 1); omega
  · exact take_sum_lt_inj (l := nSe) (el := el - nIn.sum) (by omega) (by omega) (by omega) (by omega)

theorem findTg_found {n : Nat} {sizes : List Nat} {el f t : Nat} : findTg n sizes el (f, some t) = some (f, some t) := by
  induction n with
  | zero => rfl
  | succ n ih =>
    unfold findTg at ih ⊢
    rw [forN_succ, ih]
    rfl

theorem findTg_spec {sizes : List Nat} {el f : Nat} :
    (∃ t, t < sizes.length ∧ f + (sizes.take t).sum ≤ el ∧ el < f + (sizes.take (t + 1)).sum ∧
      ∃ g, findTg sizes.length sizes el (f, none) = some (g, some t)) ∨
    (¬ (f ≤ el ∧ el < f + sizes.sum) ∧ findTg sizes.length sizes el (f, none) = some (f + sizes.sum, none)) := by
  obtain ⟨s, h1, h2⟩ := forN_inv (n := sizes.length) (s := (f, none)) (body := fun tg (s : Nat × Option Nat) => match s.2 with
    | some _ => some s
    | none => do
      let n ← rd sizes tg
      if s.1 ≤ el ∧ el < s.1 + n then return (s.1, some tg) else return (s.1 + n, none))
    (fun i s => (∃ t, t < i ∧ f + (sizes.take t).sum ≤ el ∧ el < f + (sizes.take (t + 1)).sum ∧ s.2 = some t) ∨
      (¬ (f ≤ el ∧ el < f + (sizes.take i).sum) ∧ s = (f + (sizes.take i).sum, none)))
    (Or.inr ⟨by simp, by simp⟩) (by
    rintro i ⟨g, r⟩ hi h
    rcases h with ⟨t, a1, a2, a3, a4⟩ | ⟨a1, a2⟩
    · simp only at a4
      subst a4
      exact ⟨_, rfl, Or.inl ⟨t, by omega, a2, a3, rfl⟩⟩
    · simp only [Prod.mk.injEq] at a2
      obtain ⟨rfl, rfl⟩ := a2
      have hs := take_sum_succ hi
      simp only [rd_some hi, Option.bind_eq_bind, Option.bind_some]
      split
      · rename_i hc
        exact ⟨_, rfl, Or.inl ⟨i, by omega, hc.1, by omega, rfl⟩⟩
      · rename_i hc
        refine ⟨_, rfl, Or.inr ⟨by omega, ?_⟩⟩
        rw [hs, Nat.add_assoc])
  rcases h2 with ⟨t, a1, a2, a3, a4⟩ | ⟨a1, a2⟩
  · exact Or.inl ⟨t, a1, a2, a3, s.1, by rw [← a4]; exact h1⟩
  · rw [List.take_of_length_le (Nat.le_refl _)] at a1 a2
    exact Or.inr ⟨a1, by rw [← a2]; exact h1⟩

/-- The search returns the group of the element, and aborts if there is none. -/
theorem getTg_iff {nTgs : Nat} {nIn nSe : List Nat} (hi : nIn.length = nTgs) (hs : nSe.length = nTgs) {el t : Nat} :
    getTg nTgs nIn nSe el = some t ↔ InTg nIn nSe el t := by
  have key : ∃ r, getTg nTgs nIn nSe el = r ∧ ((∃ t, r = some t ∧ InTg nIn nSe el t) ∨
      (r = none ∧ ¬ el < nIn.sum + nSe.sum)) := by
    rcases findTg_spec (sizes := nIn) (el := el) (f := 0) with ⟨t, a1, a2, a3, g, a4⟩ | ⟨a1, a2⟩
    · refine ⟨some t, ?_, Or.inl ⟨t, rfl, Or.inl ⟨a1, by omega, by omega⟩⟩⟩
      rw [hi] at a4
      simp [getTg, a4, findTg_found]
    · rw [hi] at a2
      simp only [Nat.zero_add] at a1 a2
      rcases findTg_spec (sizes := nSe) (el := el) (f := nIn.sum) with ⟨t, b1, b2, b3, g, b4⟩ | ⟨b1, b2⟩
      · rw [hs] at b4
        exact ⟨some t, by simp [getTg, a2, b4], Or.inl ⟨t, rfl, Or.inr ⟨b1, b2, b3⟩⟩⟩
      · rw [hs] at b2
        exact ⟨none, by simp [getTg, a2, b2], Or.inr ⟨rfl, by omega⟩⟩
  obtain ⟨r, h1, h2⟩ := key
  rw [h1]
  rcases h2 with ⟨t', rfl, h⟩ | ⟨rfl, h⟩
  · exact ⟨fun e => by cases e; exact h, fun k => by rw [h.unique k]⟩
  · refine ⟨fun e => by simp at e, fun k => ?_⟩
    exfalso
    rcases k with ⟨_, k1, k2⟩ | ⟨_, k1, k2⟩
    · have := take_sum_le nIn (t + 1); omega
    · have := take_sum_le nSe (t + 1); omega

/-! ### Time groups of other ranks -/

theorem findCo_found {c : Comm} {el fa first tgAd t : Nat} : ∀ n, findCo c el fa first n tgAd (some t) = some (some t) := by
  intro n
  induction n with
  | zero => rfl
  | succ n ih =>
    unfold findCo at ih ⊢
    rw [forN_succ, ih]
    rfl

theorem findCo_spec {c : Comm} {el fa first n tgAd : Nat} (h1 : first + n ≤ c.fa.length) (h2 : first + n ≤ c.el.length) :
    ∃ r, findCo c el fa first n tgAd none = some r ∧
      ((r = some (tgAd % 65536) ∧ ∃ i < n, c.el[first + i]? = some el ∧ c.fa[first + i]? = some fa) ∨
       (r = none ∧ ∀ i < n, ¬ (c.el[first + i]? = some el ∧ c.fa[first + i]? = some fa))) := by
  refine forN_inv (n := n) (s := (none : Option Nat)) (body := fun i (r : Option Nat) => match r with
    | some _ => some r
    | none => do
      let f ← rd c.fa (first + i)
      if fa = f then do
        let e ← rd c.el (first + i)
        if el = e then return some (tgAd % 65536) else return none
      else return none)
    (fun k r => (r = some (tgAd % 65536) ∧ ∃ i < k, c.el[first + i]? = some el ∧ c.fa[first + i]? = some fa) ∨
       (r = none ∧ ∀ i < k, ¬ (c.el[first + i]? = some el ∧ c.fa[first + i]? = some fa)))
    (Or.inr ⟨rfl, by omega⟩) ?_
  intro k r hk h
  rcases h with ⟨rfl, i, a1, a2⟩ | ⟨rfl, a⟩
  · exact ⟨_, rfl, Or.inl ⟨rfl, i, by omega, a2⟩⟩
  · have e1 : rd c.fa (first + k) = some c.fa[first + k] := rd_some (by omega)
    have e2 : rd c.el (first + k) = some c.el[first + k] := rd_some (by omega)
    have step : ¬ (c.el[first + k]? = some el ∧ c.fa[first + k]? = some fa) →
        ∀ i < k + 1, ¬ (c.el[first + i]? = some el ∧ c.fa[first + i]? = some fa) := by
      intro hn i hi
      rcases Nat.lt_succ_iff_lt_or_eq.1 hi with h | rfl
      · exact a i h
      · exact hn
    simp only [e1, e2, Option.bind_eq_bind, Option.bind_some]
    unfold rd at e1 e2
    split
    · rename_i hf
      split
      · rename_i he
        exact ⟨_, rfl, Or.inl ⟨rfl, k, by omega, by rw [e2, he], by rw [e1, hf]⟩⟩
      · rename_i he
        refine ⟨_, rfl, Or.inr ⟨rfl, step ?_⟩⟩
        rintro ⟨x, _⟩
        rw [e2] at x
        exact he (Option.some.inj x).symm
    · rename_i hf
      refine ⟨_, rfl, Or.inr ⟨rfl, step ?_⟩⟩
      rintro ⟨_, x⟩
      rw [e1] at x
      exact hf (Option.some.inj x).symm

/-- Group of the element at a face of another rank. -/
theorem getTgComm_spec {c : CommSpec} (hc : c.Ok) (el fa : Nat) :
    ∃ r, getTgComm (some c.arrays) el fa = some r ∧
      ((∃ ch, Sends c.el c.fa c.chs ch el fa ∧ r = some ch.tgAd) ∨
       (r = none ∧ ∀ ch, ¬ Sends c.el c.fa c.chs ch el fa)) := by
  have h0 : rd (Dist.encode c.chs) 0 = some c.chs.length := rfl
  obtain ⟨s, h1, h2⟩ := forN_inv (n := c.chs.length) (s := ((0, none) : Nat × Option Nat))
    (body := commStep c.arrays el fa)
    (fun k s => (∃ ch, Sends c.el c.fa c.chs ch el fa ∧ ch.tgAd < 65535 ∧ s.2 = some ch.tgAd) ∨
      (s = (Dist.firstFace c.chs k, none) ∧ ∀ ch co x, ch < k → c.chs[ch]? = some x → co < x.n →
        ¬ (c.el[Dist.firstFace c.chs ch + co]? = some el ∧ c.fa[Dist.firstFace c.chs ch + co]? = some fa)))
    (Or.inr ⟨by simp [Dist.firstFace, Edge.Sparse.offs], by omega⟩) (by
    rintro k ⟨g, r⟩ hk h
    rcases h with ⟨ch, a1, a2, a3⟩ | ⟨a1, a2⟩
    · simp only at a3
      subst a3
      exact ⟨_, rfl, Or.inl ⟨ch, a1, a2, rfl⟩⟩
    · simp only [Prod.mk.injEq] at a1
      obtain ⟨rfl, rfl⟩ := a1
      obtain ⟨-, -, e1, e2⟩ := Dist.encode_get hk
      have hb : Dist.firstFace c.chs k + c.chs[k].n ≤ Dist.nFaces c.chs := by
        rw [← Dist.firstFace_succ hk]; exact Dist.firstFace_le _ _
      obtain ⟨r, b1, b2⟩ := findCo_spec (c := c.arrays) (el := el) (fa := fa) (first := Dist.firstFace c.chs k)
        (n := c.chs[k].n) (tgAd := c.chs[k].tgAd) (by rw [← hc.lenF] at hb; exact hb) (by rw [← hc.len] at hb; exact hb)
      refine ⟨(Dist.firstFace c.chs k + c.chs[k].n, r), ?_, ?_⟩
      · simp only [CommSpec.arrays] at b1 ⊢
        simp only [commStep, e1, e2, b1, Option.bind_eq_bind, Option.bind_some]
        rfl
      · have hsm := hc.small _ (List.getElem_mem hk)
        rcases b2 with ⟨rfl, i, i1, i2, i3⟩ | ⟨rfl, b2⟩
        · refine Or.inl ⟨c.chs[k], ⟨k, i, List.getElem?_eq_getElem hk, i1, i2, i3⟩, hsm, ?_⟩
          simp only [Option.some.injEq]
          exact Nat.mod_eq_of_lt (by omega)
        · refine Or.inr ⟨by rw [Dist.firstFace_succ hk], ?_⟩
          intro ch co x h1 h2 h3
          rcases Nat.lt_succ_iff_lt_or_eq.1 h1 with h | rfl
          · exact a2 ch co x h h2 h3
          · rw [List.getElem?_eq_getElem hk] at h2
            cases h2
            exact b2 co h3)
  have hg : getTgComm (some c.arrays) el fa = some (match s.2 with
      | some 65535 => none
      | r => r) := by
    simp only [getTgComm, CommSpec.arrays, h0, Option.bind_eq_bind, Option.bind_some] at h1 ⊢
    rw [h1]
    rfl
  rcases h2 with ⟨ch, a1, a2, a3⟩ | ⟨a1, a2⟩
  · refine ⟨some ch.tgAd, ?_, Or.inl ⟨ch, a1, rfl⟩⟩
    rw [hg, a3]
    split
    · rename_i h; simp only [Option.some.injEq] at h; omega
    · rfl
  · refine ⟨none, ?_, Or.inr ⟨rfl, ?_⟩⟩
    · rw [hg, a1]
    · rintro x ⟨ch, co, h1, h2, h3⟩
      exact a2 ch co x (by
        by_contra hn
        rw [List.getElem?_eq_none (by omega)] at h1
        simp at h1) h1 h2 h3

/-- A face is in one channel only. -/
theorem Sends.unique {c : CommSpec} (hc : c.Ok) {el fa : Nat} {a b : Dist.Chan} (ha : Sends c.el c.fa c.chs a el fa)
    (hb : Sends c.el c.fa c.chs b el fa) : a = b := by
  obtain ⟨i, co, a1, a2, a3, a4⟩ := ha
  obtain ⟨j, co', b1, b2, b3, b4⟩ := hb
  have hl : ∀ {k : Nat} {x : Nat}, c.el[k]? = some x → k < c.el.length := fun h => by
    by_contra hn
    rw [List.getElem?_eq_none (by omega)] at h
    simp at h
  have e := hc.once _ _ (hl a3) (hl b3) (by rw [a3, b3]) (by rw [a4, b4])
  have hi : i < c.chs.length := by
    by_contra hn
    rw [List.getElem?_eq_none (by omega)] at a1
    simp at a1
  have hj : j < c.chs.length := by
    by_contra hn
    rw [List.getElem?_eq_none (by omega)] at b1
    simp at b1
  have h1 := Dist.firstFace_succ hi
  have h2 := Dist.firstFace_succ hj
  rw [List.getElem?_eq_getElem hi] at a1
  rw [List.getElem?_eq_getElem hj] at b1
  cases a1
  cases b1
  have : i = j := by
    rcases Nat.lt_trichotomy i j with h | h | h
    · have := Dist.firstFace_mono (chs := c.chs) (show i + 1 ≤ j by omega); omega
    · exact h
    · have := Dist.firstFace_mono (chs := c.chs) (show j + 1 ≤ i by omega); omega
  subst this
  rfl

section
variable {nElFas nTgs nEls : Nat} {elFaEl : List (Option Nat)} {nIn nSe : List Nat} {comm : Option CommSpec}

/-- Group of the element at a face. -/
theorem getTgAd_iff (hi : nIn.length = nTgs) (hs : nSe.length = nTgs) (hc : ∀ c, comm = some c → c.Ok) {tg el fa t : Nat} :
    getTgAd nElFas nTgs elFaEl nIn nSe (comm.map CommSpec.arrays) tg el fa = some t ↔
      AdTg nElFas elFaEl nIn nSe comm el fa tg t := by
  unfold getTgAd AdTg rd
  rcases h : elFaEl[el * nElFas + fa]? with _ | _ | ad
  · simp
  · cases comm with
    | none =>
      simp [getTgComm]
      exact eq_comm
    | some c =>
      obtain ⟨r, h1, h2⟩ := getTgComm_spec (hc c rfl) el fa
      simp only [Option.map_some, Option.bind_eq_bind, Option.bind_some, h1]
      rcases h2 with ⟨ch, k1, rfl⟩ | ⟨rfl, k⟩
      · simp only [Option.getD_some]
        constructor
        · intro e
          exact Or.inr ⟨by simp, Or.inl ⟨c, ch, rfl, k1, Option.some.inj e⟩⟩
        · rintro (⟨ad, e, _⟩ | ⟨_, ⟨c', ch', e, e2, e3⟩ | ⟨e, _⟩⟩)
          · simp at e
          · cases e
            rw [k1.unique (hc c rfl) e2, e3]
            rfl
          · exact absurd k1 (e c ch rfl)
      · simp only [Option.getD_none]
        constructor
        · intro e
          exact Or.inr ⟨by simp, Or.inr ⟨fun c' ch e => by cases e; exact k ch, (Option.some.inj e).symm⟩⟩
        · rintro (⟨ad, e, _⟩ | ⟨_, ⟨c', ch', e, e2, e3⟩ | ⟨_, rfl⟩⟩)
          · simp at e
          · cases e
            exact absurd e2 (k ch')
          · rfl
  · simp only [Option.bind_eq_bind, Option.bind_some, getTg_iff hi hs]
    simp

theorem AdTg.unique (hc : ∀ c, comm = some c → c.Ok) {el fa tg a b : Nat}
    (ha : AdTg nElFas elFaEl nIn nSe comm el fa tg a) (hb : AdTg nElFas elFaEl nIn nSe comm el fa tg b) : a = b := by
  rcases ha with ⟨ad, a1, a2⟩ | ⟨a1, a2⟩ <;> rcases hb with ⟨ad', b1, b2⟩ | ⟨b1, b2⟩
  · rw [a1] at b1
    cases b1
    exact a2.unique b2
  · rw [a1] at b1; simp at b1
  · rw [a1] at b1; simp at b1
  · rcases a2 with ⟨c, ch, e1, e2, rfl⟩ | ⟨e, rfl⟩ <;> rcases b2 with ⟨c', ch', f1, f2, rfl⟩ | ⟨f, rfl⟩
    · rw [e1] at f1
      cases f1
      rw [e2.unique (hc c e1) f2]
    · exact absurd e2 (f c ch e1)
    · exact absurd f2 (e c' ch' f1)
    · rfl

/-! ### Bits -/

/-- Number of the bit which stands for a relation of a face: 0 equal, 1 less than, 2 greater than. -/
def adBit (fa r : Nat) : Nat := 36 + 3 * fa + r

/-- Relation of two time groups. -/
def relOf (t t' : Nat) : Nat := if t = t' then 0 else if t < t' then 1 else 2

theorem ltsAd_get {fa r : Nat} (hf : fa < 6) (hr : r < 3) :
    ∃ row, ltsAd[fa]? = some row ∧ row[r]? = some (BitVec.twoPow 64 (adBit fa r)) := by
  have : ∀ fa < 6, ∀ r < 3, (ltsAd[fa]?.bind (fun row : List Word => row[r]?)) = some (BitVec.twoPow 64 (adBit fa r)) := by decide
  have h := this fa hf r hr
  rw [Option.bind_eq_some_iff] at h
  exact h

theorem ltsEl_get {r : Nat} (hr : r < 3) : ltsEl[r]? = some (BitVec.twoPow 64 (32 + r)) := by
  have : ∀ r < 3, ltsEl[r]? = some (BitVec.twoPow 64 (32 + r)) := by decide
  exact this r hr

theorem has_twoPow (w : Word) {k : Nat} (hk : k < 64) : has w (BitVec.twoPow 64 k) = w.getLsbD k := by
  unfold has
  rw [BitVec.and_twoPow]
  cases h : w.getLsbD k
  · simp only [Bool.false_eq_true, if_false]
    rw [beq_eq_false_iff_ne]
    intro e
    have := congrArg (fun v => v.getLsbD k) e
    simp [hk] at this
  · simp

theorem or_twoPow_bit (w : Word) {k j : Nat} (hk : k < 64) :
    (w ||| BitVec.twoPow 64 k).getLsbD j = true ↔ w.getLsbD j = true ∨ j = k := by
  rw [BitVec.getLsbD_or, BitVec.getLsbD_twoPow, Bool.or_eq_true]
  simp only [Bool.and_eq_true, decide_eq_true_eq]
  constructor
  · rintro (h | ⟨_, rfl⟩)
    · exact Or.inl h
    · exact Or.inr rfl
  · rintro (h | rfl)
    · exact Or.inl h
    · exact Or.inr ⟨hk, rfl⟩

theorem adBit_lt {fa r : Nat} (hf : fa < 6) (hr : r < 3) : adBit fa r < 64 := by unfold adBit; omega

theorem relOf_lt (t t' : Nat) : relOf t t' < 3 := by unfold relOf; split <;> [omega; split <;> omega]

theorem relOf_zero {t t' : Nat} : relOf t t' = 0 ↔ t = t' := by
  unfold relOf; split <;> [simp [*]; split <;> simp [*]]
theorem relOf_one {t t' : Nat} : relOf t t' = 1 ↔ t < t' := by
  unfold relOf; split <;> [simp [*]; split <;> simp [*]]
theorem relOf_two {t t' : Nat} : relOf t t' = 2 ↔ t' < t := by
  unfold relOf; split <;> [simp [*]; split <;> (simp; omega)]

/-- Groups of adjacent elements as the solver supports them. -/
def Close (t t' : Nat) : Prop := t ≤ t' + 1 ∧ t' ≤ t + 1

/-- Relation of a face: the new bit, and the check. -/
theorem setRel_iff {tg t fa : Nat} (hf : fa < 6) {s s' : Rel} :
    setRel ltsAd tg t fa s = some s' ↔ Close tg t ∧ s' = {
      w := s.w ||| BitVec.twoPow 64 (adBit fa (relOf tg t))
      eq := s.eq || decide (relOf tg t = 0)
      lt := s.lt || decide (relOf tg t = 1)
      gt := s.gt || decide (relOf tg t = 2) } := by
  unfold setRel
  have row : ∀ r < 3, ∃ row, rd ltsAd fa = some row ∧ rd row r = some (BitVec.twoPow 64 (adBit fa r)) :=
    fun r hr => ltsAd_get hf hr
  obtain ⟨row0, e, e0⟩ := row 0 (by omega)
  obtain ⟨row1, e', e1⟩ := row 1 (by omega)
  rw [e] at e'; cases e'
  obtain ⟨row2, e', e2⟩ := row 2 (by omega)
  rw [e] at e'; cases e'
  simp only [e, Option.bind_eq_bind, Option.bind_some, e0, e1, e2]
  rcases Nat.lt_trichotomy tg t with h | h | h
  · have hr : relOf tg t = 1 := relOf_one.2 h
    rw [if_neg (by omega), if_pos h, hr]
    by_cases hc : tg + 1 = t
    · simp only [hc, decide_true, check_true, Option.bind_some]
      have : Close tg t := by unfold Close; omega
      simp [this, eq_comm]
    · have : ¬ Close tg t := by unfold Close; omega
      simp [hc, check, this]
  · have hr : relOf tg t = 0 := relOf_zero.2 h
    rw [if_pos h, hr]
    have : Close tg t := by unfold Close; omega
    simp [this, eq_comm]
  · have hr : relOf tg t = 2 := relOf_two.2 h
    rw [if_neg (by omega), if_neg (by omega), hr]
    by_cases hc : tg = t + 1
    · simp only [hc, decide_true, check_true, Option.bind_some]
      have : Close (t + 1) t := by unfold Close; omega
      simp [this, eq_comm]
    · have : ¬ Close tg t := by unfold Close; omega
      simp [hc, check, this]

/-- Word of an element: bits of its relations, with the groups `T` at its faces, are added. -/
structure Word' (nElFas : Nat) (t : Nat) (T : Nat → Nat) (w w' : Word) : Prop where
  ad : ∀ k, 36 ≤ k → (w'.getLsbD k = true ↔ w.getLsbD k = true ∨ ∃ fa < nElFas, k = adBit fa (relOf t (T fa)))
  el : ∀ r < 3, (w'.getLsbD (32 + r) = true ↔ w.getLsbD (32 + r) = true ∨ ∃ fa < nElFas, relOf t (T fa) = r)
  rest : ∀ k, k < 32 ∨ k = 35 → w'.getLsbD k = w.getLsbD k

/-- Loop over the faces of an element. -/
theorem faces_iff (hf : nElFas ≤ 6) (hi : nIn.length = nTgs) (hs : nSe.length = nTgs) (hc : ∀ c, comm = some c → c.Ok)
    {tg el : Nat} {w : Word} {n : Nat} (hn : n ≤ nElFas) :
    (∀ s', forN n (fun fa s => do
        let tgAd ← getTgAd nElFas nTgs elFaEl nIn nSe (comm.map CommSpec.arrays) tg el fa
        setRel ltsAd tg tgAd fa s) { w := w, eq := false, lt := false, gt := false } = some s' →
      ∃ T : Nat → Nat, (∀ fa < n, AdTg nElFas elFaEl nIn nSe comm el fa tg (T fa) ∧ Close tg (T fa)) ∧
        (∀ k, s'.w.getLsbD k = true ↔ w.getLsbD k = true ∨ ∃ fa < n, k = adBit fa (relOf tg (T fa))) ∧
        (s'.eq = true ↔ ∃ fa < n, relOf tg (T fa) = 0) ∧ (s'.lt = true ↔ ∃ fa < n, relOf tg (T fa) = 1) ∧
        (s'.gt = true ↔ ∃ fa < n, relOf tg (T fa) = 2)) ∧
    ((∀ fa < n, ∃ t, AdTg nElFas elFaEl nIn nSe comm el fa tg t ∧ Close tg t) →
      ∃ s', forN n (fun fa s => do
        let tgAd ← getTgAd nElFas nTgs elFaEl nIn nSe (comm.map CommSpec.arrays) tg el fa
        setRel ltsAd tg tgAd fa s) { w := w, eq := false, lt := false, gt := false } = some s') := by
  induction n with
  | zero =>
    refine ⟨fun s' h => ⟨fun _ => 0, by omega, ?_⟩, fun _ => ⟨_, rfl⟩⟩
    cases h
    simp
  | succ n ih =>
    obtain ⟨ih1, ih2⟩ := ih (by omega)
    constructor
    · intro s' h
      simp only [forN_succ, Option.bind_eq_some_iff, Option.bind_eq_bind] at h
      obtain ⟨s, h1, t, h2, h3⟩ := h
      obtain ⟨T, a1, a2, a3, a4, a5⟩ := ih1 s h1
      rw [getTgAd_iff hi hs hc] at h2
      rw [setRel_iff (by omega)] at h3
      obtain ⟨h3, rfl⟩ := h3
      have hT : ∀ fa, fa < n → (if fa < n then T fa else t) = T fa := fun fa h => if_pos h
      have hTn : (if n < n then T n else t) = t := if_neg (by omega)
      have ex : ∀ P : Nat → Nat → Prop, (∃ fa < n + 1, P fa (if fa < n then T fa else t)) ↔ (∃ fa < n, P fa (T fa)) ∨ P n t := by
        intro P
        constructor
        · rintro ⟨fa, h1, h2⟩
          rcases Nat.lt_succ_iff_lt_or_eq.1 h1 with h | rfl
          · rw [hT fa h] at h2; exact Or.inl ⟨fa, h, h2⟩
          · rw [hTn] at h2; exact Or.inr h2
        · rintro (⟨fa, h1, h2⟩ | h)
          · exact ⟨fa, by omega, by rw [hT fa h1]; exact h2⟩
          · exact ⟨n, by omega, by rw [hTn]; exact h⟩
      refine ⟨fun fa => if fa < n then T fa else t, ?_, ?_, ?_, ?_, ?_⟩
      · intro fa hfa
        beta_reduce
        rcases Nat.lt_succ_iff_lt_or_eq.1 hfa with h | rfl
        · rw [hT fa h]; exact a1 fa h
        · rw [hTn]; exact ⟨h2, h3⟩
      · intro k
        rw [ex (fun fa x => k = adBit fa (relOf tg x)), or_twoPow_bit _ (adBit_lt (by omega) (relOf_lt _ _)), a2 k, or_assoc]
      · rw [ex (fun _ x => relOf tg x = 0), ← a3]; simp
      · rw [ex (fun _ x => relOf tg x = 1), ← a4]; simp
      · rw [ex (fun _ x => relOf tg x = 2), ← a5]; simp
    · intro h
      obtain ⟨s, h1⟩ := ih2 (fun fa hfa => h fa (by omega))
      obtain ⟨t, h2, h3⟩ := h n (by omega)
      rw [← getTgAd_iff hi hs hc] at h2
      simp only [forN_succ, Option.bind_eq_bind] at h1 ⊢
      rw [h1, Option.bind_some, h2, Option.bind_some]
      exact ⟨_, (setRel_iff (by omega)).2 ⟨h3, rfl⟩⟩

/-- An element. -/
theorem setEl_iff (hf : nElFas ≤ 6) (hi : nIn.length = nTgs) (hs : nSe.length = nTgs) (hc : ∀ c, comm = some c → c.Ok)
    {el : Nat} {w : Word} :
    (∀ w', setEl nElFas nTgs elFaEl nIn nSe (comm.map CommSpec.arrays) ltsEl ltsAd el w = some w' →
      ∃ (t : Nat) (T : Nat → Nat), InTg nIn nSe el t ∧
        (∀ fa < nElFas, AdTg nElFas elFaEl nIn nSe comm el fa t (T fa) ∧ Close t (T fa)) ∧ Word' nElFas t T w w') ∧
    (∀ t, InTg nIn nSe el t → (∀ fa < nElFas, ∃ t', AdTg nElFas elFaEl nIn nSe comm el fa t t' ∧ Close t t') →
      ∃ w', setEl nElFas nTgs elFaEl nIn nSe (comm.map CommSpec.arrays) ltsEl ltsAd el w = some w') := by
  have e0 : rd ltsEl 0 = some (BitVec.twoPow 64 (32 + 0)) := ltsEl_get (by omega)
  have e1 : rd ltsEl 1 = some (BitVec.twoPow 64 (32 + 1)) := ltsEl_get (by omega)
  have e2 : rd ltsEl 2 = some (BitVec.twoPow 64 (32 + 2)) := ltsEl_get (by omega)
  constructor
  · intro w' h
    simp only [setEl, Option.bind_eq_bind, Option.bind_eq_some_iff] at h
    obtain ⟨t, h1, s, h2, x0, k0, x1, k1, x2, k2, h3⟩ := h
    rw [e0] at k0; cases k0
    rw [e1] at k1; cases k1
    rw [e2] at k2; cases k2
    rw [getTg_iff hi hs] at h1
    obtain ⟨T, a1, a2, a3, a4, a5⟩ := (faces_iff (elFaEl := elFaEl) (comm := comm) (w := w) (tg := t) (el := el) hf hi hs hc (Nat.le_refl _)).1 s h2
    refine ⟨t, T, h1, a1, ?_⟩
    have hb : ∀ k, w'.getLsbD k = true ↔ s.w.getLsbD k = true ∨ (s.eq = true ∧ k = 32) ∨ (s.lt = true ∧ k = 33) ∨
        (s.gt = true ∧ k = 34) := by
      intro k
      have := Option.some.inj h3
      rw [← this]
      cases s.eq <;> cases s.lt <;> cases s.gt <;> simp only [Bool.false_eq_true, if_false, if_true, false_and, true_and,
        false_or, or_false, or_twoPow_bit _ (show 32 + 0 < 64 by omega), or_twoPow_bit _ (show 32 + 1 < 64 by omega),
        or_twoPow_bit _ (show 32 + 2 < 64 by omega), Nat.add_zero, Nat.reduceAdd, or_assoc]
    have hlow : ∀ k, k < 36 → (s.w.getLsbD k = true ↔ w.getLsbD k = true) := by
      intro k hk
      rw [a2 k]
      constructor
      · rintro (h | ⟨fa, _, h⟩)
        · exact h
        · unfold adBit at h; omega
      · exact Or.inl
    refine ⟨fun k hk => ?_, fun r hr => ?_, fun k hk => ?_⟩
    · rw [hb k, ← a2 k]
      constructor
      · rintro (h | h | h | h)
        · exact h
        all_goals omega
      · exact Or.inl
    · rw [hb, hlow _ (by omega)]
      have hr' : r = 0 ∨ r = 1 ∨ r = 2 := by omega
      rcases hr' with rfl | rfl | rfl
      · rw [a3]; simp
      · rw [a4]; simp
      · rw [a5]; simp
    · rw [Bool.eq_iff_iff, hb k, hlow k (by omega)]
      constructor
      · rintro (h | h | h | h)
        · exact h
        all_goals omega
      · exact Or.inl
  · intro t h1 h2
    obtain ⟨s, h3⟩ := (faces_iff (elFaEl := elFaEl) (comm := comm) (w := w) (tg := t) (el := el) hf hi hs hc (Nat.le_refl _)).2 h2
    rw [← getTg_iff hi hs] at h1
    simp only [Option.bind_eq_bind] at h3
    simp only [setEl, Option.bind_eq_bind, h1, Option.bind_some, e0, e1, e2, h3]
    exact ⟨_, rfl⟩

/-! ### All elements -/

theorem setLtsTypes_of {f : Nat → Word} {sp : List Word} (hsp : sp.length = nEls) {comm : Option Comm}
    (h : ∀ el < nEls, setEl nElFas nTgs elFaEl nIn nSe comm ltsEl ltsAd el 0#64 = some (f el)) :
    setLtsTypes nEls nElFas nTgs elFaEl nIn nSe comm sp = some (sp.mapIdx (fun el w => w ||| f el)) := by
  obtain ⟨ws, h1, h2, h3⟩ := forN_inv (n := nEls) (s := List.replicate nEls 0#64) (body := fun el (ws : List Word) => do
    let w ← rd ws el
    let w ← setEl nElFas nTgs elFaEl nIn nSe comm ltsEl ltsAd el w
    wr ws el w) (fun i ws => ws.length = nEls ∧ ∀ el < nEls, ws[el]? = some (if el < i then f el else 0#64))
    ⟨by simp, fun el hel => by simp [hel]⟩ (by
    rintro i ws hi ⟨h1, h2⟩
    have e : rd ws i = some 0#64 := by rw [rd, h2 i hi, if_neg (by omega)]
    refine ⟨ws.set i (f i), ?_, by simp [h1], fun el hel => ?_⟩
    · simp only [e, h i hi, Option.bind_eq_bind, Option.bind_some, wr_some (show i < ws.length by omega)]
    · by_cases he : el = i
      · subst he
        rw [List.getElem?_set_self (by omega), if_pos (by omega)]
      · rw [List.getElem?_set_ne (by omega), h2 el hel]
        congr 1
        by_cases hlt : el < i
        · rw [if_pos hlt, if_pos (by omega)]
        · rw [if_neg hlt, if_neg (by omega)])
  obtain ⟨out, k1, k2, k3⟩ := forN_inv (n := nEls) (s := sp) (body := fun el (sp : List Word) => do
    let a ← rd sp el
    let b ← rd ws el
    wr sp el (a ||| b)) (fun i out => out.length = nEls ∧ ∀ (el : Nat) (w : Word), sp[el]? = some w →
      out[el]? = some (if el < i then w ||| f el else w))
    ⟨hsp, fun el w hw => by simp [hw]⟩ (by
    rintro i out hi ⟨g1, g2⟩
    obtain ⟨w, hw⟩ : ∃ w, sp[i]? = some w := ⟨sp[i], List.getElem?_eq_getElem (by omega)⟩
    have e : rd out i = some w := by rw [rd, g2 i w hw, if_neg (by omega)]
    have e' : rd ws i = some (f i) := by rw [rd, h3 i hi, if_pos hi]
    refine ⟨out.set i (w ||| f i), ?_, by simp [g1], fun el w' hw' => ?_⟩
    · simp only [e, e', Option.bind_eq_bind, Option.bind_some, wr_some (show i < out.length by omega)]
    · by_cases he : el = i
      · subst he
        rw [hw] at hw'
        cases hw'
        rw [List.getElem?_set_self (by omega), if_pos (by omega)]
      · rw [List.getElem?_set_ne (by omega), g2 el w' hw']
        congr 1
        by_cases hlt : el < i
        · rw [if_pos hlt, if_pos (by omega)]
        · rw [if_neg hlt, if_neg (by omega)])
  unfold setLtsTypes setLts
  rw [h1]
  simp only [Option.bind_eq_bind, Option.bind_some] at k1 ⊢
  rw [k1]
  congr 1
  apply List.ext_getElem?
  intro el
  rw [List.getElem?_mapIdx]
  rcases hel : sp[el]? with _ | w
  · rw [List.getElem?_eq_none_iff] at hel
    rw [List.getElem?_eq_none (by omega)]
    rfl
  · have hlt : el < nEls := by
      by_contra hn
      rw [List.getElem?_eq_none (by omega)] at hel
      simp at hel
    rw [k3 el w hel, if_pos hlt]
    rfl

theorem setEl_of_setLtsTypes {sp out : List Word} {comm : Option Comm}
    (h : setLtsTypes nEls nElFas nTgs elFaEl nIn nSe comm sp = some out) :
    ∀ el < nEls, ∃ w, setEl nElFas nTgs elFaEl nIn nSe comm ltsEl ltsAd el 0#64 = some w := by
  simp only [setLtsTypes, Option.bind_eq_bind, Option.bind_eq_some_iff] at h
  obtain ⟨ws, h1, -⟩ := h
  have := forN_post (n := nEls) (fun i (ws : List Word) => (∀ el, i ≤ el → el < nEls → ws[el]? = some 0#64) ∧
    ∀ el < i, ∃ w, setEl nElFas nTgs elFaEl nIn nSe comm ltsEl ltsAd el 0#64 = some w)
    ⟨fun el _ h => by simp [h], by omega⟩ (by
    rintro i ws ws' hi ⟨h1, h2⟩ h3
    simp only [Option.bind_eq_bind, Option.bind_eq_some_iff] at h3
    obtain ⟨w, a1, w', a2, a3⟩ := h3
    rw [rd, h1 i (Nat.le_refl _) hi] at a1
    cases a1
    simp only [wr, Option.ite_none_right_eq_some, Option.some.injEq] at a3
    obtain ⟨a3, rfl⟩ := a3
    refine ⟨fun el h4 h5 => ?_, fun el h4 => ?_⟩
    · rw [List.getElem?_set_ne (by omega)]
      exact h1 el (by omega) h5
    · rcases Nat.lt_succ_iff_lt_or_eq.1 h4 with h | rfl
      · exact h2 el h
      · exact ⟨w', a2⟩) h1
  exact this.2

/-- C85: the call completes exactly if every element is in a group of the layout and the groups of adjacent elements differ
by at most one; otherwise it aborts. -/
theorem C85_completes (hf : nElFas ≤ 6) (hi : nIn.length = nTgs) (hs : nSe.length = nTgs) (hc : ∀ c, comm = some c → c.Ok)
    {sp : List Word} (hsp : sp.length = nEls) :
    (∃ out, setLtsTypes nEls nElFas nTgs elFaEl nIn nSe (comm.map CommSpec.arrays) sp = some out) ↔
      ∀ el < nEls, ∃ t, InTg nIn nSe el t ∧
        ∀ fa < nElFas, ∃ t', AdTg nElFas elFaEl nIn nSe comm el fa t t' ∧ Close t t' := by
  constructor
  · rintro ⟨out, h⟩ el hel
    obtain ⟨w, hw⟩ := setEl_of_setLtsTypes h el hel
    obtain ⟨t, T, h1, h2, -⟩ := (setEl_iff hf hi hs hc).1 w hw
    exact ⟨t, h1, fun fa hfa => ⟨T fa, h2 fa hfa⟩⟩
  · intro h
    have : ∀ el, ∃ w, el < nEls →
        setEl nElFas nTgs elFaEl nIn nSe (comm.map CommSpec.arrays) ltsEl ltsAd el 0#64 = some w := by
      intro el
      by_cases hel : el < nEls
      · obtain ⟨t, h1, h2⟩ := h el hel
        obtain ⟨w, hw⟩ := (setEl_iff (w := 0#64) hf hi hs hc).2 t h1 h2
        exact ⟨w, fun _ => hw⟩
      · exact ⟨0, fun h => absurd h hel⟩
    obtain ⟨f, hf'⟩ := Classical.axiomOfChoice this
    exact ⟨_, setLtsTypes_of hsp hf'⟩

/-- Bit of the solver's test for a relation of a face, and for a kind of data of an element. -/
def adHas (w : Word) (fa r : Nat) : Bool := ((ltsAd[fa]?.bind (fun row => row[r]?)).map (has w)).getD false
def elHas (w : Word) (r : Nat) : Bool := (ltsEl[r]?.map (has w)).getD false

theorem adHas_bit {w : Word} {fa r : Nat} (hf : fa < 6) (hr : r < 3) : adHas w fa r = w.getLsbD (adBit fa r) := by
  obtain ⟨row, h1, h2⟩ := ltsAd_get hf hr
  simp [adHas, h1, h2, has_twoPow w (adBit_lt hf hr)]

theorem elHas_bit {w : Word} {r : Nat} (hr : r < 3) : elHas w r = w.getLsbD (32 + r) := by
  simp [elHas, ltsEl_get hr, has_twoPow w (show 32 + r < 64 by omega)]

theorem adBit_inj {fa fa' r r' : Nat} (hr : r < 3) (hr' : r' < 3) (h : adBit fa r = adBit fa' r') : fa = fa' ∧ r = r' := by
  unfold adBit at h; omega

/-- C85: the types of an element, as the solvers test them. For every face exactly one of the three relations (0: equal, 1: less
than, 2: greater than) is set, the one of the time groups of the element and the element at the face; the element offers the data
of a relation exactly if it has a face with the relation; the other bits are the ones before. -/
theorem C85_relations (hf : nElFas ≤ 6) (hi : nIn.length = nTgs) (hs : nSe.length = nTgs) (hc : ∀ c, comm = some c → c.Ok)
    {sp out : List Word} (hsp : sp.length = nEls) (hz : ∀ w ∈ sp, ∀ k, 32 ≤ k → w.getLsbD k = false)
    (h : setLtsTypes nEls nElFas nTgs elFaEl nIn nSe (comm.map CommSpec.arrays) sp = some out)
    {el t : Nat} (hel : el < nEls) (ht : InTg nIn nSe el t) :
    ∃ w w', sp[el]? = some w ∧ out[el]? = some w' ∧
      (∀ fa < nElFas, ∃ t', AdTg nElFas elFaEl nIn nSe comm el fa t t' ∧
        (adHas w' fa 0 = true ↔ t = t') ∧ (adHas w' fa 1 = true ↔ t' = t + 1) ∧ (adHas w' fa 2 = true ↔ t = t' + 1) ∧
        (t = t' ∨ t' = t + 1 ∨ t = t' + 1)) ∧
      (elHas w' 0 = true ↔ ∃ fa < nElFas, AdTg nElFas elFaEl nIn nSe comm el fa t t) ∧
      (elHas w' 1 = true ↔ ∃ fa < nElFas, AdTg nElFas elFaEl nIn nSe comm el fa t (t + 1)) ∧
      (elHas w' 2 = true ↔ ∃ fa < nElFas, ∃ t', t = t' + 1 ∧ AdTg nElFas elFaEl nIn nSe comm el fa t t') ∧
      (∀ k < 32, w'.getLsbD k = w.getLsbD k) := by
  have : ∀ el, ∃ w, el < nEls →
      setEl nElFas nTgs elFaEl nIn nSe (comm.map CommSpec.arrays) ltsEl ltsAd el 0#64 = some w := by
    intro el
    by_cases hel : el < nEls
    · obtain ⟨w, hw⟩ := setEl_of_setLtsTypes h el hel
      exact ⟨w, fun _ => hw⟩
    · exact ⟨0, fun h => absurd h hel⟩
  obtain ⟨f, hf'⟩ := Classical.axiomOfChoice this
  rw [setLtsTypes_of hsp hf', Option.some.injEq] at h
  subst h
  obtain ⟨t2, T, h1, h2, h3⟩ := (setEl_iff hf hi hs hc).1 _ (hf' el hel)
  obtain rfl := h1.unique ht
  have hw : sp[el]? = some sp[el] := List.getElem?_eq_getElem (by omega)
  have hbit : ∀ k, 32 ≤ k → (sp[el] ||| f el).getLsbD k = (f el).getLsbD k := by
    intro k hk
    rw [BitVec.getLsbD_or, hz _ (List.getElem_mem _) k hk, Bool.false_or]
  have had : ∀ fa < nElFas, ∀ r < 3, (adHas (sp[el] ||| f el) fa r = true ↔ relOf t2 (T fa) = r) := by
    intro fa hfa r hr
    rw [adHas_bit (by omega) hr, hbit _ (by unfold adBit; omega), h3.ad _ (by unfold adBit; omega)]
    simp only [BitVec.getLsbD_zero, Bool.false_eq_true, false_or]
    constructor
    · rintro ⟨fa', k1, k2⟩
      obtain ⟨rfl, rfl⟩ := adBit_inj hr (relOf_lt _ _) k2
      rfl
    · rintro rfl
      exact ⟨fa, hfa, rfl⟩
  have hel' : ∀ r < 3, (elHas (sp[el] ||| f el) r = true ↔ ∃ fa < nElFas, relOf t2 (T fa) = r) := by
    intro r hr
    rw [elHas_bit hr, hbit _ (by omega), h3.el r hr]
    simp
  refine ⟨sp[el], sp[el] ||| f el, hw, by rw [List.getElem?_mapIdx, hw]; rfl, fun fa hfa => ?_, ?_, ?_, ?_, fun k hk => ?_⟩
  · obtain ⟨k1, k2, k3⟩ := h2 fa hfa
    refine ⟨T fa, k1, ?_, ?_, ?_, by omega⟩
    · rw [had fa hfa 0 (by omega), relOf_zero]
    · rw [had fa hfa 1 (by omega), relOf_one]; omega
    · rw [had fa hfa 2 (by omega), relOf_two]; omega
  · rw [hel' 0 (by omega)]
    constructor
    · rintro ⟨fa, k1, k2⟩
      have := (h2 fa k1).1
      rw [← relOf_zero.1 k2] at this
      exact ⟨fa, k1, this⟩
    · rintro ⟨fa, k1, k2⟩
      exact ⟨fa, k1, relOf_zero.2 (k2.unique hc (h2 fa k1).1)⟩
  · rw [hel' 1 (by omega)]
    constructor
    · rintro ⟨fa, k1, k2⟩
      obtain ⟨a1, a2, a3⟩ := h2 fa k1
      have := relOf_one.1 k2
      rw [show T fa = t2 + 1 by omega] at a1
      exact ⟨fa, k1, a1⟩
    · rintro ⟨fa, k1, k2⟩
      have := k2.unique hc (h2 fa k1).1
      exact ⟨fa, k1, relOf_one.2 (by omega)⟩
  · rw [hel' 2 (by omega)]
    constructor
    · rintro ⟨fa, k1, k2⟩
      obtain ⟨a1, a2, a3⟩ := h2 fa k1
      have := relOf_two.1 k2
      exact ⟨fa, k1, T fa, by omega, a1⟩
    · rintro ⟨fa, k1, t', e, k2⟩
      have := k2.unique hc (h2 fa k1).1
      exact ⟨fa, k1, relOf_two.2 (by omega)⟩
  · rw [BitVec.getLsbD_or, h3.rest k (Or.inl hk)]
    simp

end

end Edge.Lts
