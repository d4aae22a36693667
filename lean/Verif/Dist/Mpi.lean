import Verif.Dist.Props
/-!
C18: completion of the messages of a time group. Histories of `MpiRemix`: begin of sends and receives, progress
(`comm`), queries.
-/
namespace Edge.Dist
open Edge Edge.Sparse

/-- Whether a test of the request succeeds: tests of null requests do. -/
def flagOf (done : Nat → Bool) : Option Nat → Bool
  | none => true
  | some r => done r

/-- Sizes of the arrays of one direction. -/
def Side.Shape (s : Side) : Prop := s.reqs.length = s.msgs.length ∧ s.tests.length = s.msgs.length

theorem begin_spec {s : Side} (hs : s.Shape) (lt : Bool) (tg : Nat) :
    ∃ s', s.begin_ lt tg = some s' ∧ s'.msgs = s.msgs ∧ s'.Shape ∧ s.next ≤ s'.next ∧
      (∀ (ch : Nat) (m : Msg), s.msgs[ch]? = some m → checkTgLt m lt tg = true →
        s'.tests[ch]? = some 0 ∧ ∃ r, s'.reqs[ch]? = some (some r) ∧ s.next ≤ r ∧ r < s'.next) ∧
      (∀ (ch : Nat) (m : Msg), s.msgs[ch]? = some m → checkTgLt m lt tg = false →
        s'.tests[ch]? = s.tests[ch]? ∧ s'.reqs[ch]? = s.reqs[ch]?) ∧
      (∀ (a b r : Nat) (ma mb : Msg), s.msgs[a]? = some ma → s.msgs[b]? = some mb → checkTgLt ma lt tg = true →
        checkTgLt mb lt tg = true → s'.reqs[a]? = some (some r) → s'.reqs[b]? = some (some r) → a = b) := by
  obtain ⟨hr, ht⟩ := hs
  unfold Side.begin_
  obtain ⟨s', h, h1, h2, h3, h4, h5, h6, h7⟩ := forN_inv (n := s.msgs.length) (body := fun ch (s : Side) => do
      let m ← rd s.msgs ch
      if checkTgLt m lt tg then do
        let reqs ← wr s.reqs ch (some s.next)
        let tests ← wr s.tests ch 0
        return { s with reqs := reqs, tests := tests, next := s.next + 1 }
      else return s) (s := s)
    (P := fun k (t : Side) => t.msgs = s.msgs ∧ t.Shape ∧ s.next ≤ t.next ∧
      (∀ (ch : Nat) (m : Msg), ch < k → s.msgs[ch]? = some m → checkTgLt m lt tg = true →
        t.tests[ch]? = some 0 ∧ ∃ r, t.reqs[ch]? = some (some r) ∧ s.next ≤ r ∧ r < t.next) ∧
      (∀ (ch : Nat) (m : Msg), s.msgs[ch]? = some m → checkTgLt m lt tg = false →
        t.tests[ch]? = s.tests[ch]? ∧ t.reqs[ch]? = s.reqs[ch]?) ∧
      (∀ (ch : Nat), k ≤ ch → t.tests[ch]? = s.tests[ch]? ∧ t.reqs[ch]? = s.reqs[ch]?) ∧
      (∀ (a b r : Nat) (ma mb : Msg), a < k → b < k → s.msgs[a]? = some ma → s.msgs[b]? = some mb →
        checkTgLt ma lt tg = true → checkTgLt mb lt tg = true → t.reqs[a]? = some (some r) →
        t.reqs[b]? = some (some r) → a = b))
    ⟨rfl, ⟨hr, ht⟩, Nat.le_refl _, by intro ch m h; omega, by intros; simp, by intros; simp,
      by intro a b r ma mb h; omega⟩
    (by
      rintro k t hk ⟨i1, ⟨i2, i2'⟩, i3, i4, i5, i6, i7⟩
      have hm : rd t.msgs k = some s.msgs[k] := by rw [i1]; exact rd_some hk
      by_cases hc : checkTgLt s.msgs[k] lt tg = true
      · have hw1 : k < t.reqs.length := by rw [i2, i1]; exact hk
        have hw2 : k < t.tests.length := by rw [i2', i1]; exact hk
        refine ⟨{ t with reqs := t.reqs.set k (some t.next), tests := t.tests.set k 0, next := t.next + 1 }, ?_, i1,
          ⟨by simpa using i2, by simpa using i2'⟩, by simp only; omega, ?_, ?_, ?_, ?_⟩
        · simp only [hm, Option.bind_eq_bind, Option.bind_some, hc, if_true, wr_some hw1, wr_some hw2, Option.pure_def]
        · intro ch m hch hmch hcm
          by_cases e : ch = k
          · subst e
            refine ⟨by simp [hw2], t.next, by simp [hw1], i3, by simp⟩
          · obtain ⟨a1, r, a2, a3, a4⟩ := i4 ch m (by omega) hmch hcm
            refine ⟨?_, r, ?_, a3, by simp only; omega⟩
            · rw [List.getElem?_set_ne (Ne.symm e)]; exact a1
            · rw [List.getElem?_set_ne (Ne.symm e)]; exact a2
        · intro ch m hmch hcm
          have e : ch ≠ k := by
            rintro rfl
            rw [List.getElem?_eq_getElem hk] at hmch
            rw [← Option.some.inj hmch, hc] at hcm
            exact absurd hcm (by simp)
          simp only [List.getElem?_set_ne (Ne.symm e)]
          exact i5 ch m hmch hcm
        · intro ch hch
          simp only [List.getElem?_set_ne (show k ≠ ch by omega)]
          exact i6 ch (by omega)
        · intro a b r ma mb ha hb hma hmb hca hcb hra hrb
          simp only at hra hrb
          by_cases ea : a = k <;> by_cases eb : b = k
          · omega
          · subst ea
            exfalso
            obtain ⟨-, r', q1, -, q2⟩ := i4 b mb (by omega) hmb hcb
            rw [List.getElem?_set_ne (Ne.symm eb), q1] at hrb
            simp [hw1] at hra hrb
            omega
          · subst eb
            exfalso
            obtain ⟨-, r', q1, -, q2⟩ := i4 a ma (by omega) hma hca
            rw [List.getElem?_set_ne (Ne.symm ea), q1] at hra
            simp [hw1] at hra hrb
            omega
          · rw [List.getElem?_set_ne (Ne.symm ea)] at hra
            rw [List.getElem?_set_ne (Ne.symm eb)] at hrb
            exact i7 a b r ma mb (by omega) (by omega) hma hmb hca hcb hra hrb
      · refine ⟨t, ?_, i1, ⟨i2, i2'⟩, i3, ?_, i5, ?_, ?_⟩
        · simp only [hm, Option.bind_eq_bind, Option.bind_some, hc, Option.pure_def]; rfl
        · intro ch m hch hmch hcm
          have e : ch ≠ k := by
            rintro rfl
            rw [List.getElem?_eq_getElem hk] at hmch
            rw [← Option.some.inj hmch] at hcm
            exact hc hcm
          exact i4 ch m (by omega) hmch hcm
        · intro ch hch; exact i6 ch (by omega)
        · intro a b r ma mb ha hb hma hmb hca hcb
          have e1 : a ≠ k := by
            rintro rfl
            rw [List.getElem?_eq_getElem hk] at hma
            rw [← Option.some.inj hma] at hca
            exact hc hca
          have e2 : b ≠ k := by
            rintro rfl
            rw [List.getElem?_eq_getElem hk] at hmb
            rw [← Option.some.inj hmb] at hcb
            exact hc hcb
          exact i7 a b r ma mb (by omega) (by omega) hma hmb hca hcb)
  refine ⟨s', h, h1, h2, h3, ?_, h5, ?_⟩
  · intro ch m hm hc
    exact h4 ch m (List.getElem?_eq_some_iff.1 hm).1 hm hc
  · intro a b r ma mb ha hb
    exact h7 a b r ma mb (List.getElem?_eq_some_iff.1 ha).1 (List.getElem?_eq_some_iff.1 hb).1 ha hb

/-- Effect of testing requests on one direction: every channel either keeps its request and flag, or its request, null
or complete according to `done`, is dropped and its flag is set. -/
def Tested (done : Nat → Bool) (s s' : Side) : Prop :=
  s'.msgs = s.msgs ∧ s'.Shape ∧ s'.next = s.next ∧
  ∀ (ch : Nat) (q : Option Nat), s.reqs[ch]? = some q →
    (s'.reqs[ch]? = some q ∧ s'.tests[ch]? = s.tests[ch]?) ∨
    (flagOf done q = true ∧ s'.reqs[ch]? = some none ∧ s'.tests[ch]? = some 1)

/-- All requests which are null or complete according to `done` are dropped, flags are set. -/
def AllTested (done : Nat → Bool) (s s' : Side) : Prop :=
  ∀ (ch : Nat) (q : Option Nat), s.reqs[ch]? = some q → flagOf done q = true →
    s'.reqs[ch]? = some none ∧ s'.tests[ch]? = some 1

theorem test_spec {s : Side} (hs : s.Shape) (done : Nat → Bool) {ch : Nat} (hch : ch < s.msgs.length) :
    ∃ f s', s.test done ch = some (f, s') ∧ s'.msgs = s.msgs ∧ s'.Shape ∧ s'.next = s.next ∧
      (∀ c, c ≠ ch → s'.reqs[c]? = s.reqs[c]? ∧ s'.tests[c]? = s.tests[c]?) ∧
      ∀ q, s.reqs[ch]? = some q → (flagOf done q = true → s'.reqs[ch]? = some none ∧ s'.tests[ch]? = some 1) ∧
        (flagOf done q = false → s'.reqs[ch]? = some q ∧ s'.tests[ch]? = s.tests[ch]?) := by
  obtain ⟨hr, ht⟩ := hs
  have h1 : ch < s.reqs.length := by omega
  have h2 : ch < s.tests.length := by omega
  have hf : (match s.reqs[ch] with | none => true | some r => done r) = flagOf done s.reqs[ch] := by
    cases s.reqs[ch] <;> rfl
  unfold Side.test
  simp only [rd_some h1, Option.bind_eq_bind, Option.bind_some, Option.pure_def]
  have hmatch : ∀ q : Option Nat, (match q with | none => true | some r => done r) = flagOf done q := by
    intro q; cases q <;> rfl
  by_cases hc : flagOf done s.reqs[ch] = true
  · refine ⟨true, { s with reqs := s.reqs.set ch none, tests := s.tests.set ch 1 }, ?_, rfl,
      ⟨by simpa using hr, by simpa using ht⟩, rfl, ?_, ?_⟩
    · cases hq : s.reqs[ch] with
      | none => simp [wr_some h1, wr_some h2]
      | some r =>
        have : done r = true := by rw [hq] at hc; exact hc
        simp [this, wr_some h1, wr_some h2]
    · intro c hcne
      simp [List.getElem?_set_ne (Ne.symm hcne)]
    · intro q hq
      refine ⟨fun _ => by simp [h1, h2], fun h => ?_⟩
      rw [List.getElem?_eq_getElem h1] at hq
      rw [← Option.some.inj hq, hc] at h
      exact absurd h (by simp)
  · refine ⟨false, s, ?_, rfl, ⟨hr, ht⟩, rfl, fun _ _ => ⟨rfl, rfl⟩, ?_⟩
    · cases hq : s.reqs[ch] with
      | none => rw [hq] at hc; exact absurd rfl hc
      | some r =>
        have : done r = false := by rw [hq] at hc; simpa [flagOf] using hc
        simp [this]
    · intro q hq
      rw [List.getElem?_eq_getElem h1] at hq
      refine ⟨fun h => absurd (Option.some.inj hq ▸ h) hc, fun _ => ⟨?_, rfl⟩⟩
      rw [List.getElem?_eq_getElem h1]; exact hq

theorem commIter_spec {s r : Side} (hs : s.Shape) (hr : r.Shape) {n : Nat} (hns : s.msgs.length = n)
    (hnr : r.msgs.length = n) (ds dr : Nat → Bool) :
    ∃ a b s' r', commIter ds dr n (s, r) = some (a, b, s', r') ∧
      Tested ds s s' ∧ AllTested ds s s' ∧ Tested dr r r' ∧ AllTested dr r r' := by
  have one : ∀ {s t t' : Side} {d : Nat → Bool} {k : Nat} {f : Bool}, t.Shape →
      (t.msgs = s.msgs ∧ t.Shape ∧ t.next = s.next ∧ (∀ (c : Nat), k ≤ c → t.reqs[c]? = s.reqs[c]? ∧ t.tests[c]? = s.tests[c]?) ∧
        ∀ (c : Nat) (q : Option Nat), c < k → s.reqs[c]? = some q →
          (flagOf d q = true → t.reqs[c]? = some none ∧ t.tests[c]? = some 1) ∧
          (flagOf d q = false → t.reqs[c]? = some q ∧ t.tests[c]? = s.tests[c]?)) →
      (t'.msgs = t.msgs ∧ t'.Shape ∧ t'.next = t.next ∧
        (∀ c, c ≠ k → t'.reqs[c]? = t.reqs[c]? ∧ t'.tests[c]? = t.tests[c]?) ∧
        ∀ q, t.reqs[k]? = some q → (flagOf d q = true → t'.reqs[k]? = some none ∧ t'.tests[k]? = some 1) ∧
          (flagOf d q = false → t'.reqs[k]? = some q ∧ t'.tests[k]? = t.tests[k]?)) →
      (t'.msgs = s.msgs ∧ t'.Shape ∧ t'.next = s.next ∧ (∀ (c : Nat), k + 1 ≤ c → t'.reqs[c]? = s.reqs[c]? ∧ t'.tests[c]? = s.tests[c]?) ∧
        ∀ (c : Nat) (q : Option Nat), c < k + 1 → s.reqs[c]? = some q →
          (flagOf d q = true → t'.reqs[c]? = some none ∧ t'.tests[c]? = some 1) ∧
          (flagOf d q = false → t'.reqs[c]? = some q ∧ t'.tests[c]? = s.tests[c]?)) := by
    rintro s t t' d k f _ ⟨a1, a2, a3, a4, a5⟩ ⟨b1, b2, b3, b4, b5⟩
    refine ⟨b1.trans a1, b2, b3.trans a3, ?_, ?_⟩
    · intro c hc
      rw [(b4 c (by omega)).1, (b4 c (by omega)).2]
      exact a4 c (by omega)
    · intro c q hc hq
      by_cases e : c = k
      · subst e
        have := b5 q (by rw [(a4 c (Nat.le_refl _)).1]; exact hq)
        rw [(a4 c (Nat.le_refl _)).2] at this
        exact this
      · rw [(b4 c e).1, (b4 c e).2]
        exact a5 c q (by omega) hq
  obtain ⟨t, ht, h1, h2⟩ := forN_inv (n := n) (body := fun ch (s : Nat × Nat × Side × Side) => do
      let a ← Side.test ds ch s.2.2.1
      let b ← Side.test dr ch s.2.2.2
      return (s.1 + (if a.1 then 1 else 0), s.2.1 + (if b.1 then 1 else 0), a.2, b.2)) (s := (0, 0, s, r))
    (P := fun k (t : Nat × Nat × Side × Side) =>
      (t.2.2.1.msgs = s.msgs ∧ t.2.2.1.Shape ∧ t.2.2.1.next = s.next ∧
        (∀ (c : Nat), k ≤ c → t.2.2.1.reqs[c]? = s.reqs[c]? ∧ t.2.2.1.tests[c]? = s.tests[c]?) ∧
        ∀ (c : Nat) (q : Option Nat), c < k → s.reqs[c]? = some q →
          (flagOf ds q = true → t.2.2.1.reqs[c]? = some none ∧ t.2.2.1.tests[c]? = some 1) ∧
          (flagOf ds q = false → t.2.2.1.reqs[c]? = some q ∧ t.2.2.1.tests[c]? = s.tests[c]?)) ∧
      (t.2.2.2.msgs = r.msgs ∧ t.2.2.2.Shape ∧ t.2.2.2.next = r.next ∧
        (∀ (c : Nat), k ≤ c → t.2.2.2.reqs[c]? = r.reqs[c]? ∧ t.2.2.2.tests[c]? = r.tests[c]?) ∧
        ∀ (c : Nat) (q : Option Nat), c < k → r.reqs[c]? = some q →
          (flagOf dr q = true → t.2.2.2.reqs[c]? = some none ∧ t.2.2.2.tests[c]? = some 1) ∧
          (flagOf dr q = false → t.2.2.2.reqs[c]? = some q ∧ t.2.2.2.tests[c]? = r.tests[c]?)))
    ⟨⟨rfl, hs, rfl, fun _ _ => ⟨rfl, rfl⟩, by intro c q h; omega⟩,
      ⟨rfl, hr, rfl, fun _ _ => ⟨rfl, rfl⟩, by intro c q h; omega⟩⟩
    (by
      rintro k ⟨x, y, t, u⟩ hk ⟨hT, hU⟩
      dsimp only at hT hU
      obtain ⟨f, t', e1, e2⟩ := test_spec hT.2.1 ds (ch := k) (by rw [hT.1, hns]; exact hk)
      obtain ⟨g, u', e3, e4⟩ := test_spec hU.2.1 dr (ch := k) (by rw [hU.1, hnr]; exact hk)
      refine ⟨(x + (if f then 1 else 0), y + (if g then 1 else 0), t', u'), ?_, one (f := f) hT.2.1 hT e2,
        one (f := g) hU.2.1 hU e4⟩
      simp only [e1, e3, Option.bind_eq_bind, Option.bind_some, Option.pure_def])
  obtain ⟨a, b, s', r'⟩ := t
  have fin : ∀ {s t : Side} {d : Nat → Bool}, s.Shape → s.msgs.length = n →
      (t.msgs = s.msgs ∧ t.Shape ∧ t.next = s.next ∧ (∀ (c : Nat), n ≤ c → t.reqs[c]? = s.reqs[c]? ∧ t.tests[c]? = s.tests[c]?) ∧
        ∀ (c : Nat) (q : Option Nat), c < n → s.reqs[c]? = some q →
          (flagOf d q = true → t.reqs[c]? = some none ∧ t.tests[c]? = some 1) ∧
          (flagOf d q = false → t.reqs[c]? = some q ∧ t.tests[c]? = s.tests[c]?)) → Tested d s t ∧ AllTested d s t := by
    rintro s t d hsh hl ⟨a1, a2, a3, a4, a5⟩
    have hlt : ∀ {c : Nat} {q : Option Nat}, s.reqs[c]? = some q → c < n := by
      intro c q hq
      have := (List.getElem?_eq_some_iff.1 hq).1
      rw [hsh.1, hl] at this
      exact this
    refine ⟨⟨a1, a2, a3, ?_⟩, ?_⟩
    · intro c q hq
      have := a5 c q (hlt hq) hq
      cases hf : flagOf d q with
      | true => right; exact ⟨rfl, this.1 hf⟩
      | false => left; exact this.2 hf
    · intro c q hq hf
      exact (a5 c q (hlt hq) hq).1 hf
  obtain ⟨f1, f2⟩ := fin hs hns h1
  obtain ⟨f3, f4⟩ := fin hr hnr h2
  exact ⟨a, b, s', r', ht, f1, f2, f3, f4⟩

theorem Tested.mono {d d' : Nat → Bool} (h : ∀ r, d r = true → d' r = true) {s t : Side} (ht : Tested d s t) :
    Tested d' s t := by
  obtain ⟨h1, h2, h3, h4⟩ := ht
  refine ⟨h1, h2, h3, fun ch q hq => ?_⟩
  rcases h4 ch q hq with h' | ⟨hf, h'⟩
  · exact Or.inl h'
  · refine Or.inr ⟨?_, h'⟩
    cases q with
    | none => rfl
    | some r => exact h r hf

theorem Tested.refl {d : Nat → Bool} {s : Side} (hs : s.Shape) : Tested d s s :=
  ⟨rfl, hs, rfl, fun _ _ hq => Or.inl ⟨hq, rfl⟩⟩

theorem Tested.trans {d : Nat → Bool} {s t u : Side} (h1 : Tested d s t) (h2 : Tested d t u) : Tested d s u := by
  obtain ⟨a1, a2, a3, a4⟩ := h1
  obtain ⟨b1, b2, b3, b4⟩ := h2
  refine ⟨b1.trans a1, b2, b3.trans a3, fun ch q hq => ?_⟩
  rcases a4 ch q hq with ⟨e1, e2⟩ | ⟨e0, e1, e2⟩
  · rcases b4 ch q e1 with ⟨f1, f2⟩ | ⟨f0, f1, f2⟩
    · exact Or.inl ⟨f1, f2.trans e2⟩
    · exact Or.inr ⟨f0, f1, f2⟩
  · rcases b4 ch none e1 with ⟨f1, f2⟩ | ⟨f0, f1, f2⟩
    · exact Or.inr ⟨e0, f1, f2.trans e2⟩
    · exact Or.inr ⟨e0, f1, f2⟩

theorem AllTested.trans {d d' : Nat → Bool} {s t u : Side} (h1 : AllTested d s t) (h2 : Tested d' t u) :
    AllTested d s u := by
  intro ch q hq hf
  obtain ⟨e1, e2⟩ := h1 ch q hq hf
  rcases h2.2.2.2 ch none e1 with ⟨f1, f2⟩ | ⟨-, f1, f2⟩
  · exact ⟨f1, f2.trans e2⟩
  · exact ⟨f1, f2⟩

/-- `comm` with completions between `lo` (complete before the call) and `hi` (complete after it). -/
theorem comm_spec (done : Nat → (Nat → Bool) × (Nat → Bool)) {n : Nat} (loS loR hiS hiR : Nat → Bool)
    (hhi : ∀ it r, ((done it).1 r = true → hiS r = true) ∧ ((done it).2 r = true → hiR r = true)) :
    ∀ (nIter it : Nat) {s r : Side}, (∀ q, (loS q = true → (done it).1 q = true) ∧ (loR q = true → (done it).2 q = true)) →
      s.Shape → r.Shape → s.msgs.length = n → r.msgs.length = n →
      ∃ s' r', comm done n nIter it (s, r) = some (s', r') ∧ Tested hiS s s' ∧ Tested hiR r r' ∧
        (0 < nIter → AllTested loS s s' ∧ AllTested loR r r')
  | 0, _, s, r, _, hs, hr, _, _ => ⟨s, r, rfl, Tested.refl hs, Tested.refl hr, fun h => absurd h (by omega)⟩
  | nIter + 1, it, s, r, hlo, hs, hr, hns, hnr => by
    obtain ⟨a, b, s', r', h, h1, h2, h3, h4⟩ := commIter_spec hs hr hns hnr (done it).1 (done it).2
    have g1 : Tested hiS s s' := h1.mono (fun q hq => (hhi it q).1 hq)
    have g3 : Tested hiR r r' := h3.mono (fun q hq => (hhi it q).2 hq)
    have g2 : AllTested loS s s' := by
      intro ch q hq hf
      refine h2 ch q hq ?_
      cases q with
      | none => rfl
      | some x => exact (hlo x).1 hf
    have g4 : AllTested loR r r' := by
      intro ch q hq hf
      refine h4 ch q hq ?_
      cases q with
      | none => rfl
      | some x => exact (hlo x).2 hf
    simp only [comm, h, Option.bind_eq_bind, Option.bind_some]
    by_cases hc : a = n ∧ b = n
    · rw [if_pos hc]
      exact ⟨s', r', rfl, g1, g3, fun _ => ⟨g2, g4⟩⟩
    · rw [if_neg hc]
      obtain ⟨s2, r2, e, e1, e2, -⟩ := comm_spec (n := n) done (fun _ => false) (fun _ => false) hiS hiR hhi nIter
        (it + 1) (s := s') (r := r') (by simp) g1.2.1 g3.2.1 (by rw [g1.1]; exact hns) (by rw [g3.1]; exact hnr)
      exact ⟨s2, r2, e, g1.trans e1, g3.trans e2, fun _ => ⟨g2.trans e1, g4.trans e2⟩⟩

/-! ### Histories -/

/-- One direction in a history: the state of the code, the requests started on the channels and, per time group, the
argument `lt` of a begin which was not yet reported as finished. -/
structure Dir where
  side : Side
  started : Nat → Nat → Prop
  pending : Nat → Option Bool

/-- Sends, receives and the requests which are complete. -/
structure Hist where
  snd : Dir
  rcv : Dir
  compS : Nat → Bool
  compR : Nat → Bool

def Dir.init (ms : List Msg) : Dir := { side := Side.init ms, started := fun _ _ => False, pending := fun _ => none }

/-- After `begin(lt, tg)` with the new state `s'`: the requests of the matching channels are started. -/
def Dir.begun (d : Dir) (lt : Bool) (tg : Nat) (s' : Side) : Dir :=
  { side := s',
    started := fun ch r => d.started ch r ∨
      ∃ m, d.side.msgs[ch]? = some m ∧ checkTgLt m lt tg = true ∧ s'.reqs[ch]? = some (some r),
    pending := fun g => if g = tg then some lt else d.pending g }

/-- After a query of group `tg` returned true. -/
def Dir.closed (d : Dir) (tg : Nat) : Dir := { d with pending := fun g => if g = tg then none else d.pending g }

/-- Histories of the distributed layer as driven by the scheduler (src/impl/seismic/inc/time/man_sched.inc): a begin of
a group is only issued if the previous one of the group was reported as finished, and queried with the same argument
`lt`. Completions are arbitrary but stay. -/
inductive Reach (ms mr : List Msg) : Hist → Prop
  | init : Reach ms mr ⟨Dir.init ms, Dir.init mr, fun _ => false, fun _ => false⟩
  | beginSends {h : Hist} (lt : Bool) (tg : Nat) (s' : Side) : Reach ms mr h → h.snd.pending tg = none →
      h.snd.side.begin_ lt tg = some s' → Reach ms mr { h with snd := h.snd.begun lt tg s' }
  | beginRecvs {h : Hist} (lt : Bool) (tg : Nat) (s' : Side) : Reach ms mr h → h.rcv.pending tg = none →
      h.rcv.side.begin_ lt tg = some s' → Reach ms mr { h with rcv := h.rcv.begun lt tg s' }
  | finSends {h : Hist} (lt : Bool) (tg : Nat) : Reach ms mr h → h.snd.pending tg = some lt →
      h.snd.side.fin lt tg = true → Reach ms mr { h with snd := h.snd.closed tg }
  | finRecvs {h : Hist} (lt : Bool) (tg : Nat) : Reach ms mr h → h.rcv.pending tg = some lt →
      h.rcv.side.fin lt tg = true → Reach ms mr { h with rcv := h.rcv.closed tg }
  | comm {h : Hist} (done : Nat → (Nat → Bool) × (Nat → Bool)) (nIter : Nat) (hiS hiR : Nat → Bool) (s' r' : Side) :
      Reach ms mr h →
      (∀ r, (h.compS r = true → (done 0).1 r = true) ∧ (h.compR r = true → (done 0).2 r = true)) →
      (∀ it r, ((done it).1 r = true → hiS r = true) ∧ ((done it).2 r = true → hiR r = true)) →
      Dist.comm done ms.length nIter 0 (h.snd.side, h.rcv.side) = some (s', r') →
      Reach ms mr ⟨{ h.snd with side := s' }, { h.rcv with side := r' }, hiS, hiR⟩

/-- Invariant of one direction. -/
structure Dir.Inv (ms : List Msg) (d : Dir) (comp : Nat → Bool) : Prop where
  msgs : d.side.msgs = ms
  shape : d.side.Shape
  req : ∀ (ch r : Nat), d.side.reqs[ch]? = some (some r) → d.started ch r ∧ d.side.tests[ch]? = some 0
  out : ∀ (ch r : Nat), d.started ch r → comp r = false → d.side.reqs[ch]? = some (some r) ∧
    ∃ m lt, ms[ch]? = some m ∧ d.pending m.tgL = some lt ∧ checkTgLt m lt m.tgL = true
  fresh : ∀ (ch r : Nat), d.started ch r → r < d.side.next
  uniq : ∀ (a b r : Nat), d.started a r → d.started b r → a = b

theorem Dir.Inv.init (ms : List Msg) (comp : Nat → Bool) : (Dir.init ms).Inv ms comp where
  msgs := rfl
  shape := ⟨by simp [Dir.init, Side.init], by simp [Dir.init, Side.init]⟩
  req := by intro ch r h; simp [Dir.init, Side.init] at h
  out := by intro ch r h; exact h.elim
  fresh := by intro ch r h; exact h.elim
  uniq := by intro a b r h; exact h.elim

theorem Dir.Inv.begun {ms : List Msg} {d : Dir} {comp : Nat → Bool} (h : d.Inv ms comp) {lt : Bool} {tg : Nat}
    {s' : Side} (hp : d.pending tg = none) (hb : d.side.begin_ lt tg = some s') :
    (d.begun lt tg s').Inv ms comp := by
  obtain ⟨t, e, e1, e2, e3, e4, e5, e6⟩ := begin_spec h.shape lt tg
  rw [hb] at e
  obtain rfl := Option.some.inj e
  refine ⟨e1.trans h.msgs, e2, ?_, ?_, ?_, ?_⟩
  · intro ch r hr
    have hl : ch < d.side.msgs.length := by
      have := (List.getElem?_eq_some_iff.1 hr).1
      have h' := e2.1
      simp only [Dir.begun] at this
      rw [h', e1] at this
      exact this
    cases hc : checkTgLt d.side.msgs[ch] lt tg with
    | true =>
      exact ⟨Or.inr ⟨_, List.getElem?_eq_getElem hl, hc, hr⟩, (e4 ch _ (List.getElem?_eq_getElem hl) hc).1⟩
    | false =>
      obtain ⟨q1, q2⟩ := e5 ch _ (List.getElem?_eq_getElem hl) hc
      have hr' : d.side.reqs[ch]? = some (some r) := by rw [← q2]; exact hr
      exact ⟨Or.inl (h.req ch r hr').1, by show s'.tests[ch]? = _; rw [q1]; exact (h.req ch r hr').2⟩
  · rintro ch r (hs | ⟨m, hm, hc, hr⟩) hcomp
    · obtain ⟨q1, m, lt', q2, q3, q4⟩ := h.out ch r hs hcomp
      have hne : m.tgL ≠ tg := by rintro e; rw [e, hp] at q3; exact absurd q3 (by simp)
      have hm : d.side.msgs[ch]? = some m := by rw [h.msgs]; exact q2
      have hc : checkTgLt m lt tg = false := by
        cases hc : checkTgLt m lt tg with
        | false => rfl
        | true => exact absurd ((C19_selection _ _ _).1 hc).1 hne
      refine ⟨by show s'.reqs[ch]? = _; rw [(e5 ch m hm hc).2]; exact q1, m, lt', q2, ?_, q4⟩
      show (if m.tgL = tg then some lt else d.pending m.tgL) = some lt'
      rw [if_neg hne]; exact q3
    · have htg := ((C19_selection _ _ _).1 hc).1
      refine ⟨hr, m, lt, by rw [← h.msgs]; exact hm, ?_, by rw [htg]; exact hc⟩
      show (if m.tgL = tg then some lt else d.pending m.tgL) = some lt
      rw [if_pos htg]
  · rintro ch r (hs | ⟨m, hm, hc, hr⟩)
    · exact Nat.lt_of_lt_of_le (h.fresh ch r hs) e3
    · obtain ⟨-, r', q1, -, q2⟩ := e4 ch m hm hc
      rw [hr] at q1
      simp only [Option.some.injEq] at q1
      subst q1; exact q2
  · rintro a b r (ha | ⟨ma, hma, hca, hra⟩) (hb' | ⟨mb, hmb, hcb, hrb⟩)
    · exact h.uniq a b r ha hb'
    · obtain ⟨-, r', q1, q2, -⟩ := e4 b mb hmb hcb
      rw [hrb] at q1
      simp only [Option.some.injEq] at q1
      have := h.fresh a r ha
      omega
    · obtain ⟨-, r', q1, q2, -⟩ := e4 a ma hma hca
      rw [hra] at q1
      simp only [Option.some.injEq] at q1
      have := h.fresh b r hb'
      omega
    · exact e6 a b r ma mb hma hmb hca hcb hra hrb

theorem fin_iff {s : Side} (hs : s.Shape) (lt : Bool) (tg : Nat) :
    s.fin lt tg = true ↔ ∀ (ch : Nat) (m : Msg), s.msgs[ch]? = some m → checkTgLt m lt tg = true →
      s.tests[ch]? = some 1 := by
  unfold Side.fin
  rw [List.all_eq_true]
  constructor
  · intro h ch m hm hc
    have hl := (List.getElem?_eq_some_iff.1 hm).1
    have ht : s.tests[ch]? = some (s.tests[ch]'(by rw [hs.2]; exact hl)) := List.getElem?_eq_getElem _
    have hmem : (m, s.tests[ch]'(by rw [hs.2]; exact hl)) ∈ s.msgs.zip s.tests := by
      rw [List.mem_iff_getElem?]
      exact ⟨ch, List.getElem?_zip_eq_some.2 ⟨hm, ht⟩⟩
    have := h _ hmem
    simp [hc] at this
    rw [ht, this]
  · rintro h ⟨m, t⟩ hmem
    obtain ⟨ch, hch⟩ := List.mem_iff_getElem?.1 hmem
    obtain ⟨h1, h2⟩ := List.getElem?_zip_eq_some.1 hch
    cases hc : checkTgLt m lt tg with
    | false => simp
    | true =>
      have := h ch m h1 hc
      rw [h2] at this
      have ht : t = 1 := Option.some.inj this
      simp [ht]

theorem Dir.Inv.fin {ms : List Msg} {d : Dir} {comp : Nat → Bool} (h : d.Inv ms comp) {lt : Bool} {tg : Nat}
    (hf : d.side.fin lt tg = true) (ch : Nat) (m : Msg) (r : Nat) (hm : ms[ch]? = some m)
    (hc : checkTgLt m lt tg = true) (hst : d.started ch r) : comp r = true := by
  cases hcomp : comp r with
  | true => rfl
  | false =>
    exfalso
    obtain ⟨q1, -⟩ := h.out ch r hst hcomp
    have h0 := (h.req ch r q1).2
    have h1 := (fin_iff h.shape lt tg).1 hf ch m (by rw [h.msgs]; exact hm) hc
    rw [h0] at h1
    exact absurd (Option.some.inj h1) (by decide)

theorem Dir.Inv.closed {ms : List Msg} {d : Dir} {comp : Nat → Bool} (h : d.Inv ms comp) {lt : Bool} {tg : Nat}
    (hp : d.pending tg = some lt) (hf : d.side.fin lt tg = true) : (d.closed tg).Inv ms comp := by
  refine ⟨h.msgs, h.shape, h.req, ?_, h.fresh, h.uniq⟩
  intro ch r hst hcomp
  obtain ⟨q1, m, lt', q2, q3, q4⟩ := h.out ch r hst hcomp
  refine ⟨q1, m, lt', q2, ?_, q4⟩
  show (if m.tgL = tg then none else d.pending m.tgL) = some lt'
  by_cases e : m.tgL = tg
  · exfalso
    rw [e, hp] at q3
    obtain rfl := Option.some.inj q3
    rw [e] at q4
    rw [h.fin hf ch m r q2 q4 hst] at hcomp
    exact absurd hcomp (by simp)
  · rw [if_neg e]; exact q3

theorem Dir.Inv.tested {ms : List Msg} {d : Dir} {comp hi : Nat → Bool} (h : d.Inv ms comp) {s' : Side}
    (ht : Tested hi d.side s') (hhi : ∀ r, comp r = true → hi r = true) :
    ({ d with side := s' } : Dir).Inv ms hi := by
  obtain ⟨t1, t2, t3, t4⟩ := ht
  have hlen : d.side.reqs.length = s'.reqs.length := by rw [h.shape.1, t2.1, t1]
  refine ⟨t1.trans h.msgs, t2, ?_, ?_, fun ch r hst => by show r < s'.next; rw [t3]; exact h.fresh ch r hst, h.uniq⟩
  · intro ch r hr
    have hl : ch < d.side.reqs.length := by rw [hlen]; exact (List.getElem?_eq_some_iff.1 hr).1
    rcases t4 ch _ (List.getElem?_eq_getElem hl) with ⟨a, b⟩ | ⟨-, a, -⟩
    · have hr' : s'.reqs[ch]? = some (some r) := hr
      rw [a] at hr'
      have hreq : d.side.reqs[ch]? = some (some r) := by rw [List.getElem?_eq_getElem hl]; exact hr'
      refine ⟨(h.req ch r hreq).1, ?_⟩
      show s'.tests[ch]? = some 0
      rw [b]; exact (h.req ch r hreq).2
    · have hr' : s'.reqs[ch]? = some (some r) := hr
      rw [a] at hr'
      exact absurd hr' (by simp)
  · intro ch r hst hcomp
    have hc0 : comp r = false := by
      cases hc : comp r with
      | false => rfl
      | true => rw [hhi r hc] at hcomp; exact absurd hcomp (by simp)
    obtain ⟨q1, q2⟩ := h.out ch r hst hc0
    refine ⟨?_, q2⟩
    show s'.reqs[ch]? = some (some r)
    rcases t4 ch _ q1 with ⟨a, -⟩ | ⟨a, -⟩
    · exact a
    · simp only [flagOf] at a
      rw [a] at hcomp; exact absurd hcomp (by simp)

theorem Reach.inv {ms mr : List Msg} (hl : mr.length = ms.length) {h : Hist} (hr : Reach ms mr h) :
    h.snd.Inv ms h.compS ∧ h.rcv.Inv mr h.compR := by
  induction hr with
  | init => exact ⟨Dir.Inv.init _ _, Dir.Inv.init _ _⟩
  | beginSends lt tg s' _ hp hb ih => exact ⟨ih.1.begun hp hb, ih.2⟩
  | beginRecvs lt tg s' _ hp hb ih => exact ⟨ih.1, ih.2.begun hp hb⟩
  | finSends lt tg _ hp hf ih => exact ⟨ih.1.closed hp hf, ih.2⟩
  | finRecvs lt tg _ hp hf ih => exact ⟨ih.1, ih.2.closed hp hf⟩
  | comm done nIter hiS hiR s' r' _ hlo hhi hc ih =>
    obtain ⟨s2, r2, e, e1, e2, -⟩ := comm_spec done (fun _ => false) (fun _ => false) hiS hiR hhi nIter 0
      (by simp) ih.1.shape ih.2.shape (by rw [ih.1.msgs]) (by rw [ih.2.msgs, hl])
    rw [hc] at e
    obtain ⟨rfl, rfl⟩ := Prod.mk.inj (Option.some.inj e)
    exact ⟨ih.1.tested e1 (fun r h' => (hhi 0 r).1 ((hlo r).1 h')), ih.2.tested e2 (fun r h' => (hhi 0 r).2 ((hlo r).2 h'))⟩

/-- **C18** (safety). In every history: if `finSends` of a group returns true, all requests started so far on the
channels the query is about are complete; the same for `finRecvs`. -/
theorem C18_fin_complete (ms mr : List Msg) (hl : mr.length = ms.length) (h : Hist) (hr : Reach ms mr h)
    (lt : Bool) (tg : Nat) :
    (h.snd.side.fin lt tg = true → ∀ (ch : Nat) (m : Msg) (r : Nat), ms[ch]? = some m → m.tgL = tg →
      (m.tgR ≤ m.tgL ∨ lt = true) → h.snd.started ch r → h.compS r = true) ∧
    (h.rcv.side.fin lt tg = true → ∀ (ch : Nat) (m : Msg) (r : Nat), mr[ch]? = some m → m.tgL = tg →
      (m.tgR ≤ m.tgL ∨ lt = true) → h.rcv.started ch r → h.compR r = true) := by
  obtain ⟨h1, h2⟩ := hr.inv hl
  exact ⟨fun hf ch m r hm ht hlt hst => h1.fin hf ch m r hm ((C19_selection _ _ _).2 ⟨ht, hlt⟩) hst,
    fun hf ch m r hm ht hlt hst => h2.fin hf ch m r hm ((C19_selection _ _ _).2 ⟨ht, hlt⟩) hst⟩

/-- **C18** (buffers are free). Once the last begin of a group was reported as finished, no request of any channel of
the group is outstanding, whatever the rounds were. -/
theorem C18_group_idle (ms mr : List Msg) (hl : mr.length = ms.length) (h : Hist) (hr : Reach ms mr h) (tg : Nat) :
    (h.snd.pending tg = none → ∀ (ch : Nat) (m : Msg) (r : Nat), ms[ch]? = some m → m.tgL = tg →
      h.snd.started ch r → h.compS r = true) ∧
    (h.rcv.pending tg = none → ∀ (ch : Nat) (m : Msg) (r : Nat), mr[ch]? = some m → m.tgL = tg →
      h.rcv.started ch r → h.compR r = true) := by
  obtain ⟨h1, h2⟩ := hr.inv hl
  have key : ∀ {ms : List Msg} {d : Dir} {comp : Nat → Bool}, d.Inv ms comp → d.pending tg = none →
      ∀ (ch : Nat) (m : Msg) (r : Nat), ms[ch]? = some m → m.tgL = tg → d.started ch r → comp r = true := by
    intro ms d comp hi hp ch m r hm ht hst
    cases hc : comp r with
    | true => rfl
    | false =>
      obtain ⟨-, m', lt, q2, q3, -⟩ := hi.out ch r hst hc
      rw [hm] at q2
      obtain rfl := Option.some.inj q2
      rw [ht, hp] at q3
      exact absurd q3 (by simp)
  exact ⟨key h1, key h2⟩

/-- **C18** (progress). Begin and progress never fail; if all requests started on the channels of a query are complete,
one call of `comm` with at least one iteration makes the query true. -/
theorem C18_fin_eventually (ms mr : List Msg) (hl : mr.length = ms.length) (h : Hist) (hr : Reach ms mr h) :
    (∀ lt tg, ∃ s', h.snd.side.begin_ lt tg = some s') ∧ (∀ lt tg, ∃ s', h.rcv.side.begin_ lt tg = some s') ∧
    ∀ (done : Nat → (Nat → Bool) × (Nat → Bool)) (nIter : Nat), 0 < nIter →
      ∃ s' r', Dist.comm done ms.length nIter 0 (h.snd.side, h.rcv.side) = some (s', r') ∧
        ∀ (lt : Bool) (tg : Nat),
          ((∀ (ch : Nat) (m : Msg) (r : Nat), ms[ch]? = some m → m.tgL = tg → (m.tgR ≤ m.tgL ∨ lt = true) →
              h.snd.started ch r → (done 0).1 r = true) → s'.fin lt tg = true) ∧
          ((∀ (ch : Nat) (m : Msg) (r : Nat), mr[ch]? = some m → m.tgL = tg → (m.tgR ≤ m.tgL ∨ lt = true) →
              h.rcv.started ch r → (done 0).2 r = true) → r'.fin lt tg = true) := by
  obtain ⟨h1, h2⟩ := hr.inv hl
  refine ⟨fun lt tg => ?_, fun lt tg => ?_, ?_⟩
  · obtain ⟨s', e, -⟩ := begin_spec h1.shape lt tg; exact ⟨s', e⟩
  · obtain ⟨s', e, -⟩ := begin_spec h2.shape lt tg; exact ⟨s', e⟩
  · intro done nIter hn
    obtain ⟨s', r', e, e1, e2, e3⟩ := comm_spec done (done 0).1 (done 0).2 (fun _ => true) (fun _ => true)
      (by simp) nIter 0 (s := h.snd.side) (r := h.rcv.side) (by simp) h1.shape h2.shape (by rw [h1.msgs])
      (by rw [h2.msgs, hl])
    obtain ⟨a1, a2⟩ := e3 hn
    refine ⟨s', r', e, fun lt tg => ?_⟩
    have key : ∀ {ms : List Msg} {d : Dir} {comp dn hi : Nat → Bool} {s' : Side}, d.Inv ms comp →
        Tested hi d.side s' → AllTested dn d.side s' →
        (∀ (ch : Nat) (m : Msg) (r : Nat), ms[ch]? = some m → m.tgL = tg → (m.tgR ≤ m.tgL ∨ lt = true) →
          d.started ch r → dn r = true) → s'.fin lt tg = true := by
      intro ms d comp dn hi s' hi' ht ha hall
      rw [fin_iff ht.2.1]
      intro ch m hm hc
      rw [ht.1, hi'.msgs] at hm
      have hlt : ch < d.side.reqs.length := by
        rw [hi'.shape.1, hi'.msgs]; exact (List.getElem?_eq_some_iff.1 hm).1
      refine (ha ch _ (List.getElem?_eq_getElem hlt) ?_).2
      cases hq : d.side.reqs[ch] with
      | none => rfl
      | some r =>
        obtain ⟨c1, c2⟩ := (C19_selection _ _ _).1 hc
        exact hall ch m r hm c1 c2 (hi'.req ch r (by rw [List.getElem?_eq_getElem hlt, hq])).1
    exact ⟨key h1 e1 a1, key h2 e2 a2⟩

/-- Requests are not shared: a request number stands for one message of one channel. -/
theorem C18_requests_unique (ms mr : List Msg) (hl : mr.length = ms.length) (h : Hist) (hr : Reach ms mr h)
    (a b r : Nat) : (h.snd.started a r → h.snd.started b r → a = b) ∧ (h.rcv.started a r → h.rcv.started b r → a = b) := by
  obtain ⟨h1, h2⟩ := hr.inv hl
  exact ⟨h1.uniq a b r, h2.uniq a b r⟩

/-- Non-vacuity: a history with two groups in which the sends of group 0 are begun, progress completes the message of
channel 0 only, and the query is false; after completion of the other one it is true. -/
def demoMsgs : List Msg := [⟨0, 0, 2, 0, 20, 0⟩, ⟨0, 1, 2, 1, 10, 20⟩, ⟨1, 0, 2, 2, 40, 30⟩]

example : (Side.begin_ true 0 (Side.init demoMsgs)).map (fun s => (s.reqs, s.fin true 0, s.fin false 1)) =
    some ([some 0, some 1, none], false, false) := by decide +kernel

/-- Completion of request `a` only, both sides. -/
def demoDone (k : Nat) : Nat → (Nat → Bool) × (Nat → Bool) := fun _ => (fun r => decide (r < k), fun _ => false)

example : ((Side.begin_ true 0 (Side.init demoMsgs)).bind (fun s =>
    comm (demoDone 1) 3 4 0 (s, Side.init demoMsgs))).map (fun s => (s.1.reqs, s.1.fin true 0, s.1.fin false 0)) =
    some ([none, some 1, none], false, true) := by decide +kernel

example : ∃ h, Reach demoMsgs demoMsgs h ∧ h.snd.pending 0 = some true ∧ h.snd.started 1 1 ∧
    h.compS 1 = false ∧ h.compS 0 = true := by
  have h0 := Reach.init (ms := demoMsgs) (mr := demoMsgs)
  have h1 := Reach.beginSends true 0
    { Side.init demoMsgs with reqs := [some 0, some 1, none], next := 2 } h0 rfl (by decide +kernel)
  have h2 := Reach.comm (demoDone 1) 4 (fun r => decide (r < 1)) (fun _ => false)
    { Side.init demoMsgs with reqs := [none, some 1, none], tests := [1, 0, 1], next := 2 }
    { Side.init demoMsgs with reqs := [none, none, none], tests := [1, 1, 1] } h1 (by simp) (by simp [demoDone])
    (by decide +kernel)
  refine ⟨_, h2, rfl, Or.inr ⟨⟨0, 1, 2, 1, 10, 20⟩, rfl, rfl, rfl⟩, rfl, rfl⟩

end Edge.Dist
