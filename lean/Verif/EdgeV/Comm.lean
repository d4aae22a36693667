import Verif.EdgeV.CommLemmas
/-!
Communication structures of EDGE-V: the send messages hold every cut face exactly once (C36), the receive messages
mirror the send messages of the neighbours (C35).
-/
namespace Edge.EdgeV
open Edge

/-! ### Specification -/

/-- Two elements share at most one face. -/
def OneFace (elFaEl : List (Option Nat)) (nElFas nEls : Nat) : Prop :=
  ∀ el f g a : Nat, el < nEls → f < nElFas → g < nElFas → elFaEl[el * nElFas + f]? = some (some a) →
    elFaEl[el * nElFas + g]? = some (some a) → f = g

/-- Face `x.2` of element `x.1` is cut: the element is in partition `pa` and time group `tg`, the element behind the
face is in the other partition `k.1` and in time group `k.2`. -/
def CutFace (elFaEl : List (Option Nat)) (nElFas nEls : Nat) (elPa elTg : List Nat) (pa tg : Nat) (k x : Nat × Nat) :
    Prop :=
  x.1 < nEls ∧ x.2 < nElFas ∧ elPa[x.1]? = some pa ∧ elTg[x.1]? = some tg ∧ k.1 ≠ pa ∧
    ∃ ad, elFaEl[x.1 * nElFas + x.2]? = some (some ad) ∧ elPa[ad]? = some k.1 ∧ elTg[ad]? = some k.2

/-- Entries of a message: element, face, remote element, remote face. -/
def Message.entries (m : Message) : List (Nat × Nat × Nat × Nat) := m.el.zip (m.fa.zip (m.elAd.zip m.faAd))

/-- Entry with local and remote part swapped. -/
def swapEntry (q : Nat × Nat × Nat × Nat) : Nat × Nat × Nat × Nat := (q.2.2.1, q.2.2.2, q.1, q.2.1)

/-- All lists of a message have the same length. -/
def Message.Even (m : Message) : Prop :=
  m.fa.length = m.el.length ∧ m.elAd.length = m.el.length ∧ m.faAd.length = m.el.length

/-! ### Lists -/

theorem mapM_get {α β : Type _} {f : α → Option β} {l : List α} {r : List β} (h : l.mapM f = some r) :
    r.length = l.length ∧ ∀ (i : Nat) (a : α), l[i]? = some a → ∃ b, r[i]? = some b ∧ f a = some b := by
  induction l generalizing r with
  | nil => simp at h; subst h; simp
  | cons a l ih =>
    simp only [List.mapM_cons, Option.bind_eq_bind, Option.bind_eq_some_iff] at h
    obtain ⟨b, hb, t, ht, he⟩ := h
    simp at he; subst he
    obtain ⟨h1, h2⟩ := ih ht
    refine ⟨by simp [h1], fun i x hx => ?_⟩
    cases i with
    | zero => simp at hx; subst hx; exact ⟨b, rfl, hb⟩
    | succ i => simp at hx ⊢; exact h2 i x hx

theorem mapM_mem {α β : Type _} {f : α → Option β} {l : List α} {r : List β} (h : l.mapM f = some r) {b : β}
    (hb : b ∈ r) : ∃ a ∈ l, f a = some b := by
  induction l generalizing r with
  | nil => simp at h; subst h; simp at hb
  | cons a l ih =>
    simp only [List.mapM_cons, Option.bind_eq_bind, Option.bind_eq_some_iff] at h
    obtain ⟨b', hb', t, ht, he⟩ := h
    simp at he; subst he
    rcases List.mem_cons.1 hb with rfl | hb
    · exact ⟨a, by simp, hb'⟩
    · obtain ⟨x, hx, e⟩ := ih ht hb
      exact ⟨x, by simp [hx], e⟩

theorem mapM_total {α β : Type _} {f : α → Option β} {l : List α} (h : ∀ a ∈ l, ∃ b, f a = some b) :
    ∃ r, l.mapM f = some r := by
  induction l with
  | nil => exact ⟨[], rfl⟩
  | cons a l ih =>
    obtain ⟨b, hb⟩ := h a (by simp)
    obtain ⟨r, hr⟩ := ih (fun x hx => h x (by simp [hx]))
    exact ⟨b :: r, by rw [List.mapM_cons, hb, hr]; rfl⟩

theorem pairs_sorted (n m : Nat) : (pairs n m).Pairwise (fun a b => pairLt a b = true) := by
  simp only [pairs]
  rw [List.pairwise_flatMap]
  constructor
  · intro i _
    rw [List.pairwise_map]
    exact List.pairwise_lt_range.imp (fun h => by rw [pairLt_iff]; simp; omega)
  · exact List.pairwise_lt_range.imp (fun h x hx y hy => by
      simp at hx hy
      obtain ⟨_, _, rfl⟩ := hx
      obtain ⟨_, _, rfl⟩ := hy
      rw [pairLt_iff]; simp; omega)

theorem regPairs_sorted (first size m : Nat) :
    (regPairs first size m).Pairwise (fun a b => pairLt a b = true) := by
  rw [regPairs, List.pairwise_map]
  exact (pairs_sorted size m).imp (fun h => by rw [pairLt_iff] at *; simp; omega)

theorem sorted_nodup {l : List (Nat × Nat)} (h : l.Pairwise (fun a b => pairLt a b = true)) : l.Nodup :=
  h.imp (fun h e => by subst e; rw [pairLt_iff] at h; omega)

/-- A duplicate-free list which maps injectively into another one is not longer. -/
theorem length_le_of_inj {α β : Type _} {l : List α} {l' : List β} (g : α → β) (hl : l.Nodup)
    (hin : ∀ a ∈ l, g a ∈ l') (hinj : ∀ a ∈ l, ∀ b ∈ l, g a = g b → a = b) : l.length ≤ l'.length := by
  have hnd : (l.map g).Nodup := by
    rw [List.Nodup, List.pairwise_map]
    rw [List.Nodup, List.pairwise_iff_forall_sublist] at hl
    rw [List.pairwise_iff_forall_sublist]
    intro a b hab e
    have ha : a ∈ l := hab.subset (by simp)
    have hb : b ∈ l := hab.subset (by simp)
    exact hl hab (hinj a ha b hb e)
  have : (l.map g).length ≤ l'.length := by
    apply List.Nodup.length_le_of_subset hnd
    intro x hx
    obtain ⟨a, ha, rfl⟩ := List.mem_map.1 hx
    exact hin a ha
  simpa using this

/-! ### Sends of a partition -/

section
variable {elFaEl : List (Option Nat)} {nElFas nEls : Nat} {elPa elTg : List Nat}

theorem cutFace_iff (hA : AdOk elFaEl nElFas nEls) (hp : elPa.length = nEls) (ht : elTg.length = nEls)
    {pa tg : Nat} {k x : Nat × Nat} (h1 : x.1 < nEls) (h2 : x.2 < nElFas) (h3 : elPa[x.1]? = some pa)
    (h4 : elTg[x.1]? = some tg) :
    CutFace elFaEl nElFas nEls elPa elTg pa tg k x ↔ cutOf elFaEl nElFas elPa elTg pa x = some k := by
  obtain ⟨e1, e2⟩ := adOf_some hA (x := x) h1 h2
  simp only [CutFace, h1, h2, h3, h4, true_and, e1]
  cases ha : adOf elFaEl nElFas x with
  | none => simp [cutOf, keyOf, ha]
  | some ad =>
    have hlt := (e2 ad ha).1
    have g1 := List.getElem?_eq_getElem (show ad < elPa.length by omega)
    have g2 := List.getElem?_eq_getElem (show ad < elTg.length by omega)
    rcases k with ⟨k1, k2⟩
    by_cases hne : elPa[ad] = pa
    · have : cutOf elFaEl nElFas elPa elTg pa x = none := by simp [cutOf, keyOf, ha, g1, g2, hne]
      rw [this]
      constructor
      · rintro ⟨a, ad', hb, c, d⟩
        cases hb
        rw [g1] at c
        exact absurd ((Option.some.inj c).symm.trans hne) a
      · simp
    · have : cutOf elFaEl nElFas elPa elTg pa x = some (elPa[ad], elTg[ad]) := by simp [cutOf, keyOf, ha, g1, g2, hne]
      rw [this]
      constructor
      · rintro ⟨a, ad', hb, c, d⟩
        cases hb
        rw [g1] at c; rw [g2] at d
        cases c; cases d; rfl
      · intro h
        cases h
        exact ⟨hne, ad, rfl, g1, g2⟩

/-- Time regions which hold the sends of partition `pa` exactly. -/
structure SendOk (elFaEl : List (Option Nat)) (nElFas nEls : Nat) (elPa elTg : List Nat) (pa : Nat)
    (trs : List TimeRegion) : Prop where
  tgs : trs.Pairwise (fun a b => a.tg < b.tg)
  msgs : ∀ r ∈ trs, ∃ (ps : List (Nat × Nat)) (E : Nat × Nat → List (Nat × Nat)),
    ps ≠ [] ∧ ps.Pairwise (fun a b => pairLt a b = true) ∧ r.send = ps.map (fun k => mkMsg elFaEl nElFas k (E k)) ∧
    (∀ k, k ∈ ps ↔ E k ≠ []) ∧ (∀ k, (E k).Pairwise (fun a b => pairLt a b = true)) ∧
    (∀ k x, x ∈ E k ↔ CutFace elFaEl nElFas nEls elPa elTg pa r.tg k x)
  all : ∀ tg k x, CutFace elFaEl nElFas nEls elPa elTg pa tg k x → ∃ r ∈ trs, r.tg = tg

theorem cut_of_cutFace {pa tg : Nat} {k x : Nat × Nat} (h : CutFace elFaEl nElFas nEls elPa elTg pa tg k x) :
    Cut elFaEl nElFas elPa x.1 := by
  obtain ⟨_, h2, h3, _, h5, ad, e, g, _⟩ := h
  exact ⟨ad, pa, k.1, ⟨x.2, h2, e⟩, h3, g, fun h => h5 h.symm⟩

theorem sendPart_spec (hM : MeshOk elFaEl nElFas nEls) (hp : elPa.length = nEls) (ht : elTg.length = nEls)
    (hO : Ordered elFaEl nElFas nEls elPa elTg) {pa first size : Nat} (hle : first + size ≤ nEls)
    (hreg : ∀ el, el < nEls → ((Cut elFaEl nElFas elPa el ∧ elPa[el]? = some pa) ↔ (first ≤ el ∧ el < first + size))) :
    ∃ trs, sendPart nElFas first size elFaEl elPa elTg = some trs ∧ SendOk elFaEl nElFas nEls elPa elTg pa trs := by
  obtain ⟨rs, h1, h2, h3, h4⟩ := getTgs_spec (elTg := elTg) (first := first) (size := size) (by omega)
    (by
      intro i j t u hi hij hj hti htj
      have ci := (hreg i (by omega)).2 ⟨hi, by omega⟩
      have cj := (hreg j (by omega)).2 ⟨by omega, hj⟩
      rcases hO i j pa pa t u hij (by omega) ci.2 cj.2 hti htj with h | ⟨_, ⟨h, _⟩ | ⟨_, h⟩⟩
      · omega
      · exact absurd ci.1 h
      · exact h)
  have hpart : ∀ r ∈ rs, ∃ (ps : List (Nat × Nat)) (E : Nat × Nat → List (Nat × Nat)),
      getMsgsSend nElFas r.2.1 r.2.2 elFaEl elPa elTg = some (ps.map (fun k => mkMsg elFaEl nElFas k (E k))) ∧
      ps ≠ [] ∧ ps.Pairwise (fun a b => pairLt a b = true) ∧ (∀ k, k ∈ ps ↔ E k ≠ []) ∧
      (∀ k, (E k).Pairwise (fun a b => pairLt a b = true)) ∧
      (∀ k x, x ∈ E k ↔ CutFace elFaEl nElFas nEls elPa elTg pa r.1 k x) := by
    intro r hr
    obtain ⟨a, b, c, d⟩ := h3 r hr
    obtain ⟨ps, k1, k2, k3⟩ := getMsgsSend_spec hM hp ht (pa := pa) (tg := r.1) a (by omega)
      (fun el e1 e2 => ⟨((hreg el (by omega)).2 ⟨by omega, by omega⟩).2, (d el (by omega) (by omega)).2 ⟨e1, e2⟩⟩)
    -- entries are the cut faces
    have hE : ∀ k x, x ∈ (regPairs r.2.1 r.2.2 nElFas).filter
        (fun x => decide (cutOf elFaEl nElFas elPa elTg pa x = some k)) ↔
        CutFace elFaEl nElFas nEls elPa elTg pa r.1 k x := by
      intro k x
      rw [List.mem_filter, mem_regPairs, decide_eq_true_iff]
      constructor
      · rintro ⟨⟨e1, e2, e3⟩, e4⟩
        exact (cutFace_iff hM.ad hp ht (by omega) e3 ((hreg x.1 (by omega)).2 ⟨by omega, by omega⟩).2
          ((d x.1 (by omega) (by omega)).2 ⟨e1, e2⟩)).2 e4
      · intro h
        have hc := cut_of_cutFace h
        have h' := h
        obtain ⟨e1, e2, e3, e4, _⟩ := h
        have hin := (hreg x.1 e1).1 ⟨hc, e3⟩
        have hin' := (d x.1 hin.1 hin.2).1 e4
        exact ⟨⟨hin'.1, hin'.2, e2⟩, (cutFace_iff hM.ad hp ht e1 e2 e3 e4).1 h'⟩
    refine ⟨ps, _, k3, ?_, k1, ?_, fun k => (regPairs_sorted _ _ _).filter _, hE⟩
    · -- a send element has a cut face
      have hc := (hreg r.2.1 (by omega)).2 ⟨by omega, by omega⟩
      obtain ⟨⟨ad, p, q, ⟨fa, hfa, hnb⟩, hpe, hqa, hpq⟩, hpe'⟩ := hc
      have hlt : ad < nEls := by
        have := List.getElem?_eq_some_iff.1 hqa; obtain ⟨h, _⟩ := this; omega
      have g2 := List.getElem?_eq_getElem (show ad < elTg.length by omega)
      have hcut : CutFace elFaEl nElFas nEls elPa elTg pa r.1 (q, elTg[ad]) (r.2.1, fa) := by
        refine ⟨by simp; omega, hfa, hpe', (d _ (by omega) (by omega)).2 ⟨Nat.le_refl _, by omega⟩, ?_, ad, hnb, hqa, g2⟩
        rw [hpe] at hpe'; cases hpe'; exact fun h => hpq h.symm
      have hmem := (k2 (q, elTg[ad])).2 ⟨(r.2.1, fa), by rw [mem_regPairs]; exact ⟨by simp, by simp; omega, hfa⟩,
        (cutFace_iff hM.ad hp ht hcut.1 hcut.2.1 hcut.2.2.1 hcut.2.2.2.1).1 hcut⟩
      intro h; rw [h] at hmem; simp at hmem
    · intro k
      rw [k2]
      constructor
      · rintro ⟨x, hx, e⟩ hn
        have : x ∈ (regPairs r.2.1 r.2.2 nElFas).filter
          (fun x => decide (cutOf elFaEl nElFas elPa elTg pa x = some k)) := by
          rw [List.mem_filter]; exact ⟨hx, by simpa using e⟩
        rw [hn] at this; simp at this
      · intro hn
        obtain ⟨x, hx⟩ := List.exists_mem_of_ne_nil _ hn
        rw [List.mem_filter] at hx
        exact ⟨x, hx.1, by simpa using hx.2⟩
  obtain ⟨trs, ht1⟩ := mapM_total (l := rs) (f := fun r => do
    let ms ← getMsgsSend nElFas r.2.1 r.2.2 elFaEl elPa elTg
    return ({ tg := r.1, send := ms, recv := [] } : TimeRegion))
    (fun r hr => by
      obtain ⟨ps, E, e, _⟩ := hpart r hr
      exact ⟨_, by simp only [e]; rfl⟩)
  obtain ⟨m1, m2⟩ := mapM_get ht1
  refine ⟨trs, by simp only [sendPart, h1, Option.bind_eq_bind, Option.bind_some]; exact ht1, ?_, ?_, ?_⟩
  · rw [List.pairwise_iff_getElem] at h2 ⊢
    intro i j hi hj hij
    have g : ∀ i (hi : i < trs.length), (trs[i]).tg = (rs[i]'(by omega)).1 := by
      intro i hi
      obtain ⟨b, hb, e⟩ := m2 i _ (List.getElem?_eq_getElem (show i < rs.length by omega))
      rw [List.getElem?_eq_getElem hi] at hb
      cases hb
      simp only [Option.bind_eq_bind, Option.bind_eq_some_iff] at e
      obtain ⟨_, _, e⟩ := e
      simp at e; rw [← e]
    rw [g i hi, g j hj]
    exact h2 i j (by omega) (by omega) hij
  · intro r hr
    obtain ⟨r0, hr0, e⟩ := mapM_mem ht1 hr
    obtain ⟨ps, E, e', k1, k2, k3, k4, k5⟩ := hpart r0 hr0
    rw [e'] at e
    simp at e
    subst e
    exact ⟨ps, E, k1, k2, rfl, k3, k4, k5⟩
  · intro tg k x hx
    have hc := cut_of_cutFace hx
    have hin := (hreg x.1 hx.1).1 ⟨hc, hx.2.2.1⟩
    obtain ⟨r, hr, e⟩ := h4 x.1 hin.1 hin.2
    obtain ⟨i, hi⟩ := List.getElem?_of_mem hr
    obtain ⟨b, hb, e2⟩ := m2 i r hi
    simp only [Option.bind_eq_bind, Option.bind_eq_some_iff] at e2
    obtain ⟨_, _, e2⟩ := e2
    refine ⟨b, List.mem_of_getElem? hb, ?_⟩
    cases e2
    have := hx.2.2.2.1
    rw [e] at this
    exact Option.some.inj this

/-! ### Mirrored faces -/

/-- The same face, seen from the other side. -/
def mirror (elFaEl : List (Option Nat)) (nElFas : Nat) (x : Nat × Nat) : Nat × Nat :=
  ((adOf elFaEl nElFas x).getD 0, (backOf elFaEl nElFas x).getD 0)

theorem mirror_spec (hM : MeshOk elFaEl nElFas nEls) {pa tg : Nat} {k x : Nat × Nat}
    (h : CutFace elFaEl nElFas nEls elPa elTg pa tg k x) :
    elFaEl[x.1 * nElFas + x.2]? = some (some (mirror elFaEl nElFas x).1) ∧
    elFaEl[(mirror elFaEl nElFas x).1 * nElFas + (mirror elFaEl nElFas x).2]? = some (some x.1) ∧
    CutFace elFaEl nElFas nEls elPa elTg k.1 k.2 (pa, tg) (mirror elFaEl nElFas x) := by
  obtain ⟨h1, h2, h3, h4, h5, ad, h6, h7, h8⟩ := h
  obtain ⟨e1, e2⟩ := adOf_some hM.ad (x := x) h1 h2
  have ha : adOf elFaEl nElFas x = some ad := by rw [h6] at e1; exact (Option.some.inj e1).symm
  obtain ⟨hlt, hnb⟩ := e2 ad ha
  obtain ⟨r, hr, hr1, hr2⟩ := faceAd_spec hM.ad (el := x.1) hlt
  cases r with
  | none => exact absurd (hM.sym x.1 ad h1 hnb) (hr2 rfl)
  | some f =>
    have hb : backOf elFaEl nElFas x = some f := by simp [backOf, ha, hr]
    obtain ⟨q1, q2⟩ := hr1 f rfl
    simp only [mirror, ha, hb, Option.getD_some]
    exact ⟨h6, q2, hlt, q1, h7, h8, fun h => h5 h.symm, x.1, q2, h3, h4⟩

theorem mirror_mirror (hM : MeshOk elFaEl nElFas nEls) (hU : OneFace elFaEl nElFas nEls) {pa tg : Nat} {k x : Nat × Nat}
    (h : CutFace elFaEl nElFas nEls elPa elTg pa tg k x) :
    mirror elFaEl nElFas (mirror elFaEl nElFas x) = x := by
  obtain ⟨a1, a2, a3⟩ := mirror_spec hM h
  obtain ⟨b1, b2, b3⟩ := mirror_spec hM a3
  have e1 : (mirror elFaEl nElFas (mirror elFaEl nElFas x)).1 = x.1 := by
    rw [b1] at a2; exact Option.some.inj (Option.some.inj a2)
  refine Prod.ext e1 ?_
  rw [e1] at b2
  have hlt : (mirror elFaEl nElFas (mirror elFaEl nElFas x)).2 < nElFas := b3.2.1
  exact hU x.1 _ _ _ h.1 hlt h.2.1 b2 a1

theorem zip_map4 {α : Type _} (E : List α) (a b c d : α → Nat) :
    (E.map a).zip ((E.map b).zip ((E.map c).zip (E.map d))) = E.map (fun x => (a x, b x, c x, d x)) := by
  induction E with
  | nil => rfl
  | cons x E ih => simp [ih]

theorem entries_mkMsg (k : Nat × Nat) (E : List (Nat × Nat)) :
    (mkMsg elFaEl nElFas k E).entries
      = E.map (fun x => (x.1, x.2, (mirror elFaEl nElFas x).1, (mirror elFaEl nElFas x).2)) := by
  simp only [Message.entries, mkMsg, zip_map4]
  rfl

/-! ### Receives -/

theorem mirrorMsg_spec {pa tg : Nat} {m : Message} : ∀ {ss : List Message}, (∃ s ∈ ss, s.pa = pa ∧ s.tg = tg) →
    ∃ s ∈ ss, s.pa = pa ∧ s.tg = tg ∧
      mirrorMsg pa tg m ss = (if m.el.length = s.el.length ∧ m.fa.length = s.fa.length then
        some (some { pa := m.pa, tg := m.tg, el := s.elAd, fa := s.faAd, elAd := s.el, faAd := s.fa }) else none)
  | [], h => by simp at h
  | s :: ss, h => by
    by_cases hs : s.tg = tg ∧ s.pa = pa
    · refine ⟨s, by simp, hs.2, hs.1, ?_⟩
      simp only [mirrorMsg, hs, and_self, if_true, Option.bind_eq_bind]
      by_cases h1 : m.el.length = s.el.length
      · by_cases h2 : m.fa.length = s.fa.length
        · simp [h1, h2]
        · simp [h1, h2, check]
      · simp [h1, check]
    · obtain ⟨s0, hs0, e1, e2⟩ := h
      have hin : s0 ∈ ss := by
        rcases List.mem_cons.1 hs0 with rfl | h
        · exact absurd ⟨e2, e1⟩ hs
        · exact h
      obtain ⟨s1, k1, k2, k3, k4⟩ := mirrorMsg_spec (pa := pa) (tg := tg) (m := m) ⟨s0, hin, e1, e2⟩
      refine ⟨s1, by simp [k1], k2, k3, ?_⟩
      have hn : ss ≠ [] := by rintro rfl; simp at hin
      simp only [mirrorMsg, hs, if_false, ← k4]
      simp [hn]

theorem mirrorTr_spec {pa tg : Nat} {m : Message} : ∀ {rs : List TimeRegion}, (∃ r ∈ rs, r.tg = m.tg) →
    ∃ r ∈ rs, r.tg = m.tg ∧ mirrorTr pa tg m rs = mirrorMsg pa tg m r.send
  | [], h => by simp at h
  | r :: rs, h => by
    by_cases hr : r.tg = m.tg
    · exact ⟨r, by simp, hr, by simp [mirrorTr, hr]⟩
    · obtain ⟨r0, hr0, e⟩ := h
      have hin : r0 ∈ rs := by
        rcases List.mem_cons.1 hr0 with rfl | h
        · exact absurd e hr
        · exact h
      obtain ⟨r1, k1, k2, k3⟩ := mirrorTr_spec (pa := pa) (tg := tg) (m := m) ⟨r0, hin, e⟩
      exact ⟨r1, by simp [k1], k2, by simp [mirrorTr, hr, k3]⟩

/-- Faces are mirrored one to one. -/
theorem cut_count (hM : MeshOk elFaEl nElFas nEls) (hU : OneFace elFaEl nElFas nEls) {pa tg : Nat} {k : Nat × Nat}
    {E E' : List (Nat × Nat)} (hE : E.Nodup) (hE' : E'.Nodup)
    (h1 : ∀ x, x ∈ E ↔ CutFace elFaEl nElFas nEls elPa elTg pa tg k x)
    (h2 : ∀ x, x ∈ E' ↔ CutFace elFaEl nElFas nEls elPa elTg k.1 k.2 (pa, tg) x) : E.length = E'.length := by
  apply Nat.le_antisymm
  · apply length_le_of_inj (mirror elFaEl nElFas) hE
    · intro a ha; exact (h2 _).2 (mirror_spec hM ((h1 a).1 ha)).2.2
    · intro a ha b hb e
      rw [← mirror_mirror hM hU ((h1 a).1 ha), ← mirror_mirror hM hU ((h1 b).1 hb), e]
  · apply length_le_of_inj (mirror elFaEl nElFas) hE'
    · intro a ha; exact (h1 _).2 (mirror_spec hM ((h2 a).1 ha)).2.2
    · intro a ha b hb e
      rw [← mirror_mirror hM hU ((h2 a).1 ha), ← mirror_mirror hM hU ((h2 b).1 hb), e]

/-- Search of one message: the remote send which goes the other way. -/
theorem mirror_one (hM : MeshOk elFaEl nElFas nEls) {pa : Nat} {r : TimeRegion} {remote : List TimeRegion}
    {k : Nat × Nat} {E : List (Nat × Nat)} (hne : E ≠ []) (hE : ∀ x, x ∈ E ↔ CutFace elFaEl nElFas nEls elPa elTg pa r.tg k x)
    (hR : SendOk elFaEl nElFas nEls elPa elTg k.1 remote) :
    ∃ r' ∈ remote, r'.tg = k.2 ∧ ∃ E' : List (Nat × Nat), E'.Pairwise (fun a b => pairLt a b = true) ∧
      (∀ x, x ∈ E' ↔ CutFace elFaEl nElFas nEls elPa elTg k.1 k.2 (pa, r.tg) x) ∧
      mkMsg elFaEl nElFas (pa, r.tg) E' ∈ r'.send ∧
      mirrorTr pa r.tg (mkMsg elFaEl nElFas k E) remote =
        (if E.length = E'.length then some (some (Message.mk k.1 k.2 (mkMsg elFaEl nElFas (pa, r.tg) E').elAd
          (mkMsg elFaEl nElFas (pa, r.tg) E').faAd (mkMsg elFaEl nElFas (pa, r.tg) E').el
          (mkMsg elFaEl nElFas (pa, r.tg) E').fa)) else none) := by
  obtain ⟨x, hx⟩ := List.exists_mem_of_ne_nil _ hne
  obtain ⟨_, _, hm⟩ := mirror_spec hM ((hE x).1 hx)
  obtain ⟨r', hr', e1, e2⟩ := mirrorTr_spec (pa := pa) (tg := r.tg) (m := mkMsg elFaEl nElFas k E) (hR.all _ _ _ hm)
  have e1' : r'.tg = k.2 := e1
  obtain ⟨ps, E', k1, k2, k3, k4, k5, k6⟩ := hR.msgs r' hr'
  have hin : (pa, r.tg) ∈ ps := by
    rw [k4]
    intro hn
    have := (k6 (pa, r.tg) _).2 (by rw [e1']; exact hm)
    rw [hn] at this; simp at this
  obtain ⟨s, hs, g1, g2, g3⟩ := mirrorMsg_spec (pa := pa) (tg := r.tg) (m := mkMsg elFaEl nElFas k E) (ss := r'.send)
    ⟨mkMsg elFaEl nElFas (pa, r.tg) (E' (pa, r.tg)), by rw [k3]; exact List.mem_map.2 ⟨_, hin, rfl⟩, rfl, rfl⟩
  rw [k3] at hs
  obtain ⟨k', hk', rfl⟩ := List.mem_map.1 hs
  have : k' = (pa, r.tg) := Prod.ext g1 g2
  subst this
  refine ⟨r', hr', e1', E' (pa, r.tg), k5 _, fun x => by rw [k6, e1'], by rw [k3]; exact hs, ?_⟩
  rw [e2, g3]
  simp [mkMsg]

/-! ### The whole structure -/

/-- What `getStruct` computes. -/
theorem getStruct_spec (hM : MeshOk elFaEl nElFas nEls) (hp : elPa.length = nEls) (ht : elTg.length = nEls)
    (hO : Ordered elFaEl nElFas nEls elPa elTg) {st : List (List TimeRegion)}
    (h : getStruct nElFas nEls elFaEl elPa elTg = some st) :
    ∃ sends : List (List TimeRegion), sends.length = st.length ∧ (∀ p ∈ elPa, p < st.length) ∧
      ∀ (pa : Nat) (trs : List TimeRegion), st[pa]? = some trs → ∃ ss, sends[pa]? = some ss ∧
        SendOk elFaEl nElFas nEls elPa elTg pa ss ∧ recvPart sends pa ss = some trs := by
  simp only [getStruct, Option.bind_eq_bind, Option.bind_eq_some_iff, check_some, decide_eq_true_iff, rd] at h
  obtain ⟨_, hn, last, hl, ⟨first, size⟩, hc, sends, hs, hr⟩ := h
  have hmax : ∀ p ∈ elPa, p < last + 1 := by
    intro p hp'
    obtain ⟨i, hi⟩ := List.getElem?_of_mem hp'
    have hil := (List.getElem?_eq_some_iff.1 hi).1
    by_cases he : i = nEls - 1
    · subst he; rw [hl] at hi; cases hi; omega
    · have t1 := List.getElem?_eq_getElem (show i < elTg.length by omega)
      have t2 := List.getElem?_eq_getElem (show nEls - 1 < elTg.length by omega)
      rcases hO i (nEls - 1) p last _ _ (by omega) (by omega) hi hl t1 t2 with h | ⟨h, _⟩ <;> omega
  obtain ⟨f1, f2, f3⟩ := (getPaElComm_spec hM.ad hp ht hO hmax).1 first size hc
  obtain ⟨s1, s2⟩ := mapM_get hs
  obtain ⟨r1, r2⟩ := mapM_get hr
  simp at s1 r1
  refine ⟨sends, by omega, by rw [r1]; exact hmax, fun pa trs hpa => ?_⟩
  have hlt : pa < last + 1 := by have := (List.getElem?_eq_some_iff.1 hpa).1; omega
  obtain ⟨ss, hss, e1⟩ := s2 pa pa (List.getElem?_range hlt)
  obtain ⟨tr', htr, e2⟩ := r2 pa pa (List.getElem?_range hlt)
  rw [hpa] at htr; cases htr
  have gf := List.getElem?_eq_getElem (show pa < first.length by omega)
  have gs := List.getElem?_eq_getElem (show pa < size.length by omega)
  obtain ⟨q1, q2⟩ := f3 pa _ _ gf gs
  obtain ⟨trs', w1, w2⟩ := sendPart_spec hM hp ht hO q1 q2
  simp only [gf, gs, Option.bind_some] at e1
  rw [w1] at e1; cases e1
  simp only [hss, Option.bind_some] at e2
  exact ⟨_, hss, w2, e2⟩

/-- The structure is derived if no partition without cut faces lies between partitions with cut faces and if two
elements share at most one face. -/
theorem getStruct_total (hM : MeshOk elFaEl nElFas nEls) (hU : OneFace elFaEl nElFas nEls) (hn : 0 < nEls)
    (hp : elPa.length = nEls) (ht : elTg.length = nEls)
    (hO : Ordered elFaEl nElFas nEls elPa elTg) (hG : NoGap elFaEl nElFas nEls elPa) :
    ∃ st, getStruct nElFas nEls elFaEl elPa elTg = some st := by
  have hl := List.getElem?_eq_getElem (show nEls - 1 < elPa.length by omega)
  generalize elPa[nEls - 1]'(by omega) = last at hl
  have hmax : ∀ p ∈ elPa, p < last + 1 := by
    intro p hp'
    obtain ⟨i, hi⟩ := List.getElem?_of_mem hp'
    have hil := (List.getElem?_eq_some_iff.1 hi).1
    by_cases he : i = nEls - 1
    · subst he; rw [hl] at hi; cases hi; omega
    · have t1 := List.getElem?_eq_getElem (show i < elTg.length by omega)
      have t2 := List.getElem?_eq_getElem (show nEls - 1 < elTg.length by omega)
      rcases hO i (nEls - 1) p last _ _ (by omega) (by omega) hi hl t1 t2 with h | ⟨h, _⟩ <;> omega
  obtain ⟨first, size, hc⟩ := (getPaElComm_spec hM.ad hp ht hO hmax).2 hG
  obtain ⟨f1, f2, f3⟩ := (getPaElComm_spec hM.ad hp ht hO hmax).1 first size hc
  have hsend : ∀ pa, pa < last + 1 → ∃ trs, (do
      let f ← rd first pa
      let n ← rd size pa
      sendPart nElFas f n elFaEl elPa elTg) = some trs ∧ SendOk elFaEl nElFas nEls elPa elTg pa trs := by
    intro pa hlt
    have gf := List.getElem?_eq_getElem (show pa < first.length by omega)
    have gs := List.getElem?_eq_getElem (show pa < size.length by omega)
    obtain ⟨q1, q2⟩ := f3 pa _ _ gf gs
    obtain ⟨trs', w1, w2⟩ := sendPart_spec hM hp ht hO q1 q2
    exact ⟨trs', by simp only [rd, gf, gs, Option.bind_eq_bind, Option.bind_some]; exact w1, w2⟩
  obtain ⟨sends, hs⟩ := mapM_total (l := List.range (last + 1)) (f := fun pa => do
      let f ← rd first pa
      let n ← rd size pa
      sendPart nElFas f n elFaEl elPa elTg) (fun pa hpa => by
        obtain ⟨trs, h, _⟩ := hsend pa (List.mem_range.1 hpa); exact ⟨trs, h⟩)
  obtain ⟨s1, s2⟩ := mapM_get hs
  simp at s1
  have hso : ∀ pa, pa < last + 1 → ∃ ss, sends[pa]? = some ss ∧ SendOk elFaEl nElFas nEls elPa elTg pa ss := by
    intro pa hlt
    obtain ⟨ss, hss, e1⟩ := s2 pa pa (List.getElem?_range hlt)
    obtain ⟨trs, h, h'⟩ := hsend pa hlt
    rw [h] at e1; cases e1
    exact ⟨_, hss, h'⟩
  obtain ⟨st, hr⟩ := mapM_total (l := List.range (last + 1)) (f := fun pa => do
    let trs ← rd sends pa
    recvPart sends pa trs) (fun pa hpa => by
      obtain ⟨ss, e, hS⟩ := hso pa (List.mem_range.1 hpa)
      simp only [rd, e, Option.bind_eq_bind, Option.bind_some, recvPart]
      apply mapM_total
      intro r hr
      obtain ⟨ps, E, k1, k2, k3, k4, k5, k6⟩ := hS.msgs r hr
      have : ∃ recv, (r.send.mapM (fun m => (sends[m.pa]?).bind (fun remote => mirrorTr pa r.tg m remote))) = some recv := by
        apply mapM_total
        intro m hm
        rw [k3] at hm
        obtain ⟨k, hk, rfl⟩ := List.mem_map.1 hm
        have hne := (k4 k).1 hk
        obtain ⟨x, hx⟩ := List.exists_mem_of_ne_nil _ hne
        have hk1 : k.1 < last + 1 := by
          obtain ⟨_, _, _, _, _, ad, _, g, _⟩ := (k6 k x).1 hx
          exact hmax _ (List.mem_of_getElem? g)
        obtain ⟨remote, e', hR⟩ := hso k.1 hk1
        obtain ⟨r', _, _, E', w1, w2, _, w3⟩ := mirror_one hM (pa := pa) (r := r) hne (k6 k) hR
        have hcount := cut_count hM hU (sorted_nodup (k5 k)) (sorted_nodup w1) (k6 k) w2
        rw [if_pos hcount] at w3
        have e'' : sends[(mkMsg elFaEl nElFas k (E k)).pa]? = some remote := e'
        exact ⟨_, by rw [e'']; exact w3⟩
      obtain ⟨recv, hrecv⟩ := this
      rw [hrecv]
      exact ⟨_, rfl⟩)
  refine ⟨st, ?_⟩
  simp only [getStruct, hn, decide_true, check_true, rd, hl, Option.bind_eq_bind, Option.bind_some, hc]
  simp only [rd, Option.bind_eq_bind] at hs
  rw [hs]
  exact hr

/-- Element-face pairs in the send messages of a partition, in the order of the messages. -/
def sendFaces (trs : List TimeRegion) : List (Nat × Nat) :=
  trs.flatMap (fun r => r.send.flatMap (fun m => m.entries.map (fun q => (q.1, q.2.1))))

/-- Element-face pairs in the receive messages of a partition, in the order of the messages. -/
def recvFaces (trs : List TimeRegion) : List (Nat × Nat) :=
  trs.flatMap (fun r => r.recv.flatMap (fun m => m.elim [] (fun m => m.entries.map (fun q => (q.1, q.2.1)))))

theorem recvPart_get {sends : List (List TimeRegion)} {pa : Nat} {ss trs : List TimeRegion}
    (h : recvPart sends pa ss = some trs) :
    trs.map (fun r => (r.tg, r.send)) = ss.map (fun r => (r.tg, r.send)) ∧
    ∀ r ∈ trs, ∃ r0 ∈ ss, r.tg = r0.tg ∧ r.send = r0.send ∧
      r.send.mapM (fun m => (sends[m.pa]?).bind (fun remote => mirrorTr pa r.tg m remote)) = some r.recv := by
  simp only [recvPart] at h
  refine ⟨?_, fun r hr => ?_⟩
  · obtain ⟨h1, h2⟩ := mapM_get h
    apply List.ext_getElem?
    intro i
    simp only [List.getElem?_map]
    by_cases hi : i < ss.length
    · obtain ⟨b, hb, e⟩ := h2 i _ (List.getElem?_eq_getElem hi)
      rw [hb, List.getElem?_eq_getElem hi]
      simp only [Option.bind_eq_bind, Option.bind_eq_some_iff] at e
      obtain ⟨_, _, e⟩ := e
      simp at e; simp [← e]
    · rw [List.getElem?_eq_none (by omega), List.getElem?_eq_none (by omega)]
  · obtain ⟨r0, hr0, e⟩ := mapM_mem h hr
    simp only [Option.bind_eq_bind, Option.bind_eq_some_iff] at e
    obtain ⟨recv, e1, e2⟩ := e
    simp at e2
    subst e2
    exact ⟨r0, hr0, rfl, rfl, e1⟩

theorem sendOk_congr {pa : Nat} {ss trs : List TimeRegion} (hS : SendOk elFaEl nElFas nEls elPa elTg pa ss)
    (h : trs.map (fun r => (r.tg, r.send)) = ss.map (fun r => (r.tg, r.send))) :
    SendOk elFaEl nElFas nEls elPa elTg pa trs := by
  have hmem : ∀ r ∈ trs, ∃ r0 ∈ ss, r0.tg = r.tg ∧ r0.send = r.send := by
    intro r hr
    have : (r.tg, r.send) ∈ ss.map (fun r => (r.tg, r.send)) := by rw [← h]; exact List.mem_map.2 ⟨r, hr, rfl⟩
    obtain ⟨r0, h0, e⟩ := List.mem_map.1 this
    exact ⟨r0, h0, (Prod.ext_iff.1 e).1, (Prod.ext_iff.1 e).2⟩
  have hmem' : ∀ r ∈ ss, ∃ r0 ∈ trs, r0.tg = r.tg := by
    intro r hr
    have : (r.tg, r.send) ∈ trs.map (fun r => (r.tg, r.send)) := by rw [h]; exact List.mem_map.2 ⟨r, hr, rfl⟩
    obtain ⟨r0, h0, e⟩ := List.mem_map.1 this
    exact ⟨r0, h0, (Prod.ext_iff.1 e).1⟩
  refine ⟨?_, ?_, ?_⟩
  · have h1 : (trs.map (fun r => (r.tg, r.send))).Pairwise (fun a b => a.1 < b.1) := by
      rw [h, List.pairwise_map]; exact hS.tgs
    rw [List.pairwise_map] at h1; exact h1
  · intro r hr
    obtain ⟨r0, h0, e1, e2⟩ := hmem r hr
    have := hS.msgs r0 h0
    rw [e1, e2] at this; exact this
  · intro tg k x hx
    obtain ⟨r, hr, e⟩ := hS.all tg k x hx
    obtain ⟨r0, h0, e'⟩ := hmem' r hr
    exact ⟨r0, h0, e'.trans e⟩

/-- The send messages of all partitions. -/
theorem getStruct_sends (hM : MeshOk elFaEl nElFas nEls) (hp : elPa.length = nEls) (ht : elTg.length = nEls)
    (hO : Ordered elFaEl nElFas nEls elPa elTg) {st : List (List TimeRegion)}
    (h : getStruct nElFas nEls elFaEl elPa elTg = some st) {pa : Nat} {trs : List TimeRegion}
    (hpa : st[pa]? = some trs) : SendOk elFaEl nElFas nEls elPa elTg pa trs := by
  obtain ⟨sends, _, _, h3⟩ := getStruct_spec hM hp ht hO h
  obtain ⟨ss, e1, e2, e3⟩ := h3 pa trs hpa
  exact sendOk_congr e2 (recvPart_get e3).1

theorem sendFaces_spec {pa : Nat} {trs : List TimeRegion} (hS : SendOk elFaEl nElFas nEls elPa elTg pa trs) :
    (sendFaces trs).Nodup ∧
    ∀ x, x ∈ sendFaces trs ↔ ∃ tg k, CutFace elFaEl nElFas nEls elPa elTg pa tg k x := by
  -- faces of a message
  have hent : ∀ k E, ((mkMsg elFaEl nElFas k E).entries.map (fun q => (q.1, q.2.1))) = E := by
    intro k E
    rw [entries_mkMsg, List.map_map]
    conv => rhs; rw [← List.map_id E]
    rfl
  constructor
  · rw [sendFaces, List.nodup_flatMap]
    constructor
    · intro r hr
      obtain ⟨ps, E, k1, k2, k3, k4, k5, k6⟩ := hS.msgs r hr
      rw [List.nodup_flatMap, k3]
      constructor
      · intro m hm
        obtain ⟨k, _, rfl⟩ := List.mem_map.1 hm
        rw [hent]; exact sorted_nodup (k5 k)
      · rw [List.pairwise_map]
        refine k2.imp (fun {a b} hab x hx hy => ?_)
        simp only [hent] at hx hy
        obtain ⟨_, _, _, _, _, ad, g1, g2, g3⟩ := (k6 a x).1 hx
        obtain ⟨_, _, _, _, _, ad', g1', g2', g3'⟩ := (k6 b x).1 hy
        rw [g1] at g1'; cases g1'
        rw [g2] at g2'; rw [g3] at g3'
        have : a = b := Prod.ext (Option.some.inj g2') (Option.some.inj g3')
        subst this
        rw [pairLt_iff] at hab; omega
    · refine hS.tgs.imp_of_mem (fun {a b} ha hb hab x hx hy => ?_)
      have key : ∀ r ∈ trs, x ∈ r.send.flatMap (fun m => m.entries.map (fun q => (q.1, q.2.1))) →
          elTg[x.1]? = some r.tg := by
        intro r hr hx
        obtain ⟨ps, E, k1, k2, k3, k4, k5, k6⟩ := hS.msgs r hr
        rw [k3] at hx
        obtain ⟨m, hm, hx⟩ := List.mem_flatMap.1 hx
        obtain ⟨k, _, rfl⟩ := List.mem_map.1 hm
        rw [hent] at hx
        exact ((k6 k x).1 hx).2.2.2.1
      have e1 := key a ha hx
      have e2 := key b hb hy
      rw [e1] at e2
      have := Option.some.inj e2
      omega
  · intro x
    simp only [sendFaces, List.mem_flatMap]
    constructor
    · rintro ⟨r, hr, m, hm, hx⟩
      obtain ⟨ps, E, k1, k2, k3, k4, k5, k6⟩ := hS.msgs r hr
      rw [k3] at hm
      obtain ⟨k, _, rfl⟩ := List.mem_map.1 hm
      rw [hent] at hx
      exact ⟨r.tg, k, (k6 k x).1 hx⟩
    · rintro ⟨tg, k, hx⟩
      obtain ⟨r, hr, e⟩ := hS.all tg k x hx
      obtain ⟨ps, E, k1, k2, k3, k4, k5, k6⟩ := hS.msgs r hr
      have hin : x ∈ E k := (k6 k x).2 (by rw [e]; exact hx)
      refine ⟨r, hr, mkMsg elFaEl nElFas k (E k), ?_, by rw [hent]; exact hin⟩
      rw [k3]
      exact List.mem_map.2 ⟨k, (k4 k).2 (by intro hn; rw [hn] at hin; simp at hin), rfl⟩

/-! ## C36 -/

/-- C36: whenever the structure is derived, the send messages of a partition hold every element-face pair with a
neighbour in another partition exactly once, and nothing else. -/
theorem C36_faces (hM : MeshOk elFaEl nElFas nEls) (hp : elPa.length = nEls) (ht : elTg.length = nEls)
    (hO : Ordered elFaEl nElFas nEls elPa elTg) {st : List (List TimeRegion)}
    (h : getStruct nElFas nEls elFaEl elPa elTg = some st) :
    (∀ p ∈ elPa, p < st.length) ∧
    ∀ (pa : Nat) (trs : List TimeRegion), st[pa]? = some trs → (sendFaces trs).Nodup ∧
      ∀ el fa : Nat, (el, fa) ∈ sendFaces trs ↔ el < nEls ∧ fa < nElFas ∧ elPa[el]? = some pa ∧
        ∃ ad q : Nat, elFaEl[el * nElFas + fa]? = some (some ad) ∧ elPa[ad]? = some q ∧ q ≠ pa := by
  obtain ⟨sends, _, h2, _⟩ := getStruct_spec hM hp ht hO h
  refine ⟨h2, fun pa trs hpa => ?_⟩
  obtain ⟨g1, g2⟩ := sendFaces_spec (getStruct_sends hM hp ht hO h hpa)
  refine ⟨g1, fun el fa => ?_⟩
  rw [g2]
  constructor
  · rintro ⟨tg, k, a, b, c, _, d, ad, e, f, _⟩
    exact ⟨a, b, c, ad, k.1, e, f, d⟩
  · rintro ⟨a, b, c, ad, q, e, f, d⟩
    have t1 := List.getElem?_eq_getElem (show el < elTg.length by omega)
    have hlt : ad < nEls := by have := (List.getElem?_eq_some_iff.1 f).1; omega
    have t2 := List.getElem?_eq_getElem (show ad < elTg.length by omega)
    exact ⟨elTg[el], (q, elTg[ad]), a, b, c, t1, d, ad, e, f, t2⟩

/-- C36: the regions of a partition have ascending time groups, the messages of a region ascending pairs of remote
partition and remote time group; every message is non-empty and every one of its entries is a face between an element of
the partition in the region's time group and an element of the remote partition in the remote time group. -/
theorem C36_messages (hM : MeshOk elFaEl nElFas nEls) (hp : elPa.length = nEls) (ht : elTg.length = nEls)
    (hO : Ordered elFaEl nElFas nEls elPa elTg) {st : List (List TimeRegion)}
    (h : getStruct nElFas nEls elFaEl elPa elTg = some st) {pa : Nat} {trs : List TimeRegion}
    (hpa : st[pa]? = some trs) :
    trs.Pairwise (fun a b => a.tg < b.tg) ∧
    ∀ r ∈ trs, r.send ≠ [] ∧ r.send.Pairwise (fun a b => a.pa < b.pa ∨ (a.pa = b.pa ∧ a.tg < b.tg)) ∧
      ∀ m ∈ r.send, m.pa ≠ pa ∧ m.Even ∧ m.el ≠ [] ∧ ∀ el fa ad faAd, (el, fa, ad, faAd) ∈ m.entries →
        elPa[el]? = some pa ∧ elTg[el]? = some r.tg ∧ elPa[ad]? = some m.pa ∧ elTg[ad]? = some m.tg ∧
        fa < nElFas ∧ faAd < nElFas ∧
        elFaEl[el * nElFas + fa]? = some (some ad) ∧ elFaEl[ad * nElFas + faAd]? = some (some el) := by
  have hS := getStruct_sends hM hp ht hO h hpa
  refine ⟨hS.tgs, fun r hr => ?_⟩
  obtain ⟨ps, E, k1, k2, k3, k4, k5, k6⟩ := hS.msgs r hr
  rw [k3]
  refine ⟨by simpa using k1, ?_, ?_⟩
  · rw [List.pairwise_map]
    exact k2.imp (fun h => pairLt_iff.1 h)
  · intro m hm
    obtain ⟨k, hk, rfl⟩ := List.mem_map.1 hm
    have hne := (k4 k).1 hk
    obtain ⟨x, hx⟩ := List.exists_mem_of_ne_nil _ hne
    refine ⟨((k6 k x).1 hx).2.2.2.2.1, by simp [Message.Even, mkMsg], by simpa [mkMsg] using hne, ?_⟩
    intro el fa ad faAd hq
    rw [entries_mkMsg] at hq
    obtain ⟨y, hy, e⟩ := List.mem_map.1 hq
    simp only [Prod.mk.injEq] at e
    obtain ⟨rfl, rfl, rfl, rfl⟩ := e
    have hc := (k6 k y).1 hy
    obtain ⟨m1, m2, m3⟩ := mirror_spec hM hc
    exact ⟨hc.2.2.1, hc.2.2.2.1, m3.2.2.1, m3.2.2.2.1, hc.2.1, m3.2.1, m1, m2⟩

/-- C36: the structure is derived whenever the partitions with cut faces have no gap and two elements share at most one
face. -/
theorem C36_derived (hM : MeshOk elFaEl nElFas nEls) (hU : OneFace elFaEl nElFas nEls) (hn : 0 < nEls)
    (hp : elPa.length = nEls) (ht : elTg.length = nEls)
    (hO : Ordered elFaEl nElFas nEls elPa elTg) (hG : NoGap elFaEl nElFas nEls elPa) :
    ∃ st, getStruct nElFas nEls elFaEl elPa elTg = some st := getStruct_total hM hU hn hp ht hO hG

/-! ## C35 -/

/-- C35: the receive messages of a region correspond one to one to its send messages. Each one is the send message of the
remote partition for the mirrored pair of time groups, entry by entry in the same order, with local and remote parts
swapped. -/
theorem C35_mirrored (hM : MeshOk elFaEl nElFas nEls) (hp : elPa.length = nEls) (ht : elTg.length = nEls)
    (hO : Ordered elFaEl nElFas nEls elPa elTg) {st : List (List TimeRegion)}
    (h : getStruct nElFas nEls elFaEl elPa elTg = some st) {pa : Nat} {trs : List TimeRegion}
    (hpa : st[pa]? = some trs) {r : TimeRegion} (hr : r ∈ trs) :
    r.recv.length = r.send.length ∧
    ∀ (i : Nat) (m : Message), r.send[i]? = some m →
      ∃ m', r.recv[i]? = some (some m') ∧ m'.pa = m.pa ∧ m'.tg = m.tg ∧ m'.Even ∧ m'.el.length = m.el.length ∧
        ∃ trs' r' s, st[m.pa]? = some trs' ∧ r' ∈ trs' ∧ r'.tg = m.tg ∧ s ∈ r'.send ∧ s.pa = pa ∧ s.tg = r.tg ∧
          m'.entries = s.entries.map swapEntry ∧
          (OneFace elFaEl nElFas nEls → m'.entries.Perm m.entries) := by
  obtain ⟨sends, hlen, hmax, h3⟩ := getStruct_spec hM hp ht hO h
  obtain ⟨ss, e1, e2, e3⟩ := h3 pa trs hpa
  have hS := getStruct_sends hM hp ht hO h hpa
  obtain ⟨r0, _, _, _, hrecv⟩ := (recvPart_get e3).2 r hr
  obtain ⟨l1, l2⟩ := mapM_get hrecv
  refine ⟨l1, fun i m hm => ?_⟩
  obtain ⟨o, ho, hmir⟩ := l2 i m hm
  obtain ⟨ps, E, k1, k2, k3, k4, k5, k6⟩ := hS.msgs r hr
  have hmem := List.mem_of_getElem? hm
  rw [k3] at hmem
  obtain ⟨k, hk, rfl⟩ := List.mem_map.1 hmem
  have hne := (k4 k).1 hk
  obtain ⟨x, hx⟩ := List.exists_mem_of_ne_nil _ hne
  have hk1 : k.1 < st.length := by
    obtain ⟨_, _, _, _, _, ad, _, g, _⟩ := (k6 k x).1 hx
    exact hmax _ (List.mem_of_getElem? g)
  obtain ⟨ss', q1, q2, q3⟩ := h3 k.1 _ (List.getElem?_eq_getElem hk1)
  have q1' : sends[(mkMsg elFaEl nElFas k (E k)).pa]? = some ss' := q1
  simp only [q1', Option.bind_some] at hmir
  obtain ⟨r', w0, w1, E', w2, w3, w4, w5⟩ := mirror_one hM (pa := pa) (r := r) hne (k6 k) q2
  rw [w5] at hmir
  split at hmir
  case isFalse => simp at hmir
  rename_i hcount
  cases hmir
  -- the remote region within the final structure
  have : (r'.tg, r'.send) ∈ (st[k.1]).map (fun r => (r.tg, r.send)) := by
    rw [(recvPart_get q3).1]; exact List.mem_map.2 ⟨r', w0, rfl⟩
  obtain ⟨r1, hr1, er1⟩ := List.mem_map.1 this
  have er1a : r1.tg = r'.tg := (Prod.ext_iff.1 er1).1
  have er1b : r1.send = r'.send := (Prod.ext_iff.1 er1).2
  have hent : (Message.mk k.1 k.2 (mkMsg elFaEl nElFas (pa, r.tg) E').elAd
          (mkMsg elFaEl nElFas (pa, r.tg) E').faAd (mkMsg elFaEl nElFas (pa, r.tg) E').el
          (mkMsg elFaEl nElFas (pa, r.tg) E').fa).entries =
      E'.map (fun x => ((mirror elFaEl nElFas x).1, (mirror elFaEl nElFas x).2, x.1, x.2)) := by
    simp only [Message.entries, mkMsg, zip_map4]; rfl
  refine ⟨_, ho, rfl, rfl, by simp [Message.Even, mkMsg], by simp [mkMsg, hcount], st[k.1], r1, _,
    List.getElem?_eq_getElem hk1, hr1, er1a.trans w1, by rw [er1b]; exact w4, rfl, rfl, ?_, fun hU => ?_⟩
  · rw [hent, entries_mkMsg, List.map_map]
    rfl
  · rw [hent, entries_mkMsg]
    have inj1 : ∀ a b : Nat × Nat, (a.1, a.2, (mirror elFaEl nElFas a).1, (mirror elFaEl nElFas a).2) =
        (b.1, b.2, (mirror elFaEl nElFas b).1, (mirror elFaEl nElFas b).2) → a = b := by
      intro a b hab; simp only [Prod.mk.injEq] at hab; exact Prod.ext hab.1 hab.2.1
    have inj2 : ∀ a b : Nat × Nat, ((mirror elFaEl nElFas a).1, (mirror elFaEl nElFas a).2, a.1, a.2) =
        ((mirror elFaEl nElFas b).1, (mirror elFaEl nElFas b).2, b.1, b.2) → a = b := by
      intro a b hab; simp only [Prod.mk.injEq] at hab; exact Prod.ext hab.2.2.1 hab.2.2.2
    rw [List.perm_ext_iff_of_nodup]
    · intro q
      simp only [List.mem_map]
      constructor
      · rintro ⟨y, hy, rfl⟩
        have hc := (w3 y).1 hy
        refine ⟨mirror elFaEl nElFas y, (k6 k _).2 (mirror_spec hM hc).2.2, ?_⟩
        rw [mirror_mirror hM hU hc]
      · rintro ⟨y, hy, rfl⟩
        have hc := (k6 k y).1 hy
        refine ⟨mirror elFaEl nElFas y, (w3 _).2 (mirror_spec hM hc).2.2, ?_⟩
        rw [mirror_mirror hM hU hc]
    · rw [List.Nodup, List.pairwise_map]
      exact (sorted_nodup w2).imp (fun h e => h (inj2 _ _ e))
    · rw [List.Nodup, List.pairwise_map]
      exact (sorted_nodup (k5 k)).imp (fun h e => h (inj1 _ _ e))

/-! ## C64 -/

/-- C64: if two elements share at most one face, a partition receives through exactly the faces it sends through. -/
theorem C64_received (hM : MeshOk elFaEl nElFas nEls) (hU : OneFace elFaEl nElFas nEls) (hp : elPa.length = nEls)
    (ht : elTg.length = nEls) (hO : Ordered elFaEl nElFas nEls elPa elTg) {st : List (List TimeRegion)}
    (h : getStruct nElFas nEls elFaEl elPa elTg = some st) {pa : Nat} {trs : List TimeRegion}
    (hpa : st[pa]? = some trs) :
    (recvFaces trs).Perm (sendFaces trs) ∧ (recvFaces trs).Nodup := by
  have hperm : (recvFaces trs).Perm (sendFaces trs) := by
    rw [recvFaces, sendFaces]
    have key : ∀ r ∈ trs, (r.recv.flatMap (fun m => m.elim [] (fun m => m.entries.map (fun q => (q.1, q.2.1))))).Perm
        (r.send.flatMap (fun m => m.entries.map (fun q => (q.1, q.2.1)))) := by
      intro r hr
      obtain ⟨l1, l2⟩ := C35_mirrored hM hp ht hO h hpa hr
      generalize r.recv = R at l1 l2
      generalize r.send = S at l1 l2
      clear hr
      induction S generalizing R with
      | nil => simp at l1; subst l1; exact List.Perm.refl _
      | cons s S ih =>
        cases R with
        | nil => simp at l1
        | cons o R =>
          obtain ⟨m', g1, _, _, _, _, _, _, _, _, _, _, _, _, _, _, g2⟩ := l2 0 s rfl
          simp at g1; subst g1
          simp only [List.flatMap_cons]
          exact List.Perm.append ((g2 hU).map _) (ih R (by simpa using l1) (fun i m hi => l2 (i + 1) m hi))
    clear hpa
    induction trs with
    | nil => exact List.Perm.refl _
    | cons r trs ih =>
      simp only [List.flatMap_cons]
      exact List.Perm.append (key r (by simp)) (ih (fun r hr => key r (by simp [hr])))
  exact ⟨hperm, hperm.nodup_iff.2 (sendFaces_spec (getStruct_sends hM hp ht hO h hpa)).1⟩

end

end Edge.EdgeV
