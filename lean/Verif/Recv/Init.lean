import Verif.Recv.State
import Mathlib.Data.List.Nodup
import Mathlib.Data.List.Range
/-!
Initialisation of the receivers.
-/
namespace Edge.Recv
open Edge

theorem getElem?_lt {α : Type} {l : List α} {i : Nat} {a : α} (h : l[i]? = some a) : i < l.length := by
  by_contra h'
  rw [List.getElem?_eq_none (by omega)] at h
  cases h

theorem grouped_nil : Grouped [] [] := ⟨by simp, by simp, by simp⟩

theorem Grouped.lt {ens sp : List Nat} (h : Grouped ens sp) {i : Nat} (hi : i ∈ sp) : i < ens.length := by
  obtain ⟨e, he, -⟩ := (h.mem i).mp hi
  exact getElem?_lt he

theorem sorted_snoc {ens : List Nat} {e : Nat} (h : ens.Pairwise (· ≤ ·)) (he : ∀ x ∈ ens, x ≤ e) :
    (ens ++ [e]).Pairwise (· ≤ ·) := by
  rw [List.pairwise_append]
  refine ⟨h, by simp, ?_⟩
  intro a ha b hb
  rw [List.mem_singleton.mp hb]
  exact he a ha

theorem grouped_new {ens sp : List Nat} (h : Grouped ens sp) {e : Nat} (he : ∀ x ∈ ens, x < e) :
    Grouped (ens ++ [e]) (sp ++ [ens.length]) := by
  refine ⟨sorted_snoc h.sorted (fun x hx => Nat.le_of_lt (he x hx)), ?_, ?_⟩
  · rw [List.pairwise_append]
    refine ⟨h.asc, by simp, ?_⟩
    intro a ha b hb
    rw [List.mem_singleton.mp hb]
    exact h.lt ha
  · intro i
    rw [List.mem_append, List.mem_singleton]
    constructor
    · rintro (hi | rfl)
      · obtain ⟨e', h1, h2⟩ := (h.mem i).mp hi
        have hl := h.lt hi
        refine ⟨e', by rw [List.getElem?_append_left hl]; exact h1, ?_⟩
        intro j x hj hx
        rw [List.getElem?_append_left (by omega)] at hx
        exact h2 j x hj hx
      · refine ⟨e, by simp, ?_⟩
        intro j x hj hx
        rw [List.getElem?_append_left hj] at hx
        exact he x (List.mem_of_getElem? hx)
    · rintro ⟨e', h1, h2⟩
      have hl := getElem?_lt h1
      rw [List.length_append, List.length_singleton] at hl
      by_cases hi : i = ens.length
      · exact Or.inr hi
      · left
        rw [h.mem]
        rw [List.getElem?_append_left (by omega)] at h1
        refine ⟨e', h1, ?_⟩
        intro j x hj hx
        exact h2 j x hj (by rw [List.getElem?_append_left (by omega)]; exact hx)

theorem grouped_old {ens sp : List Nat} (h : Grouped ens sp) {e : Nat} (he : ∀ x ∈ ens, x ≤ e) (hm : e ∈ ens) :
    Grouped (ens ++ [e]) sp := by
  refine ⟨sorted_snoc h.sorted he, h.asc, ?_⟩
  intro i
  constructor
  · intro hi
    obtain ⟨e', h1, h2⟩ := (h.mem i).mp hi
    have hl := h.lt hi
    refine ⟨e', by rw [List.getElem?_append_left hl]; exact h1, ?_⟩
    intro j x hj hx
    rw [List.getElem?_append_left (by omega)] at hx
    exact h2 j x hj hx
  · rintro ⟨e', h1, h2⟩
    have hl := getElem?_lt h1
    rw [List.length_append, List.length_singleton] at hl
    have hi : i ≠ ens.length := by
      rintro rfl
      rw [List.getElem?_append_right (by omega)] at h1
      simp at h1
      obtain ⟨j, hj, hje⟩ := List.getElem_of_mem hm
      have := h2 j e hj (by rw [List.getElem?_append_left hj, List.getElem?_eq_getElem hj, hje])
      omega
    rw [h.mem]
    rw [List.getElem?_append_left (by omega)] at h1
    refine ⟨e', h1, ?_⟩
    intro j x hj hx
    exact h2 j x hj (by rw [List.getElem?_append_left (by omega)]; exact hx)

variable {K : Type} [Field K]

/-- The receivers of entity `en`, in ascending order. -/
def recvsOf (deIds : List (Option Nat)) (en k : Nat) : List (Nat × Nat) :=
  ((List.range k).filter (fun re => decide (deIds[re]? = some (some en)))).map (fun re => (en, re))

/-- Receivers as created for the entities below `E`. -/
structure Built (c : Cfg K) (t0 : K) (eval : Nat → Nat → Option (List K)) (s : St K) (keys : List (Nat × Nat)) : Prop where
  wf : s.WF c
  fresh : ∀ r ∈ s.recvs, r.nBuff = 0 ∧ r.file = [] ∧ r.time = t0 ∧ eval r.en r.id = some r.basis
  keys : s.recvs.map (fun r => (r.en, r.id)) = keys

theorem addRcv_spec {c : Cfg K} {t0 : K} {eval : Nat → Nat → Option (List K)} {tg en enTg re : Nat} {s : St K}
    {keys : List (Nat × Nat)} (h : Built c t0 eval s keys) (he : ∀ p ∈ keys, p.1 ≤ en) {b : List K} (hb : eval en re = some b)
    (hl : b.length = c.nMds) :
    ∃ s', addRcv c t0 eval tg en enTg re s = some s' ∧ Built c t0 eval s' (keys ++ [(en, re)]) := by
  have hens : ∀ x ∈ s.ens, x ≤ en := by
    intro x hx
    obtain ⟨r, hr, rfl⟩ := List.mem_map.mp hx
    have : (r.en, r.id) ∈ keys := by
      rw [← h.keys]; exact List.mem_map.mpr ⟨r, hr, rfl⟩
    exact he _ this
  refine ⟨{ recvs := s.recvs ++ [newRcv c t0 tg en enTg re b], sp := addSp s en }, ?_, ⟨?_, ?_⟩, ?_, ?_⟩
  · unfold addRcv
    rw [hb]
    rfl
  · have e1 : St.ens { recvs := s.recvs ++ [newRcv c t0 tg en enTg re b], sp := addSp s en } = s.ens ++ [en] := by
      simp [St.ens, newRcv]
    rw [e1]
    unfold addSp
    rcases hg : s.recvs.getLast? with _ | r
    · have : s.recvs = [] := by simpa using hg
      have h1 := grouped_new h.wf.grp (e := en) (by intro x hx; simp [St.ens, this] at hx)
      simpa [St.ens, this] using h1
    · have hr : r ∈ s.recvs := List.mem_of_getLast? hg
      have hre : r.en ∈ s.ens := List.mem_map_of_mem hr
      by_cases hlt : r.en < en
      · simp only [hlt, if_true]
        have : ∀ x ∈ s.ens, x < en := by
          intro x hx
          obtain ⟨q, hq, rfl⟩ := List.mem_map.mp hx
          obtain ⟨j, hj, rfl⟩ := List.getElem_of_mem hq
          have hle : s.recvs.length - 1 < s.recvs.length := by omega
          have er : s.recvs[s.recvs.length - 1] = r := by
            rw [List.getLast?_eq_getElem?, List.getElem?_eq_getElem hle] at hg
            exact Option.some.inj hg
          have hp := List.pairwise_iff_getElem.mp h.wf.grp.sorted
          rcases Nat.lt_or_ge j (s.recvs.length - 1) with hj' | hj'
          · have := hp j (s.recvs.length - 1) (by simp [St.ens]; omega) (by simp [St.ens]; omega) hj'
            simp only [St.ens, List.getElem_map, er] at this
            omega
          · have : j = s.recvs.length - 1 := by omega
            subst this
            rw [er]; exact hlt
        have h1 := grouped_new h.wf.grp this
        simpa [St.ens] using h1
      · simp only [hlt, if_false]
        have : r.en = en := by have := hens _ hre; omega
        exact grouped_old h.wf.grp hens (this ▸ hre)
  · intro r hr
    rcases List.mem_append.mp hr with h' | h'
    · exact h.wf.rcv r h'
    · rw [List.mem_singleton.mp h']
      exact ⟨by simp [newRcv], by simp [newRcv], by simp [newRcv], hl⟩
  · intro r hr
    rcases List.mem_append.mp hr with h' | h'
    · exact h.fresh r h'
    · rw [List.mem_singleton.mp h']
      exact ⟨rfl, rfl, rfl, hb⟩
  · simp only [List.map_append, h.keys]
    rfl

/-- Receivers of the entities below `E`. -/
def keysBelow (deIds : List (Option Nat)) (E : Nat) : List (Nat × Nat) :=
  (List.range E).flatMap (fun en => recvsOf deIds en deIds.length)

theorem mem_recvsOf {deIds : List (Option Nat)} {en k : Nat} {p : Nat × Nat} :
    p ∈ recvsOf deIds en k ↔ p.1 = en ∧ p.2 < k ∧ deIds[p.2]? = some (some en) := by
  rcases p with ⟨a, b⟩
  simp [recvsOf]
  constructor
  · rintro ⟨h, rfl⟩; exact ⟨rfl, h⟩
  · rintro ⟨rfl, h⟩; exact ⟨h, rfl⟩

theorem mem_keysBelow {deIds : List (Option Nat)} {E : Nat} {p : Nat × Nat} :
    p ∈ keysBelow deIds E ↔ p.1 < E ∧ deIds[p.2]? = some (some p.1) := by
  simp only [keysBelow, List.mem_flatMap, List.mem_range, mem_recvsOf]
  constructor
  · rintro ⟨en, h1, rfl, -, h2⟩; exact ⟨h1, h2⟩
  · rintro ⟨h1, h2⟩; exact ⟨p.1, h1, rfl, getElem?_lt h2, h2⟩

section
variable {c : Cfg K} {t0 : K} {eval : Nat → Nat → Option (List K)} {deIds : List (Option Nat)}

/-- The location of every receiver which is assigned to one of the entities can be evaluated. -/
def Evals (c : Cfg K) (eval : Nat → Nat → Option (List K)) (deIds : List (Option Nat)) (E : Nat) : Prop :=
  ∀ re en, deIds[re]? = some (some en) → en < E → ∃ b, eval en re = some b ∧ b.length = c.nMds

theorem addEn_spec {tg en enTg E : Nat} {s : St K} (hE : en < E) (hev : Evals c eval deIds E)
    (h : Built c t0 eval s (keysBelow deIds en)) :
    ∃ s', addEn c t0 eval deIds tg en enTg s = some s' ∧ Built c t0 eval s' (keysBelow deIds (en + 1)) := by
  obtain ⟨s', h1, h2⟩ := forN_inv (n := deIds.length) (s := s)
    (body := fun re s => do
      let d ← rd deIds re
      if d = some en then addRcv c t0 eval tg en enTg re s else some s)
    (P := fun k s' => Built c t0 eval s' (keysBelow deIds en ++ recvsOf deIds en k))
    (by simpa [recvsOf] using h)
    (by
      intro re s' hre hB
      have hrd : rd deIds re = some deIds[re] := rd_some hre
      have e2 : recvsOf deIds en (re + 1) = recvsOf deIds en re ++ (if deIds[re] = some en then [(en, re)] else []) := by
        unfold recvsOf
        rw [List.range_succ, List.filter_append, List.map_append]
        congr 1
        by_cases hd : deIds[re] = some en
        · simp [List.getElem?_eq_getElem hre, hd]
        · simp [List.getElem?_eq_getElem hre, hd]
      rw [e2]
      by_cases hd : deIds[re] = some en
      · obtain ⟨b, hb, hl⟩ := hev re en (by rw [List.getElem?_eq_getElem hre, hd]) hE
        obtain ⟨s'', h3, h4⟩ := addRcv_spec (tg := tg) (enTg := enTg) hB (en := en) (re := re) (by
          intro p hp
          rcases List.mem_append.mp hp with h | h
          · exact Nat.le_of_lt (mem_keysBelow.mp h).1
          · exact Nat.le_of_eq (mem_recvsOf.mp h).1) hb hl
        refine ⟨s'', ?_, ?_⟩
        · simp only [Option.bind_eq_bind]
          rw [hrd, Option.bind_some, if_pos hd, h3]
        · rw [if_pos hd, ← List.append_assoc]
          exact h4
      · refine ⟨s', ?_, ?_⟩
        · simp only [Option.bind_eq_bind]
          rw [hrd, Option.bind_some, if_neg hd]
        · simpa [hd] using hB)
  refine ⟨s', h1, ?_⟩
  have : keysBelow deIds (en + 1) = keysBelow deIds en ++ recvsOf deIds en deIds.length := by
    simp [keysBelow, List.range_succ]
  rw [this]
  exact h2

theorem addTgs_spec {n : List Nat} {s : St K × Nat} {E : Nat} (hE : s.2 + n.sum ≤ E) (hev : Evals c eval deIds E)
    (h : Built c t0 eval s.1 (keysBelow deIds s.2)) :
    ∃ s', addTgs c t0 eval deIds n s = some s' ∧ s'.2 = s.2 + n.sum ∧ Built c t0 eval s'.1 (keysBelow deIds s'.2) := by
  obtain ⟨s', h1, h2, h3⟩ := forN_inv (n := n.length) (s := s)
    (body := fun tg s => do
      let m ← rd n tg
      let s' ← forN m (fun en s' => addEn c t0 eval deIds tg (en + s.2) en s') s.1
      some (s', s.2 + m))
    (P := fun k s' => s'.2 = s.2 + (n.take k).sum ∧ Built c t0 eval s'.1 (keysBelow deIds s'.2))
    ⟨by simp, h⟩
    (by
      rintro tg t htg ⟨ht, hB⟩
      have hrd : rd n tg = some n[tg] := rd_some htg
      have hsum : (n.take (tg + 1)).sum = (n.take tg).sum + n[tg] := by
        rw [List.take_succ_eq_append_getElem htg, List.sum_append]; simp
      have hle : (n.take (tg + 1)).sum ≤ n.sum := by
        conv_rhs => rw [← List.take_append_drop (tg + 1) n, List.sum_append]
        omega
      obtain ⟨t', h4, h5⟩ := forN_inv (n := n[tg]) (s := t.1)
        (body := fun en s' => addEn c t0 eval deIds tg (en + t.2) en s')
        (P := fun k s' => Built c t0 eval s' (keysBelow deIds (k + t.2)))
        (by simpa using hB)
        (by
          intro i u hi hu
          obtain ⟨u', h6, h7⟩ := addEn_spec (tg := tg) (enTg := i) (E := E) (show i + t.2 < E by omega) hev hu
          exact ⟨u', h6, by rw [show i + 1 + t.2 = i + t.2 + 1 by omega]; exact h7⟩)
      refine ⟨(t', t.2 + n[tg]), ?_, by simp only; omega, by simp only; rw [Nat.add_comm]; exact h5⟩
      simp only [Option.bind_eq_bind]
      rw [hrd, Option.bind_some, h4, Option.bind_some])
  refine ⟨s', h1, by simpa using h2, h3⟩

theorem init_spec {nIn nSe : List Nat} (hev : Evals c eval deIds (nIn.sum + nSe.sum)) :
    ∃ s, init c t0 eval deIds nIn nSe = some s ∧ Built c t0 eval s (keysBelow deIds (nIn.sum + nSe.sum)) := by
  have h0 : Built c t0 eval ({ recvs := [], sp := [] } : St K) (keysBelow deIds 0) :=
    ⟨⟨grouped_nil, by simp⟩, by simp, rfl⟩
  obtain ⟨s1, h1, h2, h3⟩ := addTgs_spec (n := nIn) (s := ({ recvs := [], sp := [] }, 0)) (by simp only; omega) hev h0
  obtain ⟨s2, h4, h5, h6⟩ := addTgs_spec (n := nSe) (s := s1) (by simp only at h2; omega) hev h3
  refine ⟨s2.1, ?_, ?_⟩
  · unfold init
    simp only [Option.bind_eq_bind]
    rw [h1, Option.bind_some, h4, Option.bind_some]
  · simp only at h2
    rw [h5, h2, Nat.zero_add] at h6
    exact h6

theorem ids_nodup (deIds : List (Option Nat)) (E : Nat) : ((keysBelow deIds E).map Prod.snd).Nodup := by
  have : (keysBelow deIds E).map Prod.snd =
      (List.range E).flatMap (fun en => (List.range deIds.length).filter (fun re => decide (deIds[re]? = some (some en)))) := by
    simp only [keysBelow, recvsOf, List.map_flatMap, List.map_map, Function.comp_def, List.map_id']
  rw [this, List.nodup_flatMap]
  refine ⟨fun x _ => List.nodup_range.filter _, ?_⟩
  refine List.nodup_range.imp ?_
  intro a b hab re h1 h2
  simp only [List.mem_filter, decide_eq_true_eq] at h1 h2
  have := h1.2.symm.trans h2.2
  simp at this
  exact hab this

end

theorem getEnRecv_spec {c : Cfg K} {s : St K} (h : s.WF c) :
    ∃ l, getEnRecv s = some l ∧ l.Pairwise (· < ·) ∧ (∀ e, e ∈ l ↔ e ∈ s.ens) ∧ (∀ k, l[k]? = s.enOf k) ∧
      l.length = s.sp.length := by
  refine ⟨s.sp.map (fun i => s.ens.getD i 0), ?_, ?_, ?_, ?_, by simp⟩
  · unfold getEnRecv
    apply mapM_some
    intro i hi
    have hl := h.grp.lt hi
    have hl' : i < s.recvs.length := by simpa [St.ens] using hl
    rw [rd_some hl']
    simp [List.getD, St.ens, List.getElem?_eq_getElem hl']
  · rw [List.pairwise_map]
    refine h.grp.asc.imp_of_mem ?_
    intro a b ha hb hab
    obtain ⟨e, h1, h2⟩ := (h.grp.mem b).mp hb
    have hl := h.grp.lt ha
    have := h2 a s.ens[a] hab (List.getElem?_eq_getElem hl)
    simp [List.getD, h1, List.getElem?_eq_getElem hl]
    exact this
  · intro e
    rw [List.mem_map]
    constructor
    · rintro ⟨i, hi, rfl⟩
      have hl := h.grp.lt hi
      simp [List.getD, List.getElem?_eq_getElem hl]
    · intro he
      have hex : ∃ i, s.ens[i]? = some e := List.mem_iff_getElem?.mp he
      classical
      refine ⟨Nat.find hex, ?_, by simp [List.getD, Nat.find_spec hex]⟩
      rw [h.grp.mem]
      refine ⟨e, Nat.find_spec hex, ?_⟩
      intro j x hj hx
      have hne := Nat.find_min hex hj
      have hl := getElem?_lt (Nat.find_spec hex)
      have hp := List.pairwise_iff_getElem.mp h.grp.sorted j (Nat.find hex) (by omega) hl hj
      have e1 : s.ens[Nat.find hex] = e := by
        have := Nat.find_spec hex
        rw [List.getElem?_eq_getElem hl] at this
        exact Option.some.inj this
      have e2 : s.ens[j]'(by omega) = x := by
        rw [List.getElem?_eq_getElem (by omega)] at hx
        exact Option.some.inj hx
      have : x ≠ e := by rintro rfl; exact hne hx
      omega
  · intro k
    rw [List.getElem?_map, St.enOf]
    rcases hk : s.sp[k]? with _ | i
    · rfl
    · have hl := h.grp.lt (List.mem_of_getElem? hk)
      simp [List.getD, List.getElem?_eq_getElem hl]

end Edge.Recv
