import Verif.EdgeV.PartModel
import Verif.EdgeV.Groups
import Verif.Util.Fold
/-!
Partitioning in EDGE-V: C32 (order of the elements), C33 (dual graph), C34 (partition sizes).
-/
namespace Edge.EdgeV
open Edge

/-! ## Specification -/

/-- Element `el` has a face neighbour in another partition. -/
def Cut (elFaEl : List (Option Nat)) (nElFas : Nat) (elPa : List Nat) (el : Nat) : Prop :=
  ∃ ad p q, Nb elFaEl nElFas el ad ∧ elPa[el]? = some p ∧ elPa[ad]? = some q ∧ p ≠ q

/-- The neighbours of an element, in the order of its faces. -/
def nbs (elFaEl : List (Option Nat)) (nElFas el : Nat) : List Nat :=
  (List.range nElFas).filterMap (fun fa => (elFaEl[el * nElFas + fa]?).join)

/-! ## Send elements -/

theorem isComm_spec {elFaEl : List (Option Nat)} {nElFas nEls : Nat} (hA : AdOk elFaEl nElFas nEls) {elPa : List Nat}
    (hl : elPa.length = nEls) {el : Nat} (hel : el < nEls) :
    ∃ b, isComm nElFas elFaEl elPa el = some b ∧ (b = true ↔ Cut elFaEl nElFas elPa el) := by
  have hpa : el < elPa.length := by omega
  have hp := List.getElem?_eq_getElem hpa
  obtain ⟨b, hb, hs⟩ := forN_inv (n := nElFas) (s := false) (body := fun fa (r : Bool) => do
    match ← rd elFaEl (el * nElFas + fa) with
    | none => return r
    | some ad => do
      let paAd ← rd elPa ad
      return r || decide (elPa[el] ≠ paAd))
    (fun i (r : Bool) => r = true ↔ ∃ fa ad q : Nat, fa < i ∧ elFaEl[el * nElFas + fa]? = some (some ad) ∧
      elPa[ad]? = some q ∧ elPa[el] ≠ q)
    (by simp)
    (by
      intro i r hi hr
      obtain ⟨o, ho, hb⟩ := hA el i hel hi
      cases o with
      | none =>
        refine ⟨r, by simp [rd, ho], ?_⟩
        rw [hr]
        constructor
        · rintro ⟨fa, ad, q, h1, h2⟩; exact ⟨fa, ad, q, by omega, h2⟩
        · rintro ⟨fa, ad, q, h1, h2, h3⟩
          refine ⟨fa, ad, q, ?_, h2, h3⟩
          have : fa ≠ i := by rintro rfl; rw [ho] at h2; simp at h2
          omega
      | some ad =>
        have hadl : ad < elPa.length := by have := hb ad rfl; omega
        have hq := List.getElem?_eq_getElem hadl
        refine ⟨r || decide (elPa[el] ≠ elPa[ad]), by simp [rd, ho, hq], ?_⟩
        rw [Bool.or_eq_true, hr]
        simp only [decide_eq_true_eq]
        constructor
        · rintro (⟨fa, ad', q, h1, h2⟩ | h)
          · exact ⟨fa, ad', q, by omega, h2⟩
          · exact ⟨i, ad, elPa[ad], by omega, ho, hq, h⟩
        · rintro ⟨fa, ad', q, h1, h2, h3, h4⟩
          by_cases hfi : fa = i
          · subst hfi
            rw [ho] at h2; simp at h2; subst h2
            rw [hq] at h3; simp at h3; subst h3
            exact Or.inr h4
          · exact Or.inl ⟨fa, ad', q, by omega, h2, h3, h4⟩)
  refine ⟨b, by simp only [isComm, rd, hp, Option.bind_eq_bind, Option.bind_some]; exact hb, ?_⟩
  rw [hs]
  constructor
  · rintro ⟨fa, ad, q, h1, h2, h3, h4⟩; exact ⟨ad, elPa[el], q, ⟨fa, h1, h2⟩, hp, h3, h4⟩
  · rintro ⟨ad, p, q, ⟨fa, h1, h2⟩, h3, h4, h5⟩
    rw [hp] at h3; cases h3
    exact ⟨fa, ad, q, h1, h2, h4, h5⟩

/-! ## C32 -/

theorem max_spec {l : List Nat} {n : Nat} (hn : l.length = n) :
    ∃ m, forN n (fun el (m : Nat) => do
        let x ← rd l el
        return max m x) 0 = some m ∧ (∀ x ∈ l, x ≤ m) ∧ (m = 0 ∨ m ∈ l) := by
  obtain ⟨m, hm, h1, h2⟩ := forN_inv (n := n) (s := 0) (body := fun el (m : Nat) => do
        let x ← rd l el
        return max m x)
    (fun i (m : Nat) => (∀ (j x : Nat), j < i → l[j]? = some x → x ≤ m) ∧ (m = 0 ∨ m ∈ l))
    ⟨fun j x h => by omega, Or.inl rfl⟩
    (by
      rintro i m hi ⟨h1, h2⟩
      have hil : i < l.length := by omega
      refine ⟨max m l[i], by simp [rd, List.getElem?_eq_getElem hil], fun j x hj hx => ?_, ?_⟩
      · by_cases hji : j = i
        · subst hji; rw [List.getElem?_eq_getElem hil] at hx; cases hx; omega
        · have := h1 j x (by omega) hx; omega
      · rcases Nat.le_total m l[i] with h | h
        · rw [Nat.max_eq_right h]; exact Or.inr (List.getElem_mem hil)
        · rw [Nat.max_eq_left h]; exact h2)
  refine ⟨m, hm, fun x hx => ?_, h2⟩
  obtain ⟨i, hi, rfl⟩ := List.getElem_of_mem hx
  exact h1 i _ (by omega) (List.getElem?_eq_getElem hi)

/-- The priorities order lexicographically by partition, being a send element, and time group. -/
theorem prio_lex {n p q s r t u : Nat} (hs : s = 0 ∨ s = n) (hr : r = 0 ∨ r = n) (ht : t < n) (hu : u < n)
    (h : p * 2 * n + s + t ≤ q * 2 * n + r + u) :
    p < q ∨ (p = q ∧ (s < r ∨ (s = r ∧ t ≤ u))) := by
  have key : ∀ {a b : Nat}, a < b → a * 2 * n + 2 * n ≤ b * 2 * n := by
    intro a b hab
    have := Nat.mul_le_mul_right n (Nat.mul_le_mul_right 2 (show a + 1 ≤ b by omega))
    have e : (a + 1) * 2 * n = a * 2 * n + 2 * n := by ring
    omega
  rcases Nat.lt_trichotomy p q with hpq | hpq | hpq
  · exact Or.inl hpq
  · subst hpq
    right
    refine ⟨rfl, ?_⟩
    omega
  · have := key hpq
    omega

theorem getElPr_spec {elFaEl : List (Option Nat)} {nElFas nEls : Nat} (hA : AdOk elFaEl nElFas nEls) {elPa tgs : List Nat}
    (hl : elPa.length = nEls) (hg : tgs.length = nEls) :
    ∃ prios n, getElPr nElFas nEls elFaEl elPa (some tgs) = some prios ∧ prios.length = nEls ∧ (∀ t ∈ tgs, t < n) ∧
      ∀ (el pr : Nat), prios[el]? = some pr → ∃ p t s, elPa[el]? = some p ∧ tgs[el]? = some t ∧
        pr = p * 2 * n + s + t ∧ (s = 0 ∨ s = n) ∧ (s = n ↔ Cut elFaEl nElFas elPa el) := by
  obtain ⟨m, hm, hmx, _⟩ := max_spec hg
  obtain ⟨pr, hpr, h1, h2⟩ := forN_inv (n := nEls) (s := ([] : List Nat)) (body := fun el (out : List Nat) => do
    let pa ← rd elPa el
    let pr := pa * 2 * (m + 1)
    let send ← isComm nElFas elFaEl elPa el
    let pr := if send then pr + (m + 1) else pr
    let pr ← (do
        let tg ← rd tgs el
        return pr + tg)
    return out ++ [pr])
    (fun i (out : List Nat) => out.length = i ∧ ∀ (el pr : Nat), out[el]? = some pr →
      ∃ p t s, elPa[el]? = some p ∧ tgs[el]? = some t ∧
        pr = p * 2 * (m + 1) + s + t ∧ (s = 0 ∨ s = m + 1) ∧ (s = m + 1 ↔ Cut elFaEl nElFas elPa el))
    ⟨rfl, by simp⟩
    (by
      rintro i out hi ⟨h1, h2⟩
      have e1 := List.getElem?_eq_getElem (show i < elPa.length by omega)
      have e2 := List.getElem?_eq_getElem (show i < tgs.length by omega)
      obtain ⟨b, hb, hc⟩ := isComm_spec hA hl hi
      refine ⟨out ++ [(if b = true then elPa[i] * 2 * (m + 1) + (m + 1) else elPa[i] * 2 * (m + 1)) + tgs[i]],
        by simp [rd, e1, e2, hb], by simp [h1], fun el pr hel => ?_⟩
      by_cases hei : el < i
      · rw [List.getElem?_append_left (by omega)] at hel; exact h2 el pr hel
      · rw [List.getElem?_append_right (by omega)] at hel
        have : el = i := by
          have := (List.getElem?_eq_some_iff.1 hel).1
          simp at this; omega
        subst this
        simp [h1] at hel
        cases b with
        | true => exact ⟨_, _, m + 1, e1, e2, by rw [← hel]; simp, Or.inr rfl, by simp [← hc]⟩
        | false => exact ⟨_, _, 0, e1, e2, by rw [← hel]; simp, Or.inl rfl, by rw [← hc]; simp⟩)
  refine ⟨pr, m + 1, ?_, h1, fun t ht => by have := hmx t ht; omega, h2⟩
  simp only [getElPr, Option.bind_eq_bind] at hm ⊢
  rw [hm]
  exact hpr

/-- C32: the priorities are computed for every mesh, and whatever order the sort picks among equal ones, elements are
ordered by partition; within a partition inner elements precede send elements; within these, by time group. -/
theorem C32_order {elFaEl : List (Option Nat)} {nElFas nEls : Nat} (hA : AdOk elFaEl nElFas nEls) {elPa tgs : List Nat}
    (hl : elPa.length = nEls) (hg : tgs.length = nEls) :
    ∃ prios, getElPr nElFas nEls elFaEl elPa (some tgs) = some prios ∧ prios.length = nEls ∧
      ∀ perm, Reordered prios perm → ∀ (i j a b : Nat), i < j → perm[i]? = some a → perm[j]? = some b →
        ∃ p q t u, elPa[a]? = some p ∧ elPa[b]? = some q ∧ tgs[a]? = some t ∧ tgs[b]? = some u ∧
          (p < q ∨ (p = q ∧ ((¬ Cut elFaEl nElFas elPa a ∧ Cut elFaEl nElFas elPa b) ∨
            ((Cut elFaEl nElFas elPa a ↔ Cut elFaEl nElFas elPa b) ∧ t ≤ u)))) := by
  obtain ⟨prios, n, h1, h2, h3, h4⟩ := getElPr_spec hA hl hg
  refine ⟨prios, h1, h2, fun perm ⟨hp, hs⟩ i j a b hij ha hb => ?_⟩
  have ha' : a < prios.length := by
    have := hp.mem_iff.1 (List.mem_of_getElem? ha); simpa using this
  have hb' : b < prios.length := by
    have := hp.mem_iff.1 (List.mem_of_getElem? hb); simpa using this
  have ea := List.getElem?_eq_getElem ha'
  have eb := List.getElem?_eq_getElem hb'
  have hle := hs i j a b _ _ hij ha hb ea eb
  obtain ⟨p, t, s, k1, k2, k3, k4, k5⟩ := h4 a _ ea
  obtain ⟨q, u, r, l1, l2, l3, l4, l5⟩ := h4 b _ eb
  have ht := h3 t (List.mem_of_getElem? k2)
  have hu := h3 u (List.mem_of_getElem? l2)
  rw [k3, l3] at hle
  refine ⟨p, q, t, u, k1, l1, k2, l2, ?_⟩
  rcases prio_lex k4 l4 ht hu hle with h | ⟨h, h' | ⟨h', h''⟩⟩
  · exact Or.inl h
  · refine Or.inr ⟨h, Or.inl ⟨?_, ?_⟩⟩
    · rw [← k5]; omega
    · rw [← l5]; omega
  · refine Or.inr ⟨h, Or.inr ⟨?_, h''⟩⟩
    rw [← k5, ← l5, h']

/-- C32: hence partitions are contiguous blocks of the new order. -/
theorem C32_blocks {elFaEl : List (Option Nat)} {nElFas nEls : Nat} (hA : AdOk elFaEl nElFas nEls) {elPa tgs : List Nat}
    (hl : elPa.length = nEls) (hg : tgs.length = nEls) {prios perm : List Nat}
    (h : getElPr nElFas nEls elFaEl elPa (some tgs) = some prios) (hr : Reordered prios perm)
    {i j k a b c p : Nat} (hij : i ≤ j) (hjk : j ≤ k) (ha : perm[i]? = some a) (hb : perm[j]? = some b)
    (hc : perm[k]? = some c) (hpa : elPa[a]? = some p) (hpc : elPa[c]? = some p) : elPa[b]? = some p := by
  obtain ⟨prios', h1, _, h3⟩ := C32_order hA hl hg
  rw [h] at h1; cases h1
  by_cases e1 : i = j
  · subst e1; rw [ha] at hb; cases hb; exact hpa
  by_cases e2 : j = k
  · subst e2; rw [hb] at hc; cases hc; exact hpc
  obtain ⟨p1, q1, _, _, x1, x2, _, _, x3⟩ := h3 perm hr i j a b (by omega) ha hb
  obtain ⟨p2, q2, _, _, y1, y2, _, _, y3⟩ := h3 perm hr j k b c (by omega) hb hc
  rw [hpa] at x1; rw [hpc] at y2; rw [x2] at y1
  cases x1; cases y2; cases y1
  have : q1 = p := by rcases x3 with h | ⟨h, _⟩ <;> rcases y3 with h' | ⟨h', _⟩ <;> omega
  rw [x2, this]

/-- C32 without time groups: partition, then inner before send. -/
theorem C32_order_noTg {elFaEl : List (Option Nat)} {nElFas nEls : Nat} (hA : AdOk elFaEl nElFas nEls)
    {elPa : List Nat} (hl : elPa.length = nEls) :
    ∃ prios, getElPr nElFas nEls elFaEl elPa none = some prios ∧ prios.length = nEls ∧
      ∀ perm, Reordered prios perm → ∀ (i j a b : Nat), i < j → perm[i]? = some a → perm[j]? = some b →
        ∃ p q, elPa[a]? = some p ∧ elPa[b]? = some q ∧
          (p < q ∨ (p = q ∧ (Cut elFaEl nElFas elPa a → Cut elFaEl nElFas elPa b))) := by
  obtain ⟨prios, h1, h2, h3⟩ := C32_order hA hl (tgs := List.replicate nEls 0) (by simp)
  refine ⟨prios, ?_, h2, fun perm hr i j a b hij ha hb => ?_⟩
  · obtain ⟨m, hm, _, hm0⟩ := max_spec (l := List.replicate nEls 0) (n := nEls) (by simp)
    have hmz : m = 0 := by rcases hm0 with h | h; exact h; exact (List.mem_replicate.1 h).2
    subst hmz
    rw [← h1]
    simp only [getElPr, Option.bind_eq_bind] at hm ⊢
    rw [hm]
    simp only [Option.bind_some]
    apply forN_congr
    intro i t hi
    simp [rd, hi]
  · obtain ⟨p, q, _, _, k1, k2, _, _, k3⟩ := h3 perm hr i j a b hij ha hb
    refine ⟨p, q, k1, k2, ?_⟩
    rcases k3 with h | ⟨h, ⟨_, h'⟩ | ⟨h', _⟩⟩
    · exact Or.inl h
    · exact Or.inr ⟨h, fun _ => h'⟩
    · exact Or.inr ⟨h, h'.1⟩

/-- Hypotheses met: a chain of three elements, the last two in partition 0; the sort moves the first to the end. -/
example : getElPr 2 3 [none, some 1, some 0, some 2, some 1, none] [1, 0, 0] (some [0, 1, 0]) = some [6, 3, 0] ∧
    Reordered [6, 3, 0] [2, 1, 0] := by
  refine ⟨by decide, ?_, ?_⟩
  · exact (List.reverse_perm [0, 1, 2])
  · intro i j a b p q hij ha hb hp hq
    have hj : j < 3 := by have := (List.getElem?_eq_some_iff.1 hb).1; simpa using this
    have : (i = 0 ∧ j = 1) ∨ (i = 0 ∧ j = 2) ∨ (i = 1 ∧ j = 2) := by omega
    rcases this with ⟨rfl, rfl⟩ | ⟨rfl, rfl⟩ | ⟨rfl, rfl⟩ <;> simp at ha hb <;> subst ha <;> subst hb <;>
      simp at hp hq <;> omega

/-! ## C33 -/

theorem insertAsc_perm (x : Nat) (l : List Nat) : List.Perm (insertAsc x l) (x :: l) := by
  induction l with
  | nil => exact List.Perm.refl _
  | cons y l ih =>
    simp only [insertAsc]
    split
    · exact List.Perm.refl _
    · exact (List.Perm.cons y ih).trans (List.Perm.swap x y l)

theorem sortAsc_perm (l : List Nat) : List.Perm (sortAsc l) l := by
  induction l with
  | nil => exact List.Perm.refl _
  | cons x l ih => exact (insertAsc_perm x _).trans (List.Perm.cons x ih)

theorem insertAsc_sorted (x : Nat) (l : List Nat) (h : l.Pairwise (· ≤ ·)) : (insertAsc x l).Pairwise (· ≤ ·) := by
  induction l with
  | nil => simp [insertAsc]
  | cons y l ih =>
    rw [List.pairwise_cons] at h
    simp only [insertAsc]
    split
    · rename_i hxy
      rw [List.pairwise_cons]
      refine ⟨fun z hz => ?_, List.pairwise_cons.2 h⟩
      rcases List.mem_cons.1 hz with rfl | hz
      · exact hxy
      · exact Nat.le_trans hxy (h.1 z hz)
    · rename_i hxy
      rw [List.pairwise_cons]
      refine ⟨fun z hz => ?_, ih h.2⟩
      rcases List.mem_cons.1 ((insertAsc_perm x l).mem_iff.1 hz) with rfl | hz
      · omega
      · exact h.1 z hz

theorem sortAsc_sorted (l : List Nat) : (sortAsc l).Pairwise (· ≤ ·) := by
  induction l with
  | nil => simp [sortAsc]
  | cons x l ih => exact insertAsc_sorted x _ ih

theorem sortAsc_of_sorted {l : List Nat} (h : l.Pairwise (· ≤ ·)) : sortAsc l = l := by
  induction l with
  | nil => rfl
  | cons x l ih =>
    rw [List.pairwise_cons] at h
    simp only [sortAsc, ih h.2]
    cases l with
    | nil => rfl
    | cons y l => simp [insertAsc, h.1 y (by simp)]

theorem sortAsc_length (l : List Nat) : (sortAsc l).length = l.length := (sortAsc_perm l).length_eq

theorem flatMap_range_succ {α : Type} (f : Nat → List α) (n : Nat) :
    (List.range (n + 1)).flatMap f = (List.range n).flatMap f ++ f n := by
  simp [List.range_succ, List.flatMap_append]

/-- Part of a concatenation which belongs to index `i`. -/
theorem flatMap_seg {α : Type} (f : Nat → List α) {n i : Nat} (hi : i < n) :
    (((List.range n).flatMap f).drop ((List.range i).flatMap f).length).take (f i).length = f i := by
  induction n with
  | zero => omega
  | succ n ih =>
    rw [flatMap_range_succ]
    by_cases h : i = n
    · subst h
      rw [List.drop_append_of_le_length (Nat.le_refl _), List.drop_length, List.nil_append, List.take_length]
    · have hlen : ((List.range i).flatMap f).length + (f i).length ≤ ((List.range n).flatMap f).length := by
        have : ∀ m, i < m → ((List.range i).flatMap f).length + (f i).length ≤ ((List.range m).flatMap f).length := by
          intro m
          induction m with
          | zero => omega
          | succ m ihm =>
            intro hm
            rw [flatMap_range_succ]
            by_cases h' : i = m
            · subst h'; simp
            · have := ihm (by omega)
              simp at this ⊢; omega
        exact this n (by omega)
      rw [List.drop_append_of_le_length (by omega), List.take_append_of_le_length (by simp at hlen ⊢; omega)]
      exact ih (by omega)

theorem nbs_len (elFaEl : List (Option Nat)) (nElFas el : Nat) : (nbs elFaEl nElFas el).length ≤ nElFas := by
  have := List.length_filterMap_le (fun fa => (elFaEl[el * nElFas + fa]?).join) (List.range nElFas)
  simpa [nbs] using this

theorem dual_inner {elFaEl : List (Option Nat)} {nElFas nEls : Nat} (hA : AdOk elFaEl nElFas nEls) {el cap : Nat}
    (hel : el < nEls) (lo : Nat) (adj : List Nat) (hcap : adj.length + nElFas ≤ cap) :
    forN nElFas (fun fa (s : Nat × List Nat) => dualFace elFaEl nElFas cap el fa s) (lo, adj)
      = some (lo + (nbs elFaEl nElFas el).length, adj ++ nbs elFaEl nElFas el) := by
  obtain ⟨t, ht, hp⟩ := forN_inv (n := nElFas) (s := (lo, adj))
    (body := fun fa (s : Nat × List Nat) => dualFace elFaEl nElFas cap el fa s)
    (fun i (s : Nat × List Nat) => ∃ l, l = (List.range i).filterMap (fun fa => (elFaEl[el * nElFas + fa]?).join) ∧
      s = (lo + l.length, adj ++ l))
    ⟨[], by simp, by simp⟩
    (by
      rintro i s hi ⟨l, hl, rfl⟩
      have hll : l.length ≤ i := by
        have := List.length_filterMap_le (fun fa => (elFaEl[el * nElFas + fa]?).join) (List.range i)
        rw [hl]; simpa using this
      obtain ⟨o, ho, hb⟩ := hA el i hel hi
      cases o with
      | none =>
        refine ⟨(lo + l.length, adj ++ l), by simp [dualFace, rd, ho], l, ?_, rfl⟩
        rw [List.range_succ, List.filterMap_append, ← hl]; simp [ho]
      | some ad =>
        refine ⟨(lo + l.length + 1, adj ++ l ++ [ad]), ?_, l ++ [ad], ?_, by simp; omega⟩
        · have : adj.length + l.length < cap := by omega
          simp [dualFace, rd, ho, this]
        · rw [List.range_succ, List.filterMap_append, ← hl]; simp [ho])
  obtain ⟨l, hl, he⟩ := hp
  rw [ht, he, hl]; rfl

theorem getDualGraph_spec {elFaEl : List (Option Nat)} {nElFas nEls : Nat} (hA : AdOk elFaEl nElFas nEls) :
    ∃ xadj, getDualGraph nElFas nEls elFaEl
        = some (xadj, (List.range nEls).flatMap (fun el => sortAsc (nbs elFaEl nElFas el))) ∧
      xadj.length = nEls + 1 ∧
      ∀ el : Nat, el ≤ nEls → xadj[el]? = some ((List.range el).flatMap (fun el => sortAsc (nbs elFaEl nElFas el))).length := by
  obtain ⟨t, ht, h1, h2, h3, _⟩ := forN_inv (n := nEls) (s := (([0], []) : List Nat × List Nat))
    (body := fun el (s : List Nat × List Nat) => do
    let lo ← rd s.1 el
    let (hi, adj) ← forN nElFas (fun fa (s : Nat × List Nat) => dualFace elFaEl nElFas (nEls * nElFas) el fa s) (lo, s.2)
    return (s.1 ++ [hi], adj.take lo ++ sortAsc ((adj.drop lo).take (hi - lo)) ++ adj.drop hi))
    (fun i (s : List Nat × List Nat) => s.2 = (List.range i).flatMap (fun el => sortAsc (nbs elFaEl nElFas el)) ∧
      s.1.length = i + 1 ∧
      (∀ el : Nat, el ≤ i → s.1[el]? =
        some ((List.range el).flatMap (fun el => sortAsc (nbs elFaEl nElFas el))).length) ∧ s.2.length ≤ i * nElFas)
    ⟨by simp, rfl, fun el h => by have : el = 0 := by omega
                                  subst this; simp, by simp⟩
    (by
      rintro i ⟨xadj, adj⟩ hi ⟨h1, h2, h3, h4⟩
      simp only at h1 h2 h3 h4
      have hx := h3 i (Nat.le_refl _)
      rw [← h1] at hx
      have hcap : adj.length + nElFas ≤ nEls * nElFas := by
        have : (i + 1) * nElFas ≤ nEls * nElFas := Nat.mul_le_mul_right _ hi
        rw [Nat.add_mul] at this; omega
      have hin := dual_inner hA hi adj.length adj hcap
      refine ⟨(xadj ++ [adj.length + (nbs elFaEl nElFas i).length], adj ++ sortAsc (nbs elFaEl nElFas i)), ?_, ?_, ?_, ?_, ?_⟩
      · simp [rd, hx, hin]
      · rw [flatMap_range_succ, ← h1]
      · simp [h2]
      · intro el hel
        by_cases he : el ≤ i
        · rw [List.getElem?_append_left (by omega)]; exact h3 el he
        · have : el = i + 1 := by omega
          subst this
          rw [List.getElem?_append_right (by omega), flatMap_range_succ, ← h1]
          simp [h2, sortAsc_length]
      · have := nbs_len elFaEl nElFas i
        simp [sortAsc_length, Nat.add_mul]; omega)
  refine ⟨t.1, ?_, h2, h3⟩
  rw [getDualGraph, ht, ← h1]

/-- C33: for every mesh, the graph lists in the range of every element exactly the neighbours behind its faces, each as
often as it is behind a face, in ascending order; the ranges follow each other and nothing else is listed. -/
theorem C33_graph {elFaEl : List (Option Nat)} {nElFas nEls : Nat} (hA : AdOk elFaEl nElFas nEls) :
    ∃ xadj adj, getDualGraph nElFas nEls elFaEl = some (xadj, adj) ∧ xadj.length = nEls + 1 ∧ xadj[0]? = some 0 ∧
      xadj[nEls]? = some adj.length ∧
      ∀ el, el < nEls → ∃ (lo hi : Nat), xadj[el]? = some lo ∧ xadj[el + 1]? = some hi ∧ lo ≤ hi ∧
        ((adj.drop lo).take (hi - lo)).Pairwise (· ≤ ·) ∧
        List.Perm ((adj.drop lo).take (hi - lo)) (nbs elFaEl nElFas el) := by
  obtain ⟨xadj, h1, h2, h3⟩ := getDualGraph_spec hA
  refine ⟨xadj, _, h1, h2, by simpa using h3 0 (by omega), h3 nEls (Nat.le_refl _), fun el hel => ?_⟩
  refine ⟨_, _, h3 el (by omega), h3 (el + 1) (by omega), ?_, ?_⟩
  · rw [flatMap_range_succ]; simp
  · have hseg := flatMap_seg (fun el => sortAsc (nbs elFaEl nElFas el)) hel
    have hlen : ((List.range (el + 1)).flatMap (fun el => sortAsc (nbs elFaEl nElFas el))).length -
        ((List.range el).flatMap (fun el => sortAsc (nbs elFaEl nElFas el))).length
        = (sortAsc (nbs elFaEl nElFas el)).length := by
      rw [flatMap_range_succ, List.length_append]; omega
    rw [hlen, hseg]
    exact ⟨sortAsc_sorted _, sortAsc_perm _⟩

theorem doubled_spec (lo hi w : Nat) : doubled lo hi w = some (w * 2 ^ (hi - lo)) := by
  unfold doubled
  induction hi - lo with
  | zero => simp
  | succ n ih => rw [forN_succ, ih]; simp [Nat.pow_succ, Nat.mul_assoc]

/-- Weight of the connection of two elements in groups `a` and `b`: two to the power of the distance of the smaller
group to the largest one. -/
def edgeW (tgMax a b : Nat) : Nat := 2 ^ (tgMax - min a b)

theorem nbs_lt {elFaEl : List (Option Nat)} {nElFas nEls : Nat} (hA : AdOk elFaEl nElFas nEls) {el : Nat}
    (hel : el < nEls) : ∀ ad ∈ nbs elFaEl nElFas el, ad < nEls := by
  intro ad had
  simp only [nbs, List.mem_filterMap, List.mem_range] at had
  obtain ⟨fa, hfa, h⟩ := had
  obtain ⟨o, ho, hb⟩ := hA el fa hel hfa
  rw [ho] at h; simp at h
  exact hb ad h

/-- Weights of the neighbours of an element, in the order of its faces. -/
def wOf (elTg : List Nat) (tgMax el : Nat) (l : List Nat) : List Nat :=
  l.map (fun ad => edgeW tgMax (elTg[el]?.getD 0) (elTg[ad]?.getD 0))

theorem set_append_replicate (pre : List Nat) (k x : Nat) (hk : 0 < k) :
    (pre ++ List.replicate k 1).set pre.length x = (pre ++ [x]) ++ List.replicate (k - 1) 1 := by
  obtain ⟨k, rfl⟩ : ∃ k', k = k' + 1 := ⟨k - 1, by omega⟩
  rw [List.set_append_right _ _ (Nat.le_refl _)]
  simp [List.replicate_succ]

theorem wgt_inner {elFaEl : List (Option Nat)} {nElFas nEls : Nat} (hA : AdOk elFaEl nElFas nEls) {el tgMax : Nat}
    (hel : el < nEls) {elTg : List Nat} (hg : elTg.length = nEls) (pre : List Nat) (k : Nat)
    (hk : (nbs elFaEl nElFas el).length ≤ k) :
    forN nElFas (fun fa (s : Nat × List Nat) => wgtFace elFaEl elTg nElFas tgMax el fa s)
        (pre.length, pre ++ List.replicate k 1)
      = some ((pre ++ wOf elTg tgMax el (nbs elFaEl nElFas el)).length,
          (pre ++ wOf elTg tgMax el (nbs elFaEl nElFas el)) ++
            List.replicate (k - (nbs elFaEl nElFas el).length) 1) := by
  obtain ⟨t, ht, hp⟩ := forN_inv (n := nElFas) (s := (pre.length, pre ++ List.replicate k 1))
    (body := fun fa (s : Nat × List Nat) => wgtFace elFaEl elTg nElFas tgMax el fa s)
    (fun i (s : Nat × List Nat) => ∃ l, l = (List.range i).filterMap (fun fa => (elFaEl[el * nElFas + fa]?).join) ∧
      s = ((pre ++ wOf elTg tgMax el l).length, (pre ++ wOf elTg tgMax el l) ++ List.replicate (k - l.length) 1))
    ⟨[], by simp, by simp [wOf]⟩
    (by
      rintro i s hi ⟨l, hl, rfl⟩
      obtain ⟨o, ho, hb⟩ := hA el i hel hi
      cases o with
      | none =>
        refine ⟨((pre ++ wOf elTg tgMax el l).length, (pre ++ wOf elTg tgMax el l) ++ List.replicate (k - l.length) 1),
          by simp only [wgtFace, rd, ho, Option.bind_eq_bind, Option.bind_some]; rfl, l, ?_, rfl⟩
        rw [List.range_succ, List.filterMap_append, ← hl]; simp [ho]
      | some ad =>
        have hnew : l ++ [ad] = (List.range (i + 1)).filterMap (fun fa => (elFaEl[el * nElFas + fa]?).join) := by
          rw [List.range_succ, List.filterMap_append, ← hl]; simp [ho]
        have hlk : l.length < k := by
          have hsub : (l ++ [ad]).length ≤ (nbs elFaEl nElFas el).length := by
            rw [hnew]
            apply List.Sublist.length_le
            apply List.Sublist.filterMap
            exact List.range_sublist.2 (by omega)
          simp at hsub; omega
        have g1 : el < elTg.length := by omega
        have g2 : ad < elTg.length := by have := hb ad rfl; omega
        have e1 := List.getElem?_eq_getElem g1
        have e2 := List.getElem?_eq_getElem g2
        refine ⟨_, ?_, l ++ [ad], hnew, rfl⟩
        have hset := set_append_replicate (pre ++ wOf elTg tgMax el l) (k - l.length)
          (edgeW tgMax elTg[el] elTg[ad]) (by omega)
        have hrd : ((pre ++ wOf elTg tgMax el l) ++ List.replicate (k - l.length) 1)[(pre ++ wOf elTg tgMax el l).length]?
            = some 1 := by
          rw [List.getElem?_append_right (Nat.le_refl _), Nat.sub_self, List.getElem?_replicate, if_pos (by omega)]
        have hlt : (pre ++ wOf elTg tgMax el l).length <
            ((pre ++ wOf elTg tgMax el l) ++ List.replicate (k - l.length) 1).length := by
          simp; omega
        simp only [wgtFace, rd, ho, Option.bind_eq_bind, Option.bind_some, e1, e2]
        rw [hrd]
        simp only [Option.bind_some, doubled_spec, wr, hlt, if_true, Nat.one_mul]
        rw [show 2 ^ (tgMax - min elTg[el] elTg[ad]) = edgeW tgMax elTg[el] elTg[ad] from rfl, hset]
        have hw : wOf elTg tgMax el (l ++ [ad]) = wOf elTg tgMax el l ++ [edgeW tgMax elTg[el] elTg[ad]] := by
          simp [wOf, e1, e2]
        rw [hw]
        simp [Nat.sub_sub, Nat.add_assoc])
  obtain ⟨l, hl, he⟩ := hp
  rw [ht, he, hl]; rfl

theorem getWeights_spec {elFaEl : List (Option Nat)} {nElFas nEls : Nat} (hA : AdOk elFaEl nElFas nEls)
    {elTg : List Nat} (hg : elTg.length = nEls) {tgMax nAdj : Nat}
    (hm : forN nEls (fun el (m : Nat) => do
        let x ← rd elTg el
        return max m x) 0 = some tgMax)
    (hn : nAdj = ((List.range nEls).flatMap (fun el => nbs elFaEl nElFas el)).length) :
    getWeights nElFas nEls nAdj elFaEl elTg = some (elTg.map (fun t => 2 ^ (tgMax - t)),
      (List.range nEls).flatMap (fun el => wOf elTg tgMax el (nbs elFaEl nElFas el))) := by
  have hlenw : ∀ i, ((List.range i).flatMap (fun el => wOf elTg tgMax el (nbs elFaEl nElFas el))).length
      = ((List.range i).flatMap (fun el => nbs elFaEl nElFas el)).length := by
    intro i; simp [List.length_flatMap, wOf]
  have hmono : ∀ i j, i ≤ j → ((List.range i).flatMap (fun el => nbs elFaEl nElFas el)).length
      ≤ ((List.range j).flatMap (fun el => nbs elFaEl nElFas el)).length := by
    intro i j hij
    induction j with
    | zero => have : i = 0 := by omega
              subst this; exact Nat.le_refl _
    | succ j ih =>
      by_cases h : i = j + 1
      · subst h; exact Nat.le_refl _
      · rw [flatMap_range_succ, List.length_append]; have := ih (by omega); omega
  obtain ⟨t, ht, hp⟩ := forN_inv (n := nEls)
    (s := ((0, List.replicate nEls 1, List.replicate nAdj 1) : Nat × List Nat × List Nat))
    (body := fun el (s : Nat × List Nat × List Nat) => do
    let tg ← rd elTg el
    let v ← rd s.2.1 el
    let v ← doubled tg tgMax v
    let vw ← wr s.2.1 el v
    let (adId, aw) ← forN nElFas (fun fa (s : Nat × List Nat) => wgtFace elFaEl elTg nElFas tgMax el fa s) (s.1, s.2.2)
    return (adId, vw, aw))
    (fun i (s : Nat × List Nat × List Nat) => ∃ w,
      w = (List.range i).flatMap (fun el => wOf elTg tgMax el (nbs elFaEl nElFas el)) ∧
      s = (w.length, (elTg.take i).map (fun t => 2 ^ (tgMax - t)) ++ List.replicate (nEls - i) 1,
        w ++ List.replicate (nAdj - w.length) 1))
    ⟨[], by simp, by simp⟩
    (by
      rintro i s hi ⟨w, hw, rfl⟩
      have g1 : i < elTg.length := by omega
      have e1 := List.getElem?_eq_getElem g1
      have hlen : ((elTg.take i).map (fun t => 2 ^ (tgMax - t))).length = i := by simp; omega
      have hrd : ((elTg.take i).map (fun t => 2 ^ (tgMax - t)) ++ List.replicate (nEls - i) 1)[i]? = some 1 := by
        rw [List.getElem?_append_right (by omega), hlen, Nat.sub_self, List.getElem?_replicate, if_pos (by omega)]
      have hset := set_append_replicate ((elTg.take i).map (fun t => 2 ^ (tgMax - t))) (nEls - i)
        (2 ^ (tgMax - elTg[i])) (by omega)
      rw [hlen] at hset
      have hwl : w.length + (nbs elFaEl nElFas i).length ≤ nAdj := by
        have h1 := hmono (i + 1) nEls hi
        rw [flatMap_range_succ, List.length_append] at h1
        rw [hw, hlenw, hn]; exact h1
      have hin := wgt_inner hA hi hg w (nAdj - w.length) (tgMax := tgMax) (by omega)
      refine ⟨_, ?_, w ++ wOf elTg tgMax i (nbs elFaEl nElFas i), by rw [flatMap_range_succ, ← hw], rfl⟩
      have hlt : i < ((elTg.take i).map (fun t => 2 ^ (tgMax - t)) ++ List.replicate (nEls - i) 1).length := by
        simp; omega
      simp only [rd, e1, Option.bind_eq_bind, Option.bind_some]
      rw [hrd]
      simp only [Option.bind_some, doubled_spec, wr, hlt, if_true, Nat.one_mul, hset]
      rw [hin]
      have ht : elTg.take (i + 1) = elTg.take i ++ [elTg[i]] := by rw [List.take_add_one, e1]; rfl
      rw [ht]
      simp only [List.map_append, List.map_cons, List.map_nil, List.length_append, Option.bind_some, Nat.sub_sub]
      simp [wOf])
  obtain ⟨w, hw, he⟩ := hp
  simp only [getWeights, Option.bind_eq_bind] at hm ⊢
  rw [hm]
  simp only [Option.bind_some, Option.bind_eq_bind] at ht ⊢
  rw [ht, he]
  have hwn : w.length = nAdj := by rw [hw, hlenw, hn]
  simp only [Option.bind_some, hwn, Nat.sub_self, List.replicate_zero, List.append_nil, ← hg, List.take_length]
  simp [← hg, hw]

/-- C33 (part): vertex weights are those of the element's time group; if every element lists its neighbours in ascending
order already by its faces, then also the edge weight at each position is that of the neighbour at that position. -/
theorem C33_weights_partial {elFaEl : List (Option Nat)} {nElFas nEls : Nat} (hA : AdOk elFaEl nElFas nEls)
    {elTg : List Nat} (hg : elTg.length = nEls) (hasc : ∀ el, el < nEls → (nbs elFaEl nElFas el).Pairwise (· ≤ ·)) :
    ∃ tgMax, (∀ t ∈ elTg, t ≤ tgMax) ∧ (tgMax = 0 ∨ tgMax ∈ elTg) ∧
    ∃ xadj adj vw aw, getDualGraph nElFas nEls elFaEl = some (xadj, adj) ∧
      getWeights nElFas nEls adj.length elFaEl elTg = some (vw, aw) ∧
      vw = elTg.map (fun t => 2 ^ (tgMax - t)) ∧ aw.length = adj.length ∧
      ∀ (el lo hi k ad t u : Nat), el < nEls → xadj[el]? = some lo → xadj[el + 1]? = some hi → lo ≤ k → k < hi →
        adj[k]? = some ad → elTg[el]? = some t → elTg[ad]? = some u → aw[k]? = some (edgeW tgMax t u) := by
  obtain ⟨m, hm, h1, h2⟩ := max_spec hg
  obtain ⟨xadj, hx, _, hxl⟩ := getDualGraph_spec hA
  have hs : (List.range nEls).flatMap (fun el => sortAsc (nbs elFaEl nElFas el))
      = (List.range nEls).flatMap (fun el => nbs elFaEl nElFas el) := by
    apply List.flatMap_congr
    intro el hel
    exact sortAsc_of_sorted (hasc el (by simpa using hel))
  have hw := getWeights_spec hA hg hm
    (nAdj := ((List.range nEls).flatMap (fun el => sortAsc (nbs elFaEl nElFas el))).length) (by rw [hs])
  refine ⟨m, h1, h2, xadj, _, _, _, hx, hw, rfl, by rw [hs]; simp [List.length_flatMap, wOf], ?_⟩
  intro el lo hi k ad t u hel hlo hhi hk1 hk2 had ht hu
  have h3 := hxl el (by omega)
  have h4 := hxl (el + 1) (by omega)
  rw [hlo] at h3; rw [hhi] at h4
  have e3 := Option.some.inj h3
  have e4 := Option.some.inj h4
  rw [flatMap_range_succ, List.length_append, sortAsc_length, ← e3] at e4
  -- position inside of the element's range
  have s1 := flatMap_seg (fun el => sortAsc (nbs elFaEl nElFas el)) hel
  have s2 := flatMap_seg (fun el => wOf elTg m el (nbs elFaEl nElFas el)) hel
  have e3' : ((List.range el).flatMap (fun el => wOf elTg m el (nbs elFaEl nElFas el))).length = lo := by
    rw [e3]; simp [List.length_flatMap, wOf, sortAsc_length]
  rw [← e3, sortAsc_length] at s1
  rw [e3'] at s2
  have a1 : (nbs elFaEl nElFas el)[k - lo]? = some ad := by
    rw [← sortAsc_of_sorted (hasc el hel), ← s1, List.getElem?_take_of_lt (by omega), List.getElem?_drop,
      show lo + (k - lo) = k from by omega]
    exact had
  have a2 : (wOf elTg m el (nbs elFaEl nElFas el))[k - lo]? = some (edgeW m t u) := by
    simp [wOf, a1, ht, hu]
  rw [← s2, List.getElem?_take_of_lt (by simp [wOf]; omega), List.getElem?_drop,
    show lo + (k - lo) = k from by omega] at a2
  exact a2

/-- C33 (finding): the edge weights follow the order of the faces, while the listed neighbours were sorted: with
neighbours 2 and 0 behind the faces of element 1, the weight of the connection to 2 is attached to 0. -/
theorem C33_weights_refuted : ∃ (elFaEl : List (Option Nat)) (nElFas nEls : Nat) (elTg xadj adj vw aw : List Nat),
    AdOk elFaEl nElFas nEls ∧ elTg.length = nEls ∧ getDualGraph nElFas nEls elFaEl = some (xadj, adj) ∧
    getWeights nElFas nEls adj.length elFaEl elTg = some (vw, aw) ∧
    xadj[1]? = some 1 ∧ adj[1]? = some 0 ∧ aw[1]? = some 2 ∧ edgeW 2 1 0 = 4 ∧ elTg = [0, 1, 2] := by
  refine ⟨[none, some 1, some 2, some 0, some 1, none], 2, 3, [0, 1, 2], [0, 1, 3, 4], [1, 0, 2, 1], [4, 2, 1],
    [4, 2, 4, 2], ?_, rfl, by decide, by decide, rfl, rfl, rfl, by decide, rfl⟩
  intro el fa h1 h2
  have h : el = 0 ∨ el = 1 ∨ el = 2 := by omega
  have h' : fa = 0 ∨ fa = 1 := by omega
  rcases h with rfl | rfl | rfl <;> rcases h' with rfl | rfl <;> simp

/-- Hypotheses of `C33_weights_partial` met: the chain of three elements. -/
example : (∀ el, el < 3 → (nbs [none, some 1, some 0, some 2, some 1, none] 2 el).Pairwise (· ≤ ·)) ∧
    nbs [none, some 1, some 0, some 2, some 1, none] 2 1 = [0, 2] := by decide

/-! ## C34 -/

/-- Invariant part of both loops of the partition sizes. -/
theorem incr_spec {out : List (Option Nat)} {i v : Nat} (h : out[i]? = some (some v)) :
    incr out i = some (out.set i (some (v + 1))) := by
  have := (List.getElem?_eq_some_iff.1 h).1
  simp only [incr, rd, h, Option.bind_eq_bind, Option.bind_some, wr, this, if_true]

/-- C34 (part): every partition up to the largest one in use is reported with the number of its elements; the entries
of further (empty) partitions are never written. -/
theorem C34_counts_partial {nParts : Nat} {elPa : List Nat} (hne : elPa ≠ []) (hlt : ∀ p ∈ elPa, p < nParts) :
    ∃ out, nPaEls nParts elPa = some out ∧ out.length = nParts ∧
      (∀ p q, q ∈ elPa → p ≤ q → out[p]? = some (some (elPa.count p))) ∧
      (∀ p, p < nParts → (∀ q ∈ elPa, q < p) → out[p]? = some none) := by
  obtain ⟨m, hm, h1, h2⟩ := max_spec (l := elPa) (n := elPa.length) rfl
  have hmem : m ∈ elPa := by
    rcases h2 with h | h
    · obtain ⟨x, hx⟩ := List.exists_mem_of_ne_nil _ hne
      have : x = m := by have := h1 x hx; omega
      exact this ▸ hx
    · exact h
  have hmp := hlt m hmem
  obtain ⟨o, ho, k1, k2, k3⟩ := forN_inv (n := m + 1) (s := (List.replicate nParts none : List (Option Nat)))
    (body := fun pa (out : List (Option Nat)) => wr out pa (some 0))
    (fun i (out : List (Option Nat)) => out.length = nParts ∧ (∀ p : Nat, p < i → out[p]? = some (some 0)) ∧
      (∀ p : Nat, i ≤ p → p < nParts → out[p]? = some none))
    ⟨by simp, fun p h => by omega, fun p _ h => by simp [h]⟩
    (by
      rintro i out hi ⟨k1, k2, k3⟩
      refine ⟨out.set i (some 0), wr_some (by omega) _, by simp [k1], fun p hp => ?_, fun p h h' => ?_⟩
      · by_cases hpi : p = i
        · subst hpi; rw [List.getElem?_set_self (by omega)]
        · rw [List.getElem?_set_ne (by omega)]; exact k2 p (by omega)
      · rw [List.getElem?_set_ne (by omega)]; exact k3 p (by omega) h')
  obtain ⟨out, hout, l1, l2, l3⟩ := forN_inv (n := elPa.length) (s := o)
    (body := fun el (out : List (Option Nat)) => do
      let pa ← rd elPa el
      incr out pa)
    (fun i (out : List (Option Nat)) => out.length = nParts ∧
      (∀ p : Nat, p < m + 1 → out[p]? = some (some ((elPa.take i).count p))) ∧
      (∀ p : Nat, m + 1 ≤ p → p < nParts → out[p]? = some none))
    ⟨k1, fun p hp => by simp [k2 p hp], k3⟩
    (by
      rintro i out hi ⟨l1, l2, l3⟩
      have e := List.getElem?_eq_getElem hi
      have hle := h1 elPa[i] (List.getElem_mem hi)
      have hinc := incr_spec (l2 elPa[i] (by omega))
      refine ⟨_, by simp only [rd, e, Option.bind_eq_bind, Option.bind_some]; exact hinc, by simp [l1],
        fun p hp => ?_, fun p hp hp' => ?_⟩
      · rw [List.take_add_one, e, List.count_append]
        by_cases hpi : p = elPa[i]
        · subst hpi; rw [List.getElem?_set_self (by omega)]; simp
        · rw [List.getElem?_set_ne (fun h => hpi h.symm), l2 p hp]
          have : elPa[i] ≠ p := fun h => hpi h.symm
          simp [this]
      · rw [List.getElem?_set_ne (by omega)]; exact l3 p hp hp')
  refine ⟨out, ?_, l1, fun p q hq hpq => ?_, fun p hp hall => l3 p (by have := hall m hmem; omega) hp⟩
  · simp only [nPaEls, Option.bind_eq_bind] at hm ⊢
    rw [hm]
    simp only [Option.bind_some]
    rw [ho]
    exact hout
  · have := h1 q hq
    have := l2 p (by omega)
    rwa [List.take_length] at this

/-- C34 (part): if the last partition is not empty, all partitions are reported and the sizes add up to the number of
elements. -/
theorem C34_sum_partial {nParts : Nat} {elPa : List Nat} (hlt : ∀ p ∈ elPa, p < nParts + 1) (hlast : nParts ∈ elPa) :
    nPaEls (nParts + 1) elPa = some ((List.range (nParts + 1)).map (fun p => some (elPa.count p))) ∧
    ((List.range (nParts + 1)).map (fun p => elPa.count p)).sum = elPa.length := by
  obtain ⟨out, ho, h1, h2, h3⟩ := C34_counts_partial (by rintro rfl; simp at hlast) hlt
  constructor
  · rw [ho]
    congr 1
    apply List.ext_getElem?
    intro p
    by_cases hp : p < nParts + 1
    · rw [h2 p nParts hlast (by omega)]; simp [hp]
    · rw [List.getElem?_eq_none (by omega), List.getElem?_eq_none (by simp; omega)]
  · clear ho h1 h2 h3 hlast
    have hone : ∀ a n, ((List.range n).map (fun p => if a = p then 1 else 0)).sum = if a < n then 1 else 0 := by
      intro a n
      induction n with
      | zero => simp
      | succ n ih =>
        rw [List.range_succ, List.map_append, List.sum_append, ih]
        by_cases h : a < n
        · have : a ≠ n := by omega
          simp [h, this]; omega
        · by_cases h' : a = n
          · simp [h']
          · simp [h, h']; omega
    have hadd : ∀ (f g : Nat → Nat) n, ((List.range n).map (fun p => f p + g p)).sum
        = ((List.range n).map f).sum + ((List.range n).map g).sum := by
      intro f g n
      induction n with
      | zero => simp
      | succ n ih => simp [List.range_succ, ih]; omega
    induction elPa with
    | nil => simp
    | cons a l ih =>
      have hl := ih (fun p hp => hlt p (by simp [hp]))
      have : ∀ p, (a :: l).count p = l.count p + (if a = p then 1 else 0) := by
        intro p; rw [List.count_cons]; simp
      rw [show (fun p => (a :: l).count p) = (fun p => l.count p + (if a = p then 1 else 0)) from funext this, hadd, hl,
        hone]
      simp [hlt a (by simp)]

/-- C34 (finding): a trailing empty partition has no reported size; the value read later is undefined. -/
theorem C34_refuted : ∃ (nParts : Nat) (elPa : List Nat) (out : List (Option Nat)), elPa ≠ [] ∧
    (∀ p ∈ elPa, p < nParts) ∧ nPaEls nParts elPa = some out ∧ ∃ p, p < nParts ∧ out[p]? = some none :=
  ⟨3, [0, 1, 0], [some 2, some 1, none], by decide, by decide, by decide, 2, by decide, by decide⟩

/-- Hypotheses met, with an empty partition in the middle. -/
example : nPaEls 3 [0, 2, 0] = some [some 2, some 0, some 1] := by decide

end Edge.EdgeV
