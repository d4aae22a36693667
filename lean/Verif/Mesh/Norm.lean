import Verif.Mesh.Build
import Mathlib.Tactic.Ring
import Mathlib.Tactic.Linarith
/-!
Normalisation of the order of the vertices and faces of simplices: C39 (faces and neighbours stay together), C40
(positive orientation, position of the faces).
-/
namespace Edge.Mesh
open Edge

/-! ### Specification -/

/-- Entries of element `el` in an array with `n` entries per element. -/
def slice {α : Type _} (n : Nat) (a : List α) (el : Nat) : List α := (a.drop (el * n)).take n

/-- The faces of a simplex: for every vertex there is a face with all other vertices. -/
def FacesOf (ves : List Nat) (rows : List (List Nat)) : Prop :=
  ves.Nodup ∧ rows.length = ves.length ∧ ∀ v ∈ ves, ∃ row ∈ rows, row.Perm (ves.erase v)

/-! ### Entries of an element -/

theorem slice_getElem? {α : Type _} {n : Nat} {a : List α} {el k : Nat} (hk : k < n) :
    (slice n a el)[k]? = a[el * n + k]? := by
  rw [slice, List.getElem?_take_of_lt hk, List.getElem?_drop]

theorem slice_length {α : Type _} {n nEls : Nat} {a : List α} (ha : a.length = nEls * n) {el : Nat} (he : el < nEls) :
    (slice n a el).length = n := by
  rw [slice, List.length_take, List.length_drop, ha]
  have := Nat.mul_le_mul_right n (Nat.succ_le_of_lt he)
  rw [Nat.succ_mul] at this
  omega

theorem slice_ext {α : Type _} {n : Nat} {a b : List α} {el : Nat} (h : ∀ k < n, a[el * n + k]? = b[el * n + k]?) :
    slice n a el = slice n b el := by
  apply List.ext_getElem?
  intro k
  by_cases hk : k < n
  · rw [slice_getElem? hk, slice_getElem? hk, h k hk]
  · rw [List.getElem?_eq_none (by rw [slice, List.length_take]; omega),
      List.getElem?_eq_none (by rw [slice, List.length_take]; omega)]

theorem idx_ne {n el el' k k' : Nat} (hk : k < n) (hk' : k' < n) (h : el ≠ el') : el * n + k ≠ el' * n + k' := by
  intro he
  have h1 : (el * n + k) / n = el := by rw [Nat.mul_comm, Nat.mul_add_div (by omega), Nat.div_eq_of_lt hk]; rfl
  have h2 : (el' * n + k') / n = el' := by rw [Nat.mul_comm, Nat.mul_add_div (by omega), Nat.div_eq_of_lt hk']; rfl
  rw [he, h2] at h1; exact h h1.symm

theorem slice_set {α : Type _} {n : Nat} {a : List α} {el i : Nat} {v : α} (hi : i < n) :
    slice n (a.set (el * n + i) v) el = (slice n a el).set i v := by
  apply List.ext_getElem?
  intro k
  by_cases hk : k < n
  · rw [slice_getElem? hk]
    by_cases hki : k = i
    · subst hki
      by_cases hl : el * n + k < a.length
      · rw [List.getElem?_set_self hl, List.getElem?_set_self]
        rw [slice, List.length_take, List.length_drop]; omega
      · rw [List.getElem?_eq_none (by simp; omega), List.getElem?_eq_none]
        rw [List.length_set, slice, List.length_take, List.length_drop]; omega
    · rw [List.getElem?_set_ne (by omega), List.getElem?_set_ne (by omega), slice_getElem? hk]
  · rw [List.getElem?_eq_none (by rw [slice, List.length_take]; omega),
      List.getElem?_eq_none (by rw [List.length_set, slice, List.length_take]; omega)]

theorem slice_set_ne {α : Type _} {n : Nat} {a : List α} {el el' i : Nat} {v : α} (hi : i < n) (h : el ≠ el') :
    slice n (a.set (el * n + i) v) el' = slice n a el' :=
  slice_ext fun _ hk => by rw [List.getElem?_set_ne (idx_ne hi hk h)]

/-- Exchange of two entries of a list. -/
def swapL {α : Type _} (l : List α) (i j : Nat) : List α :=
  match l[i]?, l[j]? with
  | some x, some y => (l.set i y).set j x
  | _, _ => l

theorem swapL_perm {α : Type _} (l : List α) (i j : Nat) : (swapL l i j).Perm l := by
  unfold swapL
  split
  · rename_i x y hx hy
    obtain ⟨hi, rfl⟩ := List.getElem?_eq_some_iff.1 hx
    obtain ⟨hj, rfl⟩ := List.getElem?_eq_some_iff.1 hy
    exact List.set_set_perm hi hj
  · exact List.Perm.refl _

theorem swapL_length {α : Type _} (l : List α) (i j : Nat) : (swapL l i j).length = l.length :=
  (swapL_perm l i j).length_eq

theorem swapL_get {α : Type _} {l : List α} {i j : Nat} (hi : i < l.length) (hj : j < l.length) (k : Nat) :
    (swapL l i j)[k]? = if k = j then l[i]? else if k = i then l[j]? else l[k]? := by
  unfold swapL
  rw [List.getElem?_eq_getElem hi, List.getElem?_eq_getElem hj]
  by_cases h1 : k = j
  · subst h1; rw [if_pos rfl]; simp [hj]
  · rw [if_neg h1]
    simp only
    rw [List.getElem?_set_ne (fun h => h1 h.symm)]
    by_cases h2 : k = i
    · subst h2; simp [hi]
    · rw [if_neg h2, List.getElem?_set_ne (fun h => h2 h.symm)]

theorem zip_swapL {α β : Type _} {a : List α} {b : List β} (h : a.length = b.length) {i j : Nat} (hi : i < a.length)
    (hj : j < a.length) : (swapL a i j).zip (swapL b i j) = swapL (a.zip b) i j := by
  have hz : (a.zip b).length = a.length := by simp [h]
  apply List.ext_getElem?
  intro k
  rw [swapL_get (by omega) (by omega)]
  simp only [List.zip, List.getElem?_zipWith, swapL_get hi hj, swapL_get (l := b) (by omega : i < b.length)
    (by omega : j < b.length)]
  by_cases h1 : k = j
  · simp [h1]
  · by_cases h2 : k = i
    · subst h2; simp [h1]
    · simp [h1, h2]

/-- `swp` exchanges two entries of an element. -/
theorem swp_slice {α : Type _} {n : Nat} {a a' : List α} {el i j : Nat} (hi : i < n) (hj : j < n)
    (h : swp a (el * n + i) (el * n + j) = some a') :
    slice n a' el = swapL (slice n a el) i j ∧ (∀ el', el' ≠ el → slice n a' el' = slice n a el') ∧
      a'.length = a.length := by
  simp only [swp, Option.bind_eq_bind, Option.bind_eq_some_iff] at h
  obtain ⟨x, hx, y, hy, b, hb, hc⟩ := h
  simp only [wr] at hb hc
  split at hb <;> cases hb
  split at hc <;> cases hc
  simp only [rd] at hx hy
  refine ⟨?_, fun el' he => ?_, by simp⟩
  · rw [slice_set hj, slice_set hi, swapL, slice_getElem? hi, slice_getElem? hj, hx, hy]
  · rw [slice_set_ne hj (fun h => he h.symm), slice_set_ne hi (fun h => he h.symm)]

theorem swp_total {α : Type _} {a : List α} {i j : Nat} (hi : i < a.length) (hj : j < a.length) :
    ∃ a', swp a i j = some a' := by
  simp [swp, rd, wr, hi, hj]

/-! ### Sorting of the faces -/

theorem faLess_true : ∀ {a b : List Nat}, faLess a b = some true → lexLt a b = true
  | x :: a, y :: b, h => by
    simp only [faLess, lexLt] at h ⊢
    split at h
    · rename_i h1; rw [if_pos h1]
    · rename_i h1
      split at h
      · cases h
      · rename_i h2; rw [if_neg h1, if_neg h2]; exact faLess_true h
  | [], _, h => by simp [faLess] at h
  | _ :: _, [], h => by simp [faLess] at h

theorem faLess_false : ∀ {a b : List Nat}, faLess a b = some false → lexLt b a = true
  | x :: a, y :: b, h => by
    simp only [faLess, lexLt] at h ⊢
    split at h
    · cases h
    · rename_i h1
      split at h
      · rename_i h2; rw [if_pos h2]
      · rename_i h2; rw [if_neg h2, if_neg h1]; exact faLess_false h
  | [], _, h => by simp [faLess] at h
  | _ :: _, [], h => by simp [faLess] at h

theorem faLess_total : ∀ {a b : List Nat}, a.length = b.length → a ≠ b → ∃ r, faLess a b = some r
  | x :: a, y :: b, h, hne => by
    simp only [faLess]
    split
    · exact ⟨_, rfl⟩
    · rename_i h1
      split
      · exact ⟨_, rfl⟩
      · rename_i h2
        have : x = y := by omega
        subst this
        exact faLess_total (by simpa using h) (fun h => hne (by rw [h]))
  | [], [], _, hne => absurd rfl hne
  | [], _ :: _, h, _ => by simp at h
  | _ :: _, [], h, _ => by simp at h

/-- The vertices of the face at position `a` are less than those of the face at position `b`. -/
def Less (faVe : List (List Nat)) (fas : List Nat) (a b : Nat) : Prop :=
  ∃ x y va vb, fas[a]? = some x ∧ fas[b]? = some y ∧ faVe[x]? = some va ∧ faVe[y]? = some vb ∧ lexLt va vb = true

theorem Less.trans {faVe : List (List Nat)} {fas : List Nat} {a b c : Nat} (h1 : Less faVe fas a b)
    (h2 : Less faVe fas b c) : Less faVe fas a c := by
  obtain ⟨x, y, va, vb, e1, e2, e3, e4, e5⟩ := h1
  obtain ⟨x', y', va', vb', f1, f2, f3, f4, f5⟩ := h2
  rw [e2] at f1; cases f1
  rw [e4] at f3; cases f3
  exact ⟨x, y', va, vb', e1, f2, e3, f4, lexLt_trans e5 f5⟩

theorem Less.congr {faVe : List (List Nat)} {fas fas' : List Nat} {a b a' b' : Nat} (h : Less faVe fas a b)
    (ha : fas'[a']? = fas[a]?) (hb : fas'[b']? = fas[b]?) : Less faVe fas' a' b' := by
  obtain ⟨x, y, va, vb, e1, e2, e3, e4, e5⟩ := h
  exact ⟨x, y, va, vb, by rw [ha, e1], by rw [hb, e2], e3, e4, e5⟩

/-- Effect on the faces and neighbours of an element: the pairs of face and neighbour are permuted, all other elements keep
theirs. -/
structure Tog (n : Nat) (el : Nat) (s s' : List Nat × List (Option Nat)) : Prop where
  perm : ((slice n s'.1 el).zip (slice n s'.2 el)).Perm ((slice n s.1 el).zip (slice n s.2 el))
  rest : ∀ el', el' ≠ el → slice n s'.1 el' = slice n s.1 el' ∧ slice n s'.2 el' = slice n s.2 el'
  len : s'.1.length = s.1.length ∧ s'.2.length = s.2.length

theorem Tog.refl {n el : Nat} (s : List Nat × List (Option Nat)) : Tog n el s s :=
  ⟨List.Perm.refl _, fun _ _ => ⟨rfl, rfl⟩, rfl, rfl⟩

theorem Tog.trans {n el : Nat} {s t u : List Nat × List (Option Nat)} (h : Tog n el s t) (k : Tog n el t u) :
    Tog n el s u :=
  ⟨k.perm.trans h.perm, fun e he => ⟨(k.rest e he).1.trans (h.rest e he).1, (k.rest e he).2.trans (h.rest e he).2⟩,
    k.len.1.trans h.len.1, k.len.2.trans h.len.2⟩

theorem swp_tog {n nEls el i j : Nat} {s : List Nat × List (Option Nat)} {a : List Nat} {b : List (Option Nat)}
    (hl : s.1.length = nEls * n) (hl2 : s.2.length = nEls * n) (he : el < nEls) (hi : i < n) (hj : j < n)
    (h1 : swp s.1 (el * n + i) (el * n + j) = some a) (h2 : swp s.2 (el * n + i) (el * n + j) = some b) :
    Tog n el s (a, b) ∧ slice n a el = swapL (slice n s.1 el) i j ∧ slice n b el = swapL (slice n s.2 el) i j := by
  obtain ⟨a1, a2, a3⟩ := swp_slice hi hj h1
  obtain ⟨b1, b2, b3⟩ := swp_slice hi hj h2
  have l1 := slice_length hl he
  have l2 := slice_length hl2 he
  refine ⟨⟨?_, fun el' he' => ⟨a2 el' he', b2 el' he'⟩, a3, b3⟩, a1, b1⟩
  simp only
  rw [a1, b1, zip_swapL (by omega) (by omega) (by omega)]
  exact swapL_perm _ _ _

/-- One comparison: either nothing changes, or the two faces are exchanged; afterwards they are in order. -/
theorem faStep_post {n nEls el : Nat} {faVe : List (List Nat)} {f0 f1 : Nat} {s s' : List Nat × List (Option Nat)}
    (hl : s.1.length = nEls * n) (hl2 : s.2.length = nEls * n) (he : el < nEls) (h0 : f0 < n) (h1 : f1 < n)
    (h : faStep faVe (el * n) f0 f1 s = some s') :
    Tog n el s s' ∧
      ((Less faVe (slice n s.1 el) f0 f1 ∧ s' = s) ∨
       (Less faVe (slice n s.1 el) f1 f0 ∧ slice n s'.1 el = swapL (slice n s.1 el) f0 f1)) := by
  simp only [faStep, Option.bind_eq_bind, Option.bind_eq_some_iff, rd] at h
  obtain ⟨x, hx, y, hy, va, hva, vb, hvb, less, hless, h⟩ := h
  rw [← slice_getElem? h0] at hx
  rw [← slice_getElem? h1] at hy
  cases less with
  | true =>
    simp only [if_true, Option.bind_eq_some_iff] at h
    obtain ⟨a, ha, b, hb, h⟩ := h
    cases h
    obtain ⟨t, t1, _⟩ := swp_tog hl hl2 he h0 h1 ha hb
    exact ⟨t, Or.inr ⟨⟨y, x, vb, va, hy, hx, hvb, hva, faLess_true hless⟩, t1⟩⟩
  | false =>
    simp only [Bool.false_eq_true, if_false] at h
    cases h
    exact ⟨Tog.refl _, Or.inl ⟨⟨x, y, va, vb, hx, hy, hva, hvb, faLess_false hless⟩, rfl⟩⟩

/-- Order among the positions already compared. -/
def Sofar (n : Nat) (faVe : List (List Nat)) (fas : List Nat) (f0 j : Nat) : Prop :=
  ∀ a b, a < b → b < n → (a < f0 ∨ (a = f0 ∧ b < f0 + 1 + j)) → Less faVe fas a b

theorem Sofar.step {n : Nat} {faVe : List (List Nat)} {fas fas' : List Nat} {f0 j : Nat} (hlen : fas.length = n)
    (hj : f0 + 1 + j < n) (h : Sofar n faVe fas f0 j)
    (hs : (Less faVe fas f0 (f0 + 1 + j) ∧ fas' = fas) ∨
      (Less faVe fas (f0 + 1 + j) f0 ∧ fas' = swapL fas f0 (f0 + 1 + j))) : Sofar n faVe fas' f0 (j + 1) := by
  intro a b hab hb hc
  rcases hs with ⟨h1, rfl⟩ | ⟨h1, h2⟩
  · rcases hc with hc | ⟨rfl, hc⟩
    · exact h a b hab hb (Or.inl hc)
    · by_cases hbj : b = a + 1 + j
      · subst hbj; exact h1
      · exact h a b hab hb (Or.inr ⟨rfl, by omega⟩)
  · have g := swapL_get (l := fas) (i := f0) (j := f0 + 1 + j) (by omega) (by omega)
    rw [← h2] at g
    have g0 : fas'[f0]? = fas[f0 + 1 + j]? := by rw [g, if_neg (by omega), if_pos rfl]
    have g1 : fas'[f0 + 1 + j]? = fas[f0]? := by rw [g, if_pos rfl]
    have g2 : ∀ k, k ≠ f0 → k ≠ f0 + 1 + j → fas'[k]? = fas[k]? := fun k k1 k2 => by
      rw [g, if_neg k2, if_neg k1]
    rcases hc with hc | ⟨rfl, hc⟩
    · have ga := g2 a (by omega) (by omega)
      by_cases e1 : b = f0
      · subst e1; exact (h a (b + 1 + j) (by omega) (by omega) (Or.inl hc)).congr ga g0
      · by_cases e2 : b = f0 + 1 + j
        · subst e2; exact (h a f0 (by omega) (by omega) (Or.inl hc)).congr ga g1
        · exact (h a b hab hb (Or.inl hc)).congr ga (g2 b e1 e2)
    · by_cases e2 : b = a + 1 + j
      · subst e2; exact h1.congr g0 g1
      · exact (h1.trans (h a b hab hb (Or.inr ⟨rfl, by omega⟩))).congr g0 (g2 b (by omega) e2)

/-- Faces of an element in ascending order. -/
def Asc (n : Nat) (faVe : List (List Nat)) (fas : List Nat) : Prop := ∀ a b, a < b → b < n → Less faVe fas a b

/-- C39: sorting the faces of an element permutes the faces and the neighbours behind them by the same permutation, leaves all
other elements unchanged, and the vertices of the faces are in strictly ascending order afterwards. -/
theorem C39_sortFas {n nEls el : Nat} {faVe : List (List Nat)} {s s' : List Nat × List (Option Nat)}
    (hl : s.1.length = nEls * n) (hl2 : s.2.length = nEls * n) (he : el < nEls)
    (h : sortFas n faVe (el * n) s = some s') : Tog n el s s' ∧ Asc n faVe (slice n s'.1 el) := by
  have hlen : ∀ {t : List Nat × List (Option Nat)}, Tog n el s t →
      t.1.length = nEls * n ∧ t.2.length = nEls * n := fun ht => ⟨ht.len.1.trans hl, ht.len.2.trans hl2⟩
  have key := forN_post (P := fun i t => Tog n el s t ∧ Sofar n faVe (slice n t.1 el) i 0)
    ⟨Tog.refl s, fun a b _ _ h => by omega⟩
    (by
      intro f0 t t' hf0 ⟨h1, h2⟩ hb
      have inner := forN_post (P := fun j t => Tog n el s t ∧ Sofar n faVe (slice n t.1 el) f0 j) ⟨h1, h2⟩
        (by
          intro j u u' hj ⟨k1, k2⟩ hb
          obtain ⟨u1, u2⟩ := hlen k1
          obtain ⟨q1, q2⟩ := faStep_post u1 u2 he hf0 (by omega) hb
          refine ⟨k1.trans q1, k2.step (slice_length u1 he) (by omega) ?_⟩
          rcases q2 with ⟨q, rfl⟩ | ⟨q, q'⟩
          · exact Or.inl ⟨q, rfl⟩
          · exact Or.inr ⟨q, q'⟩) hb
      refine ⟨inner.1, fun a b hab hb hc => inner.2 a b hab hb ?_⟩
      omega) h
  exact ⟨key.1, fun a b hab hb => key.2 a b hab hb (Or.inl (by omega))⟩

end Edge.Mesh
