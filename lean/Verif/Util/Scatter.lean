import Verif.Util.Fold
import Mathlib.Data.List.Nodup
/-! Loops which update pairwise different entries of an array. -/
namespace Edge

/-- A loop over `ts` which replaces entry `idx t` by `v t` of its value, for pairwise different entries. -/
theorem scatter {α τ : Type _} {ts : List τ} {idx : τ → Nat} {f : List α → τ → Option (List α)} {c : List α}
    (v : τ → α → α) (hnd : (ts.map idx).Nodup) (hb : ∀ t ∈ ts, idx t < c.length)
    (hf : ∀ t ∈ ts, ∀ (c' : List α) (x : α), c'.length = c.length → c'[idx t]? = some x →
      c[idx t]? = some x → f c' t = some (c'.set (idx t) (v t x))) :
    ∃ c', ts.foldlM f c = some c' ∧ c'.length = c.length ∧
      (∀ t ∈ ts, c'[idx t]? = (c[idx t]?).map (v t)) ∧ ∀ p : Nat, p ∉ ts.map idx → c'[p]? = c[p]? := by
  refine foldlM_inv (l := ts) (f := f) (s := c) (fun pre c' => c'.length = c.length ∧
      (∀ t ∈ pre, c'[idx t]? = (c[idx t]?).map (v t)) ∧ ∀ p : Nat, p ∉ pre.map idx → c'[p]? = c[p]?) ?_ ?_
  · exact ⟨rfl, by simp, by simp⟩
  · rintro pre t post c' hts ⟨h1, h2, h3⟩
    have htm : t ∈ ts := by simp [hts]
    have hlt := hb t htm
    have hnp : idx t ∉ pre.map idx := by
      rw [hts, List.map_append, List.map_cons, List.nodup_append] at hnd
      intro hm
      exact hnd.2.2 _ hm _ (by simp) rfl
    have hx := List.getElem?_eq_getElem hlt
    have hx' := (h3 _ hnp).trans hx
    refine ⟨c'.set (idx t) (v t c[idx t]), hf t htm c' _ h1 hx' hx, by simp [h1], ?_, ?_⟩
    · intro u hu
      rcases List.mem_append.1 hu with hu | hu
      · have hne : idx t ≠ idx u := by
          intro e
          exact hnp (e ▸ List.mem_map.2 ⟨u, hu, rfl⟩)
        rw [List.getElem?_set_ne hne]
        exact h2 u hu
      · simp at hu; subst hu
        rw [List.getElem?_set_self (by omega), hx]
        rfl
    · intro p hp
      simp only [List.map_append, List.map_cons, List.map_nil, List.mem_append, List.mem_singleton, not_or] at hp
      rw [List.getElem?_set_ne (fun e => hp.2 e.symm)]
      exact h3 p hp.1

/-- Index triples of three nested counted loops. -/
def triples (n m r : Nat) : List (Nat × Nat × Nat) := (pairs n m).flatMap (fun p => (List.range r).map (fun q => (p.1, p.2, q)))

theorem mem_triples {n m r : Nat} {p : Nat × Nat × Nat} : p ∈ triples n m r ↔ p.1 < n ∧ p.2.1 < m ∧ p.2.2 < r := by
  rcases p with ⟨i, j, k⟩
  simp only [triples, List.mem_flatMap, List.mem_map, List.mem_range, Prod.mk.injEq, Prod.exists, mem_pairs]
  constructor
  · rintro ⟨a, b, h, q, hq, rfl, rfl, rfl⟩; exact ⟨h.1, h.2, hq⟩
  · rintro ⟨h1, h2, h3⟩; exact ⟨i, j, ⟨h1, h2⟩, k, h3, rfl, rfl, rfl⟩

theorem forN_triples {σ : Type _} (n m r : Nat) (body : Nat → Nat → Nat → σ → Option σ) (s : σ) :
    forN n (fun i s => forN m (fun j s => forN r (fun q s => body i j q s) s) s) s
      = (triples n m r).foldlM (fun s p => body p.1 p.2.1 p.2.2 s) s := by
  rw [forN_pairs n m (fun i j s => forN r (fun q s => body i j q s) s), triples, foldlM_flatMap']
  congr 1
  funext s p
  rw [forN_eq_foldlM, foldlM_map']

theorem nodup_map_of_inj {α β : Type _} {f : α → β} {l : List α} (hl : l.Nodup)
    (h : ∀ a ∈ l, ∀ b ∈ l, f a = f b → a = b) : (l.map f).Nodup := by
  induction l with
  | nil => simp
  | cons a l ih =>
    rw [List.nodup_cons] at hl
    rw [List.map_cons, List.nodup_cons]
    refine ⟨?_, ih hl.2 (fun a ha b hb => h a (by simp [ha]) b (by simp [hb]))⟩
    intro hm
    obtain ⟨b, hb, e⟩ := List.mem_map.1 hm
    have := h b (by simp [hb]) a (by simp) e
    subst this
    exact hl.1 hb

theorem nodup_pairs (n m : Nat) : (pairs n m).Nodup := by
  rw [pairs, List.nodup_flatMap]
  refine ⟨fun i _ => nodup_map_of_inj List.nodup_range (by simp), ?_⟩
  refine List.nodup_range.imp ?_
  intro i j hij
  simp only [Function.onFun]
  intro x hx hx'
  simp at hx hx'
  obtain ⟨_, _, rfl⟩ := hx
  obtain ⟨_, _, h⟩ := hx'
  exact hij (by simpa using (congrArg Prod.fst h).symm)

theorem nodup_triples (n m r : Nat) : (triples n m r).Nodup := by
  rw [triples, List.nodup_flatMap]
  refine ⟨fun i _ => nodup_map_of_inj List.nodup_range (by simp), ?_⟩
  refine (nodup_pairs n m).imp ?_
  intro i j hij
  simp only [Function.onFun]
  intro x hx hx'
  simp at hx hx'
  obtain ⟨_, _, rfl⟩ := hx
  obtain ⟨_, _, h⟩ := hx'
  simp only [Prod.mk.injEq] at h
  exact hij (Prod.ext h.1.symm h.2.1.symm)

end Edge
