import Verif.Util.Loop
/-! Loops over lists of indices: nested counted loops as folds, and an invariant rule on prefixes. -/
namespace Edge

theorem forN_eq_foldlM {σ : Type _} (n : Nat) (body : Nat → σ → Option σ) (s : σ) :
    forN n body s = (List.range n).foldlM (fun s i => body i s) s := by
  induction n with
  | zero => rfl
  | succ n ih =>
    rw [forN_succ, ih, List.range_succ, List.foldlM_append]
    simp only [Option.bind_eq_bind]
    congr 1
    funext t
    simp

theorem forN_congr {σ : Type _} {n : Nat} {f g : Nat → σ → Option σ} (s : σ) (h : ∀ i t, i < n → f i t = g i t) :
    forN n f s = forN n g s := by
  induction n with
  | zero => rfl
  | succ n ih =>
    rw [forN_succ, forN_succ, ih (fun i t hi => h i t (by omega))]
    congr 1
    funext t
    exact h n t (by omega)

theorem foldlM_map' {σ : Type _} {α β : Type _} (g : α → β) (f : σ → β → Option σ) (l : List α) (s : σ) :
    (l.map g).foldlM f s = l.foldlM (fun s a => f s (g a)) s := by
  induction l generalizing s with
  | nil => rfl
  | cons a l ih => simp only [List.map_cons, List.foldlM_cons, Option.bind_eq_bind, ih]

theorem foldlM_flatMap' {σ : Type _} {α β : Type _} (g : α → List β) (f : σ → β → Option σ) (l : List α) (s : σ) :
    (l.flatMap g).foldlM f s = l.foldlM (fun s a => (g a).foldlM f s) s := by
  induction l generalizing s with
  | nil => rfl
  | cons a l ih => simp only [List.flatMap_cons, List.foldlM_append, List.foldlM_cons, ih]

/-- Index pairs of two nested counted loops, in the order of execution. -/
def pairs (n m : Nat) : List (Nat × Nat) := (List.range n).flatMap (fun i => (List.range m).map (fun j => (i, j)))

theorem mem_pairs {n m : Nat} {p : Nat × Nat} : p ∈ pairs n m ↔ p.1 < n ∧ p.2 < m := by
  rcases p with ⟨i, j⟩
  simp [pairs]

/-- Two nested counted loops are one loop over the index pairs. -/
theorem forN_pairs {σ : Type _} (n m : Nat) (body : Nat → Nat → σ → Option σ) (s : σ) :
    forN n (fun i s => forN m (fun j s => body i j s) s) s = (pairs n m).foldlM (fun s p => body p.1 p.2 s) s := by
  rw [forN_eq_foldlM, pairs, foldlM_flatMap']
  congr 1
  funext s i
  rw [forN_eq_foldlM, foldlM_map']

/-- Total correctness of a loop over a list, by an invariant on the processed prefix. -/
theorem foldlM_inv {σ : Type _} {α : Type _} {l : List α} {f : σ → α → Option σ} {s : σ} (P : List α → σ → Prop)
    (h0 : P [] s) (hs : ∀ pre a post t, l = pre ++ a :: post → P pre t → ∃ t', f t a = some t' ∧ P (pre ++ [a]) t') :
    ∃ t, l.foldlM f s = some t ∧ P l t := by
  suffices h : ∀ (rest done : List α) (t : σ), l = done ++ rest → P done t →
      ∃ t', rest.foldlM f t = some t' ∧ P l t' by
    exact h l [] s rfl h0
  intro rest
  induction rest with
  | nil => intro done t hl hp; exact ⟨t, rfl, by simp at hl; rw [hl]; exact hp⟩
  | cons a rest ih =>
    intro done t hl hp
    obtain ⟨t', ht', hp'⟩ := hs done a rest t hl hp
    obtain ⟨t'', h1, h2⟩ := ih (done ++ [a]) t' (by simp [hl]) hp'
    exact ⟨t'', by simp [List.foldlM_cons, ht', h1], h2⟩

/-- Partial correctness of a loop over a list. -/
theorem foldlM_post {σ : Type _} {α : Type _} {l : List α} {f : σ → α → Option σ} {s t : σ} (P : List α → σ → Prop)
    (h0 : P [] s) (hs : ∀ pre a post t t', l = pre ++ a :: post → P pre t → f t a = some t' → P (pre ++ [a]) t')
    (h : l.foldlM f s = some t) : P l t := by
  suffices hh : ∀ (rest done : List α) (u : σ), l = done ++ rest → P done u → rest.foldlM f u = some t → P l t by
    exact hh l [] s rfl h0 h
  intro rest
  induction rest with
  | nil => intro done u hl hp hu; simp at hl hu; rw [hl, ← hu]; exact hp
  | cons a rest ih =>
    intro done u hl hp hu
    simp only [List.foldlM_cons, Option.bind_eq_bind, Option.bind_eq_some_iff] at hu
    obtain ⟨u', h1, h2⟩ := hu
    exact ih (done ++ [a]) u' (by simp [hl]) (hs done a rest u u' hl hp h1) h2

end Edge
