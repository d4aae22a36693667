/-!
Small imperative vocabulary shared by the models of array code: counted loops and checked array accesses.
`none` is the distinct outcome "undefined behaviour or failed EDGE_CHECK"; an access outside of an allocation is
therefore never silently given a value.
-/
namespace Edge

/-- `for( i = 0; i < n; i++ ) body(i)` on a state `σ`; `none` in an iteration ends the loop in `none`. -/
def forN {σ : Type _} (n : Nat) (body : Nat → σ → Option σ) (s : σ) : Option σ :=
  match n with
  | 0 => some s
  | n + 1 => (forN n body s).bind (body n)

/-- Array read `a[i]`; `none` if out of bounds. -/
def rd {α : Type _} (a : List α) (i : Nat) : Option α := a[i]?

/-- Array write `a[i] = v`; `none` if out of bounds. -/
def wr {α : Type _} (a : List α) (i : Nat) (v : α) : Option (List α) :=
  if i < a.length then some (a.set i v) else none

/-- `EDGE_CHECK( c )`: failed checks abort. -/
def check (c : Bool) : Option Unit := if c then some () else none

/-- Total-correctness rule for counted loops: an invariant which every iteration reaches again (without undefined
behaviour) holds at the end. -/
theorem forN_inv {σ : Type _} {n : Nat} {body : Nat → σ → Option σ} {s : σ} (P : Nat → σ → Prop)
    (h0 : P 0 s) (hs : ∀ i t, i < n → P i t → ∃ t', body i t = some t' ∧ P (i + 1) t') :
    ∃ t, forN n body s = some t ∧ P n t := by
  induction n with
  | zero => exact ⟨s, rfl, h0⟩
  | succ n ih =>
    obtain ⟨t, ht, hp⟩ := ih (fun i t hi => hs i t (by omega))
    obtain ⟨t', ht', hp'⟩ := hs n t (by omega) hp
    exact ⟨t', by simp [forN, ht, ht'], hp'⟩

/-- Partial-correctness rule: if the loop ends normally, an invariant preserved by every normal iteration holds. -/
theorem forN_post {σ : Type _} {n : Nat} {body : Nat → σ → Option σ} {s t : σ} (P : Nat → σ → Prop)
    (h0 : P 0 s) (hs : ∀ i t t', i < n → P i t → body i t = some t' → P (i + 1) t')
    (h : forN n body s = some t) : P n t := by
  induction n generalizing t with
  | zero => simp [forN] at h; exact h ▸ h0
  | succ n ih =>
    simp only [forN, Option.bind_eq_some_iff] at h
    obtain ⟨u, hu, hb⟩ := h
    exact hs n u t (by omega) (ih (fun i a b hi => hs i a b (by omega)) hu) hb

@[simp] theorem forN_zero {σ : Type _} (body : Nat → σ → Option σ) (s : σ) : forN 0 body s = some s := rfl

theorem forN_succ {σ : Type _} (n : Nat) (body : Nat → σ → Option σ) (s : σ) :
    forN (n + 1) body s = (forN n body s).bind (body n) := rfl

@[simp] theorem check_true : check true = some () := rfl

theorem check_some {c : Bool} {u : Unit} : check c = some u ↔ c = true := by
  cases c <;> simp [check]

theorem rd_some {α : Type _} {a : List α} {i : Nat} (h : i < a.length) : rd a i = some a[i] := by
  simp [rd, h]

theorem wr_some {α : Type _} {a : List α} {i : Nat} (h : i < a.length) (v : α) :
    wr a i v = some (a.set i v) := by
  simp [wr, h]

end Edge
