import Verif.Dg.Kernels
import Verif.Linalg.Dense
import Mathlib.Algebra.BigOperators.Intervals
/-!
Arrays `x[Q][M][R]` as functions of quantity, mode and run, and the effect of loops and matrix kernels on them.
-/
namespace Edge.Dg
open Edge Edge.Linalg

variable {K : Type} [Field K] [LinearOrder K]

/-- The array `l` holds `f` (`Q` quantities, `M` modes, `R` runs, C order). -/
def Rep {α : Type} (Q M R : Nat) (l : List α) (f : Nat → Nat → Nat → α) : Prop :=
  l.length = Q * M * R ∧ ∀ q md r, q < Q → md < M → r < R → l[at3 M R q md r]? = some (f q md r)

/-- The row-major array `l` with leading dimension `ld` holds the matrix `f`. -/
def Mat {α : Type} (rows cols ld : Nat) (l : List α) (f : Nat → Nat → α) : Prop :=
  ∀ i j, i < rows → j < cols → l[i * ld + j]? = some (f i j)

theorem at3_eq (M R q md r : Nat) : at3 M R q md r = fusedIdx R M q md r := rfl

theorem at3_lt {Q M R q md r : Nat} (h1 : q < Q) (h2 : md < M) (h3 : r < R) : at3 M R q md r < Q * M * R := by
  rw [at3, ← Nat.add_mul]
  exact mad_lt (mad_lt h1 h2) h3

theorem at3_inj {M R q md r q' md' r' : Nat} (h : at3 M R q md r = at3 M R q' md' r') (h1 : md < M) (h2 : md' < M)
    (h3 : r < R) (h4 : r' < R) : q = q' ∧ md = md' ∧ r = r' := fusedIdx_inj h h1 h2 h3 h4

/-- Every array of the right size holds something. -/
theorem rep_of_length {α : Type} [Inhabited α] {Q M R : Nat} {l : List α} (h : l.length = Q * M * R) :
    Rep Q M R l (fun q md r => (l[at3 M R q md r]?).getD default) := by
  refine ⟨h, fun q md r h1 h2 h3 => ?_⟩
  have := at3_lt h1 h2 h3
  simp [List.getElem?_eq_getElem (show at3 M R q md r < l.length by omega)]

theorem Rep.congr {α : Type} {Q M R : Nat} {l : List α} {f g : Nat → Nat → Nat → α} (h : Rep Q M R l f)
    (e : ∀ q md r, q < Q → md < M → r < R → f q md r = g q md r) : Rep Q M R l g :=
  ⟨h.1, fun q md r h1 h2 h3 => by rw [h.2 q md r h1 h2 h3, e q md r h1 h2 h3]⟩

theorem Rep.unique {α : Type} {Q M R : Nat} {l : List α} {f g : Nat → Nat → Nat → α} (h : Rep Q M R l f)
    (h' : Rep Q M R l g) {q md r : Nat} (h1 : q < Q) (h2 : md < M) (h3 : r < R) : f q md r = g q md r := by
  have := h.2 q md r h1 h2 h3
  rw [h'.2 q md r h1 h2 h3] at this
  exact (Option.some.inj this).symm

theorem Rep.rd {α : Type} {Q M R : Nat} {l : List α} {f : Nat → Nat → Nat → α} (h : Rep Q M R l f) {q md r : Nat}
    (h1 : q < Q) (h2 : md < M) (h3 : r < R) : rd l (at3 M R q md r) = some (f q md r) := h.2 q md r h1 h2 h3

theorem rep_replicate {α : Type} (Q M R : Nat) (x : α) : Rep Q M R (List.replicate (Q * M * R) x) (fun _ _ _ => x) := by
  refine ⟨by simp, fun q md r h1 h2 h3 => ?_⟩
  rw [List.getElem?_replicate, if_pos (at3_lt h1 h2 h3)]

/-- Arrays which hold the same function are equal. -/
theorem Rep.ext {α : Type} {Q M R : Nat} {l l' : List α} {f : Nat → Nat → Nat → α} (h : Rep Q M R l f)
    (h' : Rep Q M R l' f) : l = l' := by
  apply List.ext_getElem?
  intro p
  by_cases hp : p < Q * M * R
  · have hR : 0 < R := Nat.pos_of_ne_zero (by rintro rfl; simp at hp)
    have hM : 0 < M := Nat.pos_of_ne_zero (by rintro rfl; simp at hp)
    have e : p = at3 M R (p / R / M) (p / R % M) (p % R) := by
      rw [at3, ← Nat.add_mul, Nat.mul_comm (p / R / M), Nat.div_add_mod, Nat.mul_comm, Nat.div_add_mod]
    have h3 := Nat.mod_lt p hR
    have h2 := Nat.mod_lt (p / R) hM
    have h1 : p / R / M < Q := by
      rw [Nat.div_div_eq_div_mul, Nat.div_lt_iff_lt_mul (Nat.mul_pos hR hM), Nat.mul_comm R M, ← Nat.mul_assoc]
      exact hp
    rw [e, h.2 _ _ _ h1 h2 h3, h'.2 _ _ _ h1 h2 h3]
  · rw [List.getElem?_eq_none (by rw [h.1]; omega), List.getElem?_eq_none (by rw [h'.1]; omega)]

/-- A nested loop which replaces every entry of the first `Q'` quantities and `M'` modes. -/
theorem loop3_spec {α : Type} {Q M R Q' M' : Nat} {l : List α} {f : Nat → Nat → Nat → α} (h : Rep Q M R l f) (hQ : Q' ≤ Q)
    (hM : M' ≤ M) {body : Nat → Nat → Nat → List α → Option (List α)} (v : Nat → Nat → Nat → α → α)
    (hb : ∀ q md r (l' : List α), q < Q' → md < M' → r < R → at3 M R q md r < l'.length →
      l'[at3 M R q md r]? = some (f q md r) →
      body q md r l' = some (l'.set (at3 M R q md r) (v q md r (f q md r)))) :
    ∃ l', loop3 Q' M' R body l = some l' ∧
      Rep Q M R l' (fun q md r => if q < Q' ∧ md < M' then v q md r (f q md r) else f q md r) := by
  have hnd : ((triples Q' M' R).map (fun p => at3 M R p.1 p.2.1 p.2.2)).Nodup := by
    refine nodup_map_of_inj (nodup_triples Q' M' R) ?_
    intro x hx y hy e
    have hx' := mem_triples.1 hx
    have hy' := mem_triples.1 hy
    obtain ⟨h1, h2, h3⟩ := at3_inj e (by omega) (by omega) hx'.2.2 hy'.2.2
    exact Prod.ext h1 (Prod.ext h2 h3)
  obtain ⟨l', g0, g1, g2, g3⟩ := scatter (ts := triples Q' M' R) (idx := fun p => at3 M R p.1 p.2.1 p.2.2)
    (f := fun l p => body p.1 p.2.1 p.2.2 l) (c := l) (fun p x => v p.1 p.2.1 p.2.2 x) hnd
    (fun t ht => by
      have := mem_triples.1 ht
      rw [h.1]
      exact at3_lt (by omega) (by omega) this.2.2)
    (fun t ht l' x hl hx hx' => by
      have := mem_triples.1 ht
      have hf := h.2 t.1 t.2.1 t.2.2 (by omega) (by omega) this.2.2
      rw [hf] at hx'
      cases hx'
      exact hb _ _ _ l' this.1 this.2.1 this.2.2 (by rw [hl, h.1]; exact at3_lt (by omega) (by omega) this.2.2) hx)
  refine ⟨l', by rw [loop3, forN_triples, g0], g1.trans h.1, ?_⟩
  intro q md r h1 h2 h3
  beta_reduce
  by_cases hc : q < Q' ∧ md < M'
  · rw [if_pos hc, g2 (q, md, r) (mem_triples.2 ⟨hc.1, hc.2, h3⟩), h.2 q md r h1 h2 h3]
    rfl
  · rw [if_neg hc, g3 _ ?_, h.2 q md r h1 h2 h3]
    intro hm
    obtain ⟨t, ht, e⟩ := List.mem_map.1 hm
    have ht' := mem_triples.1 ht
    obtain ⟨e1, e2, -⟩ := at3_inj e (by omega) h2 ht'.2.2 h3
    exact hc ⟨by omega, by omega⟩

/-- A nested loop over two arrays which replaces every entry of both ones. -/
theorem loop3_spec2 {α : Type} {Q M R : Nat} {l m : List α} {f g : Nat → Nat → Nat → α} (h : Rep Q M R l f)
    (hg : Rep Q M R m g) {body : Nat → Nat → Nat → List α × List α → Option (List α × List α)}
    (v w : Nat → Nat → Nat → α)
    (hb : ∀ q md r (s : List α × List α), q < Q → md < M → r < R → at3 M R q md r < s.1.length →
      at3 M R q md r < s.2.length → s.2[at3 M R q md r]? = some (g q md r) →
      body q md r s = some (s.1.set (at3 M R q md r) (v q md r), s.2.set (at3 M R q md r) (w q md r))) :
    ∃ s, loop3 Q M R body (l, m) = some s ∧ Rep Q M R s.1 v ∧ Rep Q M R s.2 w := by
  let V : List (Nat × Nat × Nat) → (Nat → Nat → Nat → α) → (Nat → Nat → Nat → α) → Nat → Nat → Nat → α :=
    fun pre f v q md r => if (q, md, r) ∈ pre then v q md r else f q md r
  obtain ⟨s, h0, h1, h2⟩ := foldlM_inv (l := triples Q M R) (f := fun s p => body p.1 p.2.1 p.2.2 s) (s := (l, m))
    (fun pre s => Rep Q M R s.1 (V pre f v) ∧ Rep Q M R s.2 (V pre g w)) (by
      refine ⟨h.congr ?_, hg.congr ?_⟩ <;> intro q md r _ _ _ <;> simp [V]) (by
    rintro pre t post s hts ⟨h1, h2⟩
    have ht : t ∈ triples Q M R := by rw [hts]; simp
    have ht' := mem_triples.1 ht
    have hnp : t ∉ pre := by
      have := nodup_triples Q M R
      rw [hts, List.nodup_append] at this
      intro hm
      exact this.2.2 _ hm _ (by simp) rfl
    have b1 := at3_lt ht'.1 ht'.2.1 ht'.2.2
    have hx := h2.2 _ _ _ ht'.1 ht'.2.1 ht'.2.2
    have e := hb _ _ _ s ht'.1 ht'.2.1 ht'.2.2 (by rw [h1.1]; exact b1) (by rw [h2.1]; exact b1) (by
      rw [hx]
      show some (if _ then _ else _) = _
      rw [if_neg hnp])
    refine ⟨_, e, ?_, ?_⟩
    · refine ⟨by simp [h1.1], fun q md r k1 k2 k3 => ?_⟩
      by_cases e : (q, md, r) = t
      · subst e
        rw [List.getElem?_set_self (by rw [h1.1]; exact b1)]
        simp [V]
      · rw [List.getElem?_set_ne (fun e' => by
          obtain ⟨x, y, z⟩ := at3_inj e' ht'.2.1 k2 ht'.2.2 k3
          exact e (Prod.ext x.symm (Prod.ext y.symm z.symm))), h1.2 q md r k1 k2 k3]
        simp [V, e]
    · refine ⟨by simp [h2.1], fun q md r k1 k2 k3 => ?_⟩
      by_cases e : (q, md, r) = t
      · subst e
        rw [List.getElem?_set_self (by rw [h2.1]; exact b1)]
        simp [V]
      · rw [List.getElem?_set_ne (fun e' => by
          obtain ⟨x, y, z⟩ := at3_inj e' ht'.2.1 k2 ht'.2.2 k3
          exact e (Prod.ext x.symm (Prod.ext y.symm z.symm))), h2.2 q md r k1 k2 k3]
        simp [V, e])
  refine ⟨s, by rw [loop3, forN_triples, h0], h1.congr ?_, h2.congr ?_⟩ <;>
  · intro q md r k1 k2 k3
    have : (q, md, r) ∈ triples Q M R := mem_triples.2 ⟨k1, k2, k3⟩
    simp [V, this]

omit [LinearOrder K] in
theorem sum_range_list (k : Nat) (f : Nat → K) : ((List.range k).map f).sum = ∑ i ∈ Finset.range k, f i := by
  induction k with
  | zero => simp
  | succ k ih => rw [List.range_succ, List.map_append, List.sum_append, ih, Finset.sum_range_succ]; simp

/-- Product of an array by a matrix from the right (modes). -/
theorem mmAC {R Q n k QA MA QC MC ldB : Nat} {beta : K} {a b c : List K} {A C : Nat → Nat → Nat → K} {B : Nat → Nat → K}
    (hA : Rep QA MA R a A) (hB : Mat k n ldB b B) (hC : Rep QC MC R c C) (hQA : Q ≤ QA) (hk : k ≤ MA) (hQC : Q ≤ QC)
    (hn : n ≤ MC) :
    ∃ c', matMulFusedAC R Q n k MA ldB MC 1 beta a b c = some c' ∧ Rep QC MC R c' (fun q md r =>
      if q < Q ∧ md < n then beta * C q md r + ∑ l ∈ Finset.range k, A q l r * B l md else C q md r) := by
  obtain ⟨c', h0, h1, h2, h3⟩ := C54_fusedAC (r := R) (m := Q) (n := n) (k := k) (ldA := MA) (ldB := ldB) (ldC := MC)
    (alpha := 1) (beta := beta) (a := a) (b := b) (c := c) (fun r q l => A q l r) (fun r q l => C q l r) B hn
    (fun r q l hr hq hl => hA.2 q l r (by omega) (by omega) hr) hB
    (fun r q j hr hq hj => hC.2 q j r (by omega) (by omega) hr)
  refine ⟨c', h0, h1.trans hC.1, fun q md r k1 k2 k3 => ?_⟩
  beta_reduce
  by_cases hc : q < Q ∧ md < n
  · rw [if_pos hc, at3_eq, h2 r q md k3 hc.1 hc.2, one_mul, sum_range_list]
  · rw [if_neg hc, h3 _ ?_, hC.2 q md r k1 k2 k3]
    intro r' q' j' hr hq hj e
    obtain ⟨e1, e2, -⟩ := at3_inj e k2 (by omega) k3 hr
    exact hc ⟨by omega, by omega⟩

/-- Product of an array by a matrix from the left (quantities); the array may be longer. -/
theorem mmBC' {R Q n k QC M ldA : Nat} {beta : K} {a b c : List K} {B C : Nat → Nat → Nat → K} {A : Nat → Nat → K}
    (hA : Mat Q k ldA a A) (hB : ∀ q md r, q < k → md < n → r < R → b[at3 M R q md r]? = some (B q md r))
    (hC : Rep QC M R c C) (hQC : Q ≤ QC) (hn : n ≤ M) :
    ∃ c', matMulFusedBC R Q n k ldA M M 1 beta a b c = some c' ∧ Rep QC M R c' (fun q md r =>
      if q < Q ∧ md < n then beta * C q md r + ∑ l ∈ Finset.range k, A q l * B l md r else C q md r) := by
  obtain ⟨c', h0, h1, h2, h3⟩ := C54_fusedBC (r := R) (m := Q) (n := n) (k := k) (ldA := ldA) (ldB := M) (ldC := M)
    (alpha := 1) (beta := beta) (a := a) (b := b) (c := c) (fun r q l => B q l r)
    (fun r q l => C q l r) A hn hA (fun r q l hr hq hl => hB q l r hq hl hr)
    (fun r q j hr hq hj => hC.2 q j r (by omega) (by omega) hr)
  refine ⟨c', h0, h1.trans hC.1, fun q md r k1 k2 k3 => ?_⟩
  beta_reduce
  by_cases hc : q < Q ∧ md < n
  · rw [if_pos hc, at3_eq, h2 r q md k3 hc.1 hc.2, one_mul, sum_range_list]
  · rw [if_neg hc, h3 _ ?_, hC.2 q md r k1 k2 k3]
    intro r' q' j' hr hq hj e
    obtain ⟨e1, e2, -⟩ := at3_inj e k2 (by omega) k3 hr
    exact hc ⟨by omega, by omega⟩

theorem at3_off (M R off q l r : Nat) : at3 M R off 0 0 + at3 M R q l r = at3 M R (off + q) l r := by
  simp only [at3]; ring

theorem Rep.drop {α : Type} {Q M R off : Nat} {l : List α} {f : Nat → Nat → Nat → α} (h : Rep Q M R l f) {q md r : Nat}
    (h1 : off + q < Q) (h2 : md < M) (h3 : r < R) :
    (l.drop (at3 M R off 0 0))[at3 M R q md r]? = some (f (off + q) md r) := by
  rw [List.getElem?_drop, at3_off]
  exact h.2 _ _ _ h1 h2 h3

/-- Product of an array (from quantity `off` on) by a matrix from the left (quantities). -/
theorem mmBC {R Q n k QB QC M ldA off : Nat} {beta : K} {a b c : List K} {B C : Nat → Nat → Nat → K} {A : Nat → Nat → K}
    (hA : Mat Q k ldA a A) (hB : Rep QB M R b B) (hC : Rep QC M R c C) (hk : off + k ≤ QB) (hQC : Q ≤ QC) (hn : n ≤ M) :
    ∃ c', matMulFusedBC R Q n k ldA M M 1 beta a (b.drop (at3 M R off 0 0)) c = some c' ∧ Rep QC M R c' (fun q md r =>
      if q < Q ∧ md < n then beta * C q md r + ∑ l ∈ Finset.range k, A q l * B (off + l) md r else C q md r) :=
  mmBC' hA (fun q l r hq hl hr => hB.drop (by omega) (by omega) hr) hC hQC hn

theorem mmBC0 {R Q n k QB QC M ldA : Nat} {beta : K} {a b c : List K} {B C : Nat → Nat → Nat → K} {A : Nat → Nat → K}
    (hA : Mat Q k ldA a A) (hB : Rep QB M R b B) (hC : Rep QC M R c C) (hk : k ≤ QB) (hQC : Q ≤ QC) (hn : n ≤ M) :
    ∃ c', matMulFusedBC R Q n k ldA M M 1 beta a b c = some c' ∧ Rep QC M R c' (fun q md r =>
      if q < Q ∧ md < n then beta * C q md r + ∑ l ∈ Finset.range k, A q l * B l md r else C q md r) := by
  have := mmBC (off := 0) (beta := beta) hA hB hC (by omega) hQC hn
  simpa [at3] using this

end Edge.Dg
