import Verif.Rate.Run
/-!
Sum of the updates between two synchronizations.
-/
namespace Edge.Rate
open Edge Edge.Map Edge.Quad Edge.Basis Edge.Proj Edge.Gen Edge.Flux Edge.Step

variable {c : Dg.Cfg} {e : Ent} {o : Nat} {lT lV LN FT : List (List ℝ)} {els : List (REl ℝ)} {sc0 sc1 : List ℝ} {dt : Nat → Nat → ℝ} {tg : Nat → Nat}
  {F : Nat → Nat → MFace ℝ} {S FL FN : Nat → Nat → Nat → Nat → ℝ}

theorem sum_pairs {M : Type} [AddCommMonoid M] (f : Nat → M) (n : Nat) : ∑ k ∈ Finset.range n, (f (2 * k) + f (2 * k + 1)) = ∑ i ∈ Finset.range (2 * n), f i := by
  induction n with
  | zero => rfl
  | succ n ih => rw [Finset.sum_range_succ, ih, show 2 * (n + 1) = 2 * n + 1 + 1 by ring, Finset.sum_range_succ, Finset.sum_range_succ, add_assoc]

theorem sum_halves {M : Type} [AddCommGroup M] (f g : Nat → M) (n : Nat) :
    ∑ k ∈ Finset.range (2 * n), (if k % 2 = 0 then g (k / 2) else f (k / 2) - g (k / 2)) = ∑ i ∈ Finset.range n, f i := by
  induction n with
  | zero => rfl
  | succ n ih =>
    rw [show 2 * (n + 1) = 2 * n + 1 + 1 by ring, Finset.sum_range_succ, Finset.sum_range_succ, ih, if_pos (by omega), if_neg (by omega), show 2 * n / 2 = n by omega,
      show (2 * n + 1) / 2 = n by omega, Finset.sum_range_succ, add_assoc, add_sub_cancel]

/-- An element adjacent to an element of the mesh. -/
theorem nb_lt (hE : ElsOk c e tg els F S FL FN) {el fa : Nat} (hel : el < els.length) (hfa : fa < e.nFa) (hout : (F el fa).outflow = false) : (F el fa).nb el < els.length := by
  unfold MFace.nb
  rcases hf : (F el fa).freeSurface with _ | _
  · rw [if_neg (by simp)]
    exact ((hE.faces el _ (List.getElem?_eq_getElem hel)).2 fa hfa).2.1 hout hf
  · rw [if_pos rfl]
    exact hel

theorem nb_tg (hE : ElsOk c e tg els F S FL FN) {el fa : Nat} (hel : el < els.length) (hfa : fa < e.nFa) (hout : (F el fa).outflow = false) :
    tg ((F el fa).nb el) = tg el ∨ tg el = tg ((F el fa).nb el) + 1 ∨ tg ((F el fa).nb el) = tg el + 1 := by
  obtain ⟨-, h⟩ := hE.bits el _ (List.getElem?_eq_getElem hel)
  obtain ⟨a, -, h⟩ := h fa hfa
  exact (h hout _ (List.getElem?_eq_getElem (nb_lt hE hel hfa hout))).2.2.1

/-- Between two synchronizations, both elements at a face take the same time integrals, in sum. -/
theorem src_sum {V : Nat → Nat → Modes} {el ne n n' M : Nat} (h : n * 2 ^ tg el = M) (h' : n' * 2 ^ tg ne = M) (ht : tg ne = tg el ∨ tg el = tg ne + 1 ∨ tg ne = tg el + 1) :
    ∑ k ∈ Finset.range n, src c e o dt tg S V el ne k = ∑ i ∈ Finset.range n', tInt c e o (S ne) (V ne i) (dt (tg ne) i) := by
  have hp : ∀ a : Nat, 0 < 2 ^ a := fun a => Nat.two_pow_pos a
  rcases ht with h1 | h1 | h1
  · have : n = n' := by
      rw [h1, ← h] at h'
      exact (Nat.eq_of_mul_eq_mul_right (hp _) h').symm
    subst this
    refine Finset.sum_congr rfl (fun k _ => ?_)
    rw [src, if_pos h1]
  · have : n' = 2 * n := by
      rw [← h', h1, pow_succ] at h
      exact Nat.eq_of_mul_eq_mul_right (hp (tg ne)) (by rw [← h]; ring)
    subst this
    rw [← sum_pairs]
    refine Finset.sum_congr rfl (fun k _ => ?_)
    rw [src, if_neg (by omega), if_pos h1]
  · have : n = 2 * n' := by
      rw [← h, h1, pow_succ] at h'
      exact Nat.eq_of_mul_eq_mul_right (hp (tg el)) (by rw [← h']; ring)
    subst this
    rw [← sum_halves (fun i => tInt c e o (S ne) (V ne i) (dt (tg ne) i)) (fun i => tInt c e o (S ne) (V ne i) (1 / 2 * dt (tg ne) i))]
    refine Finset.sum_congr rfl (fun k _ => ?_)
    rw [src, if_neg (by omega), if_neg (by omega)]

/-- Modes after `n` steps. -/
theorem modes_sum (hr : c.nRms = 0) {V : Nat → Nat → Modes} {el n : Nat} (h : ∀ k < n, V el (k + 1) = next c e o dt tg F S FL FN V el k) :
    V el n = V el 0 + locTerm c e o (S el) (FL el) (∑ i ∈ Finset.range n, tInt c e o (S el) (V el i) (dt (tg el) i)) +
      neiTerm c e o (F el) (FN el) (fun fa => ∑ k ∈ Finset.range n, src c e o dt tg S V el ((F el fa).nb el) k) := by
  induction n with
  | zero => simp only [Finset.range_zero, Finset.sum_empty, locTerm_zero hr, neiTerm_zero, add_zero]
  | succ n ih =>
    simp only [Finset.sum_range_succ]
    rw [h n (by omega), next, ih (fun k hk => h k (by omega)), locTerm_add hr, neiTerm_add]
    abel

/-- The state after a sequence of updates, all of which are complete. -/
theorem EInv.ready (hE : ∀ el E, els[el]? = some E → E.tg = tg el) {st' : List (RSt ℝ)} {u0 : Nat → Modes} {V : Nat → Nat → Modes} {nl nn : Nat → Nat} (hl : st'.length = els.length)
    (h : ∀ el E, els[el]? = some E → ∃ x, st'[el]? = some x ∧ EInv c e o dt tg F S FL FN u0 V E el (nl el) (nn el) x) (hn : ∀ el < els.length, nn el = nl el) :
    Ready c els st' (fun el => V el (nn el)) := by
  refine ⟨hl, fun el E hel => ?_⟩
  obtain ⟨x, x1, x2⟩ := h el E hel
  have hlt : el < els.length := (List.getElem?_eq_some_iff.1 hel).1
  refine ⟨x, x1, x2.full (hn el hlt).symm, x2.out, fun h => ?_, fun h => ?_⟩
  · obtain ⟨b, s, b1, b2, -⟩ := x2.lt h
    exact ⟨b, b1, b2.1⟩
  · obtain ⟨b, b1, b2, -⟩ := x2.gt h
    exact ⟨b, b1, b2⟩

/-- Between two synchronizations: each element adds the contribution of its time integrals in sum, and of those of its neighbors in sum. -/
theorem total (hF : Fits c e o) (hc : Fit c e o) (hst : Stored c e o lT lV LN FT) (h0 : sc0.length = c.nQtsE * c.nMdsFa * c.nCrs) (h1 : sc1.length = c.nQtsE * c.nMdsFa * c.nCrs)
    (hE : ElsOk c e tg els F S FL FN) {st : List (RSt ℝ)} {u : Nat → Modes} (hu : Ready c els st u) {evs : List Ev} (hev : Ordered e tg F els.length evs) {M : Nat}
    (hM : Complete tg els.length evs M) : ∃ (st' : List (RSt ℝ)) (u' T : Nat → Modes), runEv c dt lT lV LN FT els sc0 sc1 evs (sync st) = some st' ∧ Ready c els st' u' ∧
      ∀ el < els.length, u' el = u el + locTerm c e o (S el) (FL el) (T el) + neiTerm c e o (F el) (FN el) (fun fa => T ((F el fa).nb el)) := by
  obtain ⟨st', V, k1, k2, k3⟩ := history (dt := dt) hF hc hst h0 h1 hE hu hev
  refine ⟨st', _, fun el => ∑ i ∈ Finset.range (evs.count (.loc el)), tInt c e o (S el) (V el i) (dt (tg el) i), k1, EInv.ready (fun el E h => (hE.bits el E h).1) k2 k3
    (fun el hel => (hM el hel).1), fun el hel => ?_⟩
  obtain ⟨x, -, x2⟩ := k3 el _ (List.getElem?_eq_getElem hel)
  obtain ⟨m1, m2⟩ := hM el hel
  beta_reduce
  rw [modes_sum hc.rms x2.hist, x2.start, m1]
  congr 1
  refine neiTerm_congr (fun fa hfa hout => ?_)
  exact src_sum m2 (hM _ (nb_lt hE hel hfa hout)).2 (nb_tg hE hel hfa hout)

end Edge.Rate
