import Verif.Recv.Model
import Mathlib.Algebra.BigOperators.Intervals
import Mathlib.Tactic.Ring
import Mathlib.Tactic.Linarith
/-!
A single receiver: its samples, the effect of a write and of a flush.
-/
namespace Edge.Recv
open Edge

variable {K : Type} [Field K]

/-- Specification of a sample: for every quantity and fused run, the modes weighted by the basis functions at the location of the
receiver.  `dofs` is an array `[nQts][nMds][nCrs]`. -/
def sample (c : Cfg K) (basis dofs : List K) : List K :=
  (List.range c.nQts).flatMap (fun qt => (List.range c.nCrs).map (fun cr =>
    ∑ md ∈ Finset.range c.nMds, basis.getD md 0 * dofs.getD ((qt * c.nMds + md) * c.nCrs + cr) 0))

/-- The rows in the buffer of a receiver. -/
def buffered (c : Cfg K) (r : Rcv K) : List (K × List K) :=
  (List.range r.nBuff).map (fun bu =>
    (r.buffTime.getD bu 0, (List.range (c.nQts * c.nCrs)).map (fun va => r.buffer.getD (bu * c.nQts * c.nCrs + va) 0)))

/-- The rows of a receiver: those in its file followed by those in its buffer. -/
def rows (c : Cfg K) (r : Rcv K) : List (K × List K) := r.file ++ buffered c r

/-- Sizes of the arrays of a receiver. -/
structure Rcv.WF (c : Cfg K) (r : Rcv K) : Prop where
  buf : r.buffer.length = c.nQts * c.nCrs * c.buffSize
  tim : r.buffTime.length = c.buffSize
  nb : r.nBuff ≤ c.buffSize
  bas : r.basis.length = c.nMds

theorem flat_range {α : Type} (Q R : Nat) (f : Nat → Nat → α) :
    (List.range Q).flatMap (fun q => (List.range R).map (f q)) = (List.range (Q * R)).map (fun v => f (v / R) (v % R)) := by
  induction Q with
  | zero => simp
  | succ Q ih =>
    rw [List.range_succ, List.flatMap_append, ih, Nat.succ_mul, List.range_add, List.map_append]
    congr 1
    simp only [List.flatMap_cons, List.flatMap_nil, List.append_nil, List.map_map]
    apply List.map_congr_left
    intro i hi
    have hi : i < R := List.mem_range.mp hi
    have hR : 0 < R := by omega
    simp only [Function.comp]
    rw [Nat.mul_comm Q R, Nat.mul_add_div hR, Nat.div_eq_of_lt hi, Nat.mul_add_mod, Nat.mod_eq_of_lt hi]
    simp

/-- A loop which updates consecutive entries. -/
theorem updRange {α : Type} {n off : Nat} {b : List α} (h : off + n ≤ b.length) {body : Nat → List α → Option (List α)}
    (g : Nat → α → α)
    (hb : ∀ i (b' : List α) x, i < n → b'.length = b.length → b'[off + i]? = some x → body i b' = some (b'.set (off + i) (g i x))) :
    ∃ b', forN n body b = some b' ∧ b'.length = b.length ∧
      ∀ p, b'[p]? = if off ≤ p ∧ p < off + n then (b[p]?).map (g (p - off)) else b[p]? := by
  refine forN_inv (P := fun k (b' : List α) => b'.length = b.length ∧
    ∀ p, b'[p]? = if off ≤ p ∧ p < off + k then (b[p]?).map (g (p - off)) else b[p]?) ⟨rfl, ?_⟩ ?_
  · intro p; rw [if_neg (by omega)]
  · rintro i b' hi ⟨hl, hp⟩
    have hx : b'[off + i]? = some b[off + i] := by
      rw [hp, if_neg (by omega), List.getElem?_eq_getElem (by omega)]
    refine ⟨_, hb i b' _ hi hl hx, by simp [hl], ?_⟩
    intro p
    rw [List.getElem?_set]
    by_cases e : off + i = p
    · subst e
      rw [if_pos rfl, if_pos (by omega), if_pos (by omega), List.getElem?_eq_getElem (by omega)]
      simp
    · rw [if_neg e, hp]
      by_cases h1 : off ≤ p ∧ p < off + i
      · rw [if_pos h1, if_pos (by omega)]
      · rw [if_neg h1, if_neg (by omega)]

section write
variable {c : Cfg K} {basis dofs : List K}

theorem writeQt_spec {nBuff qt : Nat} {b : List K} (h : nBuff * c.nQts * c.nCrs + qt * c.nCrs + c.nCrs ≤ b.length)
    (hB : basis.length = c.nMds) (hD : dofs.length = c.nQts * c.nMds * c.nCrs) (hq : qt < c.nQts) :
    ∃ b', writeQt c basis dofs nBuff qt b = some b' ∧ b'.length = b.length ∧
      ∀ p, b'[p]? = if nBuff * c.nQts * c.nCrs + qt * c.nCrs ≤ p ∧ p < nBuff * c.nQts * c.nCrs + qt * c.nCrs + c.nCrs then
        some (∑ md ∈ Finset.range c.nMds, basis.getD md 0 *
          dofs.getD ((qt * c.nMds + md) * c.nCrs + (p - (nBuff * c.nQts * c.nCrs + qt * c.nCrs))) 0)
      else b[p]? := by
  generalize hoff : nBuff * c.nQts * c.nCrs + qt * c.nCrs = off at *
  obtain ⟨b1, e1, l1, p1⟩ := updRange (n := c.nCrs) (off := off) (b := b) h
    (body := fun cr b => wr b (off + cr) 0) (fun _ _ => (0 : K))
    (by intro i b' x hi hl hx; exact wr_some (by omega) _)
  obtain ⟨b2, e2, l2, p2⟩ := forN_inv (n := c.nMds) (s := b1)
    (body := fun md b => forN c.nCrs (fun cr b => do
      let o ← rd b (off + cr)
      let e ← rd basis md
      let d ← rd dofs ((qt * c.nMds + md) * c.nCrs + cr)
      wr b (off + cr) (o + e * d)) b)
    (P := fun k b' => b'.length = b.length ∧ ∀ p, b'[p]? = if off ≤ p ∧ p < off + c.nCrs then
        some (∑ md ∈ Finset.range k, basis.getD md 0 * dofs.getD ((qt * c.nMds + md) * c.nCrs + (p - off)) 0)
      else b[p]?)
    ⟨l1, by
      intro p
      rw [p1]
      by_cases hp : off ≤ p ∧ p < off + c.nCrs
      · rw [if_pos hp, if_pos hp, List.getElem?_eq_getElem (by omega)]; simp
      · rw [if_neg hp, if_neg hp]⟩
    (by
      rintro md b' hmd ⟨hl, hp⟩
      have hd : ∀ cr, cr < c.nCrs → (qt * c.nMds + md) * c.nCrs + cr < dofs.length := by
        intro cr hcr
        rw [hD]
        have h1 : qt * c.nMds + md + 1 ≤ c.nQts * c.nMds := by
          have := Nat.mul_le_mul_right c.nMds (Nat.succ_le_of_lt hq)
          rw [Nat.succ_mul] at this
          omega
        have := Nat.mul_le_mul_right c.nCrs h1
        rw [Nat.succ_mul] at this
        omega
      obtain ⟨b3, e3, l3, p3⟩ := updRange (n := c.nCrs) (off := off) (b := b') (by omega)
        (body := fun cr b => do
          let o ← rd b (off + cr)
          let e ← rd basis md
          let d ← rd dofs ((qt * c.nMds + md) * c.nCrs + cr)
          wr b (off + cr) (o + e * d))
        (fun cr o => o + basis.getD md 0 * dofs.getD ((qt * c.nMds + md) * c.nCrs + cr) 0)
        (by
          intro i b'' x hi hl' hx
          have := hd i hi
          simp only [rd, hx]
          rw [List.getElem?_eq_getElem (show md < basis.length by omega), List.getElem?_eq_getElem this]
          simp only [Option.bind_eq_bind, Option.bind_some]
          rw [wr_some (by omega)]
          simp [List.getD, List.getElem?_eq_getElem this, List.getElem?_eq_getElem (show md < basis.length by omega)])
      refine ⟨b3, e3, by omega, ?_⟩
      intro p
      rw [p3]
      by_cases hr : off ≤ p ∧ p < off + c.nCrs
      · rw [if_pos hr, if_pos hr, hp, if_pos hr, Finset.sum_range_succ]
        simp
      · rw [if_neg hr, if_neg hr, hp, if_neg hr])
  refine ⟨b2, ?_, l2, p2⟩
  unfold writeQt
  rw [hoff]
  simp only [Option.bind_eq_bind]
  rw [e1]
  exact e2

theorem writeRecv_spec {r : Rcv K} (hw : r.WF c) (hD : dofs.length = c.nQts * c.nMds * c.nCrs) (hn : r.nBuff < c.buffSize) :
    ∃ r', writeRecv c dofs r = some r' ∧ r'.WF c ∧ r'.en = r.en ∧ r'.id = r.id ∧ r'.basis = r.basis ∧
      r'.time = r.time + c.freq ∧ r'.nBuff = r.nBuff + 1 ∧ r'.file = r.file ∧
      buffered c r' = buffered c r ++ [(r.time, sample c r.basis dofs)] := by
  have hmul : r.nBuff * c.nQts * c.nCrs + c.nQts * c.nCrs ≤ r.buffer.length := by
    rw [hw.buf]
    have := Nat.mul_le_mul_left (c.nQts * c.nCrs) (Nat.succ_le_of_lt hn)
    rw [Nat.mul_succ] at this
    rw [Nat.mul_assoc, Nat.mul_comm r.nBuff]
    exact this
  obtain ⟨b, e, l, hp⟩ := forN_inv (n := c.nQts) (s := r.buffer) (body := writeQt c r.basis dofs r.nBuff)
    (P := fun k b' => b'.length = r.buffer.length ∧ ∀ p, b'[p]? =
      if r.nBuff * c.nQts * c.nCrs ≤ p ∧ p < r.nBuff * c.nQts * c.nCrs + k * c.nCrs then
        some (∑ md ∈ Finset.range c.nMds, r.basis.getD md 0 *
          dofs.getD (((p - r.nBuff * c.nQts * c.nCrs) / c.nCrs * c.nMds + md) * c.nCrs + (p - r.nBuff * c.nQts * c.nCrs) % c.nCrs) 0)
      else r.buffer[p]?)
    ⟨rfl, by intro p; rw [if_neg (by omega)]⟩
    (by
      rintro qt b' hq ⟨hl, hp⟩
      have hqm : qt * c.nCrs + c.nCrs ≤ c.nQts * c.nCrs := by
        have := Nat.mul_le_mul_right c.nCrs (Nat.succ_le_of_lt hq)
        rwa [Nat.succ_mul] at this
      obtain ⟨b2, e2, l2, p2⟩ := writeQt_spec (c := c) (basis := r.basis) (dofs := dofs) (nBuff := r.nBuff) (qt := qt) (b := b')
        (by omega) hw.bas hD hq
      refine ⟨b2, e2, by omega, ?_⟩
      intro p
      rw [p2, Nat.succ_mul]
      by_cases h1 : r.nBuff * c.nQts * c.nCrs + qt * c.nCrs ≤ p ∧ p < r.nBuff * c.nQts * c.nCrs + qt * c.nCrs + c.nCrs
      · rw [if_pos h1, if_pos (by omega)]
        have hR : 0 < c.nCrs := by omega
        have e1 : p - r.nBuff * c.nQts * c.nCrs = c.nCrs * qt + (p - (r.nBuff * c.nQts * c.nCrs + qt * c.nCrs)) := by
          rw [Nat.mul_comm c.nCrs]; omega
        have e2 : p - (r.nBuff * c.nQts * c.nCrs + qt * c.nCrs) < c.nCrs := by omega
        rw [e1, Nat.mul_add_div hR, Nat.div_eq_of_lt e2, Nat.mul_add_mod, Nat.mod_eq_of_lt e2]
        simp
      · rw [if_neg h1, hp]
        by_cases h2 : r.nBuff * c.nQts * c.nCrs ≤ p ∧ p < r.nBuff * c.nQts * c.nCrs + qt * c.nCrs
        · rw [if_pos h2, if_pos (by omega)]
        · rw [if_neg h2, if_neg (by omega)])
  refine ⟨{ r with buffer := b, buffTime := r.buffTime.set r.nBuff r.time, time := r.time + c.freq, nBuff := r.nBuff + 1 },
    ?_, ⟨?_, ?_, ?_, ?_⟩, rfl, rfl, rfl, rfl, rfl, rfl, ?_⟩
  · unfold writeRecv
    simp only [Option.bind_eq_bind]
    rw [decide_eq_true hn, check_true, e, wr_some (by rw [hw.tim]; exact hn)]
    rfl
  · simp only; rw [l, hw.buf]
  · simp [hw.tim]
  · simp only; omega
  · exact hw.bas
  · simp only [buffered]
    rw [List.range_succ, List.map_append]
    congr 1
    · apply List.map_congr_left
      intro bu hbu
      have hbu : bu < r.nBuff := List.mem_range.mp hbu
      refine Prod.ext ?_ ?_
      · simp [List.getD, show r.nBuff ≠ bu by omega]
      · simp only
        apply List.map_congr_left
        intro va hva
        have hva : va < c.nQts * c.nCrs := List.mem_range.mp hva
        have : bu * c.nQts * c.nCrs + c.nQts * c.nCrs ≤ r.nBuff * c.nQts * c.nCrs := by
          have := Nat.mul_le_mul_right (c.nQts * c.nCrs) (Nat.succ_le_of_lt hbu)
          rw [Nat.succ_mul] at this
          rw [Nat.mul_assoc, Nat.mul_assoc]
          exact this
        simp only [List.getD]
        rw [hp, if_neg (by omega)]
    · simp only [List.map_cons, List.map_nil, List.cons.injEq, and_true]
      refine Prod.ext ?_ ?_
      · simp [List.getD, List.getElem?_set, hw.tim, hn]
      · simp only
        rw [sample, flat_range]
        apply List.map_congr_left
        intro va hva
        have hva : va < c.nQts * c.nCrs := List.mem_range.mp hva
        simp only [List.getD]
        rw [hp, if_pos (by omega)]
        simp [List.getD]

/-- A full buffer makes a write fail. -/
theorem writeRecv_full {r : Rcv K} (hn : c.buffSize ≤ r.nBuff) : writeRecv c dofs r = none := by
  unfold writeRecv
  simp only [Option.bind_eq_bind]
  rw [decide_eq_false (by omega)]
  rfl

end write

theorem mapM_some {α β : Type} {f : α → Option β} {g : α → β} {l : List α} (h : ∀ a ∈ l, f a = some (g a)) :
    l.mapM f = some (l.map g) := by
  induction l with
  | nil => rfl
  | cons a l ih =>
    rw [List.mapM_cons, h a (by simp), ih (fun b hb => h b (by simp [hb]))]
    rfl

theorem flushRows_spec {c : Cfg K} {r : Rcv K} (hw : r.WF c) :
    flushRows c r = some { r with file := r.file ++ buffered c r } := by
  unfold flushRows
  simp only [Option.bind_eq_bind]
  rw [mapM_some (g := fun bu => (r.buffTime.getD bu 0,
    (List.range (c.nQts * c.nCrs)).map (fun va => r.buffer.getD (bu * c.nQts * c.nCrs + va) 0)))]
  · rfl
  · intro bu hbu
    have hbu : bu < r.nBuff := List.mem_range.mp hbu
    have hb2 := hw.nb
    unfold row
    simp only [Option.bind_eq_bind]
    rw [rd_some (by rw [hw.tim]; omega),
      mapM_some (g := fun va => r.buffer.getD (bu * c.nQts * c.nCrs + va) 0)]
    · simp [List.getD, List.getElem?_eq_getElem (show bu < r.buffTime.length by rw [hw.tim]; omega)]
    · intro va hva
      have hva : va < c.nQts * c.nCrs := List.mem_range.mp hva
      have : bu * c.nQts * c.nCrs + va < r.buffer.length := by
        rw [hw.buf]
        have := Nat.mul_le_mul_left (c.nQts * c.nCrs) (show bu + 1 ≤ c.buffSize by omega)
        rw [Nat.mul_succ] at this
        rw [Nat.mul_assoc, Nat.mul_comm bu]
        omega
      rw [rd_some this]
      simp [List.getD, List.getElem?_eq_getElem this]

theorem flushOne_spec {c : Cfg K} {r : Rcv K} (hw : r.WF c) :
    flushOne c r = some { r with file := rows c r, nBuff := 0 } := by
  rw [flushOne, flushRows_spec hw]
  rfl

theorem buffered_zero {c : Cfg K} {r : Rcv K} (h : r.nBuff = 0) : buffered c r = [] := by simp [buffered, h]

end Edge.Recv
