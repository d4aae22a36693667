import Verif.Lts.Props
import Verif.EdgeV.EndToEnd
/-!
Local time stepping types in distributed runs (C85): the layouts and communication structures derived by EDGE-V let every rank
derive the relations of the global mesh.
-/
namespace Edge.Lts
open Edge Edge.EdgeV

/-! ### Neighbours on the same rank -/

section
variable {nElFas nTgs nEls : Nat} {elFaEl : List (Option Nat)} {nIn nSe : List Nat} {comm : Option CommSpec}

/-- C85: two elements of a rank see opposite relations at a shared face, and the data which one of them reads from the other one
is data which the other one offers: the sums over two steps (1) of an element with smaller, the half-step integrals (2) of an
element with larger time step. -/
theorem C85_neighbours (hf : nElFas ≤ 6) (hi : nIn.length = nTgs) (hs : nSe.length = nTgs) (hc : ∀ c, comm = some c → c.Ok)
    {sp out : List Word} (hsp : sp.length = nEls) (hz : ∀ w ∈ sp, ∀ k, 32 ≤ k → w.getLsbD k = false)
    (h : setLtsTypes nEls nElFas nTgs elFaEl nIn nSe (comm.map CommSpec.arrays) sp = some out)
    {el ad fa fa' : Nat} (hel : el < nEls) (had : ad < nEls) (hfa : fa < nElFas) (hfa' : fa' < nElFas)
    (h1 : elFaEl[el * nElFas + fa]? = some (some ad)) (h2 : elFaEl[ad * nElFas + fa']? = some (some el)) :
    ∃ w v, out[el]? = some w ∧ out[ad]? = some v ∧
      (adHas w fa 0 = adHas v fa' 0) ∧ (adHas w fa 1 = adHas v fa' 2) ∧ (adHas w fa 2 = adHas v fa' 1) ∧
      (adHas w fa 2 = true → elHas v 1 = true) ∧ (adHas w fa 1 = true → elHas v 2 = true) := by
  have hin := (C85_completes hf hi hs hc hsp).1 ⟨out, h⟩
  obtain ⟨t, ht, -⟩ := hin el hel
  obtain ⟨u, hu, -⟩ := hin ad had
  obtain ⟨_, w, -, a1, a2, -, -, -, -⟩ := C85_relations hf hi hs hc hsp hz h hel ht
  obtain ⟨_, v, -, b1, b2, -, b4, b5, -⟩ := C85_relations hf hi hs hc hsp hz h had hu
  obtain ⟨t', c0, c1, c2, c3, -⟩ := a2 fa hfa
  obtain ⟨u', d0, d1, d2, d3, -⟩ := b2 fa' hfa'
  have e0 : AdTg nElFas elFaEl nIn nSe comm el fa t u := Or.inl ⟨ad, h1, hu⟩
  have f0 : AdTg nElFas elFaEl nIn nSe comm ad fa' u t := Or.inl ⟨el, h2, ht⟩
  obtain rfl := c0.unique hc e0
  obtain rfl := d0.unique hc f0
  refine ⟨w, v, a1, b1, ?_, ?_, ?_, ?_, ?_⟩
  · rw [Bool.eq_iff_iff, c1, d1]; exact eq_comm
  · rw [Bool.eq_iff_iff, c2, d3]
  · rw [Bool.eq_iff_iff, c3, d2]
  · rw [c3, b4]
    rintro rfl
    exact ⟨fa', hfa', f0⟩
  · rw [c2, b5]
    rintro rfl
    exact ⟨fa', hfa', _, rfl, f0⟩

end

/-! ### Layout of a partition -/

/-- Number of indices below `n` with a property. -/
def count (n : Nat) (P : Nat → Prop) [DecidablePred P] : Nat := ((List.range n).filter (fun i => decide (P i))).length

theorem count_succ (n : Nat) (P : Nat → Prop) [DecidablePred P] : count (n + 1) P = count n P + if P n then 1 else 0 := by
  unfold count
  rw [List.range_succ, List.filter_append, List.length_append]
  by_cases h : P n <;> simp [h]

theorem count_le (n : Nat) (P : Nat → Prop) [DecidablePred P] : count n P ≤ n := by
  unfold count
  have := List.length_filter_le (fun i => decide (P i)) (List.range n)
  simpa using this

theorem count_congr {n : Nat} {P Q : Nat → Prop} [DecidablePred P] [DecidablePred Q] (h : ∀ i < n, P i ↔ Q i) :
    count n P = count n Q := by
  induction n with
  | zero => rfl
  | succ n ih =>
    rw [count_succ, count_succ, ih (fun i hi => h i (by omega))]
    congr 1
    by_cases hp : P n
    · rw [if_pos hp, if_pos ((h n (by omega)).1 hp)]
    · rw [if_neg hp, if_neg (fun hq => hp ((h n (by omega)).2 hq))]

theorem count_or {n : Nat} {P Q R : Nat → Prop} [DecidablePred P] [DecidablePred Q] [DecidablePred R]
    (h : ∀ i < n, R i ↔ P i ∨ Q i) (hd : ∀ i < n, ¬ (P i ∧ Q i)) : count n R = count n P + count n Q := by
  induction n with
  | zero => rfl
  | succ n ih =>
    rw [count_succ, count_succ, count_succ, ih (fun i hi => h i (by omega)) (fun i hi => hd i (by omega))]
    have h1 := h n (by omega)
    have h2 := hd n (by omega)
    by_cases hp : P n <;> by_cases hq : Q n
    · exact absurd ⟨hp, hq⟩ h2
    · rw [if_pos (h1.2 (Or.inl hp)), if_pos hp, if_neg hq]; omega
    · rw [if_pos (h1.2 (Or.inr hq)), if_neg hp, if_pos hq]; omega
    · rw [if_neg (fun hr => (h1.1 hr).elim hp hq), if_neg hp, if_neg hq]; omega

theorem count_all {n : Nat} {P : Nat → Prop} [DecidablePred P] (h : ∀ i < n, P i) : count n P = n := by
  induction n with
  | zero => rfl
  | succ n ih => rw [count_succ, ih (fun i hi => h i (by omega)), if_pos (h n (by omega))]

theorem count_none {n : Nat} {P : Nat → Prop} [DecidablePred P] (h : ∀ i < n, ¬ P i) : count n P = 0 := by
  induction n with
  | zero => rfl
  | succ n ih => rw [count_succ, ih (fun i hi => h i (by omega)), if_neg (h n (by omega))]

/-- A block of indices. -/
theorem count_block {N off n : Nat} (hN : off + n ≤ N) {P : Nat → Prop} [DecidablePred P]
    (h : ∀ i < N, P i → off ≤ i ∧ i < off + n) : count N P = count n (fun i => P (off + i)) := by
  have key : ∀ m ≤ n, count (off + m) P = count m (fun i => P (off + i)) := by
    intro m
    induction m with
    | zero =>
      intro _
      rw [Nat.add_zero, count_none (P := P) (fun i hi hp => by have := h i (by omega) hp; omega)]
      rfl
    | succ m ih => intro hm; rw [← Nat.add_assoc, count_succ, ih (by omega), count_succ]
  have tail : ∀ k, off + n + k ≤ N → count (off + n + k) P = count (off + n) P := by
    intro k
    induction k with
    | zero => intro _; rfl
    | succ k ih =>
      intro hk
      rw [← Nat.add_assoc, count_succ, ih (by omega), if_neg (fun hp => by have := h _ (by omega) hp; omega), Nat.add_zero]
  have := tail (N - (off + n)) (by omega)
  rw [show off + n + (N - (off + n)) = N by omega] at this
  rw [this, key n (Nat.le_refl _)]

/-- Positions in an ascending sequence. -/
theorem lt_count {n : Nat} {f : Nat → Nat} (hm : ∀ i j, i < j → j < n → f i ≤ f j) (x : Nat) {i : Nat} (hi : i < n) :
    f i < x ↔ i < count n (fun i => f i < x) := by
  induction n with
  | zero => omega
  | succ n ih =>
    rw [count_succ]
    have ih := ih (fun i j h1 h2 => hm i j h1 (by omega))
    by_cases hx : f n < x
    · rw [if_pos hx, count_all (fun j hj => by have := hm j n hj (by omega); omega)]
      refine ⟨fun _ => hi, fun _ => ?_⟩
      rcases Nat.lt_succ_iff_lt_or_eq.1 hi with h | rfl
      · have := hm i n h (by omega); omega
      · exact hx
    · rw [if_neg hx, Nat.add_zero]
      rcases Nat.lt_succ_iff_lt_or_eq.1 hi with h | rfl
      · exact ih h
      · have := count_le i (fun i => f i < x)
        omega

/-- Sum of the sizes of groups. -/
theorem sum_counts {n : Nat} {g : Nat → Nat} {P : Nat → Prop} [DecidablePred P] {l : List Nat}
    (hl : ∀ (t m : Nat), l[t]? = some m → m = count n (fun i => P i ∧ g i = t)) :
    ∀ t ≤ l.length, (l.take t).sum = count n (fun i => P i ∧ g i < t) := by
  intro t
  induction t with
  | zero =>
    intro _
    rw [count_none (fun i _ h => by omega)]
    rfl
  | succ t ih =>
    intro ht
    rw [take_sum_succ (show t < l.length by omega), ih (by omega), hl t _ (List.getElem?_eq_getElem (by omega))]
    symm
    apply count_or (P := fun i => P i ∧ g i < t) (Q := fun i => P i ∧ g i = t)
    · intro i _
      constructor
      · rintro ⟨h1, h2⟩
        rcases Nat.lt_succ_iff_lt_or_eq.1 h2 with h | h
        · exact Or.inl ⟨h1, h⟩
        · exact Or.inr ⟨h1, h⟩
      · rintro (⟨h1, h2⟩ | ⟨h1, h2⟩)
        · exact ⟨h1, by omega⟩
        · exact ⟨h1, by omega⟩
    · rintro i _ ⟨⟨_, h1⟩, _, h2⟩
      omega

/-- Layout: elements ordered by "communicates" and by group are in the groups given by the sizes. -/
theorem layout {n nTgs : Nat} {S : Nat → Prop} [DecidablePred S] {g : Nat → Nat} {nIn nSe : List Nat}
    (hm : ∀ i j, i < j → j < n → (¬ S i ∧ S j) ∨ ((S i ↔ S j) ∧ g i ≤ g j)) (hg : ∀ i < n, g i < nTgs)
    (hi : nIn.length = nTgs) (hs : nSe.length = nTgs)
    (h1 : ∀ (t m : Nat), nIn[t]? = some m → m = count n (fun i => ¬ S i ∧ g i = t))
    (h2 : ∀ (t m : Nat), nSe[t]? = some m → m = count n (fun i => S i ∧ g i = t)) {e : Nat} (he : e < n) :
    InTg nIn nSe e (g e) := by
  -- ascending keys
  let key : Nat → Nat := fun i => if S i then nTgs + g i else g i
  have hk : ∀ i j, i < j → j < n → key i ≤ key j := by
    intro i j hij hj
    have hgi := hg i (by omega)
    simp only [key]
    rcases hm i j hij hj with ⟨a, b⟩ | ⟨a, b⟩
    · rw [if_neg a, if_pos b]; omega
    · by_cases hsi : S i
      · rw [if_pos hsi, if_pos (a.1 hsi)]; omega
      · rw [if_neg hsi, if_neg (fun h => hsi (a.2 h))]; exact b
  have hin : ∀ t ≤ nTgs, (nIn.take t).sum = count n (fun i => key i < t) := by
    intro t ht
    rw [sum_counts h1 t (by omega)]
    refine count_congr fun i hin => ?_
    simp only [key]
    by_cases hsi : S i
    · rw [if_pos hsi]
      constructor
      · rintro ⟨a, _⟩; exact absurd hsi a
      · intro; omega
    · rw [if_neg hsi]
      simp [hsi]
  have hsum : nIn.sum = count n (fun i => key i < nTgs) := by
    rw [← hin nTgs (Nat.le_refl _), List.take_of_length_le (by omega)]
  have hse : ∀ t ≤ nTgs, nIn.sum + (nSe.take t).sum = count n (fun i => key i < nTgs + t) := by
    intro t ht
    rw [hsum, sum_counts h2 t (by omega)]
    symm
    refine count_or (fun i hin => ?_) (fun i hin => ?_)
    · have hgi := hg i hin
      simp only [key]
      by_cases hsi : S i
      · rw [if_pos hsi]
        constructor
        · intro h; exact Or.inr ⟨hsi, by omega⟩
        · rintro (h | ⟨_, h⟩) <;> omega
      · rw [if_neg hsi]
        constructor
        · intro h; exact Or.inl hgi
        · intro _; omega
    · rintro ⟨a, b, _⟩
      simp only [key] at a
      rw [if_pos b] at a
      omega
  have hge := hg e he
  by_cases hsi : S e
  · right
    have hke : key e = nTgs + g e := if_pos hsi
    refine ⟨by omega, ?_, ?_⟩
    · rw [hse _ (by omega)]
      have := (lt_count hk (nTgs + g e) he)
      omega
    · rw [hse _ (by omega)]
      have := (lt_count hk (nTgs + (g e + 1)) he)
      omega
  · left
    have hke : key e = g e := if_neg hsi
    refine ⟨by omega, ?_, ?_⟩
    · rw [hin _ (by omega)]
      have := (lt_count hk (g e) he)
      omega
    · rw [hin _ (by omega)]
      have := (lt_count hk (g e + 1) he)
      omega

section
variable {elFaEl : List (Option Nat)} {nElFas nEls nTgs : Nat} {elPa elTg nPaEls : List Nat} {st : List (List TimeRegion)}

open Classical in
/-- C85: the sizes which EDGE-V writes for a partition, read as the solver does, put every element into its time group. -/
theorem C85_layout (hA : AdOk elFaEl nElFas nEls) (ht : elTg.length = nEls) (htm : ∀ t ∈ elTg, t < nTgs)
    (hpa : elPaOf nEls nPaEls = some elPa) (hO : Ordered elFaEl nElFas nEls elPa elTg) {nIn nSe : List Nat}
    (hc : nElsInSe nElFas nPaEls.length nTgs nEls elFaEl elPa elTg = some (nIn, nSe)) {pa n : Nat}
    (hn : nPaEls[pa]? = some n) {e t : Nat} (he : e < n) (hte : elTg[e + (nPaEls.take pa).sum]? = some t) :
    InTg ((nIn.drop (pa * nTgs)).take nTgs) ((nSe.drop (pa * nTgs)).take nTgs) e t := by
  obtain ⟨hp, hsum, hblk⟩ := elPaOf_spec hpa
  have hpl : pa < nPaEls.length := (List.getElem?_eq_some_iff.1 hn).1
  have hpm : ∀ p ∈ elPa, p < nPaEls.length := by
    intro p hp'
    obtain ⟨i, hi⟩ := List.getElem?_of_mem hp'
    obtain ⟨m, h1, _⟩ := (hblk i p).1 hi
    exact (List.getElem?_eq_some_iff.1 h1).1
  obtain ⟨nIn', nSe', c1, c2⟩ := C66_counts hA hp ht hpm htm
  rw [hc] at c1
  cases c1
  -- the block of the partition
  have hin : ∀ i, elPa[i]? = some pa ↔ (nPaEls.take pa).sum ≤ i ∧ i < (nPaEls.take pa).sum + n := by
    intro i
    rw [hblk]
    constructor
    · rintro ⟨m, h1, h2⟩
      rw [hn] at h1
      cases h1
      exact h2
    · intro h; exact ⟨n, hn, h⟩
  have hN : (nPaEls.take pa).sum + n ≤ nEls := by
    rw [← hsum]
    have h1 := take_sum_succ hpl
    have h2 := take_sum_le nPaEls (pa + 1)
    have : nPaEls[pa] = n := (List.getElem?_eq_some_iff.1 hn).2
    omega
  have hlen : ∀ {l : List Nat}, (∀ t, t < nTgs → ∃ m, l[pa * nTgs + t]? = some m) → ((l.drop (pa * nTgs)).take nTgs).length = nTgs := by
    intro l h
    rw [List.length_take, List.length_drop]
    rcases Nat.eq_zero_or_pos nTgs with h0 | h0
    · subst h0; simp
    · obtain ⟨m, hm⟩ := h (nTgs - 1) (by omega)
      have := (List.getElem?_eq_some_iff.1 hm).1
      omega
  have hget : ∀ {l : List Nat} {t m : Nat}, ((l.drop (pa * nTgs)).take nTgs)[t]? = some m → t < nTgs ∧ l[pa * nTgs + t]? = some m := by
    intro l t m h
    have hlt : t < nTgs := by
      have := (List.getElem?_eq_some_iff.1 h).1
      rw [List.length_take] at this
      omega
    rw [List.getElem?_take, if_pos hlt, List.getElem?_drop] at h
    exact ⟨hlt, h⟩
  have hg : ∀ i < n, ∃ u, elTg[i + (nPaEls.take pa).sum]? = some u ∧ u < nTgs := by
    intro i hi
    have : i + (nPaEls.take pa).sum < elTg.length := by omega
    exact ⟨_, List.getElem?_eq_getElem this, htm _ (List.getElem_mem _)⟩
  have hcount : ∀ (Q : Nat → Prop) [DecidablePred Q] (t : Nat), count nEls (fun el => elPa[el]? = some pa ∧ elTg[el]? = some t ∧ Q el) =
      count n (fun i => Q ((nPaEls.take pa).sum + i) ∧ (elTg[i + (nPaEls.take pa).sum]?).getD 0 = t) := by
    intro Q _ t
    rw [count_block hN (fun i _ h => (hin i).1 h.1)]
    refine count_congr fun i hi => ?_
    obtain ⟨u, hu, _⟩ := hg i hi
    rw [hin, show (nPaEls.take pa).sum + i = i + (nPaEls.take pa).sum by omega, hu]
    simp only [Option.some.injEq, Option.getD_some]
    constructor
    · rintro ⟨_, h1, h2⟩; exact ⟨h2, h1⟩
    · rintro ⟨h1, h2⟩; exact ⟨by omega, h2, h1⟩
  have hfin := layout (n := n) (nTgs := nTgs) (S := fun i => Cut elFaEl nElFas elPa ((nPaEls.take pa).sum + i))
    (g := fun i => (elTg[i + (nPaEls.take pa).sum]?).getD 0) (nIn := (nIn.drop (pa * nTgs)).take nTgs)
    (nSe := (nSe.drop (pa * nTgs)).take nTgs) (by
      intro i j hij hj
      obtain ⟨u, hu, _⟩ := hg i (by omega)
      obtain ⟨v, hv, _⟩ := hg j hj
      have p1 := (hin (i + (nPaEls.take pa).sum)).2 (by omega)
      have p2 := (hin (j + (nPaEls.take pa).sum)).2 (by omega)
      rcases hO _ _ pa pa u v (show i + (nPaEls.take pa).sum < j + (nPaEls.take pa).sum by omega) (by omega) p1 p2 hu hv with
        h | ⟨_, h⟩
      · omega
      · rw [hu, hv]
        simp only [Option.getD_some]
        rw [Nat.add_comm _ i, Nat.add_comm _ j]
        exact h) (by
      intro i hi
      obtain ⟨u, hu, hlt⟩ := hg i hi
      rw [hu]
      exact hlt) (hlen fun t ht => ⟨_, (c2 pa t hpl ht).1⟩) (hlen fun t ht => ⟨_, (c2 pa t hpl ht).2⟩) (by
      intro t m h
      obtain ⟨h1, h2⟩ := hget h
      rw [(c2 pa t hpl h1).1, Option.some.injEq] at h2
      rw [← h2]
      exact hcount (fun el => ¬ Cut elFaEl nElFas elPa el) t) (by
      intro t m h
      obtain ⟨h1, h2⟩ := hget h
      rw [(c2 pa t hpl h1).2, Option.some.injEq] at h2
      rw [← h2]
      exact hcount (fun el => Cut elFaEl nElFas elPa el) t) he
  simp only [hte, Option.getD_some] at hfin
  exact hfin

/-- The mesh of partition `pa`: its elements in the order of the global mesh, with the neighbours of the same partition. -/
def LocalMesh (elFaEl : List (Option Nat)) (nElFas : Nat) (elPa : List Nat) (pa off n : Nat) (lEl : List (Option Nat)) : Prop :=
  ∀ e < n, ∀ f < nElFas, ∃ o, elFaEl[(e + off) * nElFas + f]? = some o ∧
    lEl[e * nElFas + f]? = some (o.bind (fun g => if elPa[g]? = some pa then some (g - off) else none))

/-- Communication of a partition as the solver reads it: channels, send elements, send faces. -/
def commOf (trs : List TimeRegion) (es : List (Nat × Nat × Nat × Nat)) : CommSpec where
  chs := chansOf trs
  el := es.map (·.2.1)
  fa := es.map (·.1)

theorem commOf_ok (hM : MeshOk elFaEl nElFas nEls) (hU : OneFace elFaEl nElFas nEls) (ht : elTg.length = nEls)
    (htm : ∀ t ∈ elTg, t < 65535) (hpa : elPaOf nEls nPaEls = some elPa) (hO : Ordered elFaEl nElFas nEls elPa elTg)
    (h : getStruct nElFas nEls elFaEl elPa elTg = some st) (hlen : st.length ≤ nPaEls.length)
    {out : List (List (Nat × Nat × Nat × Nat))} (hout : setSeReElFa nPaEls st = some out)
    {pa n : Nat} {trs : List TimeRegion} {es : List (Nat × Nat × Nat × Nat)}
    (hst : st[pa]? = some trs) (hn : nPaEls[pa]? = some n) (hes : out[pa]? = some es) :
    (commOf trs es).Ok ∧ ∀ g f g' q t' : Nat, elPa[g]? = some pa → f < nElFas → elFaEl[g * nElFas + f]? = some (some g') →
      elPa[g']? = some q → q ≠ pa → elTg[g']? = some t' →
      ∃ ch, Sends (commOf trs es).el (commOf trs es).fa (commOf trs es).chs ch (g - (nPaEls.take pa).sum) f ∧ ch.tgAd = t' := by
  obtain ⟨hp, _, hblk⟩ := elPaOf_spec hpa
  obtain ⟨out', o1, o2, o3⟩ := C67_local hM ht hpa hO h hlen
  rw [hout] at o1; cases o1
  obtain ⟨n0, es0, p1, p2, p3, p4, p5⟩ := o3 pa trs hst
  rw [hn] at p1; cases p1
  rw [hes] at p2; cases p2
  obtain ⟨hsA, -⟩ := facesOk hM hU ht hpa hO h hst p3 p4 p5
  have hmm := C36_messages hM hp ht hO h hst
  have hrec : ∀ r ∈ trs, r.recv.length = r.send.length := fun r hr => (C35_mirrored hM hp ht hO h hst hr).1
  obtain ⟨f1, _, f3⟩ := msgs_faces hrec
  have hll : (es.map (·.1)).length = (es.map (·.2.1)).length := by simp
  refine ⟨⟨hsA.1, by have := hsA.1; simpa [commOf] using this, ?_, ?_⟩, ?_⟩
  · intro i j hi hj e1 e2
    simp only [commOf, List.length_map] at hi hj
    have hnd : (List.map (fun e : Nat × Nat × Nat × Nat => (e.2.1, e.1)) es).Nodup := by
      have := hsA.2.2.2.2
      rwa [List.zip_map'] at this
    have a1 : (List.map (fun e : Nat × Nat × Nat × Nat => (e.2.1, e.1)) es)[i]? = some (es[i].2.1, es[i].1) := by
      rw [List.getElem?_map, List.getElem?_eq_getElem hi]; rfl
    have a2 : (List.map (fun e : Nat × Nat × Nat × Nat => (e.2.1, e.1)) es)[j]? = some (es[j].2.1, es[j].1) := by
      rw [List.getElem?_map, List.getElem?_eq_getElem hj]; rfl
    simp only [commOf, List.getElem?_map, List.getElem?_eq_getElem hi, List.getElem?_eq_getElem hj, Option.map_some,
      Option.some.injEq] at e1 e2
    rw [e1, e2, ← a2] at a1
    exact (List.getElem?_inj (by simpa using hi) hnd).1 a1
  · intro ch hch
    simp only [commOf, chansOf, List.mem_map, f3] at hch
    obtain ⟨c, ⟨x, hx, rfl⟩, rfl⟩ := hch
    obtain ⟨r, hr, i, _, g2, _⟩ := mem_msgs hx
    obtain ⟨-, m2, m3, m4⟩ := (hmm.2 r hr).2.2 _ (List.mem_of_getElem? g2)
    have hl := length_facesOf m2
    have hpos : 0 < x.2.1.entries.length := by
      rw [facesOf, List.length_map] at hl
      have := List.length_pos_iff.2 m3
      omega
    have := m4 _ _ _ _ (List.getElem_mem hpos)
    exact htm _ (List.mem_of_getElem? this.2.2.2.1)
  · intro g f g' q t' hg hf hgg hq hne htg
    have hmem : (g, f) ∈ sendFaces trs := (((C36_faces hM hp ht hO h).2 pa trs hst).2 g f).2
      ⟨by have := (List.getElem?_eq_some_iff.1 hg).1; omega, hf, hg, g', q, hgg, hq, hne⟩
    rw [f1, List.mem_flatMap] at hmem
    obtain ⟨x, hx, hgx⟩ := hmem
    obtain ⟨i, hi⟩ := List.getElem?_of_mem hx
    obtain ⟨co, hco⟩ := List.getElem?_of_mem hgx
    obtain ⟨rr, hr, ii, _, v2, _⟩ := mem_msgs hx
    have hme := (hmm.2 rr hr).2.2 _ (List.mem_of_getElem? v2)
    have hcl : co < x.2.1.el.length := by
      rw [← length_facesOf hme.2.1]; exact (List.getElem?_eq_some_iff.1 hco).1
    have hat := (face_at hM hp ht hO h hst hi hcl).1
    rw [hco, ← p3, List.getElem?_map] at hat
    obtain ⟨en, e1, e2⟩ := Option.map_eq_some_iff.1 hat
    simp only [Prod.mk.injEq] at e2
    refine ⟨⟨x.1, x.2.1.pa, x.2.1.tg, x.2.1.el.length⟩, ⟨i, co, ?_, hcl, ?_, ?_⟩, ?_⟩
    · simp only [commOf, chansOf, f3, List.getElem?_map, hi, Option.map_some]
    · simp only [commOf, List.getElem?_map, e1, Option.map_some, Option.some.injEq]
      omega
    · simp only [commOf, List.getElem?_map, e1, Option.map_some, Option.some.injEq]
      exact e2.2
    · simp only [facesOf, List.mem_map] at hgx
      obtain ⟨⟨w1, w2, w3, w4⟩, hq1, hqe⟩ := hgx
      simp only [Prod.mk.injEq] at hqe
      have hq' := hme.2.2.2 _ _ _ _ hq1
      rw [hqe.1, hqe.2, hgg] at hq'
      have e3 : g' = w3 := by simpa using hq'.2.2.2.2.2.2.1
      have := hq'.2.2.2.1
      rw [← e3, htg] at this
      exact (Option.some.inj this).symm

/-- C85: on every rank of a distributed run the types are the relations in the global mesh: at a face with a neighbour, on the
same or on another rank, those of the two elements' time groups; at the boundary of the domain "equal". The two sides of a face
therefore agree, also if they are on different ranks. -/
theorem C85_ranks (hM : MeshOk elFaEl nElFas nEls) (hU : OneFace elFaEl nElFas nEls) (hf : nElFas ≤ 6)
    (ht : elTg.length = nEls) (htm : ∀ t ∈ elTg, t < nTgs) (hnt : nTgs ≤ 65535) (hsm : Smooth elFaEl nElFas elTg)
    (hpa : elPaOf nEls nPaEls = some elPa) (hO : Ordered elFaEl nElFas nEls elPa elTg) {nIn nSe : List Nat}
    (hc : nElsInSe nElFas nPaEls.length nTgs nEls elFaEl elPa elTg = some (nIn, nSe))
    (h : getStruct nElFas nEls elFaEl elPa elTg = some st) (hlen : st.length ≤ nPaEls.length)
    {sr : List (List (Nat × Nat × Nat × Nat))} (hsr : setSeReElFa nPaEls st = some sr)
    {pa n : Nat} {trs : List TimeRegion} {es : List (Nat × Nat × Nat × Nat)}
    (hst : st[pa]? = some trs) (hn : nPaEls[pa]? = some n) (hes : sr[pa]? = some es) {lEl : List (Option Nat)}
    (hL : LocalMesh elFaEl nElFas elPa pa (nPaEls.take pa).sum n lEl)
    {sp : List Word} (hsp : sp.length = n) (hz : ∀ w ∈ sp, ∀ k, 32 ≤ k → w.getLsbD k = false) :
    ∃ out, setLtsTypes n nElFas nTgs lEl ((nIn.drop (pa * nTgs)).take nTgs) ((nSe.drop (pa * nTgs)).take nTgs)
        (some (commOf trs es).arrays) sp = some out ∧
      ∀ e < n, ∀ f < nElFas, ∃ w t, out[e]? = some w ∧ elTg[e + (nPaEls.take pa).sum]? = some t ∧
        (∀ g' t', elFaEl[(e + (nPaEls.take pa).sum) * nElFas + f]? = some (some g') → elTg[g']? = some t' →
          (adHas w f 0 = true ↔ t = t') ∧ (adHas w f 1 = true ↔ t' = t + 1) ∧ (adHas w f 2 = true ↔ t = t' + 1)) ∧
        (elFaEl[(e + (nPaEls.take pa).sum) * nElFas + f]? = some none →
          adHas w f 0 = true ∧ adHas w f 1 = false ∧ adHas w f 2 = false) := by
  obtain ⟨hp, hsum, hblk⟩ := elPaOf_spec hpa
  obtain ⟨hck, hsend⟩ := commOf_ok hM hU ht (fun t h => by have := htm t h; omega) hpa hO h hlen hsr hst hn hes
  have hcomm : ∀ c, some (commOf trs es) = some c → c.Ok := fun c e => by cases e; exact hck
  have hpl : pa < nPaEls.length := (List.getElem?_eq_some_iff.1 hn).1
  have hin : ∀ i, elPa[i]? = some pa ↔ (nPaEls.take pa).sum ≤ i ∧ i < (nPaEls.take pa).sum + n := by
    intro i
    rw [hblk]
    constructor
    · rintro ⟨m, h1, h2⟩
      rw [hn] at h1
      cases h1
      exact h2
    · intro h; exact ⟨n, hn, h⟩
  have hN : (nPaEls.take pa).sum + n ≤ nEls := by
    rw [← hsum]
    have h1 := take_sum_succ hpl
    have h2 := take_sum_le nPaEls (pa + 1)
    have : nPaEls[pa] = n := (List.getElem?_eq_some_iff.1 hn).2
    omega
  have hlay : ∀ {e t : Nat}, e < n → elTg[e + (nPaEls.take pa).sum]? = some t →
      InTg ((nIn.drop (pa * nTgs)).take nTgs) ((nSe.drop (pa * nTgs)).take nTgs) e t :=
    fun he hte => C85_layout hM.ad ht htm hpa hO hc hn he hte
  have hlens : ((nIn.drop (pa * nTgs)).take nTgs).length = nTgs ∧ ((nSe.drop (pa * nTgs)).take nTgs).length = nTgs := by
    have hpm : ∀ p ∈ elPa, p < nPaEls.length := by
      intro p hp'
      obtain ⟨i, hi⟩ := List.getElem?_of_mem hp'
      obtain ⟨m, h1, _⟩ := (hblk i p).1 hi
      exact (List.getElem?_eq_some_iff.1 h1).1
    obtain ⟨nIn', nSe', c1, c2⟩ := C66_counts hM.ad hp ht hpm htm
    rw [hc] at c1
    cases c1
    rcases Nat.eq_zero_or_pos nTgs with h0 | h0
    · subst h0; simp
    · have h1 := (List.getElem?_eq_some_iff.1 (c2 pa (nTgs - 1) hpl (by omega)).1).1
      have h2 := (List.getElem?_eq_some_iff.1 (c2 pa (nTgs - 1) hpl (by omega)).2).1
      simp only [List.length_take, List.length_drop]
      omega
  have htg : ∀ g < nEls, ∃ t, elTg[g]? = some t := fun g hg => ⟨_, List.getElem?_eq_getElem (by omega)⟩
  -- groups at the faces
  have had : ∀ e < n, ∀ f < nElFas, ∀ t, elTg[e + (nPaEls.take pa).sum]? = some t →
      (∀ g' t', elFaEl[(e + (nPaEls.take pa).sum) * nElFas + f]? = some (some g') → elTg[g']? = some t' →
        AdTg nElFas lEl ((nIn.drop (pa * nTgs)).take nTgs) ((nSe.drop (pa * nTgs)).take nTgs) (some (commOf trs es)) e f t t' ∧
          Close t t') ∧
      (elFaEl[(e + (nPaEls.take pa).sum) * nElFas + f]? = some none →
        AdTg nElFas lEl ((nIn.drop (pa * nTgs)).take nTgs) ((nSe.drop (pa * nTgs)).take nTgs) (some (commOf trs es)) e f t t) := by
    intro e he f hf' t hte
    obtain ⟨o, l1, l2⟩ := hL e he f hf'
    constructor
    · intro g' t' hg' ht'
      rw [hg'] at l1
      cases l1
      have hnb : Nb elFaEl nElFas (e + (nPaEls.take pa).sum) g' := ⟨f, hf', hg'⟩
      have hg'lt : g' < nEls := by rw [← ht]; exact (List.getElem?_eq_some_iff.1 ht').1
      constructor
      · simp only [Option.bind_some] at l2
        by_cases hq : elPa[g']? = some pa
        · rw [if_pos hq] at l2
          have hb := (hin g').1 hq
          refine Or.inl ⟨_, l2, hlay (by omega) ?_⟩
          rw [Nat.sub_add_cancel hb.1]
          exact ht'
        · rw [if_neg hq] at l2
          obtain ⟨q, hq'⟩ : ∃ q, elPa[g']? = some q := ⟨_, List.getElem?_eq_getElem (by omega)⟩
          obtain ⟨ch, s1, s2⟩ := hsend (e + (nPaEls.take pa).sum) f g' q t' ((hin _).2 (by omega)) hf' hg' hq'
            (fun e => hq (by rw [hq', e])) ht'
          rw [Nat.add_sub_cancel] at s1
          exact Or.inr ⟨l2, Or.inl ⟨_, ch, rfl, s1, s2⟩⟩
      · exact ⟨hsm _ _ _ _ hnb hte ht', hsm _ _ _ _ (hM.sym _ _ (by omega) hnb) ht' hte⟩
    · intro hg
      rw [hg] at l1
      cases l1
      refine Or.inr ⟨l2, Or.inr ⟨?_, rfl⟩⟩
      rintro c ch hc' ⟨k, co, k1, k2, k3, k4⟩
      cases hc'
      -- communicated faces have a neighbour
      obtain ⟨out', o1, o2, o3⟩ := C67_local hM ht hpa hO h hlen
      rw [hsr] at o1; cases o1
      obtain ⟨n0, es0, p1, p2, p3, p4, p5⟩ := o3 pa trs hst
      rw [hn] at p1; cases p1
      rw [hes] at p2; cases p2
      simp only [commOf, List.getElem?_map, Option.map_eq_some_iff] at k3 k4
      obtain ⟨x, x1, x2⟩ := k3
      obtain ⟨y, y1, y2⟩ := k4
      rw [x1] at y1
      cases y1
      have hm : (e + (nPaEls.take pa).sum, f) ∈ sendFaces trs := by
        rw [← p3]
        refine List.mem_map.2 ⟨x, List.mem_of_getElem? x1, ?_⟩
        rw [x2, y2]
      obtain ⟨-, -, -, ad, q, z1, -⟩ := (((C36_faces hM hp ht hO h).2 pa trs hst).2 _ _).1 hm
      rw [hg] at z1
      simp at z1
  have hone : ∀ e < n, ∃ t, elTg[e + (nPaEls.take pa).sum]? = some t ∧
      InTg ((nIn.drop (pa * nTgs)).take nTgs) ((nSe.drop (pa * nTgs)).take nTgs) e t ∧ ∀ f < nElFas, ∃ t',
        AdTg nElFas lEl ((nIn.drop (pa * nTgs)).take nTgs) ((nSe.drop (pa * nTgs)).take nTgs) (some (commOf trs es)) e f t t' ∧
          Close t t' := by
    intro e he
    obtain ⟨t, hte⟩ := htg (e + (nPaEls.take pa).sum) (by omega)
    refine ⟨t, hte, hlay he hte, fun f hf' => ?_⟩
    obtain ⟨a1, a2⟩ := had e he f hf' t hte
    obtain ⟨o, o1, o2⟩ := hM.ad (e + (nPaEls.take pa).sum) f (by omega) hf'
    cases o with
    | none => exact ⟨t, a2 o1, by unfold Close; omega⟩
    | some g' =>
      obtain ⟨t', ht'⟩ := htg g' (o2 g' rfl)
      exact ⟨t', a1 g' t' o1 ht'⟩
  obtain ⟨out, hout⟩ := (C85_completes (comm := some (commOf trs es)) hf hlens.1 hlens.2 hcomm hsp).2
    (fun e he => by obtain ⟨t, _, a, b⟩ := hone e he; exact ⟨t, a, b⟩)
  refine ⟨out, hout, fun e he f hf' => ?_⟩
  obtain ⟨t, hte, hit, -⟩ := hone e he
  obtain ⟨_, w, -, w1, w2, -⟩ := C85_relations (comm := some (commOf trs es)) hf hlens.1 hlens.2 hcomm hsp hz hout he hit
  obtain ⟨a1, a2⟩ := had e he f hf' t hte
  obtain ⟨u, u0, u1, u2, u3, -⟩ := w2 f hf'
  refine ⟨w, t, w1, hte, fun g' t' hg' ht' => ?_, fun hg => ?_⟩
  · obtain rfl := u0.unique hcomm (a1 g' t' hg' ht').1
    exact ⟨u1, u2, u3⟩
  · obtain rfl := u0.unique hcomm (a2 hg)
    refine ⟨u1.2 rfl, ?_, ?_⟩
    · rw [Bool.eq_false_iff]; intro h; have := u2.1 h; omega
    · rw [Bool.eq_false_iff]; intro h; have := u3.1 h; omega

end

/-! ### Types of the mesh -/

theorem setSpTypes_get {n : Nat} {mesh : List (BitVec 32)} {sp out : List Word} (hm : mesh.length = n) (hsp : sp.length = n)
    (h : setSpTypes n mesh sp = some out) : out.length = n ∧ ∀ (en : Nat) (w : Word) (m : BitVec 32), sp[en]? = some w →
      mesh[en]? = some m → out[en]? = some (w ||| m.signExtend 64) := by
  obtain ⟨out', k1, k2, k3⟩ := forN_inv (n := n) (s := sp) (body := fun en (sp : List Word) => do
    let a ← rd sp en
    let b ← rd mesh en
    wr sp en (a ||| b.signExtend 64)) (fun i out => out.length = n ∧ ∀ (el : Nat) (w : Word) (m : BitVec 32), sp[el]? = some w →
      mesh[el]? = some m → out[el]? = some (if el < i then w ||| m.signExtend 64 else w))
    ⟨hsp, fun el w m hw _ => by simp [hw]⟩ (by
    rintro i out hi ⟨g1, g2⟩
    obtain ⟨w, hw⟩ : ∃ w, sp[i]? = some w := ⟨sp[i], List.getElem?_eq_getElem (by omega)⟩
    obtain ⟨m, hm'⟩ : ∃ m, mesh[i]? = some m := ⟨mesh[i], List.getElem?_eq_getElem (by omega)⟩
    have e : rd out i = some w := by rw [rd, g2 i w m hw hm', if_neg (by omega)]
    have e' : rd mesh i = some m := hm'
    refine ⟨out.set i (w ||| m.signExtend 64), ?_, by simp [g1], fun el w' m' hw' hm2 => ?_⟩
    · simp only [e, e', Option.bind_eq_bind, Option.bind_some, wr_some (show i < out.length by omega)]
    · by_cases he : el = i
      · subst he
        rw [hw] at hw'
        rw [hm'] at hm2
        cases hw'
        cases hm2
        rw [List.getElem?_set_self (by omega), if_pos (by omega)]
      · rw [List.getElem?_set_ne (by omega), g2 el w' m' hw' hm2]
        congr 1
        by_cases hlt : el < i
        · rw [if_pos hlt, if_pos (by omega)]
        · rw [if_neg hlt, if_neg (by omega)])
  unfold setSpTypes at h
  rw [k1, Option.some.injEq] at h
  subst h
  refine ⟨k2, fun en w m hw hm' => ?_⟩
  have hlt : en < n := by
    have := (List.getElem?_eq_some_iff.1 hw).1
    omega
  rw [k3 en w m hw hm', if_pos hlt]

/-- C85: types read from the mesh (non-negative 32-bit numbers) leave the bits of the time stepping free, which is what the
derivation of the relations relies on. -/
theorem C85_mesh_types {n : Nat} {mesh : List (BitVec 32)} (hm : mesh.length = n) (hpos : ∀ m ∈ mesh, m.msb = false)
    {out : List Word} (h : setSpTypes n mesh (List.replicate n 0#64) = some out) :
    out.length = n ∧ ∀ w ∈ out, ∀ k, 32 ≤ k → w.getLsbD k = false := by
  obtain ⟨h1, h2⟩ := setSpTypes_get hm (by simp) h
  refine ⟨h1, fun w hw k hk => ?_⟩
  obtain ⟨i, hi⟩ := List.getElem?_of_mem hw
  have hlt : i < n := by
    have := (List.getElem?_eq_some_iff.1 hi).1
    omega
  obtain ⟨m, hm'⟩ : ∃ m, mesh[i]? = some m := ⟨mesh[i], List.getElem?_eq_getElem (by omega)⟩
  rw [h2 i 0#64 m (by simp [hlt]) hm', Option.some.injEq] at hi
  rw [← hi, BitVec.signExtend_eq_setWidth_of_msb_false (hpos m (List.mem_of_getElem? hm')), BitVec.getLsbD_or,
    BitVec.getLsbD_setWidth, BitVec.getLsbD_of_ge m k hk]
  simp

/-- A negative type of the mesh sets all bits of the time stepping: the element claims to be equal, smaller and greater than its
neighbours at once. -/
theorem C85_negative_refuted : ∃ (mesh : List (BitVec 32)) (w : Word), setSpTypes 1 mesh [0#64] = some [w] ∧
    adHas w 0 0 = true ∧ adHas w 0 1 = true ∧ adHas w 0 2 = true := ⟨[0x80000000#32], 0xffffffff80000000#64, by decide⟩

/-! ### Examples -/

/-- Four elements in a row on two ranks with two time groups: the face between the ranks is one between the groups. All
hypotheses of `C85_ranks` hold. -/
example : ∃ out, setLtsTypes 2 2 2 [none, some 1, some 0, none] [1, 0] [1, 0]
    (some (commOf [⟨0, [⟨1, 1, [1], [1], [3], [0]⟩], [some ⟨1, 1, [1], [1], [3], [0]⟩]⟩] [(1, 1, 1, 1)]).arrays)
    [0#64, 105#64] = some out ∧ ∀ e < 2, ∀ f < 2, ∃ w t, out[e]? = some w ∧ [0, 0, 1, 1][e + 0]? = some t ∧
        (∀ g' t', exAd[(e + 0) * 2 + f]? = some (some g') → [0, 0, 1, 1][g']? = some t' →
          (adHas w f 0 = true ↔ t = t') ∧ (adHas w f 1 = true ↔ t' = t + 1) ∧ (adHas w f 2 = true ↔ t = t' + 1)) ∧
        (exAd[(e + 0) * 2 + f]? = some none → adHas w f 0 = true ∧ adHas w f 1 = false ∧ adHas w f 2 = false) := by
  have hsm : Smooth exAd 2 [0, 0, 1, 1] := by
    rintro el ad a b - ha hb
    have h1 : ∀ x ∈ [0, 0, 1, 1], x < 2 := by decide
    have := h1 a (List.mem_of_getElem? ha)
    omega
  have hL : LocalMesh exAd 2 [0, 0, 1, 1] 0 (([2, 2] : List Nat).take 0).sum 2 [none, some 1, some 0, none] := by
    have : ∀ e < 2, ∀ f < 2, [none, some 1, some 0, none][e * 2 + f]? = (exAd[(e + (([2, 2] : List Nat).take 0).sum) * 2 + f]?).map
        (fun o => o.bind (fun g => if [0, 0, 1, 1][g]? = some 0 then some (g - (([2, 2] : List Nat).take 0).sum) else none)) := by
      decide
    intro e he f hf
    have h1 := this e he f hf
    have h2 : e * 2 + f < 4 := by omega
    obtain ⟨o, ho⟩ : ∃ o, exAd[(e + (([2, 2] : List Nat).take 0).sum) * 2 + f]? = some o :=
      ⟨_, List.getElem?_eq_getElem (by simp [exAd]; omega)⟩
    exact ⟨o, ho, by rw [h1, ho]; rfl⟩
  exact C85_ranks (nTgs := 2) (nEls := 4) (nPaEls := [2, 2]) (elTg := [0, 0, 1, 1]) (pa := 0) exMesh exOne (by decide) rfl
    (by decide) (by decide) hsm (by decide) (ordered_of (by decide)) (nIn := [1, 0, 0, 1]) (nSe := [1, 0, 0, 1]) (by decide)
    (st := [[⟨0, [⟨1, 1, [1], [1], [3], [0]⟩], [some ⟨1, 1, [1], [1], [3], [0]⟩]⟩],
      [⟨1, [⟨0, 0, [3], [0], [1], [1]⟩], [some ⟨0, 0, [3], [0], [1], [1]⟩]⟩]]) (by decide) (by decide)
    (sr := [[(1, 1, 1, 1)], [(0, 1, 0, 1)]]) (by decide) rfl rfl rfl hL rfl (by
      intro w hw k hk
      simp only [List.mem_cons, List.not_mem_nil, or_false] at hw
      rcases hw with rfl | rfl
      · simp
      · simp only [BitVec.getLsbD_ofNat, Bool.and_eq_false_imp]
        intro
        exact Nat.testBit_lt_two_pow (Nat.lt_of_lt_of_le (by decide) (Nat.pow_le_pow_right (by decide) hk)))

/-- The words of both ranks: at the shared face the first rank has "less than" (bit 40), the second one "greater than" (bit 38);
the type 105 of the mesh is kept. -/
example : setLtsTypes 2 2 2 [none, some 1, some 0, none] [1, 0] [1, 0] (some ⟨[1], [1], [1, 0, 1, 1, 1]⟩) [0#64, 105#64]
      = some [622770257920#64, 1181116006505#64] ∧
    setLtsTypes 2 2 2 [some 1, none, none, some 0] [0, 1] [0, 1] (some ⟨[0], [1], [1, 1, 0, 0, 1]⟩) [0#64, 0#64]
      = some [622770257920#64, 846108557312#64] ∧
    1181116006505 = 2 ^ 40 + 2 ^ 36 + 2 ^ 33 + 2 ^ 32 + 105 ∧ 846108557312 = 2 ^ 39 + 2 ^ 38 + 2 ^ 34 + 2 ^ 32 := by
  decide +kernel

/-- Two adjacent elements of one rank in groups 0 and 1; and groups 0 and 2, for which the call aborts. -/
example : (setLtsTypes 2 2 2 [none, some 1, some 0, none] [1, 1] [0, 0] none [0#64, 0#64]).isSome = true ∧
    setLtsTypes 2 2 3 [none, some 1, some 0, none] [1, 0, 1] [0, 0, 0] none [0#64, 0#64] = none := by decide +kernel

end Edge.Lts
