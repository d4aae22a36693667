import Verif.Fused.Model
/-!
The lines of the sparse matrices of the kernels hold the lines of the dense matrices.
-/
namespace Edge.Fused
open Edge Edge.Linalg Edge.Dg

section
variable {K : Type}

/-- The stored entries of a line. -/
theorem line_of {m : Comp K} {n li : Nat} (h : m.Ok n) (hli : li < n) {L : List (Nat × K)} (hL : m.line li = some L) :
    ∃ lo hi, m.ptr[li]? = some lo ∧ m.ptr[li + 1]? = some hi ∧ hi - lo = L.length ∧ lo ≤ hi ∧
      ∀ p (hp : p < L.length), m.idx[lo + p]? = some L[p].1 ∧ m.val[lo + p]? = some L[p].2 := by
  have hlt : li < m.ptr.length := by rw [h.len]; omega
  have hlt' : li + 1 < m.ptr.length := by rw [h.len]; omega
  have e1 := List.getElem?_eq_getElem hlt
  have e2 := List.getElem?_eq_getElem hlt'
  generalize m.ptr[li] = lo at e1
  generalize m.ptr[li + 1] = hi at e2
  have hle := h.mono li lo hi e1 e2
  have hub : ∀ k, li + 1 + k ≤ n → ∃ e, m.ptr[li + 1 + k]? = some e ∧ hi ≤ e := by
    intro k
    induction k with
    | zero => intro _; exact ⟨hi, e2, Nat.le_refl _⟩
    | succ k ih =>
      intro hk
      obtain ⟨e, h1, h2⟩ := ih (by omega)
      have h3 : li + 1 + k + 1 < m.ptr.length := by rw [h.len]; omega
      exact ⟨_, List.getElem?_eq_getElem h3, h2.trans (h.mono _ _ _ h1 (List.getElem?_eq_getElem h3))⟩
  obtain ⟨e, h1, h2⟩ := hub (n - (li + 1)) (by omega)
  rw [show li + 1 + (n - (li + 1)) = n by omega, h.last] at h1
  cases h1
  simp only [Comp.line, e1, e2, Option.bind_eq_bind, Option.bind_some, Option.pure_def, Option.some.injEq] at hL
  have hlen : L.length = hi - lo := by
    rw [← hL, List.length_take, List.length_drop, List.length_zip, h.idx]; omega
  refine ⟨lo, hi, e1, e2, hlen.symm, hle, fun p hp => ?_⟩
  have e3 : (m.idx.zip m.val)[lo + p]? = some L[p] := by
    have : L[p]? = some L[p] := List.getElem?_eq_getElem hp
    rw [← this, ← hL, List.getElem?_take_of_lt (by omega), List.getElem?_drop]
  exact List.getElem?_zip_eq_some.1 e3

end

variable {K : Type} [Field K]

/-- Sum over listed entries. -/
theorem sum_listed {L : List (Nat × K)} {k : Nat} {coef : Nat → K} (h1 : (L.map Prod.fst).Nodup) (h2 : ∀ e ∈ L, e.1 < k ∧ e.2 = coef e.1)
    (h3 : ∀ l < k, l ∉ L.map Prod.fst → coef l = 0) (g : Nat → K) : (L.map (fun e => e.2 * g e.1)).sum = ∑ l ∈ Finset.range k, coef l * g l := by
  have e1 : L.map (fun e => e.2 * g e.1) = (L.map Prod.fst).map (fun l => coef l * g l) := by
    rw [List.map_map]
    exact List.map_congr_left fun e he => by simp [(h2 e he).2]
  rw [e1, ← List.sum_toFinset _ h1]
  refine Finset.sum_subset ?_ ?_
  · intro l hl
    obtain ⟨e, he, rfl⟩ := List.mem_map.1 (List.mem_toFinset.1 hl)
    exact Finset.mem_range.2 (h2 e he).1
  · intro l hl hn
    rw [h3 l (Finset.mem_range.1 hl) (fun h => hn (List.mem_toFinset.2 h)), zero_mul]

/-- A listed line is a `Line`. -/
theorem Line.of_list {ptr idx : List Nat} {vals : List K} {li lo hi k : Nat} {L : List (Nat × K)} {coef : Nat → K} (h0 : ptr[li]? = some lo) (h1 : ptr[li + 1]? = some hi)
    (hl : hi - lo = L.length) (he : ∀ p (hp : p < L.length), idx[lo + p]? = some L[p].1 ∧ vals[lo + p]? = some L[p].2) (hn : (L.map Prod.fst).Nodup)
    (hc : ∀ e ∈ L, e.1 < k ∧ e.2 = coef e.1) (hz : ∀ l < k, l ∉ L.map Prod.fst → coef l = 0) : Line ptr idx vals li k coef := by
  refine ⟨lo, hi, fun p => ((L[p]?).getD (0, 0)).1, fun p => ((L[p]?).getD (0, 0)).2, h0, h1, ?_, ?_⟩
  · intro p hp
    rw [hl] at hp
    obtain ⟨a, b⟩ := he p hp
    have e : L[p]? = some L[p] := List.getElem?_eq_getElem hp
    simp only [e, Option.getD_some]
    exact ⟨a, b, (hc _ (List.getElem_mem hp)).1⟩
  · intro g
    rw [hl, ← sum_listed hn hc hz g]
    clear h0 h1 hl he hn hc hz
    induction L with
    | nil => rfl
    | cons x L ih => rw [List.length_cons, Finset.sum_range_succ', List.map_cons, List.sum_cons, add_comm]; simpa using ih

theorem Line.congr {ptr idx : List Nat} {vals : List K} {li k : Nat} {f g : Nat → K} (h : Line ptr idx vals li k f) (e : ∀ l < k, f l = g l) : Line ptr idx vals li k g := by
  obtain ⟨lo, hi, I, X, p0, p1, p2, p3⟩ := h
  refine ⟨lo, hi, I, X, p0, p1, p2, fun w => ?_⟩
  rw [p3 w]
  exact Finset.sum_congr rfl fun l hl => by rw [e l (Finset.mem_range.1 hl)]

variable [LinearOrder K]

/-- The numbers of a matrix are exactly represented: small ones are zero and the marker of the fill-in is not one of them. -/
def Clean (ev : Env K) (rows cols : Nat) (A : Nat → Nat → K) : Prop :=
  ∀ r c, r < rows → c < cols → A r c ≠ ev.big ∧ (¬ |A r c| > ev.tol → A r c = 0)

/-- Columns of a CSC matrix; `vals` are its values times `s`. -/
theorem csc_line [IsStrictOrderedRing K] {ev : Env K} {rows cols : Nat} {a : List K} {A : Nat → Nat → K} (hA : Mat rows cols cols a A) (hlen : rows * cols ≤ a.length) (hc : Clean ev rows cols A)
    {sr sc : Option Nat} (hsr : sr.getD rows ≤ rows) (hsc : sc.getD cols ≤ cols) {m : Comp K}
    (hm : denseToCsc rows cols a ev.tol ev.big sr sc ev.qfma ⟨[], [], []⟩ = some m) {s : K} {vals : List K}
    (hv : ∀ (p : Nat) x, m.val[p]? = some x → vals[p]? = some (s * x)) {j : Nat} (hj : j < sc.getD cols) :
    Line m.ptr m.idx vals j (sr.getD rows) (fun l => s * A l j) := by
  obtain ⟨m', h0, h1, h2⟩ := C53_fill (tol := ev.tol) (big := ev.big) A hlen hA (fun r c hr hc' => (hc r c hr hc').1) sr sc ev.qfma ⟨[], [], []⟩
  rw [hm] at h0
  cases h0
  obtain ⟨L, l0, l1, l2, l3, -⟩ := h2 j hj
  obtain ⟨lo, hi, p0, p1, p2, -, p4⟩ := line_of h1 hj l0
  have hj' : j < cols := hj.trans_le hsc
  refine Line.of_list (L := L.map (fun e => (e.1, s * e.2))) p0 p1 (by simpa using p2) ?_ ?_ ?_ ?_
  · intro p hp
    have hp' : p < L.length := by simpa using hp
    obtain ⟨a1, a2⟩ := p4 p hp'
    refine ⟨by simpa using a1, ?_⟩
    simpa using hv _ _ a2
  · have : (L.map (fun e => (e.1, s * e.2))).map Prod.fst = L.map Prod.fst := by simp
    rw [this]
    exact l1.imp fun h => Nat.ne_of_lt h
  · intro e he
    obtain ⟨f, hf, rfl⟩ := List.mem_map.1 he
    obtain ⟨g1, g2, -, g4⟩ := l2 f.1 f.2 hf
    refine ⟨g1, ?_⟩
    simp only
    rw [g4]
    split
    · rfl
    · rename_i hn
      rw [(hc f.1 j g2 hj').2 hn]
  · intro l hl hn
    by_cases ha : |A l j| > ev.tol
    · exact absurd (List.mem_map.2 ⟨(l, s * A l j), List.mem_map.2 ⟨_, l3 l hl (by omega) hj' ha, rfl⟩, rfl⟩) hn
    · rw [(hc l j (by omega) hj').2 ha, mul_zero]

/-- The sparse array `s` lists the entries of the dense `m` by `n` matrix `d` at the positions `pos`; all other entries are zero. -/
structure SparseOf (pos : List (Nat × Nat)) (m n : Nat) (d s : List K) : Prop where
  len : m * n ≤ d.length
  zero : ∀ r c, r < m → c < n → (r, c) ∉ pos → d[r * n + c]? = some 0
  get : ∀ (k : Nat) r c, pos[k]? = some (r, c) → r < m ∧ c < n ∧ s[k]? = d[r * n + c]?

/-- Positions of the non-zeros of a matrix by rows. -/
def posOf {α : Type} [Zero α] [DecidableEq α] (m n : Nat) (P : Nat → Nat → α) : List (Nat × Nat) :=
  (List.range m).flatMap (fun r => ((List.range n).filter (fun c => P r c ≠ 0)).map (fun c => (r, c)))

theorem flatMap_length_congr {α β : Type} (f : Nat → List α) (g : Nat → List β) (h : ∀ i, (f i).length = (g i).length) (n : Nat) :
    ((List.range n).flatMap f).length = ((List.range n).flatMap g).length := by
  induction n with
  | zero => rfl
  | succ n ih => rw [flatMap_range_succ, flatMap_range_succ, List.length_append, List.length_append, ih, h]

/-- A pattern in CSR: rows of the pointers, indices. -/
theorem csr_pattern {m n : Nat} {a : List ℚ} {P : Nat → Nat → ℚ} (hP : Mat m n n a P) {pt : Comp ℚ} (h : denseToCsr m n a 0 none none ⟨[], [], []⟩ = some pt) :
    pt.val.length = (posOf m n P).length ∧ ∀ r < m, ∃ lo hi, pt.ptr[r]? = some lo ∧ pt.ptr[r + 1]? = some hi ∧
      hi - lo = ((List.range n).filter (fun c => P r c ≠ 0)).length ∧
      (∀ p (hp : p < ((List.range n).filter (fun c => P r c ≠ 0)).length), pt.idx[lo + p]? = some ((List.range n).filter (fun c => P r c ≠ 0))[p] ∧
        (posOf m n P)[lo + p]? = some (r, ((List.range n).filter (fun c => P r c ≠ 0))[p])) := by
  obtain ⟨pt', h0, h1, h2⟩ := C53_dense_csr (tol := 0) P hP none none ⟨[], [], []⟩
  rw [h] at h0
  cases h0
  simp only [Option.getD_none] at h1 h2
  have hl : ∀ r < m, pt.line r = some (((List.range n).filter (fun c => P r c ≠ 0)).map (fun c => (c, P r c))) := by
    intro r hr
    rw [h2 r hr]
    congr 2
    apply List.filter_congr
    intro c hc
    have := List.mem_range.1 hc
    simp [hr, this, abs_pos]
  have hptr : ∀ r ≤ m, pt.ptr[r]? = some ((List.range r).flatMap (fun r => ((List.range n).filter (fun c => P r c ≠ 0)).map (fun c => (r, c)))).length := by
    intro r hr
    induction r with
    | zero => simpa using h1.first
    | succ r ih =>
      obtain ⟨lo, hi, p0, p1, p2, p3, -⟩ := line_of h1 (show r < m by omega) (hl r (by omega))
      have := ih (by omega)
      rw [p0] at this
      cases this
      rw [p1, flatMap_range_succ, List.length_append, List.length_map]
      rw [List.length_map] at p2
      congr 1
      omega
  refine ⟨?_, fun r hr => ?_⟩
  · have := hptr m (Nat.le_refl _)
    rw [h1.last] at this
    exact Option.some.inj this
  obtain ⟨lo, hi, p0, p1, p2, -, p4⟩ := line_of h1 hr (hl r hr)
  rw [List.length_map] at p2
  refine ⟨lo, hi, p0, p1, p2, fun p hp => ⟨?_, ?_⟩⟩
  · simpa using (p4 p (by simpa using hp)).1
  · have h3 := hptr r (by omega)
    rw [p0] at h3
    cases h3
    have h4 := flatMap_seg (fun r => ((List.range n).filter (fun c => P r c ≠ 0)).map (fun c => (r, c))) hr
    have h5 : (((List.range n).filter (fun c => P r c ≠ 0)).map (fun c => (r, c)))[p]? = some (r, ((List.range n).filter (fun c => P r c ≠ 0))[p]) := by
      rw [List.getElem?_map, List.getElem?_eq_getElem hp]; rfl
    rw [← h4, List.getElem?_take_of_lt (by simpa using hp), List.getElem?_drop] at h5
    exact h5

/-- Rows of a CSR kernel for the sparse array of a dense matrix. `off` is added to the column indices. -/
theorem csr_line {m n : Nat} {a : List ℚ} {P : Nat → Nat → ℚ} (hP : Mat m n n a P) {pt : Comp ℚ} (h : denseToCsr m n a 0 none none ⟨[], [], []⟩ = some pt)
    {pos : List (Nat × Nat)} (hpos : posOf m n P = pos) {d s : List K} (hs : SparseOf pos m n d s) (off : Nat) {r : Nat} (hr : r < m) :
    Line pt.ptr (pt.idx.map (· + off)) s r (off + n) (fun l => if off ≤ l then val d (r * n + (l - off)) else 0) := by
  obtain ⟨-, h1⟩ := csr_pattern hP h
  obtain ⟨lo, hi, p0, p1, p2, p3⟩ := h1 r hr
  subst hpos
  generalize hF : (List.range n).filter (fun c => P r c ≠ 0) = F at p2 p3
  have hFn : F.Nodup := hF ▸ List.nodup_range.filter _
  refine Line.of_list (L := F.map (fun c => (c + off, val d (r * n + c)))) p0 p1 (by simpa using p2) ?_ ?_ ?_ ?_
  · intro p hp
    have hp' : p < F.length := by simpa using hp
    obtain ⟨a1, a2⟩ := p3 p hp'
    refine ⟨by simp [List.getElem?_map, a1], ?_⟩
    obtain ⟨b1, b2, b3⟩ := hs.get _ _ _ a2
    rw [b3, val_some (lt_of_lt_of_le (mad_lt b1 b2) hs.len)]
    simp
  · rw [List.map_map]
    exact (hFn.map (f := fun c => c + off) (fun a b h => by simpa using h) : (F.map (fun c => c + off)).Nodup)
  · intro e he
    obtain ⟨c, hc, rfl⟩ := List.mem_map.1 he
    rw [← hF, List.mem_filter, List.mem_range] at hc
    refine ⟨by simp only; omega, ?_⟩
    simp
  · intro l hl hn
    split
    · rename_i ho
      have : (r, l - off) ∉ posOf m n P := by
        intro hm
        rw [posOf, List.mem_flatMap] at hm
        obtain ⟨r', -, hm⟩ := hm
        obtain ⟨c, hc, e⟩ := List.mem_map.1 hm
        cases e
        rw [hF] at hc
        exact hn (List.mem_map.2 ⟨_, List.mem_map.2 ⟨_, hc, rfl⟩, by simp only; omega⟩)
      rw [val, hs.zero r (l - off) hr (by omega) this]; rfl
    · rfl

/-- Rows without offset. -/
theorem csr_line0 {m n : Nat} {a : List ℚ} {P : Nat → Nat → ℚ} (hP : Mat m n n a P) {pt : Comp ℚ} (h : denseToCsr m n a 0 none none ⟨[], [], []⟩ = some pt)
    {pos : List (Nat × Nat)} (hpos : posOf m n P = pos) {d s : List K} (hs : SparseOf pos m n d s) {r : Nat} (hr : r < m) :
    Line pt.ptr pt.idx s r n (fun l => val d (r * n + l)) := by
  have := csr_line hP h hpos hs 0 hr
  simpa using this

theorem SparseOf.mat {pos : List (Nat × Nat)} {m n : Nat} {d s : List K} (h : SparseOf pos m n d s) : Mat m n n d (fun r c => val d (r * n + c)) :=
  fun _ _ hi hj => val_some (lt_of_lt_of_le (mad_lt hi hj) h.len)

end Edge.Fused
