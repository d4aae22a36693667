import Verif.Linalg.Dense
/-!
Sparse formats (C53) of `src/linalg/Matrix.h`.
-/
namespace Edge.Linalg
open Edge

variable {K : Type}

/-! ### Specification -/

/-- Entries of one row (CSR) or column (CSC) of a compressed matrix: pairs of index and value between the two
pointers. -/
def Comp.line (m : Comp K) (i : Nat) : Option (List (Nat × K)) := do
  let lo ← m.ptr[i]?
  let hi ← m.ptr[i + 1]?
  return ((m.idx.zip m.val).drop lo).take (hi - lo)

/-- A well-formed compressed matrix with `n` lines: pointers start at zero, do not decrease and end at the number of
values, which is the number of indices. -/
structure Comp.Ok (m : Comp K) (n : Nat) : Prop where
  len : m.ptr.length = n + 1
  first : m.ptr[0]? = some 0
  last : m.ptr[n]? = some m.val.length
  idx : m.idx.length = m.val.length
  mono : ∀ (i a b : Nat), m.ptr[i]? = some a → m.ptr[i + 1]? = some b → a ≤ b

/-! ### Lemmas -/

theorem flatMap_range_succ {α : Type} (f : Nat → List α) (n : Nat) :
    (List.range (n + 1)).flatMap f = (List.range n).flatMap f ++ f n := by
  simp [List.range_succ, List.flatMap_append]

theorem flatMap_range_le {α : Type} (f : Nat → List α) {i n : Nat} (h : i ≤ n) :
    ((List.range i).flatMap f).length ≤ ((List.range n).flatMap f).length := by
  induction n with
  | zero => have : i = 0 := by omega
            subst this; exact Nat.le_refl _
  | succ n ih =>
    by_cases e : i = n + 1
    · subst e; exact Nat.le_refl _
    · have := ih (by omega)
      rw [flatMap_range_succ, List.length_append]; omega

/-- Part of a concatenation which belongs to index `i`. -/
theorem flatMap_seg {α : Type} (f : Nat → List α) {n i : Nat} (hi : i < n) :
    (((List.range n).flatMap f).drop ((List.range i).flatMap f).length).take (f i).length = f i := by
  induction n with
  | zero => omega
  | succ n ih =>
    rw [flatMap_range_succ]
    by_cases h : i = n
    · subst h
      rw [List.drop_append_of_le_length (Nat.le_refl _), List.drop_length, List.nil_append, List.take_length]
    · have hlen := flatMap_range_le f (show i + 1 ≤ n by omega)
      rw [flatMap_range_succ, List.length_append] at hlen
      rw [List.drop_append_of_le_length (by omega), List.take_append_of_le_length (by rw [List.length_drop]; omega)]
      exact ih (by omega)

/-- Entries of a coordinate matrix at a position, in order. -/
def cell (crd : List (Entry K)) (ro co : Nat) : List (Entry K) := crd.filter (fun e => ro = e.ro ∧ co = e.co)

theorem scanNz_spec {ix : Entry K → Nat} {ro co : Nat} : ∀ (crd : List (Entry K)) (el : Nat) (val : List K)
    (idx : List Nat), el + (cell crd ro co).length ≤ val.length → idx.length = val.length →
    ∃ val' idx', scanNz ix crd ro co (el, val, idx) = some (el + (cell crd ro co).length, val', idx') ∧
      val'.length = val.length ∧ idx'.length = val.length ∧
      val'.take (el + (cell crd ro co).length) = val.take el ++ (cell crd ro co).map (·.nz) ∧
      idx'.take (el + (cell crd ro co).length) = idx.take el ++ (cell crd ro co).map ix
  | [], el, val, idx, _, h2 => by
    refine ⟨val, idx, ?_⟩
    simp [scanNz, cell, h2]
  | e :: crd, el, val, idx, h1, h2 => by
    by_cases he : ro = e.ro ∧ co = e.co
    · have hc : cell (e :: crd) ro co = e :: cell crd ro co := by simp [cell, he]
      rw [hc, List.length_cons] at h1
      obtain ⟨val', idx', g0, g1, g2, g3, g4⟩ := scanNz_spec (ix := ix) (ro := ro) (co := co) crd (el + 1) (val.set el e.nz)
        (idx.set el (ix e)) (by simp; omega) (by simp [h2])
      refine ⟨val', idx', ?_, by simpa using g1, by simpa using g2, ?_, ?_⟩
      · rw [scanNz] at g0 ⊢
        rw [List.foldlM_cons, if_pos he]
        simp only [Option.bind_eq_bind]
        rw [wr_some (by omega)]
        simp only [Option.bind_some]
        rw [wr_some (by omega)]
        simp only [Option.bind_some]
        refine Eq.trans g0 ?_
        rw [hc, List.length_cons, Nat.add_assoc, Nat.add_comm 1]
      · rw [hc, List.length_cons, ← Nat.add_assoc, Nat.add_right_comm, g3, List.map_cons, List.take_add_one,
          List.getElem?_set_self (by omega), List.take_set_of_le (Nat.le_refl _)]
        simp
      · rw [hc, List.length_cons, ← Nat.add_assoc, Nat.add_right_comm, g4, List.map_cons, List.take_add_one,
          List.getElem?_set_self (by omega), List.take_set_of_le (Nat.le_refl _)]
        simp
    · have hc : cell (e :: crd) ro co = cell crd ro co := by simp [cell, he]
      rw [hc] at h1
      obtain ⟨val', idx', g0, g⟩ := scanNz_spec (ix := ix) (ro := ro) (co := co) crd el val idx h1 h2
      refine ⟨val', idx', ?_, ?_⟩
      · rw [scanNz] at g0 ⊢
        rw [List.foldlM_cons, if_neg he, hc]
        exact g0
      · rw [hc]; exact g

/-- Entries of line `i`, position by position. -/
def lineOf (crd : List (Entry K)) (ro co : Nat → Nat → Nat) (n2 i : Nat) : List (Entry K) :=
  (List.range n2).flatMap (fun j => cell crd (ro i j) (co i j))

theorem line_spec {ix : Entry K → Nat} {crd : List (Entry K)} {ro co : Nat → Nat → Nat} {n2 i el : Nat} {val : List K}
    {idx : List Nat} (h1 : el + (lineOf crd ro co n2 i).length ≤ val.length) (h2 : idx.length = val.length) :
    ∃ val' idx', forN n2 (fun j (s : Nat × List K × List Nat) => scanNz ix crd (ro i j) (co i j) s) (el, val, idx)
        = some (el + (lineOf crd ro co n2 i).length, val', idx') ∧
      val'.length = val.length ∧ idx'.length = val.length ∧
      val'.take (el + (lineOf crd ro co n2 i).length) = val.take el ++ (lineOf crd ro co n2 i).map (·.nz) ∧
      idx'.take (el + (lineOf crd ro co n2 i).length) = idx.take el ++ (lineOf crd ro co n2 i).map ix := by
  obtain ⟨⟨el', val', idx'⟩, g0, g1, g2, g3, g4, g5⟩ := forN_inv (n := n2) (s := (el, val, idx))
    (body := fun j (s : Nat × List K × List Nat) => scanNz ix crd (ro i j) (co i j) s)
    (fun j (s : Nat × List K × List Nat) =>
      s.1 = el + ((List.range j).flatMap (fun j => cell crd (ro i j) (co i j))).length ∧
      s.2.1.length = val.length ∧ s.2.2.length = val.length ∧
      s.2.1.take s.1 = val.take el ++ ((List.range j).flatMap (fun j => cell crd (ro i j) (co i j))).map (·.nz) ∧
      s.2.2.take s.1 = idx.take el ++ ((List.range j).flatMap (fun j => cell crd (ro i j) (co i j))).map ix)
    (by simp [h2]) (by
      rintro j ⟨e1, v1, x1⟩ hj ⟨a1, a2, a3, a4, a5⟩
      have hle := flatMap_range_le (fun j => cell crd (ro i j) (co i j)) (show j + 1 ≤ n2 from hj)
      rw [lineOf] at h1
      rw [flatMap_range_succ, List.length_append] at hle
      simp only at a1 a2 a3 a4 a5
      obtain ⟨v2, x2, b0, b1, b2, b3, b4⟩ := scanNz_spec (ix := ix) (ro := ro i j) (co := co i j) crd e1 v1 x1 (by omega)
        (by omega)
      refine ⟨_, b0, ?_, by simpa using b1.trans a2, by simpa using b2.trans a2, ?_, ?_⟩
      · simp only [flatMap_range_succ, List.length_append]; omega
      · simp only [flatMap_range_succ, List.map_append]
        rw [b3, a4, List.append_assoc]
      · simp only [flatMap_range_succ, List.map_append]
        rw [b4, a5, List.append_assoc])
  simp only at g1 g2 g3 g4 g5
  subst g1
  exact ⟨val', idx', g0, g2, g3, g4, g5⟩

/-- The conversion loops, line by line. -/
theorem comp_spec {ix : Entry K → Nat} {crd : List (Entry K)} {ro co : Nat → Nat → Nat} {n1 n2 : Nat} {val : List K}
    {ptr idx : List Nat} (h1 : ((List.range n1).flatMap (lineOf crd ro co n2)).length ≤ val.length)
    (h2 : idx.length = val.length) (h3 : ptr.length = n1 + 1) :
    ∃ el val' ptr' idx', forN n1 (fun i (s : Nat × List K × List Nat × List Nat) => do
        let ptr ← wr s.2.2.1 i s.1
        let (el, val, idx) ← forN n2 (fun j (s : Nat × List K × List Nat) => scanNz ix crd (ro i j) (co i j) s)
          (s.1, s.2.1, s.2.2.2)
        return (el, val, ptr, idx)) (0, val, ptr, idx) = some (el, val', ptr', idx') ∧
      el = ((List.range n1).flatMap (lineOf crd ro co n2)).length ∧ val'.length = val.length ∧
      idx'.length = val.length ∧ ptr'.length = n1 + 1 ∧
      val'.take el = ((List.range n1).flatMap (lineOf crd ro co n2)).map (·.nz) ∧
      idx'.take el = ((List.range n1).flatMap (lineOf crd ro co n2)).map ix ∧
      ∀ i, i < n1 → ptr'[i]? = some ((List.range i).flatMap (lineOf crd ro co n2)).length := by
  obtain ⟨⟨el', val', ptr', idx'⟩, g0, g⟩ := forN_inv (n := n1) (s := (0, val, ptr, idx))
    (body := fun i (s : Nat × List K × List Nat × List Nat) => do
        let ptr ← wr s.2.2.1 i s.1
        let (el, val, idx) ← forN n2 (fun j (s : Nat × List K × List Nat) => scanNz ix crd (ro i j) (co i j) s)
          (s.1, s.2.1, s.2.2.2)
        return (el, val, ptr, idx))
    (fun n (s : Nat × List K × List Nat × List Nat) =>
      s.1 = ((List.range n).flatMap (lineOf crd ro co n2)).length ∧ s.2.1.length = val.length ∧
      s.2.2.2.length = val.length ∧ s.2.2.1.length = n1 + 1 ∧
      s.2.1.take s.1 = ((List.range n).flatMap (lineOf crd ro co n2)).map (·.nz) ∧
      s.2.2.2.take s.1 = ((List.range n).flatMap (lineOf crd ro co n2)).map ix ∧
      ∀ i, i < n → s.2.2.1[i]? = some ((List.range i).flatMap (lineOf crd ro co n2)).length)
    (by simp [h2, h3]) (by
      rintro n ⟨e1, v1, p1, x1⟩ hn ⟨a1, a2, a3, a4, a5, a6, a7⟩
      have hle := flatMap_range_le (lineOf crd ro co n2) (show n + 1 ≤ n1 from hn)
      rw [flatMap_range_succ, List.length_append] at hle
      simp only at a1 a2 a3 a4 a5 a6 a7
      obtain ⟨v2, x2, b0, b1, b2, b3, b4⟩ := line_spec (ix := ix) (crd := crd) (ro := ro) (co := co) (n2 := n2) (i := n)
        (el := e1) (val := v1) (idx := x1) (by omega) (by omega)
      refine ⟨(e1 + (lineOf crd ro co n2 n).length, v2, p1.set n e1, x2), ?_, ?_, by simpa using b1.trans a2,
        by simpa using b2.trans a2, by simpa using a4, ?_, ?_, ?_⟩
      · simp only [Option.bind_eq_bind]
        rw [wr_some (by omega), Option.bind_some, b0]
        rfl
      · simp only [flatMap_range_succ, List.length_append]; omega
      · simp only [flatMap_range_succ, List.map_append]
        rw [b3, a5]
      · simp only [flatMap_range_succ, List.map_append]
        rw [b4, a6]
      · intro i hi
        simp only
        by_cases e : i = n
        · subst e; rw [List.getElem?_set_self (by omega), a1]
        · rw [List.getElem?_set_ne (fun h => e h.symm)]; exact a7 i (by omega))
  exact ⟨el', val', ptr', idx', g0, g⟩

/-- Counting: the entries listed line by line are the entries inside of the bounds. -/
theorem nnz_eq (crd : List (Entry K)) (nRows nCols : Nat) :
    getNnzCrd nRows nCols crd = crd.countP (fun e => decide (e.ro < nRows ∧ e.co < nCols)) := by
  have : ∀ (l : List (Entry K)) (n : Nat), l.foldl (fun n e => if e.ro < nRows ∧ e.co < nCols then n + 1 else n) n
      = n + l.countP (fun e => decide (e.ro < nRows ∧ e.co < nCols)) := by
    intro l
    induction l with
    | nil => simp
    | cons e l ih =>
      intro n
      rw [List.foldl_cons, ih, List.countP_cons]
      by_cases h : e.ro < nRows ∧ e.co < nCols
      · rw [if_pos h, if_pos (by simpa using h)]; omega
      · rw [if_neg h, if_neg (by simpa using h)]; omega
  rw [getNnzCrd, this]; simp

theorem cells_length (crd : List (Entry K)) (ps : List (Nat × Nat)) (hnd : ps.Nodup) :
    (ps.flatMap (fun p => cell crd p.1 p.2)).length = crd.countP (fun e => decide ((e.ro, e.co) ∈ ps)) := by
  induction crd with
  | nil => simp [cell]
  | cons e crd ih =>
    rw [List.countP_cons, ← ih]
    clear ih
    induction ps with
    | nil => simp
    | cons p ps ih =>
      rw [List.nodup_cons] at hnd
      have ih := ih hnd.2
      simp only [List.flatMap_cons, List.length_append, decide_eq_true_eq] at ih ⊢
      by_cases h : p.1 = e.ro ∧ p.2 = e.co
      · have hp : p = (e.ro, e.co) := Prod.ext h.1 h.2
        have h1 : cell (e :: crd) p.1 p.2 = e :: cell crd p.1 p.2 := by simp [cell, h]
        rw [h1, List.length_cons]
        rw [if_neg (by rw [← hp]; exact hnd.1)] at ih
        rw [if_pos (by rw [hp]; simp)]
        omega
      · have h1 : cell (e :: crd) p.1 p.2 = cell crd p.1 p.2 := by simp [cell, h]
        rw [h1, ih]
        have : ((e.ro, e.co) ∈ p :: ps) ↔ (e.ro, e.co) ∈ ps := by
          rw [List.mem_cons]
          constructor
          · rintro (h' | h')
            · exact absurd ⟨by rw [← h'], by rw [← h']⟩ h
            · exact h'
          · exact Or.inr
        simp only [this]
        omega

theorem rows_length (crd : List (Entry K)) (nRows nCols : Nat) :
    ((List.range nRows).flatMap (lineOf crd (fun i _ => i) (fun _ j => j) nCols)).length = getNnzCrd nRows nCols crd := by
  have h := cells_length crd (pairs nRows nCols) (nodup_pairs _ _)
  rw [pairs, List.flatMap_assoc] at h
  simp only [List.flatMap_map] at h
  rw [nnz_eq]
  have e : (fun e : Entry K => decide ((e.ro, e.co) ∈ pairs nRows nCols)) = fun e => decide (e.ro < nRows ∧ e.co < nCols) := by
    funext e; simp [mem_pairs]
  rw [← e]
  exact h

theorem cols_length (crd : List (Entry K)) (nRows nCols : Nat) :
    ((List.range nCols).flatMap (lineOf crd (fun _ j => j) (fun i _ => i) nRows)).length = getNnzCrd nRows nCols crd := by
  have h := cells_length crd ((pairs nCols nRows).map (fun p => (p.2, p.1)))
    (nodup_map_of_inj (nodup_pairs _ _) (by
      intro x _ y _ e
      simp only [Prod.mk.injEq] at e
      exact Prod.ext e.2 e.1))
  have hl : (List.range nCols).flatMap (lineOf crd (fun _ j => j) (fun i _ => i) nRows)
      = ((pairs nCols nRows).map (fun p => (p.2, p.1))).flatMap (fun p => cell crd p.1 p.2) := by
    rw [pairs, List.map_flatMap, List.flatMap_assoc]
    simp only [List.flatMap_map, List.map_map]
    rfl
  rw [← hl] at h
  rw [nnz_eq]
  have e : (fun e : Entry K => decide ((e.ro, e.co) ∈ (pairs nCols nRows).map (fun p => (p.2, p.1))))
      = fun e => decide (e.ro < nRows ∧ e.co < nCols) := by
    funext e
    congr 1
    simp only [List.mem_map, mem_pairs, Prod.mk.injEq, Prod.exists, eq_iff_iff]
    constructor
    · rintro ⟨a, b, ⟨h1, h2⟩, rfl, rfl⟩; exact ⟨h2, h1⟩
    · rintro ⟨h1, h2⟩; exact ⟨_, _, ⟨h2, h1⟩, rfl, rfl⟩
  rw [← e]
  exact h

theorem length_resize {α : Type} (z : α) (l : List α) (n : Nat) : (resize z l n).length = n := by
  simp [resize]; omega

/-- Well-formedness and lines of what the conversion loops produce. -/
theorem comp_ok {ix : Entry K → Nat} {L : Nat → List (Entry K)} {n nnz : Nat} {val : List K} {ptr idx : List Nat}
    (hn : ((List.range n).flatMap L).length = nnz) (h1 : val.length = nnz) (h2 : idx.length = nnz)
    (h3 : ptr.length = n + 1) (h4 : val.take nnz = ((List.range n).flatMap L).map (·.nz))
    (h5 : idx.take nnz = ((List.range n).flatMap L).map ix)
    (h6 : ∀ i, i < n → ptr[i]? = some ((List.range i).flatMap L).length) :
    let m : Comp K := { val := val, ptr := ptr.set n nnz, idx := idx }
    m.Ok n ∧ ∀ i, i < n → m.line i = some ((L i).map (fun e => (ix e, e.nz))) := by
  intro m
  have hp : ∀ i, i ≤ n → m.ptr[i]? = some ((List.range i).flatMap L).length := by
    intro i hi
    show (ptr.set n nnz)[i]? = _
    by_cases e : i = n
    · subst e; rw [List.getElem?_set_self (by omega), hn]
    · rw [List.getElem?_set_ne (fun h => e h.symm)]; exact h6 i (by omega)
  have hlen : m.ptr.length = n + 1 := by simp [m, h3]
  refine ⟨⟨hlen, by simpa using hp 0 (by omega), ?_, by show idx.length = val.length; omega, ?_⟩, ?_⟩
  · rw [hp n (Nat.le_refl _), hn, ← h1]
  · intro i a b ha hb
    have hi : i + 1 < n + 1 := by rw [← hlen]; exact (List.getElem?_eq_some_iff.1 hb).1
    rw [hp i (by omega)] at ha
    rw [hp (i + 1) (by omega)] at hb
    cases ha; cases hb
    exact flatMap_range_le L (by omega)
  · intro i hi
    simp only [Comp.line, Option.bind_eq_bind]
    rw [hp i (by omega), hp (i + 1) (by omega)]
    simp only [Option.bind_some, Option.pure_def, Option.some.injEq]
    have hz : m.idx.zip m.val = ((List.range n).flatMap L).map (fun e => (ix e, e.nz)) := by
      rw [← h1, List.take_length] at h4
      rw [← h2, List.take_length] at h5
      show idx.zip val = _
      rw [h4, h5, List.zip_map']
    rw [hz, flatMap_range_succ, List.length_append, Nat.add_sub_cancel_left, ← List.map_drop, ← List.map_take,
      flatMap_seg L hi]

/-! ### C53 -/

section
variable [Field K] [LinearOrder K]

/-- C53: the CSR format of a sub-matrix holds in each row exactly the entries of the coordinate format in that row and
inside of the bounds, column by column; whatever the output held before. -/
theorem C53_csr (subRows subCols : Nat) (crd : List (Entry K)) (old : Comp K) :
    ∃ m, crdToCsr subRows subCols crd old = some m ∧ m.Ok subRows ∧ ∀ r, r < subRows →
      m.line r = some ((List.range subCols).flatMap (fun c =>
        (crd.filter (fun e => r = e.ro ∧ c = e.co)).map (fun e => (c, e.nz)))) := by
  have hl := rows_length crd subRows subCols
  obtain ⟨el, val, ptr, idx, g0, g1, g2, g3, g4, g5, g6, g7⟩ := comp_spec (ix := fun e => e.co) (crd := crd)
    (ro := fun i _ => i) (co := fun _ j => j) (n1 := subRows) (n2 := subCols)
    (val := resize 0 old.val (getNnzCrd subRows subCols crd)) (ptr := resize 0 old.ptr (subRows + 1))
    (idx := resize 0 old.idx (getNnzCrd subRows subCols crd)) (by rw [length_resize, hl])
    (by rw [length_resize, length_resize]) (length_resize _ _ _)
  rw [length_resize] at g2 g3
  rw [g1, hl] at g5 g6
  obtain ⟨h1, h2⟩ := comp_ok hl g2 g3 g4 g5 g6 g7
  refine ⟨_, ?_, h1, fun r hr => ?_⟩
  · simp only [crdToCsr, Option.bind_eq_bind] at g0 ⊢
    rw [g0]
    simp only [Option.bind_some]
    rw [wr_some (by omega)]
    rfl
  · rw [h2 r hr, lineOf, List.map_flatMap]
    congr 2
    funext c
    apply List.map_congr_left
    intro e he
    simp only [cell, List.mem_filter, decide_eq_true_eq] at he
    rw [he.2.2]

/-- C53: the same for the columns of the CSC format. -/
theorem C53_csc (subRows subCols : Nat) (crd : List (Entry K)) (old : Comp K) :
    ∃ m, crdToCsc subRows subCols crd old = some m ∧ m.Ok subCols ∧ ∀ c, c < subCols →
      m.line c = some ((List.range subRows).flatMap (fun r =>
        (crd.filter (fun e => r = e.ro ∧ c = e.co)).map (fun e => (r, e.nz)))) := by
  have hl := cols_length crd subRows subCols
  obtain ⟨el, val, ptr, idx, g0, g1, g2, g3, g4, g5, g6, g7⟩ := comp_spec (ix := fun e => e.ro) (crd := crd)
    (ro := fun _ j => j) (co := fun i _ => i) (n1 := subCols) (n2 := subRows)
    (val := resize 0 old.val (getNnzCrd subRows subCols crd)) (ptr := resize 0 old.ptr (subCols + 1))
    (idx := resize 0 old.idx (getNnzCrd subRows subCols crd)) (by rw [length_resize, hl])
    (by rw [length_resize, length_resize]) (length_resize _ _ _)
  rw [length_resize] at g2 g3
  rw [g1, hl] at g5 g6
  obtain ⟨h1, h2⟩ := comp_ok hl g2 g3 g4 g5 g6 g7
  refine ⟨_, ?_, h1, fun c hc => ?_⟩
  · simp only [crdToCsc, Option.bind_eq_bind] at g0 ⊢
    rw [g0]
    simp only [Option.bind_some]
    rw [wr_some (by omega)]
    rfl
  · rw [h2 c hc, lineOf, List.map_flatMap]
    congr 2
    funext r
    apply List.map_congr_left
    intro e he
    simp only [cell, List.mem_filter, decide_eq_true_eq] at he
    rw [he.2.1]

theorem denseToCrd_eq {nRows nCols : Nat} {a : List K} {tol : K} (A : Nat → Nat → K)
    (hA : ∀ r c, r < nRows → c < nCols → a[r * nCols + c]? = some (A r c)) :
    denseToCrd nRows nCols a tol = some ((pairs nRows nCols).filterMap
      (fun p => if |A p.1 p.2| > tol then some ⟨p.1, p.2, A p.1 p.2⟩ else none)) := by
  rw [denseToCrd, forN_pairs nRows nCols (fun ro co (o : List (Entry K)) => do
    let x ← rd a (ro * nCols + co)
    if |x| > tol then return o ++ [(⟨ro, co, x⟩ : Entry K)] else return o)]
  obtain ⟨t, h0, h1⟩ := foldlM_inv (l := pairs nRows nCols) (s := ([] : List (Entry K)))
    (f := fun (o : List (Entry K)) p => do
      let x ← rd a (p.1 * nCols + p.2)
      if |x| > tol then return o ++ [(⟨p.1, p.2, x⟩ : Entry K)] else return o)
    (fun pre o => o = pre.filterMap
      (fun p => if |A p.1 p.2| > tol then some (⟨p.1, p.2, A p.1 p.2⟩ : Entry K) else none)) rfl (by
      rintro pre p post o hps rfl
      have hp : p ∈ pairs nRows nCols := by rw [hps]; simp
      have hp' := mem_pairs.1 hp
      simp only [rd, hA _ _ hp'.1 hp'.2, Option.bind_eq_bind, Option.bind_some, List.filterMap_append]
      by_cases h : |A p.1 p.2| > tol
      · rw [if_pos h]; exact ⟨_, rfl, by simp [h]⟩
      · rw [if_neg h]; exact ⟨_, rfl, by simp [h]⟩)
  rw [h0, h1]

theorem cell_filterMap (g : Nat × Nat → Option K) (ps : List (Nat × Nat)) (hnd : ps.Nodup) (r c : Nat) :
    cell (ps.filterMap (fun p => (g p).map (fun x => (⟨p.1, p.2, x⟩ : Entry K)))) r c
      = if (r, c) ∈ ps then ((g (r, c)).map (fun x => (⟨r, c, x⟩ : Entry K))).toList else [] := by
  induction ps with
  | nil => rfl
  | cons p ps ih =>
    rw [List.nodup_cons] at hnd
    have ih := ih hnd.2
    by_cases hp : (r, c) = p
    · subst hp
      rw [if_neg hnd.1] at ih
      rw [if_pos (by simp)]
      cases hg : g (r, c) with
      | none => rw [List.filterMap_cons_none (by simp [hg]), ih]; rfl
      | some x =>
        rw [List.filterMap_cons_some (b := ⟨r, c, x⟩) (by simp [hg])]
        simp only [cell] at ih ⊢
        rw [List.filter_cons_of_pos (by simp), ih]
        rfl
    · have hm : ((r, c) ∈ p :: ps) ↔ (r, c) ∈ ps := by simp [hp]
      simp only [hm]
      rw [← ih]
      cases hg : g p with
      | none => rw [List.filterMap_cons_none (by simp [hg])]
      | some x =>
        rw [List.filterMap_cons_some (b := ⟨p.1, p.2, x⟩) (by simp [hg])]
        simp only [cell]
        rw [List.filter_cons_of_neg]
        simp only [decide_eq_true_eq]
        rintro ⟨h1, h2⟩
        exact hp (Prod.ext h1 h2)

/-- C53: the coordinate format lists exactly the entries above the tolerance with their position, in row-major order. -/
theorem C53_crd {nRows nCols : Nat} {a : List K} {tol : K} (A : Nat → Nat → K)
    (hA : ∀ r c, r < nRows → c < nCols → a[r * nCols + c]? = some (A r c)) :
    ∃ crd, denseToCrd nRows nCols a tol = some crd ∧
      crd.Pairwise (fun x y => x.ro < y.ro ∨ (x.ro = y.ro ∧ x.co < y.co)) ∧
      ∀ e, e ∈ crd ↔ e.ro < nRows ∧ e.co < nCols ∧ e.nz = A e.ro e.co ∧ |e.nz| > tol := by
  refine ⟨_, denseToCrd_eq A hA, ?_, ?_⟩
  · have hs : (pairs nRows nCols).Pairwise (fun x y => x.1 < y.1 ∨ (x.1 = y.1 ∧ x.2 < y.2)) := by
      rw [pairs, List.pairwise_flatMap]
      refine ⟨fun i _ => ?_, ?_⟩
      · rw [List.pairwise_map]
        exact List.pairwise_lt_range.imp (fun h => Or.inr ⟨rfl, h⟩)
      · refine List.pairwise_lt_range.imp ?_
        intro i j hij x hx y hy
        obtain ⟨_, _, rfl⟩ := List.mem_map.1 hx
        obtain ⟨_, _, rfl⟩ := List.mem_map.1 hy
        exact Or.inl hij
    rw [List.pairwise_filterMap]
    refine hs.imp ?_
    intro x y h e he e' he'
    split at he
    · split at he'
      · cases he; cases he'; exact h
      · cases he'
    · cases he
  · intro e
    simp only [List.mem_filterMap, mem_pairs]
    constructor
    · rintro ⟨p, hp, h⟩
      split at h
      · rename_i ht
        cases h; exact ⟨hp.1, hp.2, rfl, ht⟩
      · cases h
    · rintro ⟨h1, h2, h3, h4⟩
      refine ⟨(e.ro, e.co), ⟨h1, h2⟩, ?_⟩
      rw [h3] at h4
      rw [if_pos h4, ← h3]

/-- Entries of a dense matrix above the tolerance at one position. -/
theorem cell_dense (A : Nat → Nat → K) (tol : K) (nRows nCols r c : Nat) :
    cell ((pairs nRows nCols).filterMap (fun p => if |A p.1 p.2| > tol then some (⟨p.1, p.2, A p.1 p.2⟩ : Entry K) else none)) r c
      = if r < nRows ∧ c < nCols ∧ |A r c| > tol then [⟨r, c, A r c⟩] else [] := by
  have h := cell_filterMap (fun p => if |A p.1 p.2| > tol then some (A p.1 p.2) else none) (pairs nRows nCols)
    (nodup_pairs _ _) r c
  have e : ∀ p : Nat × Nat, (if |A p.1 p.2| > tol then some (A p.1 p.2) else none).map (fun x => (⟨p.1, p.2, x⟩ : Entry K))
      = if |A p.1 p.2| > tol then some (⟨p.1, p.2, A p.1 p.2⟩ : Entry K) else none := by
    intro p; split <;> rfl
  simp only [e] at h
  rw [h]
  have e2 := e (r, c)
  simp only at e2
  rw [e2]
  by_cases h1 : r < nRows ∧ c < nCols
  · rw [if_pos (mem_pairs.2 h1)]
    by_cases h2 : |A r c| > tol
    · rw [if_pos h2, if_pos ⟨h1.1, h1.2, h2⟩]; rfl
    · rw [if_neg h2, if_neg (fun h => h2 h.2.2)]; rfl
  · rw [if_neg (fun h => h1 (mem_pairs.1 h)), if_neg (fun h => h1 ⟨h.1, h.2.1⟩)]

theorem flatMap_if {α : Type} (n : Nat) (P : Nat → Prop) [DecidablePred P] (f : Nat → α) :
    (List.range n).flatMap (fun i => if P i then [f i] else []) = ((List.range n).filter (fun i => P i)).map f := by
  induction n with
  | zero => rfl
  | succ n ih =>
    rw [flatMap_range_succ, ih, List.range_succ, List.filter_append, List.map_append]
    congr 1
    by_cases h : P n <;> simp [h]

/-- C53: CSR of a dense matrix: row `r` lists the columns (ascending) with entries above the tolerance and these
entries. -/
theorem C53_dense_csr {nRows nCols : Nat} {a : List K} {tol : K} (A : Nat → Nat → K)
    (hA : ∀ r c, r < nRows → c < nCols → a[r * nCols + c]? = some (A r c)) (subRows subCols : Option Nat)
    (old : Comp K) :
    ∃ m, denseToCsr nRows nCols a tol subRows subCols old = some m ∧ m.Ok (subRows.getD nRows) ∧
      ∀ r, r < subRows.getD nRows → m.line r = some (((List.range (subCols.getD nCols)).filter
        (fun c => r < nRows ∧ c < nCols ∧ |A r c| > tol)).map (fun c => (c, A r c))) := by
  obtain ⟨m, h0, h1, h2⟩ := C53_csr (subRows.getD nRows) (subCols.getD nCols) ((pairs nRows nCols).filterMap
      (fun p => if |A p.1 p.2| > tol then some (⟨p.1, p.2, A p.1 p.2⟩ : Entry K) else none)) old
  refine ⟨m, ?_, h1, fun r hr => ?_⟩
  · simp only [denseToCsr, denseToCrd_eq A hA, Option.bind_eq_bind, Option.bind_some]
    exact h0
  · rw [h2 r hr, ← flatMap_if]
    congr 2
    funext c
    have := cell_dense A tol nRows nCols r c
    rw [cell] at this
    rw [this]
    split <;> rfl

omit [Field K] [LinearOrder K] in
theorem cell_flatMap (F : Nat × Nat → List (Entry K)) (hF : ∀ p, ∀ e ∈ F p, e.ro = p.1 ∧ e.co = p.2)
    (ps : List (Nat × Nat)) (hnd : ps.Nodup) (r c : Nat) :
    cell (ps.flatMap F) r c = if (r, c) ∈ ps then F (r, c) else [] := by
  induction ps with
  | nil => rfl
  | cons p ps ih =>
    rw [List.nodup_cons] at hnd
    have ih := ih hnd.2
    have hc : cell ((p :: ps).flatMap F) r c = cell (F p) r c ++ cell (ps.flatMap F) r c := by
      simp [cell]
    rw [hc, ih]
    by_cases hp : (r, c) = p
    · rw [if_neg (show (r, c) ∉ ps by rw [hp]; exact hnd.1), if_pos (show (r, c) ∈ p :: ps by simp [hp]),
        List.append_nil, hp, cell,
        List.filter_eq_self.2]
      intro e he
      have := hF p e he
      rw [← hp] at this
      simp [this]
    · have hm : ((r, c) ∈ p :: ps) ↔ (r, c) ∈ ps := by simp [hp]
      simp only [hm]
      have : cell (F p) r c = [] := by
        rw [cell, List.filter_eq_nil_iff]
        intro e he
        have := hF p e he
        simp only [decide_eq_true_eq, not_and]
        rintro rfl rfl
        exact hp (Prod.ext this.1 this.2)
      rw [this, List.nil_append]

omit [Field K] [LinearOrder K] in
theorem foldl_max_ge (f : Entry K → Nat) (l : List (Entry K)) (m : Nat) :
    m ≤ l.foldl (fun m e => max m (f e)) m ∧ ∀ e ∈ l, f e ≤ l.foldl (fun m e => max m (f e)) m := by
  induction l generalizing m with
  | nil => simp
  | cons a l ih =>
    obtain ⟨h1, h2⟩ := ih (max m (f a))
    refine ⟨by simp only [List.foldl_cons]; omega, ?_⟩
    intro e he
    rcases List.mem_cons.1 he with rfl | he
    · simp only [List.foldl_cons]; omega
    · exact h2 e he

omit [Field K] [LinearOrder K] in
/-- C53: the transposed coordinate matrix has, at each position, the entries which the original has at the swapped
position, is in row-major order, and has as many entries. -/
theorem C53_transpose (crd : List (Entry K)) :
    (∀ r c, ((transposeCrd crd).filter (fun e => r = e.ro ∧ c = e.co)).map (·.nz)
      = (crd.filter (fun e => c = e.ro ∧ r = e.co)).map (·.nz)) ∧
    (transposeCrd crd).Pairwise (fun x y => x.ro < y.ro ∨ (x.ro = y.ro ∧ x.co ≤ y.co)) ∧
    (transposeCrd crd).length = crd.length := by
  obtain ⟨_, hR⟩ := foldl_max_ge (fun e => e.ro) crd 0
  obtain ⟨_, hC⟩ := foldl_max_ge (fun e => e.co) crd 0
  have hT : transposeCrd crd = (pairs (crd.foldl (fun m e => max m e.co) 0 + 1) (crd.foldl (fun m e => max m e.ro) 0 + 1)).flatMap
      (fun p => (cell crd p.2 p.1).map (fun e => (⟨p.1, p.2, e.nz⟩ : Entry K))) := by
    rw [transposeCrd, pairs, List.flatMap_assoc]
    simp only [List.flatMap_map]
    congr 1
    funext r
    congr 1
    funext c
    rw [cell]
    congr 2
    funext e
    simp only [decide_eq_decide]
    constructor <;> rintro ⟨rfl, rfl⟩ <;> exact ⟨rfl, rfl⟩
  have hF : ∀ p : Nat × Nat, ∀ e ∈ (cell crd p.2 p.1).map (fun e => (⟨p.1, p.2, e.nz⟩ : Entry K)), e.ro = p.1 ∧ e.co = p.2 := by
    intro p e he
    obtain ⟨x, _, rfl⟩ := List.mem_map.1 he
    exact ⟨rfl, rfl⟩
  rw [hT]
  refine ⟨fun r c => ?_, ?_, ?_⟩
  · have h := cell_flatMap _ hF (pairs (crd.foldl (fun m e => max m e.co) 0 + 1) (crd.foldl (fun m e => max m e.ro) 0 + 1))
      (nodup_pairs _ _) r c
    rw [cell] at h
    rw [h]
    split
    · rw [List.map_map]; rfl
    · rename_i hn
      rw [mem_pairs] at hn
      have : crd.filter (fun e => c = e.ro ∧ r = e.co) = [] := by
        rw [List.filter_eq_nil_iff]
        intro e he
        simp only [decide_eq_true_eq, not_and]
        rintro rfl rfl
        have := hR e he
        have := hC e he
        exact hn ⟨by simp only; omega, by simp only; omega⟩
      rw [this]
  · rw [List.pairwise_flatMap]
    refine ⟨fun p _ => ?_, ?_⟩
    · rw [List.pairwise_map]
      exact List.pairwise_of_forall (fun _ _ => Or.inr ⟨rfl, Nat.le_refl _⟩)
    · have hs : ∀ n m, (pairs n m).Pairwise (fun x y => x.1 < y.1 ∨ (x.1 = y.1 ∧ x.2 < y.2)) := by
        intro n m
        rw [pairs, List.pairwise_flatMap]
        refine ⟨fun i _ => ?_, ?_⟩
        · rw [List.pairwise_map]
          exact List.pairwise_lt_range.imp (fun h => Or.inr ⟨rfl, h⟩)
        · refine List.pairwise_lt_range.imp ?_
          intro i j hij x hx y hy
          obtain ⟨_, _, rfl⟩ := List.mem_map.1 hx
          obtain ⟨_, _, rfl⟩ := List.mem_map.1 hy
          exact Or.inl hij
      refine (hs _ _).imp ?_
      intro p q hpq x hx y hy
      obtain ⟨h1, h2⟩ := hF p x hx
      obtain ⟨h3, h4⟩ := hF q y hy
      omega
  · rw [List.length_flatMap]
    simp only [List.length_map]
    have h := cells_length crd ((pairs (crd.foldl (fun m e => max m e.co) 0 + 1) (crd.foldl (fun m e => max m e.ro) 0 + 1)).map
      (fun p => (p.2, p.1))) (nodup_map_of_inj (nodup_pairs _ _) (by
        intro x _ y _ e
        simp only [Prod.mk.injEq] at e
        exact Prod.ext e.2 e.1))
    rw [List.flatMap_map, List.length_flatMap] at h
    rw [h, List.countP_eq_length]
    intro e he
    have := hR e he
    have := hC e he
    simp only [List.mem_map, mem_pairs, Prod.mk.injEq, Prod.exists, decide_eq_true_eq]
    exact ⟨e.co, e.ro, ⟨by omega, by omega⟩, rfl, rfl⟩

/-! ### Fill-in -/

theorem rd4_some {f : List Nat} {p : Nat} (h : p + 3 < f.length) : ∃ v, rd4 f p = some v := by
  simp only [rd4, rd_some (show p < f.length by omega), rd_some (show p + 1 < f.length by omega),
    rd_some (show p + 2 < f.length by omega), rd_some h, Option.bind_eq_bind, Option.bind_some]
  exact ⟨_, rfl⟩

theorem wr4_some {f : List Nat} {p : Nat} (h : p + 3 < f.length) : ∃ f', wr4 f p = some f' ∧ f'.length = f.length := by
  simp only [wr4, Option.bind_eq_bind]
  rw [wr_some (by omega), Option.bind_some, wr_some (by simp; omega), Option.bind_some, wr_some (by simp; omega),
    Option.bind_some, wr_some (by simp; omega)]
  exact ⟨_, rfl, by simp⟩

theorem fill_bound {j i n m : Nat} (hj : j < m) (hi : i + 3 < n) : j * n + i + 3 < n * m := by
  have := mad_lt hj hi
  rw [Nat.mul_comm n m]; omega

theorem pass1_total {nRows nCols lo hi : Nat} (hhi : hi ≤ nCols) : ∀ (fuel i : Nat) (f : List Nat),
    f.length = nRows * nCols → i ≤ nRows → nRows < i + fuel →
    ∃ f', pass1 nRows lo hi fuel i f = some f' ∧ f'.length = nRows * nCols
  | 0, i, f, h, hi, hf => by omega
  | fuel + 1, i, f, h, hin, hif => by
    rw [pass1]
    by_cases h1 : i < nRows
    · rw [if_pos h1]
      by_cases h2 : i + 3 ≥ nRows
      · rw [if_pos h2]
        exact pass1_total hhi fuel (i + 1) f h (by omega) (by omega)
      · rw [if_neg h2]
        obtain ⟨⟨found, f1⟩, g0, g1⟩ := forN_inv (n := hi - lo) (s := (false, f))
          (body := fun j (s : Bool × List Nat) => do
            let (a, b, c, d) ← rd4 s.2 ((lo + j) * nRows + i)
            if a = 1 ∧ b = 1 ∧ c = 1 ∧ d = 1 then do
              let f ← wr4 s.2 ((lo + j) * nRows + i)
              return (true, f)
            else return s) (fun _ (s : Bool × List Nat) => s.2.length = nRows * nCols) h (by
          rintro j ⟨b, f⟩ hj hf
          have hb := fill_bound (j := lo + j) (i := i) (n := nRows) (m := nCols) (by omega) (by omega)
          simp only at hf
          obtain ⟨⟨a, b', c, d⟩, hv⟩ := rd4_some (f := f) (p := (lo + j) * nRows + i) (by omega)
          obtain ⟨f', hw, hl⟩ := wr4_some (f := f) (p := (lo + j) * nRows + i) (by omega)
          simp only [hv, Option.bind_eq_bind, Option.bind_some]
          by_cases hc : a = 1 ∧ b' = 1 ∧ c = 1 ∧ d = 1
          · rw [if_pos hc, hw]; exact ⟨_, rfl, hl.trans hf⟩
          · rw [if_neg hc]; exact ⟨_, rfl, hf⟩)
        simp only [Option.bind_eq_bind] at g0 ⊢
        rw [g0]
        simp only [Option.bind_some]
        simp only at g1
        cases found with
        | false => exact pass1_total hhi fuel (i + 1) f1 g1 (by omega) (by omega)
        | true =>
          obtain ⟨f2, k0, k1⟩ := forN_inv (n := hi - lo) (s := f1)
            (body := fun j (f : List Nat) => do
              let (a, b, c, d) ← rd4 f ((lo + j) * nRows + i)
              if a + b + c + d = 3 then wr4 f ((lo + j) * nRows + i) else return f)
            (fun _ (s : List Nat) => s.length = nRows * nCols) g1 (by
            rintro j f hj hf
            have hb := fill_bound (j := lo + j) (i := i) (n := nRows) (m := nCols) (by omega) (by omega)
            obtain ⟨⟨a, b', c, d⟩, hv⟩ := rd4_some (f := f) (p := (lo + j) * nRows + i) (by omega)
            obtain ⟨f', hw, hl⟩ := wr4_some (f := f) (p := (lo + j) * nRows + i) (by omega)
            simp only [hv, Option.bind_eq_bind, Option.bind_some]
            by_cases hc : a + b' + c + d = 3
            · rw [if_pos hc, hw]; exact ⟨_, rfl, hl.trans hf⟩
            · rw [if_neg hc]; exact ⟨_, rfl, hf⟩)
          simp only [Option.bind_eq_bind, if_true] at k0 ⊢
          rw [k0]
          exact pass1_total hhi fuel (i + 4) f2 k1 (by omega) (by omega)
    · rw [if_neg h1]; exact ⟨f, rfl, h⟩

theorem pass2_total {nRows nCols lo hi : Nat} (hhi : hi ≤ nCols) : ∀ (fuel i : Nat) (f : List Nat),
    f.length = nRows * nCols → i ≤ nRows → nRows < i + fuel →
    ∃ f', pass2 nRows lo hi fuel i f = some f' ∧ f'.length = nRows * nCols
  | 0, i, f, h, hi, hf => by omega
  | fuel + 1, i, f, h, hin, hif => by
    rw [pass2]
    by_cases h1 : i < nRows
    · rw [if_pos h1]
      by_cases h2 : i + 3 ≥ nRows
      · rw [if_pos h2]
        exact pass2_total hhi fuel (i + 1) f h (by omega) (by omega)
      · rw [if_neg h2]
        obtain ⟨found, g0, -⟩ := forN_inv (n := hi - lo) (s := false)
          (body := fun j (s : Bool) => do
            let a ← rd f ((lo + j) * nRows + i)
            return s || decide (a = 10)) (fun _ (_ : Bool) => True) trivial (by
          rintro j b hj -
          have hb := fill_bound (j := lo + j) (i := i) (n := nRows) (m := nCols) (by omega) (by omega)
          rw [rd_some (by omega)]
          exact ⟨_, rfl, trivial⟩)
        simp only [Option.bind_eq_bind] at g0 ⊢
        rw [g0]
        simp only [Option.bind_some]
        cases found with
        | true => exact pass2_total hhi fuel (i + 4) f h (by omega) (by omega)
        | false =>
          obtain ⟨⟨found, f1⟩, k0, k1⟩ := forN_inv (n := hi - lo) (s := (false, f))
            (body := fun j (s : Bool × List Nat) => do
              let (a, b, c, d) ← rd4 s.2 ((lo + j) * nRows + i)
              if a + b + c + d = 3 then do
                let f ← wr4 s.2 ((lo + j) * nRows + i)
                return (true, f)
              else return s) (fun _ (s : Bool × List Nat) => s.2.length = nRows * nCols) h (by
            rintro j ⟨b, f⟩ hj hf
            have hb := fill_bound (j := lo + j) (i := i) (n := nRows) (m := nCols) (by omega) (by omega)
            simp only at hf
            obtain ⟨⟨a, b', c, d⟩, hv⟩ := rd4_some (f := f) (p := (lo + j) * nRows + i) (by omega)
            obtain ⟨f', hw, hl⟩ := wr4_some (f := f) (p := (lo + j) * nRows + i) (by omega)
            simp only [hv, Option.bind_eq_bind, Option.bind_some]
            by_cases hc : a + b' + c + d = 3
            · rw [if_pos hc, hw]; exact ⟨_, rfl, hl.trans hf⟩
            · rw [if_neg hc]; exact ⟨_, rfl, hf⟩)
          simp only [Option.bind_eq_bind] at k0 ⊢
          simp only [Bool.false_eq_true, if_false]
          rw [k0]
          simp only at k1
          exact pass2_total hhi fuel (if found then i + 4 else i + 1) f1 k1 (by split <;> omega) (by split <;> omega)
    · rw [if_neg h1]; exact ⟨f, rfl, h⟩

theorem chunks_total {nRows nCols maxCols chunk : Nat} (hm : maxCols ≤ nCols) (hc : 0 < chunk) :
    ∀ (fuel done limit : Nat) (f : List Nat), f.length = nRows * nCols → limit ≤ nCols →
    (done < maxCols → done ≤ limit) → maxCols < done + fuel → 0 < fuel →
    ∃ f', chunks nRows maxCols chunk fuel done limit f = some f' ∧ f'.length = nRows * nCols
  | 0, _, _, _, _, _, _, _, h => by omega
  | fuel + 1, done, limit, f, h, hl, hd, hf, _ => by
    rw [chunks]
    by_cases h1 : done < maxCols
    · rw [if_pos h1]
      obtain ⟨f1, a0, a1⟩ := pass1_total (lo := done) (hi := limit - done) (nCols := nCols) (by omega) (nRows + 1) 0 f h
        (by omega) (by omega)
      obtain ⟨f2, b0, b1⟩ := pass2_total (lo := done) (hi := limit - done) (nCols := nCols) (by omega) (nRows + 1) 0 f1 a1
        (by omega) (by omega)
      simp only [Option.bind_eq_bind, show check (decide (done ≤ limit)) = some () from check_some.2 (by simp [hd h1]), a0, b0,
        Option.bind_some]
      exact chunks_total hm hc fuel (done + chunk) (min (done + chunk + chunk) maxCols) f2 b1 (by omega) (by omega) (by omega) (by omega)
    · rw [if_neg h1]; exact ⟨f, rfl, h⟩

/-- Fill-in of a matrix: the result differs from the matrix only in the marker at entries below the tolerance. -/
theorem fill_spec {nRows nCols : Nat} {mat out : List K} {tol big : K} (A : Nat → Nat → K)
    (hA : ∀ r c, r < nRows → c < nCols → mat[r * nCols + c]? = some (A r c))
    (ho : out.length = nRows * nCols)
    (hout : ∀ r c, r < nRows → c < nCols → out[r * nCols + c]? = some (A r c)) :
    ∃ o, fillInQfma nRows nCols mat out tol big = some o ∧ ∀ r c, r < nRows → c < nCols →
      ∃ x, o[r * nCols + c]? = some x ∧ (x = A r c ∨ (x = big ∧ |A r c| < tol)) := by
  obtain ⟨fill, a0, a1⟩ := forN_inv (n := nCols) (s := List.replicate (nRows * nCols) 0)
    (body := fun j f => forN nRows (fun i (f : List Nat) => do
      let x ← rd mat (i * nCols + j)
      wr f (j * nRows + i) (if |x| > tol then 1 else 0)) f)
    (fun _ (f : List Nat) => f.length = nRows * nCols) (by simp) (by
      intro j f hj hf
      refine forN_inv (fun _ (f : List Nat) => f.length = nRows * nCols) hf ?_
      intro i f hi hf
      have hb := mad_lt hj hi
      rw [Nat.mul_comm nCols] at hb
      rw [show rd mat (i * nCols + j) = some (A i j) from hA i j hi hj]
      simp only [Option.bind_eq_bind, Option.bind_some]
      rw [wr_some (by omega)]
      exact ⟨_, rfl, by simp [hf]⟩)
  obtain ⟨maxCols, b0, b1⟩ := forN_inv (n := nCols) (s := 0)
    (body := fun j c => forN nRows (fun i (c : Nat) => do
      let v ← rd fill (j * nRows + i)
      return if v > 0 then j + 1 else c) c)
    (fun j (c : Nat) => c ≤ j) (by omega) (by
      intro j c hj hc
      refine forN_inv (fun _ (c : Nat) => c ≤ j + 1) (by omega) ?_
      intro i c hi hc
      have hb := mad_lt hj hi
      rw [Nat.mul_comm nCols] at hb
      rw [rd_some (by omega)]
      refine ⟨_, rfl, ?_⟩
      split <;> omega)
  simp only [fillInQfma, Option.bind_eq_bind] at a0 b0 ⊢
  rw [a0]
  simp only [Option.bind_some]
  rw [b0]
  simp only [Option.bind_some]
  generalize hn : (if maxCols % 28 = 0 then maxCols / 28 else maxCols / 28 + 1) = nChunks
  by_cases hz : nChunks = 0
  · rw [if_pos hz]
    exact ⟨out, rfl, fun r c hr hc => ⟨_, hout r c hr hc, Or.inl rfl⟩⟩
  rw [if_neg hz]
  have hpos : 0 < maxCols := by
    rcases Nat.eq_zero_or_pos maxCols with h | h
    · subst h; simp at hn; omega
    · exact h
  generalize hk : (if maxCols % nChunks = 0 then maxCols / nChunks else maxCols / nChunks + 1) = chunk
  have hc1 : 0 < chunk := by
    subst hk
    split
    · rename_i h0
      exact Nat.div_pos (Nat.le_of_dvd hpos (Nat.dvd_of_mod_eq_zero h0)) (by omega)
    · exact Nat.succ_pos _
  have hc2 : chunk ≤ maxCols := by
    subst hk
    split
    · exact Nat.div_le_self _ _
    · rename_i h0
      rcases Nat.lt_or_ge 1 nChunks with h | h
      · exact Nat.div_lt_self hpos h
      · have : nChunks = 1 := by omega
        subst this; exact absurd (Nat.mod_one _) h0
  obtain ⟨fill2, c0, c1⟩ := chunks_total (nRows := nRows) (nCols := nCols) (maxCols := maxCols) b1 hc1 (maxCols + 1) 0 chunk
    fill a1 (by omega) (by omega) (by omega) (by omega)
  rw [c0]
  simp only [Option.bind_some]
  have hidx : ∀ t ∈ pairs nCols nRows, t.2 * nCols + t.1 < nRows * nCols := by
    intro t ht
    have := mem_pairs.1 ht
    exact mad_lt this.2 this.1
  obtain ⟨o, d0, d1, d2, -⟩ := scatter (ts := pairs nCols nRows) (idx := fun t => t.2 * nCols + t.1) (c := out)
    (f := fun (o : List K) t => (rd mat (t.2 * nCols + t.1)).bind fun x => (wr o (t.2 * nCols + t.1) x).bind fun o =>
      (rd fill2 (t.1 * nRows + t.2)).bind fun v =>
      if v > 0 ∧ |x| < tol then wr o (t.2 * nCols + t.1) big else pure o)
    (fun t _ => if fill2.getD (t.1 * nRows + t.2) 0 > 0 ∧ |A t.2 t.1| < tol then big else A t.2 t.1)
    (nodup_map_of_inj (nodup_pairs _ _) (by
      intro a ha b hb e
      have ha := mem_pairs.1 ha
      have hb := mem_pairs.1 hb
      have := mad_inj e ha.1 hb.1
      exact Prod.ext this.2 this.1))
    (fun t ht => by rw [ho]; exact hidx t ht) (by
      intro t ht c' x hc' hx _
      have hp := mem_pairs.1 ht
      have hi := hidx t ht
      have hb := mad_lt hp.1 hp.2
      rw [Nat.mul_comm nCols] at hb
      rw [show rd mat (t.2 * nCols + t.1) = some (A t.2 t.1) from hA _ _ hp.2 hp.1]
      simp only [Option.bind_some]
      rw [wr_some (by omega)]
      simp only [Option.bind_some]
      rw [rd_some (by omega)]
      simp only [Option.bind_some]
      rw [List.getD_eq_getElem?_getD, List.getElem?_eq_getElem (show t.1 * nRows + t.2 < fill2.length by omega), Option.getD_some]
      split
      · rw [wr_some (by simp; omega), List.set_set]
      · rfl)
  rw [forN_pairs nCols nRows (fun j i (o : List K) => (rd mat (i * nCols + j)).bind fun x =>
      (wr o (i * nCols + j) x).bind fun o => (rd fill2 (j * nRows + i)).bind fun v =>
      if v > 0 ∧ |x| < tol then wr o (i * nCols + j) big else pure o)]
  refine ⟨o, d0, fun r c hr hc => ?_⟩
  have hm : (c, r) ∈ pairs nCols nRows := mem_pairs.2 ⟨hc, hr⟩
  have h := d2 (c, r) hm
  simp only [hout r c hr hc, Option.map_some] at h
  refine ⟨_, h, ?_⟩
  split
  · rename_i hh; exact Or.inr ⟨rfl, hh.2⟩
  · exact Or.inl rfl

/-- Replacing the marker by zero in the values of a list. -/
theorem unmark_spec (big : K) (qfma : Bool) (val : List K) (h : qfma = false → big ∉ val) :
    forN val.length (fun nz (v : List K) => do
      let x ← rd v nz
      if x = big then do
        check qfma
        wr v nz 0
      else return v) val = some (val.map (fun x => if x = big then 0 else x)) := by
  rw [forN_eq_foldlM]
  obtain ⟨v, d0, d1, d2, -⟩ := scatter (ts := List.range val.length) (idx := fun t => t) (c := val)
    (f := fun (v : List K) nz => do
      let x ← rd v nz
      if x = big then do
        check qfma
        wr v nz 0
      else return v)
    (fun t x => if x = big then 0 else x) (by simpa using List.nodup_range) (by simp) (by
      intro t ht c' x hc' hx hx0
      have ht := List.mem_range.1 ht
      rw [show rd c' t = some x from hx]
      simp only [Option.bind_eq_bind, Option.bind_some]
      by_cases hb : x = big
      · rw [if_pos hb, if_pos hb]
        have hq : qfma = true := by
          cases qfma with
          | true => rfl
          | false => exact absurd (hb ▸ List.mem_of_getElem? hx0) (h rfl)
        rw [show check qfma = some () from check_some.2 hq, Option.bind_some, wr_some (by omega)]
      · rw [if_neg hb, if_neg hb]
        have : c'.set t x = c' := by
          apply List.ext_getElem?
          intro i
          rw [List.getElem?_set]
          split
          · rename_i e; subst e; simp [hx]; omega
          · rfl
        rw [this]; rfl)
  refine d0.trans (congrArg some (List.ext_getElem? fun i => ?_))
  rw [List.getElem?_map]
  by_cases hi : i < val.length
  · exact d2 i (List.mem_range.2 hi)
  · rw [List.getElem?_eq_none (by omega), List.getElem?_eq_none (by omega)]; rfl

omit [LinearOrder K] in
theorem Comp.line_map (m : Comp K) (g : K → K) (c : Nat) :
    Comp.line { m with val := m.val.map g } c = (m.line c).map (fun l => l.map (fun p => (p.1, g p.2))) := by
  simp only [Comp.line, Option.bind_eq_bind]
  cases m.ptr[c]? with
  | none => rfl
  | some lo =>
    cases m.ptr[c + 1]? with
    | none => rfl
    | some hi =>
      simp only [Option.bind_some, Option.pure_def, Option.map_some, List.map_take, List.map_drop]
      rw [List.zip_map_right]
      rfl

/-- Every value of a well-formed compressed matrix is in one of its lines. -/
theorem Comp.Ok.mem_line {m : Comp K} {n : Nat} (h : m.Ok n) {x : K} (hx : x ∈ m.val) :
    ∃ c l r, c < n ∧ m.line c = some l ∧ (r, x) ∈ l := by
  obtain ⟨p, hp⟩ := List.getElem?_of_mem hx
  have hpl : p < m.val.length := (List.getElem?_eq_some_iff.1 hp).1
  have key : ∀ k, k ≤ n → ∀ e, m.ptr[k]? = some e → p < e → ∃ c lo hi, c < n ∧ m.ptr[c]? = some lo ∧
      m.ptr[c + 1]? = some hi ∧ lo ≤ p ∧ p < hi := by
    intro k
    induction k with
    | zero =>
      intro _ e he hpe
      rw [h.first] at he; cases he; omega
    | succ k ih =>
      intro hk e he hpe
      have hlt : k < m.ptr.length := by rw [h.len]; omega
      have hlo := List.getElem?_eq_getElem hlt
      by_cases hc : p < m.ptr[k]
      · exact ih (by omega) _ hlo hc
      · exact ⟨k, _, e, by omega, hlo, he, by omega, hpe⟩
  obtain ⟨c, lo, hi, hc, h1, h2, h3, h4⟩ := key n (Nat.le_refl _) _ h.last hpl
  have hidx : p < m.idx.length := by rw [h.idx]; exact hpl
  refine ⟨c, ((m.idx.zip m.val).drop lo).take (hi - lo), m.idx[p], hc, ?_, ?_⟩
  · simp only [Comp.line, h1, h2, Option.bind_eq_bind, Option.bind_some, Option.pure_def]
  · apply List.mem_of_getElem? (i := p - lo)
    rw [List.getElem?_take_of_lt (by omega), List.getElem?_drop, show lo + (p - lo) = p by omega, List.getElem?_zip_eq_some]
    exact ⟨List.getElem?_eq_getElem hidx, hp⟩

/-- C53: CSC of a dense matrix, with or without fill-in: every column lists ascending rows inside the requested part of
the matrix, each with the entry of the matrix if it is above the tolerance and zero otherwise; no entry above the
tolerance is missing; without fill-in nothing else is listed. The marker (the largest number) is
assumed not to be an entry. -/
theorem C53_fill {nRows nCols : Nat} {a : List K} {tol big : K} (A : Nat → Nat → K) (hlen : nRows * nCols ≤ a.length)
    (hA : ∀ r c, r < nRows → c < nCols → a[r * nCols + c]? = some (A r c))
    (hne : ∀ r c, r < nRows → c < nCols → A r c ≠ big) (subRows subCols : Option Nat) (qfma : Bool) (old : Comp K) :
    ∃ m, denseToCsc nRows nCols a tol big subRows subCols qfma old = some m ∧ m.Ok (subCols.getD nCols) ∧
      ∀ c, c < subCols.getD nCols → ∃ l, m.line c = some l ∧ (l.map Prod.fst).Pairwise (· < ·) ∧
        (∀ r x, (r, x) ∈ l → r < subRows.getD nRows ∧ r < nRows ∧ c < nCols ∧
          x = if |A r c| > tol then A r c else 0) ∧
        (∀ r, r < subRows.getD nRows → r < nRows → c < nCols → |A r c| > tol → (r, A r c) ∈ l) ∧
        (qfma = false → ∀ r x, (r, x) ∈ l → |A r c| > tol) := by
  have hA' : ∀ r c, r < nRows → c < nCols → (a.take (nRows * nCols))[r * nCols + c]? = some (A r c) := by
    intro r c hr hc
    rw [List.getElem?_take_of_lt (mad_lt hr hc)]
    exact hA r c hr hc
  obtain ⟨tmp, t0, t1⟩ : ∃ tmp, (if qfma then fillInQfma nRows nCols a (a.take (nRows * nCols)) tol big
      else some (a.take (nRows * nCols))) = some tmp ∧ ∀ r c, r < nRows → c < nCols →
      ∃ x, tmp[r * nCols + c]? = some x ∧ (x = A r c ∨ (x = big ∧ |A r c| < tol ∧ qfma = true)) := by
    cases qfma with
    | false => exact ⟨_, rfl, fun r c hr hc => ⟨_, hA' r c hr hc, Or.inl rfl⟩⟩
    | true =>
      obtain ⟨o, h0, h1⟩ := fill_spec (tol := tol) (big := big) A hA (by simp; omega) hA'
      refine ⟨o, h0, fun r c hr hc => ?_⟩
      obtain ⟨x, hx, hx'⟩ := h1 r c hr hc
      exact ⟨x, hx, hx'.imp id (fun h => ⟨h.1, h.2, rfl⟩)⟩
  let B : Nat → Nat → K := fun r c => (tmp[r * nCols + c]?).getD 0
  have hB : ∀ r c, r < nRows → c < nCols → tmp[r * nCols + c]? = some (B r c) := by
    intro r c hr hc
    obtain ⟨x, hx, -⟩ := t1 r c hr hc
    simp only [B, hx, Option.getD_some]
  have hBA : ∀ r c, r < nRows → c < nCols → B r c = A r c ∨ (B r c = big ∧ |A r c| < tol ∧ qfma = true) := by
    intro r c hr hc
    obtain ⟨x, hx, hx'⟩ := t1 r c hr hc
    simpa only [B, hx, Option.getD_some] using hx'
  obtain ⟨m, h0, h1, h2⟩ := C53_csc (subRows.getD nRows) (subCols.getD nCols) ((pairs nRows nCols).filterMap
      (fun p => if |B p.1 p.2| > tol then some (⟨p.1, p.2, B p.1 p.2⟩ : Entry K) else none)) old
  have hline : ∀ c, c < subCols.getD nCols → m.line c = some (((List.range (subRows.getD nRows)).filter
        (fun r => r < nRows ∧ c < nCols ∧ |B r c| > tol)).map (fun r => (r, B r c))) := by
    intro c hc
    rw [h2 c hc, ← flatMap_if]
    congr 2
    funext r
    have := cell_dense B tol nRows nCols r c
    rw [cell] at this
    rw [this]
    split <;> rfl
  have hval : qfma = false → big ∉ m.val := by
    intro hq hb
    obtain ⟨c, l, r, hc, hl, hr⟩ := h1.mem_line hb
    rw [hline c hc] at hl
    cases hl
    simp only [List.mem_map, List.mem_filter, List.mem_range, decide_eq_true_eq, Prod.mk.injEq] at hr
    obtain ⟨r', ⟨_, hr2, hc2, _⟩, rfl, e⟩ := hr
    rcases hBA r' c hr2 hc2 with h | ⟨_, _, h⟩
    · exact hne r' c hr2 hc2 (h.symm.trans e)
    · rw [hq] at h; cases h
  have hun := unmark_spec big qfma m.val hval
  refine ⟨{ m with val := m.val.map (fun x => if x = big then 0 else x) }, ?_, ?_, ?_⟩
  · simp only [denseToCsc, Option.bind_eq_bind, show check (decide (nRows * nCols ≤ a.length)) = some () from
      check_some.2 (by simpa using hlen), Option.bind_some] at hun ⊢
    rw [t0]
    simp only [Option.bind_some, denseToCrd_eq B hB]
    rw [h0]
    simp only [Option.bind_some]
    rw [hun]
    rfl
  · exact ⟨h1.len, h1.first, by simpa using h1.last, by simpa using h1.idx, h1.mono⟩
  · intro c hc
    refine ⟨_, (Comp.line_map m _ c).trans (by rw [hline c hc]; rfl), ?_, ?_, ?_, ?_⟩
    · simp only [List.map_map]
      have : (Prod.fst ∘ (fun p : Nat × K => (p.1, if p.2 = big then 0 else p.2)) ∘ fun r => (r, B r c)) = id := by
        funext r; rfl
      rw [this, List.map_id]
      exact List.Pairwise.filter _ List.pairwise_lt_range
    · intro r x hx
      simp only [List.mem_map, List.mem_filter, List.mem_range, decide_eq_true_eq, Prod.mk.injEq, Prod.exists] at hx
      obtain ⟨_, _, ⟨r', ⟨hr1, hr2, hc2, hgt⟩, rfl, rfl⟩, rfl, rfl⟩ := hx
      refine ⟨hr1, hr2, hc2, ?_⟩
      rcases hBA r' c hr2 hc2 with h | ⟨h, h', -⟩
      · rw [h] at hgt ⊢
        rw [if_neg (hne r' c hr2 hc2), if_pos hgt]
      · rw [if_pos h, if_neg (not_lt_of_gt h')]
    · intro r hr hr2 hc2 hgt
      have hb : B r c = A r c := by
        rcases hBA r c hr2 hc2 with h | ⟨h, h', -⟩
        · exact h
        · exact absurd hgt (not_lt_of_gt h')
      simp only [List.mem_map, List.mem_filter, List.mem_range, decide_eq_true_eq, Prod.mk.injEq, Prod.exists]
      refine ⟨r, A r c, ⟨r, ⟨hr, hr2, hc2, by rw [hb]; exact hgt⟩, rfl, hb⟩, rfl, ?_⟩
      rw [if_neg (hne r c hr2 hc2)]
    · intro hq r x hx
      simp only [List.mem_map, List.mem_filter, List.mem_range, decide_eq_true_eq, Prod.mk.injEq, Prod.exists] at hx
      obtain ⟨_, _, ⟨r', ⟨hr1, hr2, hc2, hgt⟩, rfl, rfl⟩, rfl, rfl⟩ := hx
      rcases hBA r' c hr2 hc2 with h | ⟨h, h', h''⟩
      · rw [← h]; exact hgt
      · rw [hq] at h''; cases h''

/-! ### Block of non-zero entries -/

/-- Entry inside the requested bounds (`none`: unbounded). -/
def InBounds (r0 r1 c0 c1 : Option Nat) (e : Entry K) : Prop :=
  (∀ b, r0 = some b → b ≤ e.ro) ∧ (∀ b, r1 = some b → e.ro ≤ b) ∧ (∀ b, c0 = some b → b ≤ e.co) ∧
    ∀ b, c1 = some b → e.co ≤ b

omit [Field K] [LinearOrder K] in
/-- C53: the block of non-zeros is the smallest one: it contains every entry inside the bounds, and an entry lies on
each of its four sides; it is unset exactly if there is no entry inside the bounds. -/
theorem C53_block (crd : List (Entry K)) (r0 r1 c0 c1 : Option Nat) :
    (getBlockNz crd r0 r1 c0 c1 = none ↔ ∀ e ∈ crd, ¬ InBounds r0 r1 c0 c1 e) ∧
    ∀ a b c d, getBlockNz crd r0 r1 c0 c1 = some (a, b, c, d) →
      (∀ e ∈ crd, InBounds r0 r1 c0 c1 e → a ≤ e.ro ∧ e.ro ≤ b ∧ c ≤ e.co ∧ e.co ≤ d) ∧
      (∃ e ∈ crd, InBounds r0 r1 c0 c1 e ∧ e.ro = a) ∧ (∃ e ∈ crd, InBounds r0 r1 c0 c1 e ∧ e.ro = b) ∧
      (∃ e ∈ crd, InBounds r0 r1 c0 c1 e ∧ e.co = c) ∧ ∃ e ∈ crd, InBounds r0 r1 c0 c1 e ∧ e.co = d := by
  have hin : ∀ e : Entry K, (r0.all (· ≤ e.ro) ∧ r1.all (e.ro ≤ ·) ∧ c0.all (· ≤ e.co) ∧ c1.all (e.co ≤ ·)) ↔
      InBounds r0 r1 c0 c1 e := by
    intro e
    cases r0 <;> cases r1 <;> cases c0 <;> cases c1 <;> simp [InBounds]
  rw [getBlockNz]
  induction crd using List.reverseRecOn with
  | nil => simp
  | append_singleton crd e ih =>
    rw [List.foldl_append, List.foldl_cons, List.foldl_nil]
    generalize List.foldl _ none crd = o at ih
    obtain ⟨ih1, ih2⟩ := ih
    by_cases hb : InBounds r0 r1 c0 c1 e
    · rw [if_pos ((hin e).2 hb)]
      rcases o with _ | ⟨a', b', c', d'⟩
      · have hnone := ih1.1 rfl
        refine ⟨⟨fun h => by simp at h, fun h => absurd hb (h e (by simp))⟩, ?_⟩
        intro a b c d h
        simp only [Option.some.injEq, Prod.mk.injEq] at h
        obtain ⟨rfl, rfl, rfl, rfl⟩ := h
        refine ⟨?_, ⟨e, by simp, hb, rfl⟩, ⟨e, by simp, hb, rfl⟩, ⟨e, by simp, hb, rfl⟩, ⟨e, by simp, hb, rfl⟩⟩
        intro f hf hfb
        rcases List.mem_append.1 hf with hf | hf
        · exact absurd hfb (hnone f hf)
        · simp at hf; subst hf; simp
      · obtain ⟨g0, g1, g2, g3, g4⟩ := ih2 _ _ _ _ rfl
        refine ⟨⟨fun h => by simp at h, fun h => absurd hb (h e (by simp))⟩, ?_⟩
        intro a b c d h
        simp only [Option.some.injEq, Prod.mk.injEq] at h
        obtain ⟨rfl, rfl, rfl, rfl⟩ := h
        have lift : ∀ {P : Entry K → Prop}, (∃ f ∈ crd, InBounds r0 r1 c0 c1 f ∧ P f) →
            ∃ f ∈ crd ++ [e], InBounds r0 r1 c0 c1 f ∧ P f := fun ⟨f, h1, h2⟩ => ⟨f, by simp [h1], h2⟩
        refine ⟨?_, ?_, ?_, ?_, ?_⟩
        · intro f hf hfb
          rcases List.mem_append.1 hf with hf | hf
          · have := g0 f hf hfb
            refine ⟨?_, ?_, ?_, ?_⟩ <;> split <;> omega
          · simp at hf; subst hf
            refine ⟨?_, ?_, ?_, ?_⟩ <;> split <;> omega
        · split
          · exact ⟨e, by simp, hb, rfl⟩
          · exact lift g1
        · split
          · exact ⟨e, by simp, hb, rfl⟩
          · exact lift g2
        · split
          · exact ⟨e, by simp, hb, rfl⟩
          · exact lift g3
        · split
          · exact ⟨e, by simp, hb, rfl⟩
          · exact lift g4
    · rw [if_neg (fun h => hb ((hin e).1 h))]
      constructor
      · rw [ih1]
        constructor
        · intro h f hf
          rcases List.mem_append.1 hf with hf | hf
          · exact h f hf
          · simp at hf; subst hf; exact hb
        · intro h f hf
          exact h f (by simp [hf])
      · intro a b c d h
        obtain ⟨g0, g1, g2, g3, g4⟩ := ih2 a b c d h
        have lift : ∀ {P : Entry K → Prop}, (∃ f ∈ crd, InBounds r0 r1 c0 c1 f ∧ P f) →
            ∃ f ∈ crd ++ [e], InBounds r0 r1 c0 c1 f ∧ P f := fun ⟨f, h1, h2⟩ => ⟨f, by simp [h1], h2⟩
        refine ⟨?_, lift g1, lift g2, lift g3, lift g4⟩
        intro f hf hfb
        rcases List.mem_append.1 hf with hf | hf
        · exact g0 f hf hfb
        · simp at hf; subst hf; exact absurd hfb hb

end

/-! ### Concrete cases -/

section
/-- The matrix of the documentation of `getBlockNz`, and a column with three of four consecutive non-zeros. -/
def exDense : List Rat := [1, 0, 0, 0,  0, 2, 0, 0,  3, 0, 0, 0,  0, 4, 0, 5,  6, 0, 0, 0]

example : (denseToCrd 5 4 exDense (1/100)).map (·.map (fun e => (e.ro, e.co, e.nz))) =
    some [(0, 0, 1), (1, 1, 2), (2, 0, 3), (3, 1, 4), (3, 3, 5), (4, 0, 6)] := by decide +kernel

example : (denseToCrd 5 4 exDense (1/100)).bind (fun m => getBlockNz m (some 0) (some 2) none none) = some (0, 2, 0, 1) ∧
    (denseToCrd 5 4 exDense (1/100)).bind (fun m => getBlockNz m none none (some 1) (some 2)) = some (1, 3, 1, 1) := by
  decide +kernel

example : ((denseToCsr 5 4 exDense (1/100) none none ⟨[], [], []⟩).bind (fun m => m.line 3)) = some [(1, 4), (3, 5)] := by
  decide +kernel

/-- Rows one to four of the first column have three non-zeros: the fill-in adds the fourth one as zero. -/
def exFill : List Rat := [0, 7, 1, 0, 0, 0, 3, 0, 4, 0]

example : ((denseToCsc 5 2 exFill (1/100) 1000 none none true ⟨[], [], []⟩).bind (fun m => m.line 0)) =
    some [(1, 1), (2, 0), (3, 3), (4, 4)] := by decide +kernel

example : ((denseToCsc 5 2 exFill (1/100) 1000 none none false ⟨[], [], []⟩).bind (fun m => m.line 0)) =
    some [(1, 1), (3, 3), (4, 4)] := by decide +kernel

end

end Edge.Linalg
