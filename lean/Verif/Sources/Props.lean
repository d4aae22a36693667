import Mathlib.Algebra.BigOperators.Intervals
import Mathlib.Algebra.BigOperators.Group.List.Basic
import Verif.Sources.Model
/-!
Every point source acts on its own element exactly once (property C45).
-/
namespace Edge.Sources
open Classical

/-! ### Specification -/

/-- A point source: onset, sampling distance, samples, scalings of the quantities. -/
structure Source where
  onset : ℝ
  dt : ℝ
  series : List ℝ
  sca : Nat → ℝ

/-- The data sets of a file describe the sources `src 0, ..., src (n - 1)`. -/
structure Describes (raw : Raw) (n : Nat) (src : Nat → Source) : Prop where
  nPars : raw.tPars.length = n
  nScas : raw.scas.length = n
  nPtrs : raw.tPtrs.length = n + 1
  pars : ∀ s < n, raw.tPars[s]? = some ((src s).onset, (src s).dt)
  scas : ∀ s < n, raw.scas[s]? = some (src s).sca
  series : ∀ s < n, ∃ a b, raw.tPtrs[s]? = some a ∧ raw.tPtrs[s + 1]? = some b ∧ a ≤ b ∧ b ≤ raw.tSrs.length ∧
    (src s).series = (raw.tSrs.drop a).take (b - a)

/-- Number of source elements before an element: the position of a source element among the source elements. -/
def rank (isSrc : Nat → Bool) (el : Nat) : Nat := (List.range el).countP isSrc

/-! ### Lists -/

theorem mapM_rd {α : Type _} {xs : List α} {f : Nat → α} {per : List Nat} (h : ∀ i ∈ per, xs[i]? = some (f i)) :
    per.mapM (rd xs) = some (per.map f) := by
  induction per with
  | nil => rfl
  | cons a per ih =>
    rw [List.mapM_cons, ih (fun i hi => h i (by simp [hi]))]
    simp [rd, h a (by simp)]

theorem map_getD_range {α : Type _} (xs : List α) (d : α) : (List.range xs.length).map (fun i => xs.getD i d) = xs := by
  apply List.ext_getElem
  · simp
  · intro i h1 h2
    simp [List.getD_eq_getElem?_getD, List.getElem?_eq_getElem h2]

theorem rank_succ (isSrc : Nat → Bool) (el : Nat) : rank isSrc (el + 1) = rank isSrc el + if isSrc el then 1 else 0 := by
  simp [rank, List.range_succ, List.countP_append, List.countP_singleton]

theorem rank_mono (isSrc : Nat → Bool) {a b : Nat} (h : a ≤ b) : rank isSrc a ≤ rank isSrc b := by
  induction b with
  | zero => simp [show a = 0 by omega]
  | succ b ih =>
    by_cases e : a = b + 1
    · rw [e]
    · rw [rank_succ]; have := ih (by omega); omega

/-- The order of the source elements is the one of their positions. -/
theorem rank_lt_iff {isSrc : Nat → Bool} {a : Nat} (ha : isSrc a = true) (b : Nat) : rank isSrc a < rank isSrc b ↔ a < b := by
  constructor
  · intro h
    by_contra hc
    have := rank_mono isSrc (not_lt.1 hc)
    omega
  · intro h
    have := rank_mono isSrc (show a + 1 ≤ b from h)
    rw [rank_succ, if_pos ha] at this
    omega

theorem rank_inj {isSrc : Nat → Bool} {a b : Nat} (ha : isSrc a = true) (hb : isSrc b = true) (h : rank isSrc a = rank isSrc b) :
    a = b := by
  have h1 := rank_lt_iff ha b
  have h2 := rank_lt_iff hb a
  omega

/-- Position of a value in a sorted list. -/
theorem sorted_count {l : List Nat} (hl : l.Pairwise (· ≤ ·)) (k : Nat) {i : Nat} (hi : i < l.length) :
    l[i] < k ↔ i < l.countP (fun x => decide (x < k)) := by
  induction l generalizing i with
  | nil => simp at hi
  | cons a l ih =>
    rw [List.pairwise_cons] at hl
    rw [List.countP_cons]
    cases i with
    | zero =>
      by_cases h : a < k
      · simp [h]
      · have h0 : l.countP (fun x => decide (x < k)) = 0 := by
          rw [List.countP_eq_zero]
          intro x hx
          have := hl.1 x hx
          simp; omega
        simp [h, h0]
    | succ i =>
      simp only [List.length_cons] at hi
      have := ih hl.2 (i := i) (by omega)
      by_cases h : a < k
      · simp [h, this]
      · have h0 : l.countP (fun x => decide (x < k)) = 0 := by
          rw [List.countP_eq_zero]
          intro x hx
          have := hl.1 x hx
          simp; omega
        have := hl.1 l[i] (List.getElem_mem _)
        simp [h, h0]; omega

theorem sorted_drop {l : List Nat} (hl : l.Pairwise (· ≤ ·)) (k : Nat) :
    l.drop (l.countP (fun x => decide (x < k))) = l.filter (fun x => decide (k ≤ x)) := by
  induction l with
  | nil => simp
  | cons a l ih =>
    rw [List.pairwise_cons] at hl
    by_cases h : a < k
    · rw [List.countP_cons_of_pos (by simpa using h), List.drop_succ_cons, ih hl.2, List.filter_cons_of_neg (by simp; omega)]
    · have h0 : (a :: l).countP (fun x => decide (x < k)) = 0 := by
        rw [List.countP_eq_zero]
        intro x hx
        rcases List.mem_cons.1 hx with rfl | hx
        · simpa using h
        · have := hl.1 x hx
          simp; omega
      rw [h0, List.drop_zero, eq_comm, List.filter_eq_self]
      intro x hx
      rcases List.mem_cons.1 hx with rfl | hx
      · simp; omega
      · have := hl.1 x hx
        simp; omega

/-! ### Mapping from source elements to sources -/

theorem advance_eq {el : Nat} {l : List Nat} (hl : l.Pairwise (· ≤ ·)) (hge : ∀ x ∈ l, el ≤ x) (n : Nat) :
    advance el l n = some (n + l.countP (fun x => decide (x = el))) := by
  induction l generalizing n with
  | nil => simp [advance]
  | cons s l ih =>
    rw [List.pairwise_cons] at hl
    have hs := hge s (by simp)
    simp only [advance, check, hs, decide_true, if_true, Option.bind_eq_bind, Option.bind_some]
    by_cases h : s = el
    · rw [if_pos h, ih hl.2 (fun x hx => hge x (by simp [hx])), List.countP_cons_of_pos (by simpa using h)]
      congr 1; omega
    · rw [if_neg h]
      have h0 : (s :: l).countP (fun x => decide (x = el)) = 0 := by
        rw [List.countP_eq_zero]
        intro x hx
        rcases List.mem_cons.1 hx with rfl | hx
        · simpa using h
        · have := hl.1 x hx
          simp; omega
      rw [h0]; rfl

/-- The result of `elSpPs`: for the `k`-th source element the number of sources in the source elements before it. -/
theorem elSpPs_spec {nEl : Nat} {isSrc limited : Nat → Bool} {srcElP : List Nat} (hs : srcElP.Pairwise (· ≤ ·))
    (hsrc : ∀ e ∈ srcElP, e < nEl ∧ isSrc e = true) (hlim : ∀ e < nEl, isSrc e = true → limited e = false) :
    ∃ m, elSpPs nEl isSrc limited srcElP = some m ∧ m.length = rank isSrc nEl + 1 ∧
      ∀ k ≤ rank isSrc nEl, m[k]? = some (some (srcElP.countP (fun e => decide (rank isSrc e < k)))) := by
  have hcnt : ∀ el, srcElP.countP (fun e => decide (rank isSrc e < rank isSrc el)) = srcElP.countP (fun e => decide (e < el)) := by
    intro el
    apply List.countP_congr
    intro e he
    simp [rank_lt_iff (hsrc e he).2]
  have h1 : forN nEl (fun el n => if isSrc el then do
      check (!limited el)
      some (n + 1) else some n) 0 = some (rank isSrc nEl) := by
    obtain ⟨n, hn, rfl⟩ := forN_inv (n := nEl) (s := 0) (body := fun el n => if isSrc el then do
        check (!limited el)
        some (n + 1) else some n) (fun i n => n = rank isSrc i) (by simp [rank]) (by
      rintro i n hi rfl
      refine ⟨rank isSrc (i + 1), ?_, rfl⟩
      rw [rank_succ]
      by_cases h : isSrc i = true
      · simp [h, hlim i hi h, check]
      · simp [h])
    exact hn
  let R := rank isSrc nEl
  obtain ⟨⟨m, k, p⟩, h2, ⟨hm, hk, hp, hval⟩⟩ := forN_inv (n := nEl) (s := ((List.replicate (R + 1) none).set 0 (some 0), 0, 0))
    (body := fun el (o : List (Option Nat) × Nat × Nat) =>
      if isSrc el then do
        let m ← wr o.1 o.2.1 (some o.2.2)
        let ptSrc ← advance el (srcElP.drop o.2.2) o.2.2
        some (m, o.2.1 + 1, ptSrc)
      else some o)
    (fun i o => o.1.length = R + 1 ∧ o.2.1 = rank isSrc i ∧ o.2.2 = srcElP.countP (fun e => decide (e < i)) ∧
      ∀ k < rank isSrc i, o.1[k]? = some (some (srcElP.countP (fun e => decide (rank isSrc e < k)))))
    (by simp [rank]) (by
      rintro i ⟨m, k, p⟩ hi ⟨hm, hk, hp, hval⟩
      simp only at hm hk hp hval
      subst hk hp
      have hsplit : srcElP.countP (fun e => decide (e < i + 1)) =
          srcElP.countP (fun e => decide (e < i)) + srcElP.countP (fun e => decide (e = i)) := by
        clear h1 hcnt hs hsrc hval
        induction srcElP with
        | nil => rfl
        | cons a l ih =>
          simp only [List.countP_cons, ih]
          by_cases h1 : a < i
          · simp [h1, show a < i + 1 by omega, show a ≠ i by omega]; omega
          · by_cases h2 : a = i
            · simp [h2]; omega
            · simp [h1, h2, show ¬ a < i + 1 by omega]
      by_cases h : isSrc i = true
      · have hlt : rank isSrc i < R := (rank_lt_iff h nEl).2 hi
        have hadv : advance i (srcElP.drop (srcElP.countP (fun e => decide (e < i)))) (srcElP.countP (fun e => decide (e < i))) =
            some (srcElP.countP (fun e => decide (e < i + 1))) := by
          rw [advance_eq (hs.sublist (List.drop_sublist _ _)) (by
            rw [sorted_drop hs]; intro x hx; simpa using (List.mem_filter.1 hx).2), sorted_drop hs, List.countP_filter, hsplit]
          congr 2
          apply List.countP_congr
          intro x _
          simp; omega
        refine ⟨(m.set (rank isSrc i) (some (srcElP.countP (fun e => decide (e < i)))), rank isSrc i + 1,
          srcElP.countP (fun e => decide (e < i + 1))), ?_, ?_, ?_, rfl, ?_⟩
        · simp only [h, if_true, wr_some (show rank isSrc i < m.length by omega), hadv, Option.bind_eq_bind, Option.bind_some]
        · simpa using hm
        · rw [rank_succ, if_pos h]
        · intro k hk
          rw [rank_succ, if_pos h] at hk
          by_cases e : k = rank isSrc i
          · subst e
            simp only
            rw [List.getElem?_set_self (by omega), hcnt]
          · simp only
            rw [List.getElem?_set_ne (fun e' => e e'.symm)]
            exact hval k (by omega)
      · refine ⟨(m, rank isSrc i, srcElP.countP (fun e => decide (e < i))), by simp [h], hm, ?_, ?_, ?_⟩
        · simp [rank_succ, h]
        · simp only
          rw [hsplit, eq_comm, Nat.add_eq_left, List.countP_eq_zero]
          intro x hx
          simp
          rintro rfl
          exact h (hsrc x hx).2
        · intro k hk
          rw [rank_succ] at hk
          simp only [h, Bool.false_eq_true, if_false, add_zero] at hk
          exact hval k hk)
  change m.length = R + 1 at hm
  change p = _ at hp
  refine ⟨m.set R (some p), ?_, by simpa using hm, ?_⟩
  · simp only [Option.bind_eq_bind] at h1 h2
    simp only [elSpPs, Option.bind_eq_bind]
    rw [h1, Option.bind_some, wr_some (by simp), Option.bind_some, h2, Option.bind_some]
    exact wr_some (show R < m.length by omega) _
  · intro k' hk'
    by_cases e : k' = R
    · subst e
      rw [List.getElem?_set_self (by omega), hp, hcnt]
    · rw [List.getElem?_set_ne (fun e' => e e'.symm)]
      exact hval k' (by omega)

/-! ### Time series of the active sources -/

/-- Offsets of consecutive series. -/
def offsets (ls : List (List ℝ)) (k : Nat) : Nat := ((ls.take k).map List.length).sum

theorem offsets_succ {ls : List (List ℝ)} {k : Nat} (h : k < ls.length) : offsets ls (k + 1) = offsets ls k + ls[k].length := by
  rw [offsets, List.take_succ_eq_append_getElem h, List.map_append, List.sum_append]; simp [offsets]

theorem initPtrs_spec {raw : Raw} {n : Nat} {src : Nat → Source} (hr : Describes raw n src) {ids : List Nat} (hid : ∀ s ∈ ids, s < n) :
    ∃ ptrs, initPtrs raw.tPtrs ids = some ptrs ∧ ptrs.length = ids.length + 1 ∧
      ∀ k ≤ ids.length, ptrs[k]? = some (offsets (ids.map (fun s => (src s).series)) k) := by
  refine forN_inv (fun i (ptrs : List Nat) => ptrs.length = i + 1 ∧
    ∀ k ≤ i, ptrs[k]? = some (offsets (ids.map (fun s => (src s).series)) k)) ?_ ?_
  · refine ⟨rfl, fun k hk => ?_⟩
    obtain rfl : k = 0 := by omega
    simp [offsets]
  · rintro i ptrs hi ⟨hl, hv⟩
    obtain ⟨a, b, ha, hb, hab, hbl, hse⟩ := hr.series ids[i] (hid _ (List.getElem_mem _))
    have hlen : (src ids[i]).series.length = b - a := by rw [hse]; simp; omega
    refine ⟨ptrs ++ [offsets (ids.map (fun s => (src s).series)) i + (b - a)], ?_, by simp [hl], ?_⟩
    · simp only [rd_some hi, Option.bind_eq_bind, Option.bind_some]
      simp only [rd, hv i le_rfl, ha, hb, hab, check, decide_true, if_true, Option.bind_some]
    · intro k hk
      by_cases e : k = i + 1
      · subst e
        rw [List.getElem?_append_right (by omega), hl, offsets_succ (by simpa using hi)]
        simp [hlen]
      · rw [List.getElem?_append_left (by omega)]
        exact hv k (by omega)

theorem set_append_none {α : Type _} (pre : List α) (n : Nat) (v : α) (h : 0 < n) :
    (pre.map some ++ List.replicate n none).set pre.length (some v) = (pre ++ [v]).map some ++ List.replicate (n - 1) none := by
  obtain ⟨n, rfl⟩ : ∃ k, n = k + 1 := ⟨n - 1, by omega⟩
  rw [List.set_append_right _ _ (by simp), List.replicate_succ]
  simp

theorem initTss_spec {raw : Raw} {n : Nat} {src : Nat → Source} (hr : Describes raw n src) {ids : List Nat} (hid : ∀ s ∈ ids, s < n)
    {ptrs : List Nat} (hp : ∀ k ≤ ids.length, ptrs[k]? = some (offsets (ids.map (fun s => (src s).series)) k)) :
    initTss raw ptrs ids = some ((ids.map (fun s => (src s).series)).flatten.map some) := by
  let ls := ids.map (fun s => (src s).series)
  have hll : ls.length = ids.length := by simp [ls]
  let N := offsets ls ids.length
  have hN : N = ls.flatten.length := by simp [N, offsets, ← hll, List.length_flatten]
  have htk : ∀ i (hi : i < ls.length), (ls.take (i + 1)).flatten = (ls.take i).flatten ++ ls[i] := by
    intro i hi; rw [List.take_succ_eq_append_getElem hi, List.flatten_append]; simp only [List.flatten_cons, List.flatten_nil, List.append_nil]
  have hof : ∀ i, offsets ls i = (ls.take i).flatten.length := by intro i; simp [offsets, List.length_flatten]
  have hmono : ∀ i, i ≤ ls.length → (ls.take i).flatten.length ≤ N := by
    intro i hi
    have := congrArg (fun l => l.flatten.length) (List.take_append_drop i ls)
    simp only [List.flatten_append, List.length_append] at this
    omega
  have key : ∃ tss, forN ids.length (fun pt tss => do
      let id ← rd ids pt
      let off ← rd ptrs pt
      let offRaw ← rd raw.tPtrs id
      let next ← rd ptrs (pt + 1)
      forN (next - off) (fun sa tss => do
        let v ← rd raw.tSrs (offRaw + sa)
        wr tss (off + sa) (some v)) tss) (List.replicate N none) = some tss ∧
      tss = (ls.take ids.length).flatten.map some ++ List.replicate (N - (ls.take ids.length).flatten.length) none := by
    refine forN_inv (fun i (tss : List (Option ℝ)) =>
      tss = (ls.take i).flatten.map some ++ List.replicate (N - (ls.take i).flatten.length) none) (by simp) ?_
    rintro i tss hi rfl
    have hi' : i < ls.length := by omega
    obtain ⟨a, b, ha, hb, hab, hbl, hse⟩ := hr.series ids[i] (hid _ (List.getElem_mem _))
    have hlsi : ls[i] = (src ids[i]).series := by simp [ls]
    have hlen : ls[i].length = b - a := by rw [hlsi, hse]; simp; omega
    have h3 : offsets ls (i + 1) - offsets ls i = b - a := by rw [offsets_succ hi', hlen]; omega
    simp only [rd_some hi, Option.bind_eq_bind, Option.bind_some]
    simp only [rd, hp i (by omega), hp (i + 1) (by omega), ha, Option.bind_some]
    change ∃ t', forN (offsets ls (i + 1) - offsets ls i) _ _ = some t' ∧ _
    rw [h3]
    have hN1 := hmono (i + 1) (by omega)
    rw [htk i hi'] at hN1
    simp only [List.length_append, hlen] at hN1
    have := forN_inv (n := b - a) (s := (ls.take i).flatten.map some ++ List.replicate (N - (ls.take i).flatten.length) none)
      (body := fun sa (tss : List (Option ℝ)) => (raw.tSrs[a + sa]?).bind fun v => wr tss (offsets ls i + sa) (some v))
      (fun j (tss : List (Option ℝ)) => tss = ((ls.take i).flatten ++ ls[i].take j).map some ++
        List.replicate (N - ((ls.take i).flatten.length + j)) none) (by simp) (by
      rintro j tss hj rfl
      have hv : raw.tSrs[a + j]? = some ((ls[i])[j]'(by omega)) := by
        have e : (ls[i])[j]? = raw.tSrs[a + j]? := by
          rw [hlsi, hse, List.getElem?_take_of_lt hj, List.getElem?_drop]
        rw [← e, List.getElem?_eq_getElem]
      have hpl : offsets ls i + j = ((ls.take i).flatten ++ ls[i].take j).length := by
        rw [hof]; simp only [List.length_append, List.length_take]; omega
      refine ⟨_, by
        rw [hv, Option.bind_some]
        refine wr_some ?_ _
        simp only [hof, List.length_append, List.length_map, List.length_replicate, List.length_take]; omega, ?_⟩
      rw [hpl, set_append_none _ _ _ (by omega), List.take_succ_eq_append_getElem (by omega), ← List.append_assoc]
      congr 2)
    obtain ⟨t, ht, rfl⟩ := this
    refine ⟨_, ht, ?_⟩
    rw [htk i hi', ← hlen, List.take_length, List.length_append]
  obtain ⟨tss, h1, rfl⟩ := key
  unfold initTss
  have : rd ptrs ids.length = some N := hp ids.length le_rfl
  rw [this]
  simp only [Option.bind_eq_bind, Option.bind_some] at h1 ⊢
  rw [h1]
  rw [show ids.length = ls.length from hll.symm, List.take_length, ← hN]
  simp [ls]

theorem samples_eq (xs : List ℝ) {off n : Nat} (h : off + n ≤ xs.length) :
    samples (xs.map some) off n = some ((xs.drop off).take n) := by
  unfold samples
  induction n with
  | zero => simp
  | succ n ih =>
    rw [List.range_succ, List.mapM_append, ih (by omega), List.take_succ_eq_append_getElem (by simp; omega)]
    simp [rd, show off + n < xs.length by omega]

theorem slice_flatten {ls : List (List ℝ)} {k : Nat} (h : k < ls.length) :
    (ls.flatten.drop (offsets ls k)).take (offsets ls (k + 1) - offsets ls k) = ls[k] := by
  have h1 : ls.flatten = (ls.take k).flatten ++ (ls[k] ++ (ls.drop (k + 1)).flatten) := by
    have := congrArg List.flatten (List.take_append_drop k ls)
    rw [List.drop_eq_getElem_cons h, List.flatten_append, List.flatten_cons] at this
    exact this.symm
  have h2 : offsets ls k = (ls.take k).flatten.length := by simp [offsets, List.length_flatten]
  rw [offsets_succ h, h1, h2, List.drop_left, Nat.add_sub_cancel_left, List.take_left]

theorem initTsData_spec {raw : Raw} {n : Nat} {src : Nat → Source} (hr : Describes raw n src) (basis : Nat → Nat → Nat → ℝ)
    {ids : List Nat} (hid : ∀ s ∈ ids, s < n) (E : Nat → Nat) :
    ∃ d, initTsData raw basis (ids.map E) ids = some d ∧ d.el = ids.map E ∧ d.times = ids.map (fun s => (src s).onset) ∧
      d.dts = ids.map (fun s => (src s).dt) ∧ d.bEvals = ids.map (fun s => basis s (E s)) ∧
      d.scas = ids.map (fun s => (src s).sca) ∧ d.tsPtrs.length = ids.length + 1 ∧
      (∀ k ≤ ids.length, d.tsPtrs[k]? = some (offsets (ids.map (fun s => (src s).series)) k)) ∧
      d.tss = (ids.map (fun s => (src s).series)).flatten.map some := by
  obtain ⟨ptrs, h1, h2, h3⟩ := initPtrs_spec hr hid
  have h4 := initTss_spec hr hid h3
  refine ⟨⟨ids.map E, (ids.map (fun s => ((src s).onset, (src s).dt))).map Prod.fst,
    (ids.map (fun s => ((src s).onset, (src s).dt))).map Prod.snd, (ids.zip (ids.map E)).map (fun p => basis p.1 p.2),
    ids.map (fun s => (src s).sca), ptrs, (ids.map (fun s => (src s).series)).flatten.map some⟩, ?_, rfl, by simp, by simp, ?_, rfl,
    h2, h3, rfl⟩
  · have hc : raw.scas.length = raw.tPars.length ∧ raw.tPtrs.length = raw.tPars.length + 1 := by
      rw [hr.nPars, hr.nScas, hr.nPtrs]; exact ⟨rfl, rfl⟩
    simp only [initTsData, check, hc, and_self, decide_true, if_true, Option.bind_eq_bind, Option.bind_some,
      mapM_rd (fun i hi => hr.pars i (hid i hi)), mapM_rd (fun i hi => hr.scas i (hid i hi)), h1, h4]
  · rw [List.zip_map_right]
    have : ids.zip ids = ids.map (fun s => (s, s)) := by
      clear h1 h2 h3 h4 hid
      induction ids with
      | nil => rfl
      | cons a l ih => simp [ih]
    rw [this]; simp

/-- A single source adds its contribution to its own element. -/
theorem applyPs_spec {n : Nat} {src : Nat → Source} {basis : Nat → Nat → Nat → ℝ} {ids : List Nat} {E : Nat → Nat} {d : Ps}
    (e1 : d.el = ids.map E) (e2 : d.times = ids.map (fun s => (src s).onset)) (e3 : d.dts = ids.map (fun s => (src s).dt))
    (e4 : d.bEvals = ids.map (fun s => basis s (E s))) (e5 : d.scas = ids.map (fun s => (src s).sca))
    (e6 : ∀ k ≤ ids.length, d.tsPtrs[k]? = some (offsets (ids.map (fun s => (src s).series)) k))
    (e7 : d.tss = (ids.map (fun s => (src s).series)).flatten.map some) {tol t1 t2 I : ℝ} {ps : Nat} (hps : ps < ids.length)
    (hI : integrate tol (src ids[ps]).dt (src ids[ps]).onset (src ids[ps]).series t1 t2 0 = some I) (dofs : Dofs) :
    applyPs tol d t1 t2 ps dofs = some (fun el qt md => dofs el qt md +
      if el = E ids[ps] then I * (src ids[ps]).sca qt * basis ids[ps] (E ids[ps]) md else 0) := by
  have hsl := slice_flatten (ls := ids.map (fun s => (src s).series)) (k := ps) (by simpa using hps)
  have hle : offsets (ids.map (fun s => (src s).series)) ps + (offsets (ids.map (fun s => (src s).series)) (ps + 1) -
      offsets (ids.map (fun s => (src s).series)) ps) ≤ (ids.map (fun s => (src s).series)).flatten.length := by
    have h1 := offsets_succ (ls := ids.map (fun s => (src s).series)) (k := ps) (by simpa using hps)
    have h2 := congrArg List.length hsl
    simp only [List.length_take, List.length_drop] at h2
    have h3 : offsets (ids.map (fun s => (src s).series)) ps ≤ (ids.map (fun s => (src s).series)).flatten.length := by
      rw [show offsets (ids.map (fun s => (src s).series)) ps = ((ids.map (fun s => (src s).series)).take ps).flatten.length by
        simp [offsets, List.length_flatten]]
      have := congrArg (fun l => l.flatten.length) (List.take_append_drop ps (ids.map (fun s => (src s).series)))
      simp only [List.flatten_append, List.length_append] at this
      omega
    omega
  have hs := samples_eq _ hle
  rw [hsl] at hs
  simp only [List.getElem_map] at hs
  have g : ∀ {α : Type} (f : Nat → α), (ids.map f)[ps]? = some (f ids[ps]) := by
    intro α f; simp [hps]
  simp only [applyPs, rd, e1, e2, e3, e4, e5, e7, e6 ps (by omega), e6 (ps + 1) (by omega), g, hs, hI, Option.bind_eq_bind,
    Option.bind_some, Option.some.injEq]
  funext el qt md
  by_cases h : el = E ids[ps] <;> simp [h]

/-- The loops of `apply` add up the contributions of a range of sources. -/
theorem apply_spec {m : List (Option Nat)} {d : Ps} {tol t1 t2 : ℝ} {M : Nat → Nat} {N n : Nat} (hM : ∀ k ≤ N, m[k]? = some (some (M k)))
    (hmono : ∀ k < N, M k ≤ M (k + 1)) (hn : ∀ k ≤ N, M k ≤ n) (c : Nat → Dofs)
    (hc : ∀ ps < n, ∀ dofs, applyPs tol d t1 t2 ps dofs = some (fun el qt md => dofs el qt md + c ps el qt md))
    {first size : Nat} (hfs : first + size ≤ N) (dofs : Dofs) :
    apply tol m d first size t1 t2 dofs =
      some (fun el qt md => dofs el qt md + ∑ ps ∈ Finset.Ico (M first) (M (first + size)), c ps el qt md) := by
  have inner : ∀ a b (dofs : Dofs), a ≤ b → b ≤ n → forN (b - a) (fun j dofs => applyPs tol d t1 t2 (a + j) dofs) dofs =
      some (fun el qt md => dofs el qt md + ∑ ps ∈ Finset.Ico a b, c ps el qt md) := by
    intro a b dofs hab hbn
    obtain ⟨r, hr, rfl⟩ := forN_inv (n := b - a) (s := dofs) (body := fun j dofs => applyPs tol d t1 t2 (a + j) dofs)
      (fun j r => r = fun el qt md => dofs el qt md + ∑ ps ∈ Finset.Ico a (a + j), c ps el qt md) (by simp) (by
        rintro j r hj rfl
        refine ⟨_, hc _ (by omega) _, ?_⟩
        funext el qt md
        rw [← Nat.add_assoc, Finset.sum_Ico_succ_top (by omega), add_assoc])
    rw [hr, show a + (b - a) = b by omega]
  have hmono' : ∀ j, first + j ≤ N → M first ≤ M (first + j) := by
    intro j
    induction j with
    | zero => intro _; exact le_rfl
    | succ j ih => intro h; exact (ih (by omega)).trans (hmono (first + j) (by omega))
  obtain ⟨r, hr, rfl⟩ := forN_inv (n := size) (s := dofs) (body := fun i dofs => do
      let a ← (rd m (first + i)).join
      let b ← (rd m (first + i + 1)).join
      forN (b - a) (fun j dofs => applyPs tol d t1 t2 (a + j) dofs) dofs)
    (fun i r => r = fun el qt md => dofs el qt md + ∑ ps ∈ Finset.Ico (M first) (M (first + i)), c ps el qt md) (by simp) (by
      rintro i r hi rfl
      refine ⟨_, by
        simp only [rd, hM (first + i) (by omega), hM (first + i + 1) (by omega), Option.join_some, Option.bind_eq_bind,
          Option.bind_some]
        exact inner _ _ _ (hmono _ (by omega)) (hn _ (by omega)), ?_⟩
      funext el qt md
      rw [← Nat.add_assoc, ← Finset.sum_Ico_consecutive _ (hmono' i (by omega)) (hmono (first + i) (by omega)), add_assoc])
  exact hr

theorem sum_idx (l : List Nat) (F c : Nat → ℝ) (h : ∀ i (hi : i < l.length), c i = F l[i]) :
    ∑ i ∈ Finset.range l.length, c i = (l.map F).sum := by
  induction l generalizing c with
  | nil => rfl
  | cons a l ih =>
    rw [List.length_cons, Finset.sum_range_succ', ih (fun i => c (i + 1)) (fun i hi => h (i + 1) (by simpa using hi)),
      h 0 (by simp), List.map_cons, List.sum_cons]
    simp [add_comm]

theorem sum_filter_ne (F : Nat → ℝ) (p : Nat → Bool) (l : List Nat) (h : ∀ s ∈ l, p s = false → F s = 0) :
    ((l.filter p).map F).sum = (l.map F).sum := by
  induction l with
  | nil => rfl
  | cons a l ih =>
    have ih' := ih (fun s hs => h s (by simp [hs]))
    cases hp : p a with
    | true => simp [hp, ih']
    | false => simp [hp, ih', h a (by simp) hp]

/-- C45: for every assignment of the sources to elements and every order which `std::sort` may return, setup succeeds, and
applying any range of the source elements adds to every element of the range exactly the contributions of the sources located
in it, every source once and with its own samples and scalings, and leaves all other elements as they are. -/
theorem C45_apply {raw : Raw} {psEl : List Nat} {src : Nat → Source} (hr : Describes raw psEl.length src)
    (basis : Nat → Nat → Nat → ℝ) {nEl unset : Nat} (hun : nEl ≤ unset) (hpsEl : ∀ e ∈ psEl, e = unset ∨ e < nEl)
    {isSrc limited : Nat → Bool} (hsrc : ∀ e ∈ psEl, e < nEl → isSrc e = true)
    (hlim : ∀ e < nEl, isSrc e = true → limited e = false) :
    ∃ ids els, getAcDu unset psEl = some (ids, els) ∧ ∀ per, IsSrcPerm els per →
      ∃ m d, init raw basis nEl isSrc limited ids els per = some (m, d) ∧
        ∀ (tol t1 t2 : ℝ) (I : Nat → ℝ), (∀ s, s < psEl.length → psEl[s]? ≠ some unset →
            integrate tol (src s).dt (src s).onset (src s).series t1 t2 0 = some (I s)) →
          ∀ (first size : Nat) (dofs : Dofs), first + size ≤ rank isSrc nEl →
            ∃ dofs', apply tol m d first size t1 t2 dofs = some dofs' ∧ ∀ el < nEl, ∀ qt md,
              dofs' el qt md = dofs el qt md +
                if isSrc el = true ∧ first ≤ rank isSrc el ∧ rank isSrc el < first + size then
                  ∑ s ∈ (Finset.range psEl.length).filter (fun s => psEl[s]? = some el), I s * (src s).sca qt * basis s el md
                else 0 := by
  let E : Nat → Nat := fun s => psEl.getD s unset
  have hE : ∀ s (h : s < psEl.length), E s = psEl[s] := by
    intro s h; simp [E, List.getD_eq_getElem?_getD, List.getElem?_eq_getElem h]
  let ids := (List.range psEl.length).filter (fun s => decide (E s ≠ unset))
  have hac : getAcDu unset psEl = some (ids, ids.map E) := by
    obtain ⟨o, ho, rfl⟩ := forN_inv (n := psEl.length) (s := (([], []) : List Nat × List Nat)) (body := fun ps o => do
        let el ← rd psEl ps
        if el ≠ unset then some (o.1 ++ [ps], o.2 ++ [el]) else some o)
      (fun i o => o = ((List.range i).filter (fun s => decide (E s ≠ unset)),
        ((List.range i).filter (fun s => decide (E s ≠ unset))).map E)) rfl (by
        rintro i o hi rfl
        refine ⟨_, ?_, rfl⟩
        simp only [rd_some hi, Option.bind_eq_bind, Option.bind_some]
        rw [List.range_succ, List.filter_append]
        by_cases h : E i = unset
        · have h' : psEl[i] = unset := by rw [← hE i hi]; exact h
          simp [h, h']
        · have h' : ¬ psEl[i] = unset := by rw [← hE i hi]; exact h
          simp [h, h', hE i hi])
    exact ho
  refine ⟨ids, ids.map E, hac, fun per hper => ?_⟩
  have hidn : ∀ s ∈ ids, s < psEl.length ∧ E s ≠ unset := by
    intro s hs
    simpa [ids] using hs
  have hperlt : ∀ i ∈ per, i < ids.length := by
    intro i hi
    have := hper.perm.mem_iff.1 hi
    simpa using this
  let idsP := per.map (fun i => ids.getD i 0)
  have hgd : ∀ i (h : i < ids.length), ids.getD i 0 = ids[i] := by
    intro i h; simp [List.getD_eq_getElem?_getD, List.getElem?_eq_getElem h]
  have hp1 : permute per ids = some idsP := by
    refine mapM_rd fun i hi => ?_
    rw [hgd i (hperlt i hi), List.getElem?_eq_getElem]
  have hp2 : permute per (ids.map E) = some (idsP.map E) := by
    rw [List.map_map]
    refine mapM_rd fun i hi => ?_
    have := hperlt i hi
    simp only [Function.comp_apply, hgd i this]
    simp [this]
  have hperm : idsP.Perm ids := by
    have := hper.perm.map (fun i => ids.getD i 0)
    rw [List.length_map, map_getD_range] at this
    exact this
  have hidsP : ∀ s ∈ idsP, s < psEl.length ∧ E s ≠ unset := fun s hs => hidn s (hperm.mem_iff.1 hs)
  have hElt : ∀ s ∈ idsP, E s < nEl ∧ isSrc (E s) = true := by
    intro s hs
    obtain ⟨h1, h2⟩ := hidsP s hs
    have hm : E s ∈ psEl := by rw [hE s h1]; exact List.getElem_mem _
    have h3 : E s < nEl := (hpsEl _ hm).resolve_left h2
    exact ⟨h3, hsrc _ hm h3⟩
  have hsorted : (idsP.map E).Pairwise (· ≤ ·) := by
    rw [List.pairwise_iff_getElem]
    intro i j hi hj hij
    simp only [List.length_map, idsP] at hi hj
    have a1 := hperlt _ (List.getElem_mem hi)
    have a2 := hperlt _ (List.getElem_mem hj)
    refine hper.sorted i j per[i] per[j] _ _ hij.le (List.getElem?_eq_getElem hi) (List.getElem?_eq_getElem hj) ?_ ?_
    · simp [idsP, a1, hgd _ a1]
    · simp [idsP, a2, hgd _ a2]
  obtain ⟨m, hm, hml, hmv⟩ := elSpPs_spec (nEl := nEl) (isSrc := isSrc) (limited := limited) hsorted (by
    intro e he
    obtain ⟨s, hs, rfl⟩ := List.mem_map.1 he
    exact hElt s hs) hlim
  obtain ⟨d, hd, e1, e2, e3, e4, e5, -, e6, e7⟩ := initTsData_spec hr basis (fun s hs => (hidsP s hs).1) E
  refine ⟨m, d, by simp only [init, hp1, hp2, hm, hd, Option.bind_eq_bind, Option.bind_some], ?_⟩
  intro tol t1 t2 I hI first size dofs hfs
  let R := (idsP.map E).map (rank isSrc)
  have hRs : R.Pairwise (· ≤ ·) := hsorted.map _ (fun a b h => rank_mono isSrc h)
  let M : Nat → Nat := fun k => R.countP (fun x => decide (x < k))
  have hMv : ∀ k ≤ rank isSrc nEl, m[k]? = some (some (M k)) := by
    intro k hk
    rw [hmv k hk]
    congr 2
    simp only [M, R, List.countP_map]
    rfl
  let c : Nat → Dofs := fun ps el qt md => if h : ps < idsP.length then
    (if el = E idsP[ps] then I idsP[ps] * (src idsP[ps]).sca qt * basis idsP[ps] (E idsP[ps]) md else 0) else 0
  have hap := apply_spec (tol := tol) (t1 := t1) (t2 := t2) (d := d) hMv (n := idsP.length)
    (fun k _ => List.countP_mono_left (by intro x _ hx; simp at hx ⊢; omega))
    (fun k _ => (List.countP_le_length).trans (by simp [R])) c (by
      intro ps hps dofs
      have hmem : idsP[ps] ∈ idsP := List.getElem_mem _
      have hne : psEl[idsP[ps]]? ≠ some unset := by
        obtain ⟨h1, h2⟩ := hidsP _ hmem
        rw [hE _ h1] at h2
        rw [List.getElem?_eq_getElem h1]
        simpa using h2
      rw [applyPs_spec (n := psEl.length) e1 e2 e3 e4 e5 e6 e7 hps (hI _ (hidsP _ hmem).1 hne)]
      congr 1
      funext el qt md
      simp only [c, dif_pos hps]) hfs dofs
  refine ⟨_, hap, fun el hel qt md => ?_⟩
  congr 1
  -- sources of the range
  have hin : ∀ ps (h : ps < idsP.length) k, rank isSrc (E idsP[ps]) < k ↔ ps < M k := by
    intro ps h k
    have := sorted_count hRs k (i := ps) (by simpa [R] using h)
    rw [show R[ps]'(by simpa [R] using h) = rank isSrc (E idsP[ps]) by simp [R]] at this
    exact this
  have hMlen : ∀ k, M k ≤ idsP.length := fun k => (List.countP_le_length).trans (by simp [R])
  have hs1 : ∑ ps ∈ Finset.Ico (M first) (M (first + size)), c ps el qt md =
      ∑ ps ∈ Finset.range idsP.length, if isSrc el = true ∧ first ≤ rank isSrc el ∧ rank isSrc el < first + size then
        c ps el qt md else 0 := by
    rw [← Finset.sum_filter_add_sum_filter_not (Finset.range idsP.length) (fun ps => ps ∈ Finset.Ico (M first) (M (first + size)))]
    have hz : ∑ ps ∈ (Finset.range idsP.length).filter (fun ps => ¬ ps ∈ Finset.Ico (M first) (M (first + size))),
        (if isSrc el = true ∧ first ≤ rank isSrc el ∧ rank isSrc el < first + size then c ps el qt md else 0) = 0 := by
      refine Finset.sum_eq_zero fun ps hps => ?_
      rw [Finset.mem_filter, Finset.mem_range, Finset.mem_Ico] at hps
      split_ifs with hr'
      · simp only [c, dif_pos hps.1]
        rw [if_neg]
        intro he
        apply hps.2
        have h1 := hin ps hps.1 first
        have h2 := hin ps hps.1 (first + size)
        rw [← he] at h1 h2
        exact ⟨by omega, h2.1 hr'.2.2⟩
      · rfl
    rw [hz, add_zero]
    have hfil : (Finset.range idsP.length).filter (fun ps => ps ∈ Finset.Ico (M first) (M (first + size))) =
        Finset.Ico (M first) (M (first + size)) := by
      ext ps
      have := hMlen (first + size)
      simp only [Finset.mem_filter, Finset.mem_range, Finset.mem_Ico]
      omega
    rw [hfil]
    refine Finset.sum_congr rfl fun ps hps => ?_
    rw [Finset.mem_Ico] at hps
    have hlt : ps < idsP.length := by have := hMlen (first + size); omega
    simp only [c, dif_pos hlt]
    by_cases he : el = E idsP[ps]
    · have h1 := hin ps hlt first
      have h2 := hin ps hlt (first + size)
      rw [← he] at h1 h2
      rw [if_pos he, if_pos ⟨by rw [he]; exact (hElt _ (List.getElem_mem _)).2, by omega, h2.2 hps.2⟩]
    · simp [he]
  rw [hs1]
  by_cases hin' : isSrc el = true ∧ first ≤ rank isSrc el ∧ rank isSrc el < first + size
  · simp only [hin', and_self, if_true]
    let F : Nat → ℝ := fun s => if el = E s then I s * (src s).sca qt * basis s el md else 0
    have h1 : ∑ ps ∈ Finset.range idsP.length, c ps el qt md = (idsP.map F).sum := by
      refine sum_idx idsP F _ fun i hi => ?_
      simp only [c, dif_pos hi, F]
      by_cases he : el = E idsP[i]
      · rw [if_pos he, if_pos he, ← he]
      · rw [if_neg he, if_neg he]
    have h2 : (idsP.map F).sum = (ids.map F).sum := (hperm.map F).sum_eq
    have h3 : (ids.map F).sum = ((List.range psEl.length).map F).sum := by
      refine sum_filter_ne F _ _ fun s _ hs => ?_
      have hs' : E s = unset := by simpa using hs
      simp only [F]; rw [if_neg]; omega
    have h4 := sum_idx (List.range psEl.length) F F (by simp)
    rw [List.length_range] at h4
    rw [h1, h2, h3, ← h4, Finset.sum_filter]
    refine Finset.sum_congr rfl fun s hs => ?_
    rw [Finset.mem_range] at hs
    simp only [F, hE s hs, List.getElem?_eq_getElem hs, Option.some.injEq, eq_comm]
  · simp [hin']

/-- Three sources: the first and the last one are in element 2, the second one in none of the elements. -/
noncomputable def exRaw : Raw := ⟨[(0, 1), (2, 1), (1, 2)], [fun _ => 1, fun _ => 2, fun q => q], [0, 2, 3, 5], [1, 2, 3, 4, 5]⟩
noncomputable def exSrc : Nat → Source
  | 0 => ⟨0, 1, [1, 2], fun _ => 1⟩
  | 1 => ⟨2, 1, [3], fun _ => 2⟩
  | _ => ⟨1, 2, [4, 5], fun q => q⟩

theorem exDescribes : Describes exRaw 3 exSrc where
  nPars := rfl
  nScas := rfl
  nPtrs := rfl
  pars := by intro s hs; match s, hs with | 0, _ => rfl | 1, _ => rfl | 2, _ => rfl
  scas := by intro s hs; match s, hs with | 0, _ => rfl | 1, _ => rfl | 2, _ => rfl
  series := by
    intro s hs
    match s, hs with
    | 0, _ => exact ⟨0, 2, rfl, rfl, by simp, by simp [exRaw], rfl⟩
    | 1, _ => exact ⟨2, 3, rfl, rfl, by simp, by simp [exRaw], rfl⟩
    | 2, _ => exact ⟨3, 5, rfl, rfl, by simp, by simp [exRaw], rfl⟩

/-- The hypotheses of `C45_apply` are met: elements 1 and 2 are source elements, both orders of the sources of element 2 are
possible, and the integrals exist. -/
example (basis : Nat → Nat → Nat → ℝ) : ∃ ids els, getAcDu 100 [2, 100, 2] = some (ids, els) ∧ IsSrcPerm els [0, 1] ∧
    IsSrcPerm els [1, 0] ∧ ∃ m d, init exRaw basis 4 (fun e => e == 1 || e == 2) (fun _ => false) ids els [1, 0] = some (m, d) ∧
      ∀ t1 t2 : ℝ, ∃ I : Nat → ℝ, ∀ dofs : Dofs, ∃ dofs', apply 1 m d 1 1 t1 t2 dofs = some dofs' ∧
        dofs' 2 3 0 = dofs 2 3 0 + (I 0 * basis 0 2 0 + I 2 * 3 * basis 2 2 0) ∧ dofs' 1 3 0 = dofs 1 3 0 := by
  obtain ⟨ids, els, h, H⟩ := C45_apply (psEl := [2, 100, 2]) exDescribes basis (nEl := 4) (unset := 100) (by omega) (by simp)
    (isSrc := fun e => e == 1 || e == 2) (limited := fun _ => false) (by simp) (by simp)
  have e : (ids, els) = ([0, 2], [2, 2]) := Option.some.inj (h.symm.trans rfl)
  obtain ⟨rfl, rfl⟩ := Prod.mk.inj e
  have two : ∀ {i : Nat} {x y z : Nat}, [x, y][i]? = some z → z = x ∨ z = y := by
    intro i x y z hz
    have := List.mem_of_getElem? hz
    simpa using this
  have hs : ∀ per, per.Perm (List.range 2) → IsSrcPerm [2, 2] per := by
    refine fun per hp => ⟨hp, fun i j a b x y _ _ _ h1 h2 => ?_⟩
    have h1 := two h1
    have h2 := two h2
    omega
  refine ⟨_, _, h, hs _ (by decide), hs _ (by decide), ?_⟩
  obtain ⟨m, d, hmd, H⟩ := H [1, 0] (hs _ (by decide))
  refine ⟨m, d, hmd, fun t1 t2 => ?_⟩
  obtain ⟨I, hI⟩ : ∃ I : Nat → ℝ, ∀ s, integrate 1 (exSrc s).dt (exSrc s).onset (exSrc s).series t1 t2 0 = some (I s) := by
    refine Classical.axiomOfChoice (r := fun s I => integrate 1 (exSrc s).dt (exSrc s).onset (exSrc s).series t1 t2 0 = some I) ?_
    intro s
    refine C44_defined _ ?_ _ ?_ _ _ _ <;> (match s with | 0 => simp [exSrc] | 1 => simp [exSrc] | (n + 2) => simp [exSrc])
  refine ⟨I, fun dofs => ?_⟩
  obtain ⟨dofs', h1, h2⟩ := H 1 t1 t2 I (fun s _ _ => hI s) 1 1 dofs (by decide)
  refine ⟨dofs', h1, ?_, ?_⟩
  · rw [h2 2 (by omega), if_pos (by decide)]
    have : (Finset.range [2, 100, 2].length).filter (fun s => [2, 100, 2][s]? = some 2) = {0, 2} := by decide
    rw [this, Finset.sum_pair (by decide)]
    simp [exSrc]
  · rw [h2 1 (by omega), if_neg (by decide), add_zero]

end Edge.Sources
