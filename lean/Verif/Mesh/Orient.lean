import Verif.Mesh.Norm
/-!
Normalisation of all elements: C39 (totality, elements of a face), C40 (orientation of simplices, position of their faces).
-/
namespace Edge.Mesh
open Edge

/-! ### Loops over elements -/

/-- Entries of an element. -/
def view (n : Nat) (s : ElArr) (el : Nat) : List Nat × List Nat × List (Option Nat) :=
  (slice n s.elVe el, slice n s.elFa el, slice n s.elFaEl el)

/-- Sizes of the arrays. -/
def ElArr.WF (n nEls : Nat) (s : ElArr) : Prop :=
  s.elVe.length = nEls * n ∧ s.elFa.length = nEls * n ∧ s.elFaEl.length = nEls * n

/-- Only the entries of element `el` change. -/
def Frame (n nEls el : Nat) (s s' : ElArr) : Prop := s'.WF n nEls ∧ ∀ el', el' ≠ el → view n s' el' = view n s el'

theorem elLoop {n nEls : Nat} {body : Nat → ElArr → Option ElArr}
    {Q : List Nat × List Nat × List (Option Nat) → List Nat × List Nat × List (Option Nat) → Prop}
    (hs : ∀ el s s', el < nEls → s.WF n nEls → body el s = some s' →
      Frame n nEls el s s' ∧ Q (view n s el) (view n s' el))
    {s s' : ElArr} (hw : s.WF n nEls) (h : forN nEls body s = some s') :
    s'.WF n nEls ∧ ∀ el < nEls, Q (view n s el) (view n s' el) := by
  have key := forN_post (P := fun i t => t.WF n nEls ∧ (∀ el < i, Q (view n s el) (view n t el)) ∧
      ∀ el, i ≤ el → view n t el = view n s el) ⟨hw, fun _ h => by omega, fun _ _ => rfl⟩
    (by
      intro i t t' hi ⟨h1, h2, h3⟩ hb
      obtain ⟨⟨f1, f2⟩, q⟩ := hs i t t' hi h1 hb
      refine ⟨f1, fun el hel => ?_, fun el hel => ?_⟩
      · by_cases he : el = i
        · subst he; rw [← h3 el (le_refl _)]; exact q
        · rw [f2 el he]; exact h2 el (by omega)
      · rw [f2 el (by omega)]; exact h3 el (by omega)) h
  exact ⟨key.1, key.2.1⟩

theorem elLoop_total {n nEls : Nat} {body : Nat → ElArr → Option ElArr}
    {Pre : List Nat × List Nat × List (Option Nat) → Prop}
    (hs : ∀ el s, el < nEls → s.WF n nEls → Pre (view n s el) → ∃ s', body el s = some s' ∧ Frame n nEls el s s')
    {s : ElArr} (hw : s.WF n nEls) (hp : ∀ el < nEls, Pre (view n s el)) : ∃ s', forN nEls body s = some s' := by
  obtain ⟨s', h, _⟩ := forN_inv (n := nEls) (body := body) (s := s)
    (fun i t => t.WF n nEls ∧ ∀ el, i ≤ el → view n t el = view n s el) ⟨hw, fun _ _ => rfl⟩
    (by
      rintro i t hi ⟨h1, h2⟩
      obtain ⟨t', e1, e2⟩ := hs i t hi h1 (by rw [h2 i (le_refl _)]; exact hp i hi)
      exact ⟨t', e1, e2.1, fun el hel => by rw [e2.2 el (by omega)]; exact h2 el (by omega)⟩)
  exact ⟨s', h⟩

/-! ### Sorting phase -/

theorem sortSlice_spec {n nEls el : Nat} {a a' : List Nat} (hl : a.length = nEls * n) (he : el < nEls)
    (h : sortSlice a (el * n) n = some a') :
    slice n a' el = sortNat (slice n a el) ∧ (∀ el', el' ≠ el → slice n a' el' = slice n a el') ∧
      a'.length = a.length := by
  have hle : el * n + n ≤ a.length := by
    rw [hl, ← Nat.succ_mul]; exact Nat.mul_le_mul_right n (Nat.succ_le_of_lt he)
  simp only [sortSlice, if_pos hle, Option.some.injEq] at h
  have hsl : (sortNat ((a.drop (el * n)).take n)).length = n := by
    rw [sortNat_length, List.length_take, List.length_drop]; omega
  have hget : ∀ p, a'[p]? = if p < el * n then a[p]? else if p < el * n + n then
      (sortNat ((a.drop (el * n)).take n))[p - el * n]? else a[p]? := by
    intro p
    rw [← h, List.append_assoc]
    by_cases h1 : p < el * n
    · rw [if_pos h1, List.getElem?_append_left (by rw [List.length_take]; omega), List.getElem?_take_of_lt h1]
    · rw [if_neg h1, List.getElem?_append_right (by rw [List.length_take]; omega)]
      rw [List.length_take, Nat.min_eq_left (by omega)]
      by_cases h2 : p < el * n + n
      · rw [if_pos h2, List.getElem?_append_left (by omega)]
      · rw [if_neg h2, List.getElem?_append_right (by omega), hsl, List.getElem?_drop]
        congr 1; omega
  refine ⟨?_, fun el' he' => slice_ext fun k hk => ?_, ?_⟩
  · apply List.ext_getElem?
    intro k
    by_cases hk : k < n
    · rw [slice_getElem? hk, hget, if_neg (by omega), if_pos (by omega), Nat.add_sub_cancel_left]; rfl
    · rw [List.getElem?_eq_none (by rw [slice, List.length_take]; omega),
        List.getElem?_eq_none (by rw [sortNat_length, slice, List.length_take]; omega)]
  · rw [hget]
    by_cases h1 : el' * n + k < el * n
    · rw [if_pos h1]
    · rw [if_neg h1]
      by_cases h2 : el' * n + k < el * n + n
      · exfalso
        exact idx_ne (n := n) (k := el' * n + k - el * n) (by omega) hk (Ne.symm he') (by omega)
      · rw [if_neg h2]
  · rw [← h]
    simp only [List.length_append, hsl, List.length_take, List.length_drop]; omega

/-- Effect of the first loop of `normOrder` on the entries of an element. -/
def Sorted1 (n : Nat) (faVe : List (List Nat)) (v v' : List Nat × List Nat × List (Option Nat)) : Prop :=
  v'.1 = sortNat v.1 ∧ (v'.2.1.zip v'.2.2).Perm (v.2.1.zip v.2.2) ∧ Asc n faVe v'.2.1

theorem sortEl_spec {n nEls el : Nat} {faVe : List (List Nat)} {s s' : ElArr} (he : el < nEls) (hw : s.WF n nEls)
    (h : sortEl n faVe el s = some s') :
    Frame n nEls el s s' ∧ Sorted1 n faVe (view n s el) (view n s' el) := by
  simp only [sortEl, Option.bind_eq_bind, Option.bind_eq_some_iff, Option.pure_def, Option.some.injEq] at h
  obtain ⟨ve, hve, p, hp, rfl⟩ := h
  obtain ⟨w1, w2, w3⟩ := hw
  obtain ⟨a1, a2, a3⟩ := sortSlice_spec w1 he hve
  obtain ⟨b1, b2⟩ := C39_sortFas w2 w3 he hp
  refine ⟨⟨⟨a3.trans w1, b1.len.1.trans w2, b1.len.2.trans w3⟩, fun el' he' => ?_⟩, a1, b1.perm, b2⟩
  simp only [view]
  rw [a2 el' he', (b1.rest el' he').1, (b1.rest el' he').2]

/-! ### Orientation phase -/

section
variable {K : Type _} [Field K] [LinearOrder K]

theorem slice3 {α : Type _} {nEls el : Nat} {a : List α} (hl : a.length = nEls * 3) (he : el < nEls) :
    ∃ x y z, slice 3 a el = [x, y, z] := by
  have := slice_length hl he
  match h : slice 3 a el, this with
  | [x, y, z], _ => exact ⟨x, y, z, rfl⟩

theorem slice4 {α : Type _} {nEls el : Nat} {a : List α} (hl : a.length = nEls * 4) (he : el < nEls) :
    ∃ x y z w, slice 4 a el = [x, y, z, w] := by
  have := slice_length hl he
  match h : slice 4 a el, this with
  | [x, y, z, w], _ => exact ⟨x, y, z, w, rfl⟩

theorem veCrd_some {veCrds : List (V3 K)} {n el k : Nat} {a : List Nat} {p : V3 K} (hk : k < n)
    (h : veCrd veCrds a (el * n + k) = some p) {v : Nat} (hv : (slice n a el)[k]? = some v) : veCrds[v]? = some p := by
  simp only [veCrd, rd, Option.bind_eq_bind, Option.bind_eq_some_iff] at h
  obtain ⟨v', h1, h2⟩ := h
  rw [slice_getElem? hk, h1] at hv; cases hv; exact h2

theorem swpFa_spec {n nEls el i j : Nat} {s s' : ElArr} (he : el < nEls) (hw : s.WF n nEls) (hi : i < n) (hj : j < n)
    (h : swpFa s (el * n + i) (el * n + j) = some s') :
    Frame n nEls el s s' ∧
      view n s' el = (slice n s.elVe el, swapL (slice n s.elFa el) i j, swapL (slice n s.elFaEl el) i j) := by
  simp only [swpFa, Option.bind_eq_bind, Option.bind_eq_some_iff, Option.pure_def, Option.some.injEq] at h
  obtain ⟨a, ha, b, hb, rfl⟩ := h
  obtain ⟨w1, w2, w3⟩ := hw
  obtain ⟨a1, a2, a3⟩ := swp_slice hi hj ha
  obtain ⟨b1, b2, b3⟩ := swp_slice hi hj hb
  refine ⟨⟨⟨w1, a3.trans w2, b3.trans w3⟩, fun el' he' => ?_⟩, ?_⟩
  · simp only [view]; rw [a2 el' he', b2 el' he']
  · simp only [view]; rw [a1, b1]

theorem Frame.trans {n nEls el : Nat} {s t u : ElArr} (h : Frame n nEls el s t) (k : Frame n nEls el t u) :
    Frame n nEls el s u := ⟨k.1, fun e he => (k.2 e he).trans (h.2 e he)⟩

/-- Effect of `Tria3::normVesFas`. -/
def Tria2 (veCrds : List (V3 K)) (v v' : List Nat × List Nat × List (Option Nat)) : Prop :=
  ∃ v0 v1 v2 f0 f1 f2 e0 e1 e2 p0 p1 p2, v = ([v0, v1, v2], [f0, f1, f2], [e0, e1, e2]) ∧
    veCrds[v0]? = some p0 ∧ veCrds[v1]? = some p1 ∧ veCrds[v2]? = some p2 ∧
    v' = if det2 p0 p1 p2 < 0 then ([v0, v2, v1], [f1, f2, f0], [e1, e2, e0])
      else ([v0, v1, v2], [f0, f2, f1], [e0, e2, e1])

theorem normTria_spec {veCrds : List (V3 K)} {nEls el : Nat} {s s' : ElArr} (he : el < nEls) (hw : s.WF 3 nEls)
    (h : normTria veCrds el s = some s') :
    Frame 3 nEls el s s' ∧ Tria2 veCrds (view 3 s el) (view 3 s' el) := by
  simp only [normTria, Option.bind_eq_bind, Option.bind_eq_some_iff] at h
  obtain ⟨p0, h0, p1, h1, p2, h2, t, ht, h⟩ := h
  obtain ⟨v0, v1, v2, hv⟩ := slice3 hw.1 he
  obtain ⟨f0, f1, f2, hf⟩ := slice3 hw.2.1 he
  obtain ⟨e0, e1, e2, hE⟩ := slice3 hw.2.2 he
  have c0 := veCrd_some (n := 3) (k := 0) (by omega) (by simpa using h0) (by rw [hv]; rfl)
  have c1 := veCrd_some (n := 3) (k := 1) (by omega) h1 (by rw [hv]; rfl)
  have c2 := veCrd_some (n := 3) (k := 2) (by omega) h2 (by rw [hv]; rfl)
  obtain ⟨g1, g2⟩ := swpFa_spec he hw (by omega) (by omega) ht
  rw [hv, hf, hE] at g2
  have g2' : view 3 t el = ([v0, v1, v2], [f0, f2, f1], [e0, e2, e1]) := g2
  simp only [view, Prod.mk.injEq] at g2'
  by_cases hd : det2 p0 p1 p2 < 0
  · rw [if_pos hd] at h
    simp only [Option.bind_eq_some_iff] at h
    obtain ⟨ve, hve, hu⟩ := h
    obtain ⟨a1, a2, a3⟩ := swp_slice (n := 3) (el := el) (i := 1) (j := 2) (by omega) (by omega) hve
    have hw' : ({ t with elVe := ve } : ElArr).WF 3 nEls := ⟨a3.trans g1.1.1, g1.1.2⟩
    obtain ⟨k1, k2⟩ := swpFa_spec (n := 3) (el := el) (i := 0) (j := 2) he hw' (by omega) (by omega) hu
    have fr : Frame 3 nEls el t { t with elVe := ve } := ⟨hw', fun el' he' => by simp only [view]; rw [a2 el' he']⟩
    refine ⟨g1.trans (fr.trans k1), v0, v1, v2, f0, f1, f2, e0, e1, e2, p0, p1, p2, by rw [view, hv, hf, hE], c0, c1, c2, ?_⟩
    rw [if_pos hd, k2]
    simp only [a1, g2'.1, g2'.2.1, g2'.2.2]
    rfl
  · rw [if_neg hd] at h
    cases h
    refine ⟨g1, v0, v1, v2, f0, f1, f2, e0, e1, e2, p0, p1, p2, by rw [view, hv, hf, hE], c0, c1, c2, ?_⟩
    rw [if_neg hd]; exact g2

/-- Effect of `Tet4::normVesFas`. -/
def Tet2 (tol : K) (veCrds : List (V3 K)) (v v' : List Nat × List Nat × List (Option Nat)) : Prop :=
  ∃ v0 v1 v2 v3 f0 f1 f2 f3 e0 e1 e2 e3 p0 p1 p2 p3, v = ([v0, v1, v2, v3], [f0, f1, f2, f3], [e0, e1, e2, e3]) ∧
    veCrds[v0]? = some p0 ∧ veCrds[v1]? = some p1 ∧ veCrds[v2]? = some p2 ∧ veCrds[v3]? = some p3 ∧
    tol < |det3 p0 p1 p2 p3| ∧
    v' = if det3 p0 p1 p2 p3 < 0 then ([v0, v1, v3, v2], [f1, f0, f2, f3], [e1, e0, e2, e3])
      else ([v0, v1, v2, v3], [f0, f1, f2, f3], [e0, e1, e2, e3])

theorem normTet_spec {tol : K} {veCrds : List (V3 K)} {nEls el : Nat} {s s' : ElArr} (he : el < nEls) (hw : s.WF 4 nEls)
    (h : normTet tol veCrds el s = some s') :
    Frame 4 nEls el s s' ∧ Tet2 tol veCrds (view 4 s el) (view 4 s' el) := by
  simp only [normTet, Option.bind_eq_bind, Option.bind_eq_some_iff, check_some, decide_eq_true_eq] at h
  obtain ⟨p0, h0, p1, h1, p2, h2, p3, h3, _, ht, h⟩ := h
  obtain ⟨v0, v1, v2, v3, hv⟩ := slice4 hw.1 he
  obtain ⟨f0, f1, f2, f3, hf⟩ := slice4 hw.2.1 he
  obtain ⟨e0, e1, e2, e3, hE⟩ := slice4 hw.2.2 he
  have c0 := veCrd_some (n := 4) (k := 0) (by omega) (by simpa using h0) (by rw [hv]; rfl)
  have c1 := veCrd_some (n := 4) (k := 1) (by omega) h1 (by rw [hv]; rfl)
  have c2 := veCrd_some (n := 4) (k := 2) (by omega) h2 (by rw [hv]; rfl)
  have c3 := veCrd_some (n := 4) (k := 3) (by omega) h3 (by rw [hv]; rfl)
  by_cases hd : det3 p0 p1 p2 p3 < 0
  · rw [if_pos hd] at h
    simp only [Option.bind_eq_some_iff] at h
    obtain ⟨ve, hve, hu⟩ := h
    obtain ⟨a1, a2, a3⟩ := swp_slice (n := 4) (el := el) (i := 2) (j := 3) (by omega) (by omega) hve
    have hw' : ({ s with elVe := ve } : ElArr).WF 4 nEls := ⟨a3.trans hw.1, hw.2⟩
    obtain ⟨k1, k2⟩ := swpFa_spec (n := 4) (el := el) (i := 0) (j := 1) he hw' (by omega) (by omega) hu
    have fr : Frame 4 nEls el s { s with elVe := ve } := ⟨hw', fun el' he' => by simp only [view]; rw [a2 el' he']⟩
    refine ⟨fr.trans k1, v0, v1, v2, v3, f0, f1, f2, f3, e0, e1, e2, e3, p0, p1, p2, p3, by rw [view, hv, hf, hE], c0, c1, c2, c3,
      ht, ?_⟩
    rw [if_pos hd, k2]
    simp only [a1, hv, hf, hE]
    rfl
  · rw [if_neg hd] at h
    cases h
    refine ⟨⟨hw, fun _ _ => rfl⟩, v0, v1, v2, v3, f0, f1, f2, f3, e0, e1, e2, e3, p0, p1, p2, p3, by rw [view, hv, hf, hE],
      c0, c1, c2, c3, ht, ?_⟩
    rw [if_neg hd, view, hv, hf, hE]

end

/-! ### Position of the faces -/

/-- Strictly ascending rows containing strictly ascending rows of the same number are the same. -/
theorem asc_eq {R L : List (List Nat)} (hR : R.Pairwise (fun a b => lexLt a b = true))
    (hL : L.Pairwise (fun a b => lexLt a b = true)) (hsub : L ⊆ R) (hlen : R.length = L.length) : R = L := by
  have hp : L.Perm R :=
    (List.subperm_of_subset (hL.imp lexLt_ne) hsub).perm_of_length_le (by omega)
  exact List.Perm.eq_of_pairwise (le := fun a b => lexLt a b = true)
    (fun a b _ _ h1 h2 => by have := lexLt_trans h1 h2; rw [lexLt_irrefl] at this; cases this) hR hL hp.symm

/-- Vertices of the faces `fas`. -/
def rowsOf (faVe : List (List Nat)) (fas : List Nat) : List (List Nat) := fas.map (fun f => faVe.getD f [])

theorem rowsOf_asc {n : Nat} {faVe : List (List Nat)} {fas : List Nat} (hl : fas.length = n) (h : Asc n faVe fas) :
    (rowsOf faVe fas).Pairwise (fun a b => lexLt a b = true) := by
  rw [rowsOf, List.pairwise_map, List.pairwise_iff_getElem]
  intro i j hi hj hij
  obtain ⟨x, y, va, vb, e1, e2, e3, e4, e5⟩ := h i j hij (by omega)
  rw [List.getElem?_eq_getElem hi] at e1; cases e1
  rw [List.getElem?_eq_getElem hj] at e2; cases e2
  simp only [List.getD_eq_getElem?_getD, e3, e4, Option.getD_some]; exact e5

/-- After sorting, the faces are those of the sorted vertices: for every vertex the row without it. -/
theorem rows_sorted {faVe : List (List Nat)} {ves fas fas' : List Nat} (hv : ∀ f ∈ fas, f < faVe.length)
    (hF : FacesOf ves (rowsOf faVe fas)) (hp : fas'.Perm fas) :
    (∀ v ∈ sortNat ves, (sortNat ves).erase v ∈ rowsOf (faVe.map sortNat) fas') ∧ (sortNat ves).Nodup := by
  obtain ⟨h1, h2, h3⟩ := hF
  refine ⟨fun v hv' => ?_, (sortNat_perm ves).nodup_iff.2 h1⟩
  have hvm := (sortNat_perm ves).mem_iff.1 hv'
  obtain ⟨row, hrow, hperm⟩ := h3 v hvm
  rw [rowsOf, List.mem_map] at hrow
  obtain ⟨f, hf, rfl⟩ := hrow
  rw [rowsOf, List.mem_map]
  refine ⟨f, hp.mem_iff.2 hf, ?_⟩
  have hfl := hv f hf
  rw [List.getD_eq_getElem?_getD, List.getElem?_map, List.getElem?_eq_getElem hfl]
  rw [List.getD_eq_getElem?_getD, List.getElem?_eq_getElem hfl] at hperm
  simp only [Option.map_some, Option.getD_some] at hperm ⊢
  have hs : ((sortNat ves).erase v).Pairwise (· ≤ ·) := (sortNat_sorted ves).sublist List.erase_sublist
  rw [← sortNat_id hs, sortNat_eq_iff]
  exact hperm.trans ((sortNat_perm ves).symm.erase v)

theorem lt_of_sorted {a b : Nat} {l : List Nat} (hs : (a :: b :: l).Pairwise (· ≤ ·)) (hn : (a :: b :: l).Nodup) : a < b := by
  have h1 := (List.pairwise_cons.1 hs).1 b (by simp)
  have h2 := (List.nodup_cons.1 hn).1
  simp only [List.mem_cons, not_or] at h2
  omega

/-- Faces of a sorted triangle. -/
theorem rows3 {faVe : List (List Nat)} {ves fas : List Nat} {fas' : List Nat} {v0 v1 v2 : Nat}
    (hv : ∀ f ∈ fas, f < faVe.length) (hF : FacesOf ves (rowsOf faVe fas)) (hp : fas'.Perm fas)
    (hs : sortNat ves = [v0, v1, v2]) (ha : Asc 3 (faVe.map sortNat) fas') :
    rowsOf (faVe.map sortNat) fas' = [[v0, v1], [v0, v2], [v1, v2]] := by
  obtain ⟨h1, h2⟩ := rows_sorted hv hF hp
  have hso := sortNat_sorted ves
  have hvl : ves.length = 3 := by rw [← sortNat_length, hs]; rfl
  rw [hs] at h1 h2 hso
  have l01 := lt_of_sorted hso h2
  have l12 := lt_of_sorted (List.pairwise_cons.1 hso).2 (List.nodup_cons.1 h2).2
  have hfl : fas'.length = 3 := by
    have := hF.2.1; rw [rowsOf, List.length_map] at this; rw [hp.length_eq, this, hvl]
  refine asc_eq (rowsOf_asc hfl ha) ?_ ?_ (by rw [rowsOf, List.length_map, hfl]; rfl)
  · simp [lexLt]; omega
  · intro r hr
    have e0 := h1 v0 (by simp)
    have e1 := h1 v1 (by simp)
    have e2 := h1 v2 (by simp)
    have n10 : ¬ v0 = v1 := by omega
    have n20 : ¬ v0 = v2 := by omega
    have n21 : ¬ v1 = v2 := by omega
    simp [List.erase_cons, n10, n20, n21] at e0 e1 e2
    simp only [List.mem_cons, List.not_mem_nil, or_false] at hr
    rcases hr with rfl | rfl | rfl
    · exact e2
    · exact e1
    · exact e0

/-- Faces of a sorted tetrahedron. -/
theorem rows4 {faVe : List (List Nat)} {ves fas : List Nat} {fas' : List Nat} {v0 v1 v2 v3 : Nat}
    (hv : ∀ f ∈ fas, f < faVe.length) (hF : FacesOf ves (rowsOf faVe fas)) (hp : fas'.Perm fas)
    (hs : sortNat ves = [v0, v1, v2, v3]) (ha : Asc 4 (faVe.map sortNat) fas') :
    rowsOf (faVe.map sortNat) fas' = [[v0, v1, v2], [v0, v1, v3], [v0, v2, v3], [v1, v2, v3]] := by
  obtain ⟨h1, h2⟩ := rows_sorted hv hF hp
  have hso := sortNat_sorted ves
  have hvl : ves.length = 4 := by rw [← sortNat_length, hs]; rfl
  rw [hs] at h1 h2 hso
  have l01 := lt_of_sorted hso h2
  have l12 := lt_of_sorted (List.pairwise_cons.1 hso).2 (List.nodup_cons.1 h2).2
  have l23 := lt_of_sorted (List.pairwise_cons.1 (List.pairwise_cons.1 hso).2).2
    (List.nodup_cons.1 (List.nodup_cons.1 h2).2).2
  have hfl : fas'.length = 4 := by
    have := hF.2.1; rw [rowsOf, List.length_map] at this; rw [hp.length_eq, this, hvl]
  refine asc_eq (rowsOf_asc hfl ha) ?_ ?_ (by rw [rowsOf, List.length_map, hfl]; rfl)
  · simp [lexLt]; omega
  · intro r hr
    have e0 := h1 v0 (by simp)
    have e1 := h1 v1 (by simp)
    have e2 := h1 v2 (by simp)
    have e3 := h1 v3 (by simp)
    have n01 : ¬ v0 = v1 := by omega
    have n02 : ¬ v0 = v2 := by omega
    have n03 : ¬ v0 = v3 := by omega
    have n12 : ¬ v1 = v2 := by omega
    have n13 : ¬ v1 = v3 := by omega
    have n23 : ¬ v2 = v3 := by omega
    simp [List.erase_cons, n01, n02, n03, n12, n13, n23] at e0 e1 e2 e3
    simp only [List.mem_cons, List.not_mem_nil, or_false] at hr
    rcases hr with rfl | rfl | rfl | rfl
    · exact e3
    · exact e2
    · exact e1
    · exact e0

end Edge.Mesh
