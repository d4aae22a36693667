import Verif.Mesh.Orient
/-!
C39, C40: theorems on `normOrder`.
-/
namespace Edge.Mesh
open Edge

/-! ### Elements of the faces -/

theorem sortFaEl_spec {nFas fa : Nat} {a a' : List (Option Nat)} (hf : fa < nFas) (hl : a.length = nFas * 2)
    (h : sortFaEl a fa = some a') :
    a'.length = a.length ∧ (∀ f, f ≠ fa → slice 2 a' f = slice 2 a f) ∧ (slice 2 a' fa).Perm (slice 2 a fa) ∧
      ∃ x y, slice 2 a' fa = [x, y] ∧ optLt y x = false := by
  simp only [sortFaEl, rd, Option.bind_eq_bind, Option.bind_eq_some_iff] at h
  obtain ⟨x, hx, y, hy, h⟩ := h
  have hlen := slice_length hl hf
  have hx' : (slice 2 a fa)[0]? = some x := by rw [slice_getElem? (by omega)]; exact hx
  have hy' : (slice 2 a fa)[1]? = some y := by rw [slice_getElem? (by omega)]; exact hy
  have hs : slice 2 a fa = [x, y] := by
    match hm : slice 2 a fa, hlen with
    | [u, v], _ => rw [hm] at hx' hy'; simp at hx' hy'; rw [hx', hy']
  by_cases hc : optLt y x = true
  · rw [if_pos hc] at h
    obtain ⟨a1, a2, a3⟩ := swp_slice (n := 2) (el := fa) (i := 0) (j := 1) (by omega) (by omega) h
    refine ⟨a3, a2, by rw [a1]; exact swapL_perm _ _ _, y, x, by rw [a1, hs]; rfl, ?_⟩
    cases x <;> cases y <;> simp [optLt] at hc ⊢; omega
  · rw [if_neg hc] at h
    cases h
    exact ⟨rfl, fun _ _ => rfl, List.Perm.refl _, x, y, hs, by simpa using hc⟩

section
variable {K : Type _} [Field K] [LinearOrder K]
variable {ty : ElTy} {tol : K} {veCrds : List (V3 K)} {nEls : Nat} {c c' : Conn} {elVe elVe' : List Nat}

theorem normOrder_unfold (h : normOrder ty tol veCrds nEls c elVe = some (c', elVe')) :
    ∃ s1 s2, forN nEls (fun el s => sortEl ty.nVes (c.faVe.map sortNat) el s)
        { elVe := elVe, elFa := c.elFa, elFaEl := c.elFaEl } = some s1 ∧
      forN nEls (fun el s => normVesFas ty tol veCrds el s) s1 = some s2 ∧
      forN c.nFas (fun fa faEl => sortFaEl faEl fa) c.faEl = some c'.faEl ∧
      c'.nFas = c.nFas ∧ c'.faVe = c.faVe.map sortNat ∧ c'.elFa = s2.elFa ∧ c'.elFaEl = s2.elFaEl ∧ elVe' = s2.elVe := by
  simp only [normOrder, Option.bind_eq_bind, Option.bind_eq_some_iff, Option.pure_def, Option.some.injEq,
    Prod.mk.injEq] at h
  obtain ⟨fe, h1, s1, h2, s2, h3, rfl, rfl⟩ := h
  exact ⟨s1, s2, h2, h3, h1, rfl, rfl, rfl, rfl, rfl⟩

/-- C39: the two elements of every face stay the two elements of the face, and the lower id comes first; the outside of a
boundary face is last. -/
theorem C39_faEl (hl : c.faEl.length = c.nFas * 2) (h : normOrder ty tol veCrds nEls c elVe = some (c', elVe')) :
    c'.nFas = c.nFas ∧ c'.faEl.length = c.nFas * 2 ∧ ∀ fa < c.nFas, (slice 2 c'.faEl fa).Perm (slice 2 c.faEl fa) ∧
      ∃ x y, slice 2 c'.faEl fa = [x, y] ∧ (x = none → y = none) ∧ ∀ d e, x = some d → y = some e → d ≤ e := by
  obtain ⟨s1, s2, -, -, h3, hn, -⟩ := normOrder_unfold h
  have key := forN_post (P := fun i t => t.length = c.nFas * 2 ∧ (∀ fa < i, (slice 2 t fa).Perm (slice 2 c.faEl fa) ∧
      ∃ x y, slice 2 t fa = [x, y] ∧ optLt y x = false) ∧ ∀ fa, i ≤ fa → slice 2 t fa = slice 2 c.faEl fa)
    ⟨hl, fun _ h => by omega, fun _ _ => rfl⟩
    (by
      intro i t t' hi ⟨k1, k2, k3⟩ hb
      obtain ⟨b1, b2, b3, b4⟩ := sortFaEl_spec hi k1 hb
      refine ⟨b1.trans k1, fun fa hfa => ?_, fun fa hfa => by rw [b2 fa (by omega)]; exact k3 fa (by omega)⟩
      by_cases he : fa = i
      · subst he; exact ⟨by rw [← k3 fa (le_refl _)]; exact b3, b4⟩
      · rw [b2 fa he]; exact k2 fa (by omega)) h3
  refine ⟨hn, key.1, fun fa hfa => ?_⟩
  obtain ⟨p, x, y, e1, e2⟩ := key.2.1 fa hfa
  refine ⟨p, x, y, e1, fun hx => ?_, fun d e hx hy => ?_⟩
  · subst hx; cases y <;> simp [optLt] at e2 ⊢
  · subst hx hy; simpa [optLt] using e2

/-! ### Elements -/

/-- Input of `normOrder`: sizes and ids are valid, every element has the faces of a simplex. -/
structure NormIn (n nEls : Nat) (c : Conn) (elVe : List Nat) : Prop where
  elVe_len : elVe.length = nEls * n
  elFa_len : c.elFa.length = nEls * n
  elFaEl_len : c.elFaEl.length = nEls * n
  ids : ∀ el < nEls, ∀ f ∈ slice n c.elFa el, f < c.faVe.length
  faces : ∀ el < nEls, FacesOf (slice n elVe el) (rowsOf c.faVe (slice n c.elFa el))

theorem perm_fst {a a' : List Nat} {b b' : List (Option Nat)} (h : (a'.zip b').Perm (a.zip b)) (l1 : a.length = b.length)
    (l2 : a'.length = b'.length) : a'.Perm a := by
  have := h.map Prod.fst
  rwa [List.map_fst_zip (by omega), List.map_fst_zip (by omega)] at this

/-- C39: every element keeps its vertices, its faces and the neighbour behind each of its faces. -/
theorem C39_elements (hi : NormIn ty.nVes nEls c elVe) (h : normOrder ty tol veCrds nEls c elVe = some (c', elVe')) :
    elVe'.length = nEls * ty.nVes ∧ c'.elFa.length = nEls * ty.nVes ∧ c'.elFaEl.length = nEls * ty.nVes ∧
    ∀ el < nEls, (slice ty.nVes elVe' el).Perm (slice ty.nVes elVe el) ∧
      ((slice ty.nVes c'.elFa el).zip (slice ty.nVes c'.elFaEl el)).Perm
        ((slice ty.nVes c.elFa el).zip (slice ty.nVes c.elFaEl el)) := by
  obtain ⟨s1, s2, h1, h2, -, -, -, e3, e4, e5⟩ := normOrder_unfold h
  obtain ⟨w1, q1⟩ := elLoop (Q := Sorted1 ty.nVes (c.faVe.map sortNat)) (n := ty.nVes)
    (fun el s s' he hw hb => sortEl_spec he hw hb) ⟨hi.elVe_len, hi.elFa_len, hi.elFaEl_len⟩ h1
  rw [e3, e4, e5]
  suffices hq : s2.WF ty.nVes nEls ∧ ∀ el < nEls, (slice ty.nVes s2.elVe el).Perm (slice ty.nVes s1.elVe el) ∧
      ((slice ty.nVes s2.elFa el).zip (slice ty.nVes s2.elFaEl el)).Perm
        ((slice ty.nVes s1.elFa el).zip (slice ty.nVes s1.elFaEl el)) by
    refine ⟨hq.1.1, hq.1.2.1, hq.1.2.2, fun el hel => ?_⟩
    obtain ⟨a1, a2⟩ := hq.2 el hel
    obtain ⟨b1, b2, -⟩ := q1 el hel
    refine ⟨a1.trans ?_, a2.trans b2⟩
    simp only [view] at b1
    rw [b1]; exact sortNat_perm _
  cases ty with
  | tria3 =>
    obtain ⟨w2, q2⟩ := elLoop (Q := Tria2 veCrds) (n := 3) (nEls := nEls) (fun el s s' he hw hb => normTria_spec he hw hb) w1 h2
    refine ⟨w2, fun el hel => ?_⟩
    obtain ⟨v0, v1, v2, f0, f1, f2, g0, g1, g2, p0, p1, p2, hv, -, -, -, hv'⟩ := q2 el hel
    simp only [view, Prod.mk.injEq] at hv
    split at hv' <;> simp only [view, Prod.mk.injEq] at hv' <;>
      simp only [ElTy.nVes, hv.1, hv.2.1, hv.2.2, hv'.1, hv'.2.1, hv'.2.2, List.zip_cons_cons, List.zip_nil_right]
    · exact ⟨(List.Perm.swap _ _ _).cons _, (List.perm_append_comm (l₁ := [(f1, g1), (f2, g2)]) (l₂ := [(f0, g0)]))⟩
    · exact ⟨List.Perm.refl _, (List.Perm.swap _ _ _).cons _⟩
  | tet4 =>
    obtain ⟨w2, q2⟩ := elLoop (Q := Tet2 tol veCrds) (n := 4) (nEls := nEls) (fun el s s' he hw hb => normTet_spec he hw hb) w1 h2
    refine ⟨w2, fun el hel => ?_⟩
    obtain ⟨v0, v1, v2, v3, f0, f1, f2, f3, g0, g1, g2, g3, p0, p1, p2, p3, hv, -, -, -, -, -, hv'⟩ := q2 el hel
    simp only [view, Prod.mk.injEq] at hv
    split at hv' <;> simp only [view, Prod.mk.injEq] at hv' <;>
      simp only [ElTy.nVes, hv.1, hv.2.1, hv.2.2, hv'.1, hv'.2.1, hv'.2.2, List.zip_cons_cons, List.zip_nil_right]
    · exact ⟨((List.Perm.swap _ _ _).cons _).cons _, List.Perm.swap _ _ _⟩
    · exact ⟨List.Perm.refl _, List.Perm.refl _⟩

/-- The two loops over the elements together. -/
theorem norm_both {n : Nat} {Q : List Nat × List Nat × List (Option Nat) → List Nat × List Nat × List (Option Nat) → Prop}
    (hn : ty.nVes = n) (hi : NormIn n nEls c elVe) (h : normOrder ty tol veCrds nEls c elVe = some (c', elVe'))
    (hQ : ∀ el s s', el < nEls → s.WF n nEls → normVesFas ty tol veCrds el s = some s' →
      Frame n nEls el s s' ∧ Q (view n s el) (view n s' el)) :
    c'.faVe = c.faVe.map sortNat ∧ ∀ el < nEls, ∃ fas nes,
      fas.Perm (slice n c.elFa el) ∧ Asc n (c.faVe.map sortNat) fas ∧
      Q (sortNat (slice n elVe el), fas, nes) (slice n elVe' el, slice n c'.elFa el, slice n c'.elFaEl el) := by
  subst hn
  obtain ⟨s1, s2, h1, h2, -, -, e2, e3, e4, e5⟩ := normOrder_unfold h
  obtain ⟨w1, q1⟩ := elLoop (Q := Sorted1 ty.nVes (c.faVe.map sortNat)) (n := ty.nVes)
    (fun el s s' he hw hb => sortEl_spec he hw hb) ⟨hi.elVe_len, hi.elFa_len, hi.elFaEl_len⟩ h1
  obtain ⟨w2, q2⟩ := elLoop (Q := Q) (n := ty.nVes) hQ w1 h2
  refine ⟨e2, fun el hel => ?_⟩
  obtain ⟨b1, b2, b3⟩ := q1 el hel
  have := q2 el hel
  simp only [view] at b1 b2 b3 this
  rw [b1] at this
  refine ⟨slice ty.nVes s1.elFa el, slice ty.nVes s1.elFaEl el, perm_fst b2 ?_ ?_, b3, by rw [e3, e4, e5]; exact this⟩
  · rw [slice_length hi.elFa_len hel, slice_length hi.elFaEl_len hel]
  · rw [slice_length w1.2.1 hel, slice_length w1.2.2 hel]

/-- Face `f` has the vertices `vs` in some order. -/
def HasVes (c : Conn) (f : Nat) (vs : List Nat) : Prop := ∃ row, c.faVe[f]? = some row ∧ row.Perm vs

theorem hasVes_of_row {f : Nat} {row vs : List Nat} (hl : f < c.faVe.length) (h : c.faVe.getD f [] = row)
    (hp : row.Perm vs) : HasVes c f vs := by
  refine ⟨row, ?_, hp⟩
  rw [List.getD_eq_getElem?_getD, List.getElem?_eq_getElem hl] at h
  rw [List.getElem?_eq_getElem hl]; simpa using h

variable [IsStrictOrderedRing K]

theorem det2_swap (a b c : V3 K) : det2 a c b = - det2 a b c := by simp only [det2]; ring

theorem det3_swap (a b c d : V3 K) : det3 a b d c = - det3 a b c d := by simp only [det3]; ring

/-- C40: the vertices of every triangle are in counter-clockwise order, and face `i` is the one between vertex `i` and the
next vertex. -/
theorem C40_tria (hi : NormIn 3 nEls c elVe) (h : normOrder .tria3 tol veCrds nEls c elVe = some (c', elVe'))
    (hdeg : ∀ el < nEls, ∀ u v w p q r, [u, v, w].Perm (slice 3 elVe el) → veCrds[u]? = some p → veCrds[v]? = some q →
      veCrds[w]? = some r → det2 p q r ≠ 0) :
    ∀ el < nEls, ∃ v0 v1 v2 f0 f1 f2 p0 p1 p2,
      slice 3 elVe' el = [v0, v1, v2] ∧ [v0, v1, v2].Perm (slice 3 elVe el) ∧
      veCrds[v0]? = some p0 ∧ veCrds[v1]? = some p1 ∧ veCrds[v2]? = some p2 ∧
      0 < (p1.x - p0.x) * (p2.y - p0.y) - (p2.x - p0.x) * (p1.y - p0.y) ∧
      slice 3 c'.elFa el = [f0, f1, f2] ∧ HasVes c' f0 [v0, v1] ∧ HasVes c' f1 [v1, v2] ∧ HasVes c' f2 [v2, v0] := by
  intro el hel
  obtain ⟨hfv, key⟩ := norm_both (ty := .tria3) (n := 3) (Q := Tria2 veCrds) rfl hi h (fun el s s' he hw hb => normTria_spec he hw hb)
  obtain ⟨fas, nes, hp, ha, v0, v1, v2, f0, f1, f2, g0, g1, g2, p0, p1, p2, hv, c0, c1, c2, hv'⟩ := key el hel
  simp only [Prod.mk.injEq] at hv
  obtain ⟨hv1, rfl, -⟩ := hv
  have rows := rows3 (hi.ids el hel) (hi.faces el hel) hp hv1 ha
  simp only [rowsOf, List.map_cons, List.map_nil, List.cons.injEq, and_true] at rows
  obtain ⟨r0, r1, r2⟩ := rows
  have hlen : ∀ f ∈ [f0, f1, f2], f < c'.faVe.length := fun f hf => by
    rw [hfv, List.length_map]; exact hi.ids el hel f (hp.mem_iff.1 hf)
  rw [← hfv] at r0 r1 r2
  have l0 := hlen f0 (by simp)
  have l1 := hlen f1 (by simp)
  have l2 := hlen f2 (by simp)
  have pv : [v0, v1, v2].Perm (slice 3 elVe el) := by rw [← hv1]; exact sortNat_perm _
  have hd := hdeg el hel v0 v1 v2 p0 p1 p2 pv c0 c1 c2
  by_cases hneg : det2 p0 p1 p2 < 0
  · rw [if_pos hneg] at hv'
    simp only [Prod.mk.injEq] at hv'
    refine ⟨v0, v2, v1, f1, f2, f0, p0, p2, p1, hv'.1, ((List.Perm.swap _ _ _).cons _).trans pv, c0, c2, c1, ?_, hv'.2.1,
      hasVes_of_row l1 r1 (List.Perm.refl _), hasVes_of_row l2 r2 (List.Perm.swap _ _ _),
      hasVes_of_row l0 r0 (List.Perm.swap _ _ _)⟩
    have := det2_swap p0 p1 p2
    have h3 : 0 < det2 p0 p2 p1 := by rw [this]; exact neg_pos.2 hneg
    exact h3
  · rw [if_neg hneg] at hv'
    simp only [Prod.mk.injEq] at hv'
    exact ⟨v0, v1, v2, f0, f2, f1, p0, p1, p2, hv'.1, pv, c0, c1, c2, lt_of_le_of_ne (not_lt.1 hneg) (Ne.symm hd), hv'.2.1,
      hasVes_of_row l0 r0 (List.Perm.refl _), hasVes_of_row l2 r2 (List.Perm.refl _),
      hasVes_of_row l1 r1 (List.Perm.swap _ _ _)⟩

/-- C40: the vertices of every tetrahedron are ordered such that the edges from the first vertex to the others have a positive
determinant, and the four faces are those of vertices 0-2-1, 0-1-3, 0-3-2 and 1-2-3. -/
theorem C40_tet (ht : 0 ≤ tol) (hi : NormIn 4 nEls c elVe)
    (h : normOrder .tet4 tol veCrds nEls c elVe = some (c', elVe')) :
    ∀ el < nEls, ∃ v0 v1 v2 v3 f0 f1 f2 f3 p0 p1 p2 p3,
      slice 4 elVe' el = [v0, v1, v2, v3] ∧ [v0, v1, v2, v3].Perm (slice 4 elVe el) ∧
      veCrds[v0]? = some p0 ∧ veCrds[v1]? = some p1 ∧ veCrds[v2]? = some p2 ∧ veCrds[v3]? = some p3 ∧
      tol < det3 p0 p1 p2 p3 ∧
      slice 4 c'.elFa el = [f0, f1, f2, f3] ∧ HasVes c' f0 [v0, v2, v1] ∧ HasVes c' f1 [v0, v1, v3] ∧
      HasVes c' f2 [v0, v3, v2] ∧ HasVes c' f3 [v1, v2, v3] := by
  intro el hel
  obtain ⟨hfv, key⟩ := norm_both (ty := .tet4) (n := 4) (Q := Tet2 tol veCrds) rfl hi h (fun el s s' he hw hb => normTet_spec he hw hb)
  obtain ⟨fas, nes, hp, ha, v0, v1, v2, v3, f0, f1, f2, f3, g0, g1, g2, g3, p0, p1, p2, p3, hv, c0, c1, c2, c3, hd, hv'⟩ :=
    key el hel
  simp only [Prod.mk.injEq] at hv
  obtain ⟨hv1, rfl, -⟩ := hv
  have rows := rows4 (hi.ids el hel) (hi.faces el hel) hp hv1 ha
  simp only [rowsOf, List.map_cons, List.map_nil, List.cons.injEq, and_true] at rows
  obtain ⟨r0, r1, r2, r3⟩ := rows
  have hlen : ∀ f ∈ [f0, f1, f2, f3], f < c'.faVe.length := fun f hf => by
    rw [hfv, List.length_map]; exact hi.ids el hel f (hp.mem_iff.1 hf)
  rw [← hfv] at r0 r1 r2 r3
  have l0 := hlen f0 (by simp)
  have l1 := hlen f1 (by simp)
  have l2 := hlen f2 (by simp)
  have l3 := hlen f3 (by simp)
  have pv : [v0, v1, v2, v3].Perm (slice 4 elVe el) := by rw [← hv1]; exact sortNat_perm _
  have sw : ∀ a b c : Nat, [a, b, c].Perm [a, c, b] := fun a b c => (List.Perm.swap c b []).cons a
  by_cases hneg : det3 p0 p1 p2 p3 < 0
  · rw [if_pos hneg] at hv'
    simp only [Prod.mk.injEq] at hv'
    refine ⟨v0, v1, v3, v2, f1, f0, f2, f3, p0, p1, p3, p2, hv'.1, (((List.Perm.swap _ _ _).cons _).cons _).trans pv, c0, c1,
      c3, c2, ?_, hv'.2.1, hasVes_of_row l1 r1 (sw _ _ _), hasVes_of_row l0 r0 (List.Perm.refl _),
      hasVes_of_row l2 r2 (List.Perm.refl _), hasVes_of_row l3 r3 (sw _ _ _)⟩
    rw [det3_swap, ← abs_of_neg hneg]; exact hd
  · rw [if_neg hneg] at hv'
    simp only [Prod.mk.injEq] at hv'
    refine ⟨v0, v1, v2, v3, f0, f1, f2, f3, p0, p1, p2, p3, hv'.1, pv, c0, c1, c2, c3, ?_, hv'.2.1,
      hasVes_of_row l0 r0 (sw _ _ _), hasVes_of_row l1 r1 (List.Perm.refl _),
      hasVes_of_row l2 r2 (sw _ _ _), hasVes_of_row l3 r3 (List.Perm.refl _)⟩
    rwa [abs_of_nonneg (not_lt.1 hneg)] at hd

end

end Edge.Mesh
