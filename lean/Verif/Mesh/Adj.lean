import Verif.Mesh.Final
import Verif.EdgeV.CommLemmas
import Verif.EdgeV.Comm
/-!
Neighbours after construction and normalisation: C77, C78.
-/
namespace Edge.Mesh
open Edge

/-! ### Specification -/

/-- The neighbours of the elements: the element behind a face is the other element having this face, and there is none if
no other element has it. -/
def NbOk (n nEls : Nat) (elFa : List Nat) (elFaEl : List (Option Nat)) : Prop :=
  ∀ el fa : Nat, el < nEls → fa < n → ∃ (f : Nat) (o : Option Nat),
    elFa[el * n + fa]? = some f ∧ elFaEl[el * n + fa]? = some o ∧
    ∀ ad, o = some ad ↔ ad < nEls ∧ ad ≠ el ∧ f ∈ slice n elFa ad

/-- No two elements have the same vertices. -/
def DistinctEls (n nEls : Nat) (elVe : List Nat) : Prop :=
  ∀ a b, a < nEls → b < nEls → (slice n elVe a).Perm (slice n elVe b) → a = b

/-! ### Construction -/

theorem mem_slice {α : Type _} {n nEls : Nat} {a : List α} (hl : a.length = nEls * n) {el : Nat} (he : el < nEls) {x : α} :
    x ∈ slice n a el ↔ ∃ k < n, a[el * n + k]? = some x := by
  rw [List.mem_iff_getElem?]
  constructor
  · rintro ⟨k, hk⟩
    have hkl := (List.getElem?_eq_some_iff.1 hk).1
    rw [slice_length hl he] at hkl
    exact ⟨k, hkl, by rw [← slice_getElem? hkl]; exact hk⟩
  · rintro ⟨k, hk, h⟩; exact ⟨k, by rw [slice_getElem? hk]; exact h⟩

section
variable {n nEls : Nat} {elFaVe : List (List Nat)} {elVe : List Nat} {c : Conn}

/-- The result of the construction is an input of the normalisation. -/
theorem ConnOk.normIn (hc : ConnOk nEls n elFaVe c) (hl : elFaVe.length = nEls * n) (hv : elVe.length = nEls * n)
    (hf : ∀ el < nEls, FacesOf (slice n elVe el) (slice n elFaVe el)) : NormIn n nEls c elVe := by
  have hrow : ∀ el < nEls, ∀ k < n, ∃ row f ves, (slice n elFaVe el)[k]? = some row ∧
      (slice n c.elFa el)[k]? = some f ∧ c.faVe[f]? = some ves ∧ ves.Perm row := by
    intro el he k hk
    have hi : el * n + k < elFaVe.length := by
      rw [hl]; have := Nat.mul_le_mul_right n (Nat.succ_le_of_lt he); rw [Nat.succ_mul] at this; omega
    obtain ⟨f, ves, h1, h2, h3, -⟩ := hc.elFa _ _ (List.getElem?_eq_getElem hi)
    exact ⟨_, f, ves, by rw [slice_getElem? hk]; exact List.getElem?_eq_getElem hi, by rw [slice_getElem? hk, h1], h2, h3⟩
  refine ⟨hv, hc.elFa_len, hc.elFaEl_len, fun el he f hfm => ?_, fun el he => ?_⟩
  · obtain ⟨k, hk⟩ := List.getElem?_of_mem hfm
    have hkl := (List.getElem?_eq_some_iff.1 hk).1
    rw [slice_length hc.elFa_len he] at hkl
    obtain ⟨row, f', ves, -, h2, h3, -⟩ := hrow el he k hkl
    rw [h2] at hk; cases hk
    exact (List.getElem?_eq_some_iff.1 h3).1
  · obtain ⟨h1, h2, h3⟩ := hf el he
    refine ⟨h1, ?_, fun v hvm => ?_⟩
    · rw [rowsOf, List.length_map, slice_length hc.elFa_len he, slice_length hv he]
    · obtain ⟨row, hr, hp⟩ := h3 v hvm
      obtain ⟨k, hk⟩ := List.getElem?_of_mem hr
      have hkl := (List.getElem?_eq_some_iff.1 hk).1
      rw [slice_length hl he] at hkl
      obtain ⟨row', f, ves, e1, e2, e3, e4⟩ := hrow el he k hkl
      rw [e1] at hk; cases hk
      refine ⟨ves, ?_, e4.trans hp⟩
      rw [rowsOf, List.mem_map]
      exact ⟨f, List.mem_of_getElem? e2, by rw [List.getD_eq_getElem?_getD, e3]; rfl⟩

/-- Rows of the faces of a simplex are different. -/
theorem facesOf_nodup {ves : List Nat} {rows : List (List Nat)} (h : FacesOf ves rows) : (rows.map sortNat).Nodup := by
  obtain ⟨h1, h2, h3⟩ := h
  have hinj : (ves.map (fun v => sortNat (ves.erase v))).Nodup := by
    rw [List.nodup_map_iff_inj_on h1]
    intro a ha b hb hab
    rw [sortNat_eq_iff] at hab
    by_contra hne
    have hmem : b ∈ ves.erase a := (List.mem_erase_of_ne (Ne.symm hne)).2 hb
    exact ((h1.mem_erase_iff).1 (hab.mem_iff.1 hmem)).1 rfl
  have hsub : ves.map (fun v => sortNat (ves.erase v)) ⊆ rows.map sortNat := by
    intro r hr
    rw [List.mem_map] at hr
    obtain ⟨v, hv, rfl⟩ := hr
    obtain ⟨row, hrow, hp⟩ := h3 v hv
    exact List.mem_map.2 ⟨row, hrow, (sortNat_eq_iff).2 hp⟩
  exact ((List.subperm_of_subset hinj hsub).perm_of_length_le (by simp [h2])).nodup_iff.1 hinj

theorem NormIn.elFa_nodup (hi : NormIn n nEls c elVe) {el : Nat} (he : el < nEls) : (slice n c.elFa el).Nodup := by
  have := facesOf_nodup (hi.faces el he)
  rw [rowsOf, List.map_map] at this
  exact this.of_map

/-- C77: the element behind every face is the other element with this face. -/
theorem C77_neighbours (hc : ConnOk nEls n elFaVe c) (hl : elFaVe.length = nEls * n) (hv : elVe.length = nEls * n)
    (hf : ∀ el < nEls, FacesOf (slice n elVe el) (slice n elFaVe el)) : NbOk n nEls c.elFa c.elFaEl := by
  have hi := hc.normIn hl hv hf
  intro el fa he hfa
  obtain ⟨o, h1, h2⟩ := hc.elFaEl el fa he hfa
  have hlt : el * n + fa < c.elFa.length := by
    rw [hc.elFa_len]; have := Nat.mul_le_mul_right n (Nat.succ_le_of_lt he); rw [Nat.succ_mul] at this; omega
  refine ⟨_, o, List.getElem?_eq_getElem hlt, h1, fun ad => ?_⟩
  rw [h2]
  constructor
  · rintro ⟨ha, fb, hb, hne, heq⟩
    rw [List.getElem?_eq_getElem hlt] at heq
    refine ⟨ha, ?_, (mem_slice hc.elFa_len ha).2 ⟨fb, hb, heq⟩⟩
    rintro rfl
    apply hne
    have nd := hi.elFa_nodup ha
    have e1 : (slice n c.elFa ad)[fb]? = some c.elFa[ad * n + fa] := by rw [slice_getElem? hb]; exact heq
    have e2 : (slice n c.elFa ad)[fa]? = some c.elFa[ad * n + fa] := by
      rw [slice_getElem? hfa]; exact List.getElem?_eq_getElem hlt
    have hlb : fb < (slice n c.elFa ad).length := by rw [slice_length hc.elFa_len ha]; exact hb
    rw [(List.getElem?_inj hlb nd).1 (e1.trans e2.symm)]
  · rintro ⟨ha, hne, hm⟩
    obtain ⟨fb, hb, heq⟩ := (mem_slice hc.elFa_len ha).1 hm
    refine ⟨ha, fb, hb, fun h => hne (Prod.mk.inj h).1, ?_⟩
    rw [heq, List.getElem?_eq_getElem hlt]

/-! ### Normalisation -/

theorem zip_getElem?_iff {α β : Type _} {a : List α} {b : List β} {k : Nat} {x : α} {y : β} :
    (a.zip b)[k]? = some (x, y) ↔ a[k]? = some x ∧ b[k]? = some y := by
  rw [List.getElem?_zip_eq_some]

theorem NbOk.perm {elFa elFa' : List Nat} {elFaEl elFaEl' : List (Option Nat)} (h : NbOk n nEls elFa elFaEl)
    (l1 : elFa.length = nEls * n) (l2 : elFaEl.length = nEls * n) (l1' : elFa'.length = nEls * n)
    (l2' : elFaEl'.length = nEls * n)
    (hp : ∀ el < nEls, ((slice n elFa' el).zip (slice n elFaEl' el)).Perm ((slice n elFa el).zip (slice n elFaEl el))) :
    NbOk n nEls elFa' elFaEl' := by
  have hpf : ∀ el < nEls, (slice n elFa' el).Perm (slice n elFa el) := fun el he =>
    perm_fst (hp el he) (by rw [slice_length l1 he, slice_length l2 he]) (by rw [slice_length l1' he, slice_length l2' he])
  intro el fa he hfa
  have b1 : fa < (slice n elFa' el).length := by rw [slice_length l1' he]; exact hfa
  have b2 : fa < (slice n elFaEl' el).length := by rw [slice_length l2' he]; exact hfa
  refine ⟨(slice n elFa' el)[fa], (slice n elFaEl' el)[fa], by rw [← slice_getElem? hfa]; exact List.getElem?_eq_getElem b1,
    by rw [← slice_getElem? hfa]; exact List.getElem?_eq_getElem b2, fun ad => ?_⟩
  have hm : ((slice n elFa' el)[fa], (slice n elFaEl' el)[fa]) ∈ (slice n elFa el).zip (slice n elFaEl el) :=
    (hp el he).mem_iff.1 (List.mem_of_getElem? (i := fa)
      (zip_getElem?_iff.2 ⟨List.getElem?_eq_getElem b1, List.getElem?_eq_getElem b2⟩))
  obtain ⟨k, hk⟩ := List.getElem?_of_mem hm
  obtain ⟨k1, k2⟩ := zip_getElem?_iff.1 hk
  have hkn : k < n := by have := (List.getElem?_eq_some_iff.1 k1).1; rwa [slice_length l1 he] at this
  rw [slice_getElem? hkn] at k1 k2
  obtain ⟨f, o, e1, e2, e3⟩ := h el k he hkn
  rw [k1] at e1; cases e1
  rw [k2] at e2; cases e2
  rw [e3 ad]
  constructor
  · rintro ⟨x, y, z⟩; exact ⟨x, y, (hpf ad x).mem_iff.2 z⟩
  · rintro ⟨x, y, z⟩; exact ⟨x, y, (hpf ad x).mem_iff.1 z⟩

/-- C77: normalisation keeps the element behind every face. -/
theorem C77_normalised {K : Type _} [Field K] [LinearOrder K] {ty : ElTy} {tol : K} {veCrds : List (V3 K)} {c' : Conn}
    {elVe' : List Nat} (hi : NormIn ty.nVes nEls c elVe) (hn : NbOk ty.nVes nEls c.elFa c.elFaEl)
    (h : normOrder ty tol veCrds nEls c elVe = some (c', elVe')) : NbOk ty.nVes nEls c'.elFa c'.elFaEl := by
  obtain ⟨l1, l2, l3, key⟩ := C39_elements hi h
  exact hn.perm hi.elFa_len hi.elFaEl_len l2 l3 (fun el he => (key el he).2)

/-! ### Consequences -/

/-- C77: neighbours exist, and being a neighbour is mutual. -/
theorem NbOk.meshOk {elFa : List Nat} {elFaEl : List (Option Nat)} (h : NbOk n nEls elFa elFaEl)
    (l1 : elFa.length = nEls * n) : EdgeV.MeshOk elFaEl n nEls := by
  refine ⟨fun el fa he hfa => ?_, fun el a he hnb => ?_⟩
  · obtain ⟨f, o, -, e2, e3⟩ := h el fa he hfa
    exact ⟨o, e2, fun ad had => ((e3 ad).1 had).1⟩
  · obtain ⟨fa, hfa, hx⟩ := hnb
    obtain ⟨f, o, e1, e2, e3⟩ := h el fa he hfa
    rw [hx] at e2; cases e2
    obtain ⟨ha, hne, hm⟩ := (e3 a).1 rfl
    obtain ⟨k, hk, hk2⟩ := (mem_slice l1 ha).1 hm
    obtain ⟨f', o', e1', e2', e3'⟩ := h a k ha hk
    rw [hk2] at e1'; cases e1'
    refine ⟨k, hk, ?_⟩
    rw [e2', (e3' el).2 ⟨he, Ne.symm hne, (mem_slice l1 he).2 ⟨fa, hfa, e1⟩⟩]

/-- C78: two simplices with different vertices share at most one face. -/
theorem C78_oneFace (hn : 2 ≤ n) (hi : NormIn n nEls c elVe) (hd : DistinctEls n nEls elVe)
    (hnd : (c.faVe.map sortNat).Nodup) (hnb : NbOk n nEls c.elFa c.elFaEl) : EdgeV.OneFace c.elFaEl n nEls := by
  intro el f g a he hf hg h1 h2
  obtain ⟨x, o, e1, e2, e3⟩ := hnb el f he hf
  rw [h1] at e2; cases e2
  obtain ⟨y, o, k1, k2, k3⟩ := hnb el g he hg
  rw [h2] at k2; cases k2
  obtain ⟨ha, hne, hx⟩ := (e3 a).1 rfl
  obtain ⟨-, -, hy⟩ := (k3 a).1 rfl
  by_contra hfg
  have hlx : f < (slice n c.elFa el).length := by rw [slice_length hi.elFa_len he]; exact hf
  have hxy : x ≠ y := by
    rintro rfl
    exact hfg ((List.getElem?_inj hlx (hi.elFa_nodup he)).1 (by rw [slice_getElem? hf, slice_getElem? hg, e1, k1]))
  have hxe : x ∈ slice n c.elFa el := (mem_slice hi.elFa_len he).2 ⟨f, hf, e1⟩
  have hye : y ∈ slice n c.elFa el := (mem_slice hi.elFa_len he).2 ⟨g, hg, k1⟩
  have hlenx := hi.ids el he x hxe
  have hleny := hi.ids el he y hye
  -- every face of a simplex is the simplex without a vertex
  have hrow : ∀ e < nEls, ∀ z ∈ slice n c.elFa e, ∃ u ∈ slice n elVe e, (c.faVe.getD z []).Perm ((slice n elVe e).erase u) := by
    intro e hE z hz
    obtain ⟨h1, h2, h3⟩ := hi.faces e hE
    have hnd2 := facesOf_nodup (hi.faces e hE)
    have hinj : ((slice n elVe e).map (fun v => sortNat ((slice n elVe e).erase v))).Nodup := by
      rw [List.nodup_map_iff_inj_on h1]
      intro a ha b hb hab
      rw [sortNat_eq_iff] at hab
      by_contra hne
      have hmem : b ∈ (slice n elVe e).erase a := (List.mem_erase_of_ne (Ne.symm hne)).2 hb
      exact ((h1.mem_erase_iff).1 (hab.mem_iff.1 hmem)).1 rfl
    have hsub : (slice n elVe e).map (fun v => sortNat ((slice n elVe e).erase v)) ⊆
        (rowsOf c.faVe (slice n c.elFa e)).map sortNat := by
      intro r hr
      rw [List.mem_map] at hr
      obtain ⟨v, hv, rfl⟩ := hr
      obtain ⟨row, hrow, hp⟩ := h3 v hv
      exact List.mem_map.2 ⟨row, hrow, (sortNat_eq_iff).2 hp⟩
    have hp := (List.subperm_of_subset hinj hsub).perm_of_length_le (by simp [h2])
    have hmem : sortNat (c.faVe.getD z []) ∈ (rowsOf c.faVe (slice n c.elFa e)).map sortNat :=
      List.mem_map_of_mem (List.mem_map_of_mem (f := fun f => c.faVe.getD f []) hz)
    rw [← hp.mem_iff, List.mem_map] at hmem
    obtain ⟨u, hu, heq⟩ := hmem
    exact ⟨u, hu, ((sortNat_eq_iff).1 heq).symm⟩
  -- different faces have different vertices
  have hdiff : ¬ (c.faVe.getD x []).Perm (c.faVe.getD y []) := by
    intro hp
    rw [List.getD_eq_getElem?_getD, List.getD_eq_getElem?_getD, List.getElem?_eq_getElem hlenx,
      List.getElem?_eq_getElem hleny] at hp
    apply hxy
    have hl' : x < (c.faVe.map sortNat).length := by simpa using hlenx
    refine (List.getElem?_inj hl' hnd).1 ?_
    rw [List.getElem?_map, List.getElem?_map, List.getElem?_eq_getElem hlenx, List.getElem?_eq_getElem hleny]
    simp only [Option.map_some, Option.some.injEq]
    exact (sortNat_eq_iff).2 hp
  -- the vertices of a simplex are those of any two of its faces
  have hcov : ∀ e < nEls, x ∈ slice n c.elFa e → y ∈ slice n c.elFa e → ∀ v, v ∈ slice n elVe e ↔
      v ∈ c.faVe.getD x [] ∨ v ∈ c.faVe.getD y [] := by
    intro e hE hxe hye v
    obtain ⟨u, hu, hpu⟩ := hrow e hE x hxe
    obtain ⟨w, hw, hpw⟩ := hrow e hE y hye
    have h1 := (hi.faces e hE).1
    rw [hpu.mem_iff, hpw.mem_iff, h1.mem_erase_iff, h1.mem_erase_iff]
    constructor
    · intro hv
      by_cases hvu : v = u
      · right
        refine ⟨?_, hv⟩
        rintro rfl
        subst hvu
        exact hdiff (hpu.trans hpw.symm)
      · exact Or.inl ⟨hvu, hv⟩
    · rintro (⟨_, h⟩ | ⟨_, h⟩) <;> exact h
  apply hne
  refine hd a el ha he ((List.perm_ext_iff_of_nodup (hi.faces a ha).1 (hi.faces el he).1).2 fun v => ?_)
  rw [hcov a ha hx hy v, hcov el he hxe hye v]

theorem findFa_spec {elFaEl : List (Option Nat)} {el ad : Nat} (hA : ∀ k < n, ∃ o, elFaEl[ad * n + k]? = some o) :
    ∀ (k s : Nat), s + k = n → (∃ j, s ≤ j ∧ j < n ∧ elFaEl[ad * n + j]? = some (some el)) →
    ∃ j, findFa n elFaEl el ad k s = some j ∧ j < n ∧ elFaEl[ad * n + j]? = some (some el)
  | 0, s, hs, ⟨j, h1, h2, _⟩ => by omega
  | k + 1, s, hs, ⟨j, h1, h2, h3⟩ => by
    obtain ⟨o, ho⟩ := hA s (by omega)
    simp only [findFa, rd, ho, Option.bind_eq_bind, Option.bind_some]
    by_cases hc : o = some el
    · rw [if_pos hc]; exact ⟨s, rfl, by omega, by rw [ho, hc]⟩
    · rw [if_neg hc]
      refine findFa_spec hA k (s + 1) (by omega) ⟨j, ?_, h2, h3⟩
      rcases Nat.eq_or_lt_of_le h1 with h | h
      · subst h; rw [ho] at h3; exact absurd (Option.some.inj h3) hc
      · exact h

/-- C78: if two elements share at most one face, the face id reported for the neighbour behind a face is the position of this
same face in the neighbour. -/
theorem C78_faIdAd {elFa : List Nat} {elFaEl : List (Option Nat)} (l1 : elFa.length = nEls * n)
    (hnb : NbOk n nEls elFa elFaEl) (hone : EdgeV.OneFace elFaEl n nEls) {el fa ad : Nat} (he : el < nEls) (hfa : fa < n)
    (h : elFaEl[el * n + fa]? = some (some ad)) :
    ∃ fb, faIdAd n elFaEl el fa = some fb ∧ fb < n ∧ elFa[ad * n + fb]? = elFa[el * n + fa]? := by
  obtain ⟨f, o, e1, e2, e3⟩ := hnb el fa he hfa
  rw [h] at e2; cases e2
  obtain ⟨ha, hne, hm⟩ := (e3 ad).1 rfl
  obtain ⟨j, hj, hj2⟩ := (mem_slice l1 ha).1 hm
  obtain ⟨f', o', k1, k2, k3⟩ := hnb ad j ha hj
  rw [hj2] at k1; cases k1
  have hback : elFaEl[ad * n + j]? = some (some el) := by
    rw [k2, (k3 el).2 ⟨he, Ne.symm hne, (mem_slice l1 he).2 ⟨fa, hfa, e1⟩⟩]
  obtain ⟨i, hi1, hi2, hi3⟩ := findFa_spec (n := n) (el := el) (ad := ad)
    (fun k hk => by obtain ⟨_, o, _, q, _⟩ := hnb ad k ha hk; exact ⟨o, q⟩) n 0 (by omega) ⟨j, by omega, hj, hback⟩
  have : i = j := hone ad i j el ha hi2 hj hi3 hback
  subst this
  refine ⟨i, ?_, hi2, by rw [hj2, e1]⟩
  simp only [faIdAd, rd, h, Option.bind_eq_bind, Option.bind_some]
  exact hi1

end

end Edge.Mesh
