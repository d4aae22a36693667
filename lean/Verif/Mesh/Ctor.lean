import Verif.Mesh.Periodic
/-!
The complete constructor of the mesh interface: C77, C78, C80.
-/
namespace Edge.Mesh
open Edge

/-! ### Model -/

/-- Exchange of the elements of the periodic faces whose own element has the larger id
(tools/edge_v/src/mesh/Mesh.cpp:640-648). -/
def reverseGt (gt : List Nat) (faEl : List (Option Nat)) : Option (List (Option Nat)) :=
  gt.foldlM (fun a f => swp a (f * 2) (f * 2 + 1)) faEl

/-- Optional adjustment for periodic boundaries (tools/edge_v/src/mesh/Mesh.cpp:614-628). -/
def periodicO (mt : Nat → Nat → Option Bool) (n : Nat) (peri : Option Nat) (spType : List Nat) (c : Conn) :
    Option (Conn × List Nat) :=
  match peri with
  | none => some (c, [])
  | some peTy => setPeriodic mt n peTy spType c

section
variable {K : Type _} [Field K] [LinearOrder K]

/-- The topological part of the constructor `Mesh::Mesh` (tools/edge_v/src/mesh/Mesh.cpp:377-649) for simplices. Parameters:
`srt`, `srtL` the two sortings of the standard library, `peri` the type of periodic boundaries if there are any. The
vertices of the elements and faces are those returned by the mesh reader. Not modelled: inscribed diameters. -/
def meshCtor (srt : List Face → List Face) (srtL : List (List Nat) → List Nat → List Nat) (ty : ElTy) (nDis : Nat)
    (tolM tolT : K) (veCrds : List (V3 K)) (nEls : Nat) (elVe : List Nat) (elFaVe : List (List Nat))
    (groups : List (Nat × List (List Nat))) (peri : Option Nat) : Option (Conn × List Nat × List Nat) := do
  let nFaVes := ty.nVes - 1
  let c ← build srt nEls ty.nVes nFaVes elFaVe
  let sp ← addGroups srtL nFaVes c.faVe groups (List.replicate c.nFas 0)
  let p ← periodicO (faMatch tolM nDis nFaVes veCrds c.faVe) ty.nVes peri sp c
  let q ← normOrder ty tolT veCrds nEls p.1 elVe
  let faEl ← reverseGt p.2 q.1.faEl
  return ({ q.1 with faEl := faEl }, q.2, sp)

end

/-! ### Specification -/

/-- The neighbours of the elements: the element behind a face is the other element having this face, or the element having
the partner of the face; there is none if neither exists. -/
def NbPer (n nEls : Nat) (R : Nat → Nat → Prop) (elFa : List Nat) (elFaEl : List (Option Nat)) : Prop :=
  ∀ el fa : Nat, el < nEls → fa < n → ∃ (f : Nat) (o : Option Nat),
    elFa[el * n + fa]? = some f ∧ elFaEl[el * n + fa]? = some o ∧
    ∀ ad, o = some ad ↔ ad < nEls ∧ ((ad ≠ el ∧ f ∈ slice n elFa ad) ∨ ∃ g, R f g ∧ g ∈ slice n elFa ad)

theorem NbOk.nbPer {n nEls : Nat} {elFa : List Nat} {elFaEl : List (Option Nat)} (h : NbOk n nEls elFa elFaEl) :
    NbPer n nEls (fun _ _ => False) elFa elFaEl := by
  intro el fa he hfa
  obtain ⟨f, o, h1, h2, h3⟩ := h el fa he hfa
  exact ⟨f, o, h1, h2, fun ad => by rw [h3]; simp⟩

theorem NbPer.perm {n nEls : Nat} {R : Nat → Nat → Prop} {elFa elFa' : List Nat} {elFaEl elFaEl' : List (Option Nat)}
    (h : NbPer n nEls R elFa elFaEl)
    (l1 : elFa.length = nEls * n) (l2 : elFaEl.length = nEls * n) (l1' : elFa'.length = nEls * n)
    (l2' : elFaEl'.length = nEls * n)
    (hp : ∀ el < nEls, ((slice n elFa' el).zip (slice n elFaEl' el)).Perm ((slice n elFa el).zip (slice n elFaEl el))) :
    NbPer n nEls R elFa' elFaEl' := by
  have hpf : ∀ el < nEls, (slice n elFa' el).Perm (slice n elFa el) := fun el he =>
    perm_fst (hp el he) (by rw [slice_length l1 he, slice_length l2 he]) (by rw [slice_length l1' he, slice_length l2' he])
  intro el fa he hfa
  have b1 : fa < (slice n elFa' el).length := by rw [slice_length l1' he]; exact hfa
  have b2 : fa < (slice n elFaEl' el).length := by rw [slice_length l2' he]; exact hfa
  refine ⟨(slice n elFa' el)[fa], (slice n elFaEl' el)[fa], by rw [← slice_getElem? hfa]; exact List.getElem?_eq_getElem b1,
    by rw [← slice_getElem? hfa]; exact List.getElem?_eq_getElem b2, fun ad => ?_⟩
  have hm : ((slice n elFa' el)[fa], (slice n elFaEl' el)[fa]) ∈ (slice n elFa el).zip (slice n elFaEl el) :=
    (hp el he).mem_iff.1 (List.mem_of_getElem? (i := fa)
      (zip_getElem?_iff.2 ⟨List.getElem?_eq_getElem b1, List.getElem?_eq_getElem b2⟩))
  obtain ⟨k, hk⟩ := List.getElem?_of_mem hm
  obtain ⟨k1, k2⟩ := zip_getElem?_iff.1 hk
  have hkn : k < n := by have := (List.getElem?_eq_some_iff.1 k1).1; rwa [slice_length l1 he] at this
  rw [slice_getElem? hkn] at k1 k2
  obtain ⟨f, o, e1, e2, e3⟩ := h el k he hkn
  rw [k1] at e1; cases e1
  rw [k2] at e2; cases e2
  rw [e3 ad]
  refine and_congr_right fun x => ?_
  rw [(hpf ad x).mem_iff]
  simp only [(hpf ad x).mem_iff]

/-- Neighbours exist, and being a neighbour is mutual. -/
theorem NbPer.meshOk {n nEls : Nat} {R : Nat → Nat → Prop} {elFa : List Nat} {elFaEl : List (Option Nat)}
    (h : NbPer n nEls R elFa elFaEl) (hR : ∀ f g, R f g → R g f) (l1 : elFa.length = nEls * n) :
    EdgeV.MeshOk elFaEl n nEls := by
  refine ⟨fun el fa he hfa => ?_, fun el a he hnb => ?_⟩
  · obtain ⟨f, o, -, e2, e3⟩ := h el fa he hfa
    exact ⟨o, e2, fun ad had => ((e3 ad).1 had).1⟩
  · obtain ⟨fa, hfa, hx⟩ := hnb
    obtain ⟨f, o, e1, e2, e3⟩ := h el fa he hfa
    rw [hx] at e2; cases e2
    obtain ⟨ha, hc⟩ := (e3 a).1 rfl
    have hf : f ∈ slice n elFa el := (mem_slice l1 he).2 ⟨fa, hfa, e1⟩
    rcases hc with ⟨hne, hm⟩ | ⟨g, hg, hm⟩
    · obtain ⟨k, hk, hk2⟩ := (mem_slice l1 ha).1 hm
      obtain ⟨f', o', e1', e2', e3'⟩ := h a k ha hk
      rw [hk2] at e1'; cases e1'
      exact ⟨k, hk, by rw [e2', (e3' el).2 ⟨he, Or.inl ⟨Ne.symm hne, hf⟩⟩]⟩
    · obtain ⟨k, hk, hk2⟩ := (mem_slice l1 ha).1 hm
      obtain ⟨f', o', e1', e2', e3'⟩ := h a k ha hk
      rw [hk2] at e1'; cases e1'
      exact ⟨k, hk, by rw [e2', (e3' el).2 ⟨he, Or.inr ⟨f, hR f g hg, hf⟩⟩]⟩

/-- C78: if two elements share at most one face, the face id reported for the neighbour behind a face is the position of this
same face or of its partner in the neighbour. -/
theorem C78_faIdAd_periodic {n nEls : Nat} {R : Nat → Nat → Prop} {elFa : List Nat} {elFaEl : List (Option Nat)}
    (hR : ∀ f g, R f g → R g f) (l1 : elFa.length = nEls * n)
    (hnb : NbPer n nEls R elFa elFaEl) (hone : EdgeV.OneFace elFaEl n nEls) {el fa ad : Nat} (he : el < nEls) (hfa : fa < n)
    (h : elFaEl[el * n + fa]? = some (some ad)) :
    ∃ fb f g, faIdAd n elFaEl el fa = some fb ∧ fb < n ∧ elFa[el * n + fa]? = some f ∧ elFa[ad * n + fb]? = some g ∧
      (g = f ∨ R f g) := by
  obtain ⟨f, o, e1, e2, e3⟩ := hnb el fa he hfa
  rw [h] at e2; cases e2
  obtain ⟨ha, hc⟩ := (e3 ad).1 rfl
  have hf : f ∈ slice n elFa el := (mem_slice l1 he).2 ⟨fa, hfa, e1⟩
  have : ∃ j g, j < n ∧ elFa[ad * n + j]? = some g ∧ (g = f ∨ R f g) ∧ elFaEl[ad * n + j]? = some (some el) := by
    rcases hc with ⟨hne, hm⟩ | ⟨g, hg, hm⟩
    · obtain ⟨j, hj, hj2⟩ := (mem_slice l1 ha).1 hm
      obtain ⟨f', o', k1, k2, k3⟩ := hnb ad j ha hj
      rw [hj2] at k1; cases k1
      exact ⟨j, f, hj, hj2, Or.inl rfl, by rw [k2, (k3 el).2 ⟨he, Or.inl ⟨Ne.symm hne, hf⟩⟩]⟩
    · obtain ⟨j, hj, hj2⟩ := (mem_slice l1 ha).1 hm
      obtain ⟨f', o', k1, k2, k3⟩ := hnb ad j ha hj
      rw [hj2] at k1; cases k1
      exact ⟨j, g, hj, hj2, Or.inr hg, by rw [k2, (k3 el).2 ⟨he, Or.inr ⟨f, hR f g hg, hf⟩⟩]⟩
  obtain ⟨j, g, hj, hj2, hg, hback⟩ := this
  obtain ⟨i, hi1, hi2, hi3⟩ := findFa_spec (n := n) (el := el) (ad := ad)
    (fun k hk => by obtain ⟨_, o, _, q, _⟩ := hnb ad k ha hk; exact ⟨o, q⟩) n 0 (by omega) ⟨j, by omega, hj, hback⟩
  have : i = j := hone ad i j el ha hi2 hj hi3 hback
  subst this
  refine ⟨i, f, g, ?_, hi2, e1, hj2, hg⟩
  simp only [faIdAd, rd, h, Option.bind_eq_bind, Option.bind_some]
  exact hi1

/-! ### Periodic boundaries -/

section
variable {n nEls : Nat} {elFaVe : List (List Nat)} {elVe : List Nat} {c c' : Conn}

/-- A boundary face belongs to one element only. -/
theorem ConnOk.bnd (hc : ConnOk nEls n elFaVe c) {f : Nat} (hf : f < c.nFas) (hb : c.faEl[f * 2 + 1]? = some none) :
    ∃ a, a < nEls ∧ c.faEl[f * 2]? = some (some a) ∧ ∀ e < nEls, f ∈ slice n c.elFa e ↔ e = a := by
  obtain ⟨a, fa, h1, h2, h3, h4, h5⟩ := hc.faEl f hf
  refine ⟨a, h1, h4, fun e he => ?_⟩
  rcases h5 with ⟨h5, h6⟩ | ⟨b, fb, _, _, _, _, h7, _⟩
  · constructor
    · intro hm
      obtain ⟨k, hk, hk2⟩ := (mem_slice hc.elFa_len he).1 hm
      exact (Prod.mk.inj (h6 e k he hk hk2)).1
    · rintro rfl; exact (mem_slice hc.elFa_len he).2 ⟨fa, h2, h3⟩
  · rw [hb] at h7; cases h7

/-- C80: behind every face with a partner is the element of the partner, and all other faces keep the element behind them. -/
theorem C80_neighbours (hc : ConnOk nEls n elFaVe c) (hnb : NbOk n nEls c.elFa c.elFaEl)
    {mt : Nat → Nat → Option Bool} {peTy : Nat} {spType : List Nat} {gt : List Nat}
    (h : setPeriodic mt n peTy spType c = some (c', gt)) :
    NbPer n nEls (Par mt peTy spType c.nFas) c'.elFa c'.elFaEl := by
  obtain ⟨h1, h2, h3, h4, h5, h6, inv⟩ := C80_periodic h
  rw [h6]
  intro el fa he hfa
  obtain ⟨f, o, e1, e2, e3⟩ := hnb el fa he hfa
  by_cases hp : ∃ g, Par mt peTy spType c.nFas f g
  · obtain ⟨g, hg⟩ := hp
    obtain ⟨a, ha, ha2, ha3⟩ := hc.bnd hg.1 (h1 f hg.1 hg.2.2.1)
    obtain ⟨b, hb, hb2, hb3⟩ := hc.bnd hg.2.1 (h1 g hg.2.1 hg.2.2.2.1)
    have hea : el = a := (ha3 el he).1 ((mem_slice hc.elFa_len he).2 ⟨fa, hfa, e1⟩)
    subst hea
    obtain ⟨ow, k1, k2⟩ := inv.ad el fa f g hfa e1 hg ha2
    rw [hb2] at k1; cases k1
    refine ⟨f, some b, e1, k2, fun ad => ?_⟩
    constructor
    · intro hx; cases hx
      exact ⟨hb, Or.inr ⟨g, hg, (hb3 b hb).2 rfl⟩⟩
    · rintro ⟨had, ⟨hne, hm⟩ | ⟨g', hg', hm⟩⟩
      · exact absurd ((ha3 ad had).1 hm) hne
      · have := h2 f g g' hg hg'
        subst this
        rw [(hb3 ad had).1 hm]
  · refine ⟨f, o, e1, ?_, fun ad => ?_⟩
    · have := inv.ad_rest el fa f hfa e1 (Or.inl hp)
      exact this.trans e2
    · rw [e3]
      constructor
      · rintro ⟨x, y⟩; exact ⟨x, Or.inl y⟩
      · rintro ⟨x, y | ⟨g, hg, _⟩⟩
        · exact ⟨x, y⟩
        · exact absurd ⟨g, hg⟩ hp

theorem NormIn.periodic (hi : NormIn n nEls c elVe) (h1 : c'.faVe = c.faVe) (h2 : c'.elFa = c.elFa)
    (h3 : c'.elFaEl.length = c.elFaEl.length) : NormIn n nEls c' elVe :=
  ⟨hi.elVe_len, by rw [h2]; exact hi.elFa_len, by rw [h3]; exact hi.elFaEl_len, by rw [h1, h2]; exact hi.ids,
    by rw [h1, h2]; exact hi.faces⟩

end

/-! ### Reversal -/

theorem reverseGt_spec {nFas : Nat} : ∀ {gt : List Nat} {a a' : List (Option Nat)}, gt.Nodup → a.length = nFas * 2 →
    reverseGt gt a = some a' → a'.length = nFas * 2 ∧
      ∀ f, slice 2 a' f = if f ∈ gt then swapL (slice 2 a f) 0 1 else slice 2 a f := by
  intro gt
  induction gt with
  | nil => intro a a' _ hl h; cases h; exact ⟨hl, fun f => by simp⟩
  | cons g gt ih =>
    intro a a' hnd hl h
    simp only [reverseGt, List.foldlM_cons, Option.bind_eq_bind, Option.bind_eq_some_iff] at h
    obtain ⟨b, hb, h⟩ := h
    obtain ⟨b1, b2, b3⟩ := swp_slice (n := 2) (el := g) (i := 0) (j := 1) (by omega) (by omega) hb
    obtain ⟨k1, k2⟩ := ih (List.nodup_cons.1 hnd).2 (b3.trans hl) h
    refine ⟨k1, fun f => ?_⟩
    rw [k2]
    by_cases hfg : f = g
    · subst hfg
      rw [if_neg (List.nodup_cons.1 hnd).1, if_pos (by simp), b1]
    · rw [b2 f hfg]
      by_cases hm : f ∈ gt
      · rw [if_pos hm, if_pos (by simp [hm])]
      · rw [if_neg hm, if_neg (by simp [hm, hfg])]

/-! ### The constructor -/

section
variable {K : Type _} [Field K] [LinearOrder K]

/-- Partners with respect to optional periodic boundaries. -/
def ParO (mt : Nat → Nat → Option Bool) (peri : Option Nat) (spType : List Nat) (nFas f g : Nat) : Prop :=
  ∃ peTy, peri = some peTy ∧ Par mt peTy spType nFas f g

/-- Result of the constructor. `R`: partners at the periodic boundary. -/
structure MeshSpec (n nEls : Nat) (R : Nat → Nat → Prop) (elVe : List Nat) (c : Conn) (elVe' : List Nat) : Prop where
  /-- The elements keep their vertices, and their faces are the faces of the simplex. -/
  perm : ∀ el < nEls, (slice n elVe' el).Perm (slice n elVe el)
  normIn : NormIn n nEls c elVe'
  /-- The vertices of all faces are different and ascending. -/
  faVe_len : c.faVe.length = c.nFas
  nodup : (c.faVe.map sortNat).Nodup
  /-- Partners are mutual, a face has at most one partner. -/
  symm : ∀ f g, R f g → R g f
  uniq : ∀ f g g', R f g → R f g' → g = g'
  /-- Element behind each face. -/
  nb : NbPer n nEls R c.elFa c.elFaEl
  faEl_len : c.faEl.length = c.nFas * 2
  /-- The first element of each face has this face; the second one is the element behind the face of the first one. -/
  first : ∀ f < c.nFas, ∃ a fa o, a < nEls ∧ fa < n ∧ c.faEl[f * 2]? = some (some a) ∧ c.elFa[a * n + fa]? = some f ∧
    c.faEl[f * 2 + 1]? = some o ∧ c.elFaEl[a * n + fa]? = some o


theorem slice2 {α : Type _} {nFas f : Nat} {a : List α} {x y : α} (hl : a.length = nFas * 2) (hf : f < nFas)
    (h0 : a[f * 2]? = some x) (h1 : a[f * 2 + 1]? = some y) : slice 2 a f = [x, y] := by
  have hlen := slice_length hl hf
  have hx' : (slice 2 a f)[0]? = some x := by rw [slice_getElem? (by omega)]; exact h0
  have hy' : (slice 2 a f)[1]? = some y := by rw [slice_getElem? (by omega)]; exact h1
  match hm : slice 2 a f, hlen with
  | [u, v], _ => rw [hm] at hx' hy'; simp at hx' hy'; rw [hx', hy']

theorem of_slice2 {α : Type _} {f : Nat} {a : List α} {x y : α} (h : slice 2 a f = [x, y]) :
    a[f * 2]? = some x ∧ a[f * 2 + 1]? = some y := by
  have h0 : (slice 2 a f)[0]? = some x := by rw [h]; rfl
  have h1 : (slice 2 a f)[1]? = some y := by rw [h]; rfl
  rw [slice_getElem? (by omega)] at h0 h1
  exact ⟨h0, h1⟩

/-- Elements of a face: `a` and the element behind the face. -/
def FaceEls (n nEls : Nat) (R : Nat → Nat → Prop) (elFa : List Nat) (f a : Nat) (x : Option Nat) : Prop :=
  (a < nEls ∧ f ∈ slice n elFa a) ∧
  (((¬ ∃ g, R f g) ∧ x = none ∧ ∀ e < nEls, f ∈ slice n elFa e ↔ e = a) ∨
   ((¬ ∃ g, R f g) ∧ ∃ b < nEls, x = some b ∧ b ≠ a ∧ ∀ e < nEls, f ∈ slice n elFa e ↔ e = a ∨ e = b) ∨
   (∃ g b, R f g ∧ b < nEls ∧ x = some b ∧ (∀ e < nEls, f ∈ slice n elFa e ↔ e = a) ∧ ∀ e < nEls, g ∈ slice n elFa e ↔ e = b))

theorem FaceEls.behind {n nEls : Nat} {R : Nat → Nat → Prop} {elFa : List Nat} {elFaEl : List (Option Nat)} {f a : Nat}
    {x : Option Nat} (huniq : ∀ f g g', R f g → R f g' → g = g') (l1 : elFa.length = nEls * n)
    (hnb : NbPer n nEls R elFa elFaEl) (h : FaceEls n nEls R elFa f a x) :
    ∃ fa < n, elFa[a * n + fa]? = some f ∧ elFaEl[a * n + fa]? = some x := by
  obtain ⟨⟨ha, hm⟩, hc⟩ := h
  obtain ⟨fa, hfa, hx⟩ := (mem_slice l1 ha).1 hm
  obtain ⟨f', o, e1, e2, e3⟩ := hnb a fa ha hfa
  rw [hx] at e1; cases e1
  refine ⟨fa, hfa, hx, ?_⟩
  rw [e2]
  congr 1
  rcases hc with ⟨hn, rfl, hu⟩ | ⟨hn, b, hb, rfl, hne, hu⟩ | ⟨g, b, hg, hb, rfl, hu, hv⟩
  · cases o with
    | none => rfl
    | some y =>
      obtain ⟨hy, ⟨k1, k2⟩ | ⟨g, k, _⟩⟩ := (e3 y).1 rfl
      · exact absurd ((hu y hy).1 k2) k1
      · exact absurd ⟨g, k⟩ hn
  · exact (e3 b).2 ⟨hb, Or.inl ⟨hne, (hu b hb).2 (Or.inr rfl)⟩⟩
  · exact (e3 b).2 ⟨hb, Or.inr ⟨g, hg, (hv b hb).2 rfl⟩⟩

theorem FaceEls.swap {n nEls : Nat} {R : Nat → Nat → Prop} {elFa : List Nat} {f a b : Nat}
    (h : FaceEls n nEls R elFa f a (some b)) (hn : ¬ ∃ g, R f g) : FaceEls n nEls R elFa f b (some a) := by
  obtain ⟨⟨ha, hm⟩, ⟨_, hx, _⟩ | ⟨_, b', hb, hx, hne, hu⟩ | ⟨g, _, hg, _⟩⟩ := h
  · cases hx
  · cases hx
    exact ⟨⟨hb, (hu b hb).2 (Or.inr rfl)⟩, Or.inr (Or.inl ⟨hn, a, ha, rfl, Ne.symm hne, fun e he => by rw [hu e he, or_comm]⟩)⟩
  · exact absurd ⟨g, hg⟩ hn

theorem FaceEls.congr {n nEls : Nat} {R : Nat → Nat → Prop} {elFa elFa' : List Nat} {f a : Nat} {x : Option Nat}
    (h : FaceEls n nEls R elFa f a x) (hp : ∀ e < nEls, ∀ g, g ∈ slice n elFa' e ↔ g ∈ slice n elFa e) :
    FaceEls n nEls R elFa' f a x := by
  obtain ⟨⟨ha, hm⟩, hc⟩ := h
  refine ⟨⟨ha, (hp a ha f).2 hm⟩, ?_⟩
  rcases hc with ⟨hn, rfl, hu⟩ | ⟨hn, b, hb, rfl, hne, hu⟩ | ⟨g, b, hg, hb, rfl, hu, hv⟩
  · exact Or.inl ⟨hn, rfl, fun e he => by rw [hp e he, hu e he]⟩
  · exact Or.inr (Or.inl ⟨hn, b, hb, rfl, hne, fun e he => by rw [hp e he, hu e he]⟩)
  · exact Or.inr (Or.inr ⟨g, b, hg, hb, rfl, fun e he => by rw [hp e he, hu e he], fun e he => by rw [hp e he, hv e he]⟩)

/-- C77, C80: the constructor. All elements keep their vertices and have the faces of the simplex; behind each face is the other
element with this face or, at periodic boundaries, the element of the matching face; the first element of each face has
this face and the second one is the element behind it. -/
theorem C80_mesh {srt : List Face → List Face} {srtL : List (List Nat) → List Nat → List Nat}
    {ty : ElTy} {nDis : Nat} {tolM tolT : K} {veCrds : List (V3 K)} {nEls : Nat} {elVe : List Nat}
    {elFaVe : List (List Nat)} {groups : List (Nat × List (List Nat))} {peri : Option Nat}
    {c : Conn} {elVe' sp : List Nat} (hs : ∀ l, StdSort faceLt l (srt l))
    (hl : elFaVe.length = nEls * ty.nVes) (hrow : ∀ row ∈ elFaVe, row.length = ty.nVes - 1)
    (hv : elVe.length = nEls * ty.nVes)
    (hf : ∀ el < nEls, FacesOf (slice ty.nVes elVe el) (slice ty.nVes elFaVe el))
    (h : meshCtor srt srtL ty nDis tolM tolT veCrds nEls elVe elFaVe groups peri = some (c, elVe', sp)) :
    MeshSpec ty.nVes nEls (ParO (faMatch tolM nDis (ty.nVes - 1) veCrds c.faVe) peri sp c.nFas) elVe c elVe' := by
  simp only [meshCtor, Option.bind_eq_bind, Option.bind_eq_some_iff, Option.pure_def, Option.some.injEq,
    Prod.mk.injEq] at h
  obtain ⟨c0, hb, sp0, hsp, ⟨c1, gt⟩, hper, ⟨c2, ve2⟩, hno, faEl, hrev, rfl, rfl, rfl⟩ := h
  simp only at hper hno hrev ⊢
  have hcon := (C77_connectivity hs hl hrow hb).2
  have hi0 := hcon.normIn hl hv hf
  have hnb0 := C77_neighbours hcon hl hv hf
  generalize hn : ty.nVes = n at *
  -- the vertices of the faces are sorted
  have hsort : c0.faVe.map sortNat = c0.faVe := by
    apply List.ext_getElem?
    intro f
    rw [List.getElem?_map]
    by_cases hfl : f < c0.faVe.length
    · obtain ⟨a, fa, h1, h2, h3, -⟩ := hcon.faEl f (by rw [← hcon.faVe_len]; exact hfl)
      have hidx : a * n + fa < elFaVe.length := by
        rw [hl]; have := Nat.mul_le_mul_right n (Nat.succ_le_of_lt h1); rw [Nat.succ_mul] at this; omega
      obtain ⟨f', ves, k1, k2, -, k4⟩ := hcon.elFa _ _ (List.getElem?_eq_getElem hidx)
      rw [h3] at k1; cases k1
      rw [k2, Option.map_some, sortNat_id k4]
    · rw [List.getElem?_eq_none (by omega)]; rfl
  -- periodic boundaries
  have key : ∃ R : Nat → Nat → Prop, R = ParO (faMatch tolM nDis (n - 1) veCrds c0.faVe) peri sp0 c0.nFas ∧
      (∀ f g, R f g → R g f) ∧ (∀ f g g', R f g → R f g' → g = g') ∧ c1.nFas = c0.nFas ∧ c1.faVe = c0.faVe ∧
      c1.elFa = c0.elFa ∧ c1.faEl.length = c0.faEl.length ∧ c1.elFaEl.length = c0.elFaEl.length ∧
      NbPer n nEls R c1.elFa c1.elFaEl ∧ gt.Nodup ∧
      ∀ f < c0.nFas, ∃ a x, slice 2 c1.faEl f = [some a, x] ∧ FaceEls n nEls R c0.elFa f a x ∧
        ((∃ g, R f g) → (f ∈ gt ↔ ∃ b, x = some b ∧ b < a)) ∧ ((¬ ∃ g, R f g) → f ∉ gt) := by
    have hfe : ∀ f < c0.nFas, ∃ a x, c0.faEl[f * 2]? = some (some a) ∧ c0.faEl[f * 2 + 1]? = some x ∧
        FaceEls n nEls (fun _ _ => False) c0.elFa f a x := by
      intro f hfl
      obtain ⟨a, fa, h1, h2, h3, h4, h5⟩ := hcon.faEl f hfl
      have hm : f ∈ slice n c0.elFa a := (mem_slice hcon.elFa_len h1).2 ⟨fa, h2, h3⟩
      rcases h5 with ⟨h5, h6⟩ | ⟨b, fb, k1, k2, k3, k4, k5, k6⟩
      · refine ⟨a, none, h4, h5, ⟨h1, hm⟩, Or.inl ⟨by simp, rfl, fun e he => ⟨fun hx => ?_, fun hx => hx ▸ hm⟩⟩⟩
        obtain ⟨k, hk, hk2⟩ := (mem_slice hcon.elFa_len he).1 hx
        exact (Prod.mk.inj (h6 e k he hk hk2)).1
      · have hmb : f ∈ slice n c0.elFa b := (mem_slice hcon.elFa_len k1).2 ⟨fb, k2, k4⟩
        have hne : b ≠ a := by
          rintro rfl
          apply k3
          have nd := hi0.elFa_nodup h1
          have hlb : fb < (slice n c0.elFa b).length := by rw [slice_length hcon.elFa_len h1]; exact k2
          have hfb : fb = fa := (List.getElem?_inj hlb nd).1 (by
            rw [slice_getElem? k2, k4, slice_getElem? h2, h3])
          rw [hfb]
        refine ⟨a, some b, h4, k5, ⟨h1, hm⟩, Or.inr (Or.inl ⟨by simp, b, k1, rfl, hne, fun e he => ⟨fun hx => ?_, ?_⟩⟩)⟩
        · obtain ⟨k, hk, hk2⟩ := (mem_slice hcon.elFa_len he).1 hx
          rcases k6 e k he hk hk2 with h | h
          · exact Or.inl (Prod.mk.inj h).1
          · exact Or.inr (Prod.mk.inj h).1
        · rintro (rfl | rfl)
          · exact hm
          · exact hmb
    cases peri with
    | none =>
      cases hper
      have hR : ParO (faMatch tolM nDis (n - 1) veCrds c0.faVe) none sp0 c0.nFas = fun _ _ => False := by
        funext f g; simp [ParO]
      refine ⟨fun _ _ => False, hR.symm, fun _ _ h => h, fun _ _ _ h => h.elim, rfl, rfl, rfl, rfl, rfl, hnb0.nbPer,
        List.nodup_nil, fun f hfl => ?_⟩
      obtain ⟨a, x, h1, h2, h3⟩ := hfe f hfl
      exact ⟨a, x, slice2 hcon.faEl_len hfl h1 h2, h3, by simp, by simp⟩
    | some peTy =>
      simp only [periodicO] at hper
      obtain ⟨h1, h2, h3, h4, h5, h6, inv⟩ := C80_periodic hper
      have hR : ParO (faMatch tolM nDis (n - 1) veCrds c0.faVe) (some peTy) sp0 c0.nFas =
          Par (faMatch tolM nDis (n - 1) veCrds c0.faVe) peTy sp0 c0.nFas := by
        funext f g; simp [ParO]
      refine ⟨Par (faMatch tolM nDis (n - 1) veCrds c0.faVe) peTy sp0 c0.nFas, hR.symm, h3, h2, h4, h5, h6, inv.faEl_len,
        inv.elFaEl_len, C80_neighbours hcon hnb0 hper, inv.gt_nodup, fun f hfl => ?_⟩
      obtain ⟨a, x, k1, k2, k3⟩ := hfe f hfl
      have hlen : c1.faEl.length = c0.nFas * 2 := inv.faEl_len.trans hcon.faEl_len
      have hfst : c1.faEl[f * 2]? = some (some a) := (inv.fst f).trans k1
      by_cases hp : ∃ g, Par (faMatch tolM nDis (n - 1) veCrds c0.faVe) peTy sp0 c0.nFas f g
      · obtain ⟨g, hg⟩ := hp
        obtain ⟨a', ha, ha2, ha3⟩ := hcon.bnd hg.1 (h1 f hg.1 hg.2.2.1)
        rw [k1] at ha2; cases ha2
        obtain ⟨b, hb, hb2, hb3⟩ := hcon.bnd hg.2.1 (h1 g hg.2.1 hg.2.2.2.1)
        obtain ⟨ow, q1, q2⟩ := inv.snd f g hg
        rw [hb2] at q1; cases q1
        refine ⟨a, some b, slice2 hlen hfl hfst q2, ⟨⟨ha, (ha3 a ha).2 rfl⟩, Or.inr (Or.inr ⟨g, b, hg, hb, rfl, ha3, hb3⟩)⟩,
          fun _ => ?_, fun hno => absurd ⟨g, hg⟩ hno⟩
        have hgt := inv.gt f
        simp only at hgt
        rw [hgt]
        constructor
        · rintro ⟨g', a', b', z1, z2, z3, z4⟩
          have := h2 f g g' hg z1
          subst this
          rw [k1] at z2; cases z2
          rw [hb2] at z3; cases z3
          exact ⟨b, rfl, z4⟩
        · rintro ⟨b', hb', z⟩; cases hb'
          exact ⟨g, a, b, hg, k1, hb2, z⟩
      · refine ⟨a, x, slice2 hlen hfl hfst ((inv.snd_rest f hp).trans k2), ?_, fun hy => absurd hy hp, fun _ hm => ?_⟩
        · obtain ⟨z1, z2⟩ := k3
          refine ⟨z1, ?_⟩
          rcases z2 with ⟨_, z2⟩ | ⟨_, z2⟩ | ⟨g, _, hg, _⟩
          · exact Or.inl ⟨hp, z2⟩
          · exact Or.inr (Or.inl ⟨hp, z2⟩)
          · exact hg.elim
        · obtain ⟨g, _, _, hg, _⟩ := (inv.gt f).1 hm
          exact hp ⟨g, hg⟩
  obtain ⟨R, hRe, hsym, huq, e1, e2, e3, e4, e5, hnb1, hgtn, hfe⟩ := key
  have hi1 : NormIn n nEls c1 elVe := hi0.periodic e2 e3 e5
  obtain ⟨f1, f2, f3⟩ := C39_faEl (by rw [e4, e1]; exact hcon.faEl_len) hno
  subst hn
  obtain ⟨l1, l2, l3, hel⟩ := C39_elements hi1 hno
  have hfv : c2.faVe = c0.faVe := by
    obtain ⟨_, _, _, _, _, _, hx, _⟩ := normOrder_unfold hno
    rw [hx, e2, hsort]
  have hnb2 : NbPer ty.nVes nEls R c2.elFa c2.elFaEl :=
    hnb1.perm hi1.elFa_len hi1.elFaEl_len l2 l3 (fun el he => (hel el he).2)
  have hpf : ∀ el < nEls, (slice ty.nVes c2.elFa el).Perm (slice ty.nVes c0.elFa el) := fun el he => by
    rw [← e3]
    exact perm_fst (hel el he).2 (by rw [slice_length hi1.elFa_len he, slice_length hi1.elFaEl_len he])
      (by rw [slice_length l2 he, slice_length l3 he])
  have hc2 : c2.nFas = c0.nFas := f1.trans e1
  rw [hfv, hc2, ← hRe]
  have hlenv : c0.faVe.length = c0.nFas := hcon.faVe_len
  obtain ⟨r1, r2⟩ := reverseGt_spec hgtn f2 hrev
  refine ⟨fun el he => (hel el he).1, ⟨l1, l2, l3, fun el he f hf' => ?_, fun el he => ?_⟩, hlenv,
    ?_, hsym, huq, hnb2, by rw [← e1]; exact r1, fun f hfl => ?_⟩
  · exact hi0.ids el he f ((hpf el he).mem_iff.1 hf')
  · show FacesOf (slice ty.nVes ve2 el) (rowsOf c0.faVe (slice ty.nVes c2.elFa el))
    obtain ⟨z1, z2, z3⟩ := hi0.faces el he
    have hpv := (hel el he).1
    refine ⟨hpv.nodup_iff.2 z1, ?_, fun v hv' => ?_⟩
    · rw [rowsOf, List.length_map, (hpf el he).length_eq, hpv.length_eq]
      rw [rowsOf, List.length_map] at z2; exact z2
    · obtain ⟨row, hr, hp⟩ := z3 v (hpv.mem_iff.1 hv')
      exact ⟨row, ((hpf el he).map _).mem_iff.2 hr, hp.trans (hpv.symm.erase v)⟩
  · show (c0.faVe.map sortNat).Nodup
    rw [hsort]; exact hcon.asc.imp lexLt_ne
  · have hfl' : f < c0.nFas := hfl
    obtain ⟨a, x, g1, g2, g3, g4⟩ := hfe f hfl'
    obtain ⟨p1, y0, y1, p2, p3, p4⟩ := f3 f (by rw [e1]; exact hfl')
    rw [g1, p2] at p1
    have g2' : FaceEls ty.nVes nEls R c2.elFa f a x := g2.congr fun e he g => (hpf e he).mem_iff
    -- order of the two elements after sorting
    have hcase : (y0 = some a ∧ y1 = x ∧ ∀ b, x = some b → a ≤ b) ∨ (∃ b, x = some b ∧ b < a ∧ y0 = some b ∧ y1 = some a) := by
      have hmem : [y0, y1] = [some a, x] ∨ [y0, y1] = [x, some a] := by
        have hm0 : y0 ∈ [some a, x] := p1.mem_iff.1 (by simp)
        simp only [List.mem_cons, List.not_mem_nil, or_false] at hm0
        rcases hm0 with rfl | rfl
        · left
          have := (List.perm_cons _).1 p1
          rw [List.singleton_perm_singleton.1 this]
        · right
          have := (List.perm_cons _).1 (p1.trans (List.Perm.swap _ _ _))
          rw [List.singleton_perm_singleton.1 this]
      rcases hmem with hh | hh
      · simp only [List.cons.injEq, and_true] at hh
        obtain ⟨rfl, rfl⟩ := hh
        exact Or.inl ⟨rfl, rfl, fun b hb => p4 a b rfl hb⟩
      · simp only [List.cons.injEq, and_true] at hh
        obtain ⟨rfl, rfl⟩ := hh
        cases y0 with
        | none => have := p3 rfl; cases this
        | some b =>
          rcases Nat.lt_or_ge b a with hba | hba
          · exact Or.inr ⟨b, rfl, hba, rfl, rfl⟩
          · have : b = a := Nat.le_antisymm (p4 b a rfl rfl) hba
            subst this
            exact Or.inl ⟨rfl, rfl, fun b' hb' => by cases hb'; exact Nat.le_refl _⟩
    -- the final pair
    have hfin : ∃ e z, slice 2 faEl f = [some e, z] ∧ FaceEls ty.nVes nEls R c2.elFa f e z := by
      rw [r2, p2]
      by_cases hp : ∃ g, R f g
      · rcases hcase with ⟨rfl, rfl, hle⟩ | ⟨b, rfl, hba, rfl, rfl⟩
        · have : f ∉ gt := fun hm => by
            obtain ⟨b, hb, hba⟩ := (g3 hp).1 hm
            have := hle b hb; omega
          rw [if_neg this]; exact ⟨a, y1, rfl, g2'⟩
        · rw [if_pos ((g3 hp).2 ⟨b, rfl, hba⟩)]
          exact ⟨a, some b, rfl, g2'⟩
      · rw [if_neg (g4 hp)]
        rcases hcase with ⟨rfl, rfl, hle⟩ | ⟨b, rfl, hba, rfl, rfl⟩
        · exact ⟨a, y1, rfl, g2'⟩
        · exact ⟨b, some a, rfl, g2'.swap hp⟩
    obtain ⟨e, z, hz, hz2⟩ := hfin
    obtain ⟨q1, q2⟩ := of_slice2 hz
    obtain ⟨fa, hfa, w1, w2⟩ := hz2.behind huq l2 hnb2
    exact ⟨e, fa, z, hz2.1.1, hfa, q1, w1, q2, w2⟩

end

end Edge.Mesh
