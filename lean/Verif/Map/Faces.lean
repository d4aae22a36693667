import Verif.Map.Props
/-!
Points on the faces of the elements and their neighbours: C88.
-/
namespace Edge.Map
open Edge

section
variable {K : Type} [Field K]

/-! ### Faces -/

/-- C88: the point of the reference element which belongs to the parameters of a face is mapped to the point with these
parameters of the element's face, for all vertices of the element. -/
theorem C88_face (ty : Ent) (ves : Nat → Nat → K) (p : Nat → K) {fa : Nat} (hfa : fa < ty.nFa) :
    ∃ r, faToVolRef ty fa p = some r ∧ ∀ d < ty.nDim, refToPhy ty ves r d = facePt ty (faCrd ty ves fa d) p := by
  cases ty <;> simp only [Ent.nFa] at hfa
  all_goals
    refine ⟨_, by simp only [faToVolRef, Ent.nFa, hfa, check, decide_true, if_true, Option.bind_eq_bind,
      Option.bind_some]; rfl, fun d hd => ?_⟩
    simp only [Ent.nDim] at hd
    interval_cases fa <;> interval_cases d <;>
      simp [refToPhy, refFa, tab3, sumN_succ, sumN_zero, shQuad, shTria, shHex, shTet, facePt, faCrd, faVeCc] <;> ring

/-- C88: ids of faces which do not exist are rejected. -/
theorem C88_face_none (ty : Ent) (p : Nat → K) {fa : Nat} (hfa : ¬ fa < ty.nFa) : faToVolRef ty fa p = none := by
  cases ty <;> simp [faToVolRef, check, hfa]

theorem facePt_shift (ty : Ent) (q p : Nat → K) (t : K) : facePt ty (fun k => q k + t) p = facePt ty q p + t := by
  cases ty <;> simp only [facePt] <;> ring

theorem facePt_congr (ty : Ent) {q q' p : Nat → K} (h : ∀ k < ty.nFaVe, q k = q' k) : facePt ty q p = facePt ty q' p := by
  cases ty <;> simp only [Ent.nFaVe] at h
  · simp only [facePt, h 0 (by omega)]
  · simp only [facePt, h 0 (by omega), h 1 (by omega)]
  · simp only [facePt, h 0 (by omega), h 1 (by omega)]
  · simp only [facePt, h 0 (by omega), h 1 (by omega), h 2 (by omega), h 3 (by omega)]
  · simp only [facePt, h 0 (by omega), h 1 (by omega), h 2 (by omega)]

/-- Parameters of a point with respect to the neighbour's list of the face's vertices. -/
theorem facePt_nei {ty : Ent} {h : Nat} (hh : h < ty.nVeOpts) (p : Nat → K) :
    ∃ p', faLocToFaNei ty h p = some p' ∧ ∀ a b : Nat → K, Opposite ty h a b → facePt ty b p' = facePt ty a p := by
  cases ty <;> simp only [Ent.nVeOpts] at hh
  · exact ⟨_, rfl, fun a b ho => by simpa [facePt, Opposite] using ho⟩
  · refine ⟨_, rfl, fun a b ho => ?_⟩
    simp only [Opposite] at ho
    simp only [facePt, ho.1, ho.2, if_true]; ring
  · refine ⟨_, rfl, fun a b ho => ?_⟩
    simp only [Opposite] at ho
    simp only [facePt, ho.1, ho.2, if_true]; ring
  · refine ⟨_, rfl, fun a b ho => ?_⟩
    obtain ⟨o0, o1, o2, o3⟩ := ho
    simp only [facePt, o0, o1, o2, o3, if_true, one_ne_zero, if_false]; ring
  · interval_cases h
    all_goals
      refine ⟨_, rfl, fun a b ho => ?_⟩
      obtain ⟨-, o0, o1, o2⟩ := ho
      norm_num at o1 o2
      simp only [facePt, o0, o1, o2, if_true, one_ne_zero, if_false]; ring

/-- C88: if two elements share a face, whose vertices they list in opposite order, then the point of the face given by the
local parameters and the point of the neighbour given by the parameters of `faLocToFaNei` are the same point. With a
non-zero `t` the face is a periodic boundary whose sides differ by the translation `t`. -/
theorem C88_neighbour {ty : Ent} {h fa fb : Nat} (hh : h < ty.nVeOpts) (hfa : fa < ty.nFa) (hfb : fb < ty.nFa)
    (vesA vesB : Nat → Nat → K) (t : Nat → K)
    (ho : ∀ d < ty.nDim, Opposite ty h (fun k => faCrd ty vesA fa d k + t d) (faCrd ty vesB fb d)) (p : Nat → K) :
    ∃ a b p', faToVolRef ty fa p = some a ∧ faLocToFaNei ty h p = some p' ∧ faToVolRef ty fb p' = some b ∧
      ∀ d < ty.nDim, refToPhy ty vesB b d = refToPhy ty vesA a d + t d := by
  obtain ⟨a, ha, ha'⟩ := C88_face ty vesA p hfa
  obtain ⟨p', hp, hp'⟩ := facePt_nei hh p
  obtain ⟨b, hb, hb'⟩ := C88_face ty vesB p' hfb
  refine ⟨a, b, p', ha, hp, hb, fun d hd => ?_⟩
  rw [ha' d hd, hb' d hd, hp' _ _ (ho d hd), facePt_shift]

/-! ### Quadrature points -/

theorem facesQp_spec (ty : Ent) (p : Nat → K) {fa : Nat} (hfa : fa < ty.nFa) {o : List (Option (Nat → K))}
    (ho : o.length = (ty.nVeOpts + 1) * ty.nFa) :
    ∃ o', facesQp ty fa p o = some o' ∧ o'.length = o.length ∧ o'[fa]? = some (faToVolRef ty fa p) ∧
      (∀ ve < ty.nVeOpts, ∃ q, faLocToFaNei ty ve p = some q ∧
        o'[ty.nFa + fa * ty.nVeOpts + ve]? = some (faToVolRef ty fa q)) ∧
      ∀ j, j ≠ fa → (∀ ve < ty.nVeOpts, j ≠ ty.nFa + fa * ty.nVeOpts + ve) → o'[j]? = o[j]? := by
  obtain ⟨loc, hloc, -⟩ := C88_face ty (fun _ _ => 0) p hfa
  have hlen : ∀ ve < ty.nVeOpts, ty.nFa + fa * ty.nVeOpts + ve < (ty.nVeOpts + 1) * ty.nFa := by
    intro ve hve
    have h1 : (fa + 1) * ty.nVeOpts ≤ ty.nFa * ty.nVeOpts := Nat.mul_le_mul_right _ hfa
    have h2 : (fa + 1) * ty.nVeOpts = fa * ty.nVeOpts + ty.nVeOpts := Nat.succ_mul _ _
    have h3 : (ty.nVeOpts + 1) * ty.nFa = ty.nFa * ty.nVeOpts + ty.nFa := by rw [Nat.succ_mul, Nat.mul_comm]
    omega
  have hfl : fa < o.length := by
    rw [ho]; exact lt_of_lt_of_le hfa (Nat.le_mul_of_pos_left _ (Nat.succ_pos _))
  obtain ⟨o', ho', inv⟩ := forN_inv (n := ty.nVeOpts) (body := fun ve o => (do
      let q ← faLocToFaNei ty ve p
      let nei ← faToVolRef ty fa q
      wr o (ty.nFa + fa * ty.nVeOpts + ve) (some nei))) (s := o.set fa (some loc))
    (fun i o' => o'.length = o.length ∧ o'[fa]? = some (some loc) ∧
      (∀ ve < i, ∃ q, faLocToFaNei ty ve p = some q ∧ o'[ty.nFa + fa * ty.nVeOpts + ve]? = some (faToVolRef ty fa q)) ∧
      ∀ j, j ≠ fa → (∀ ve < i, j ≠ ty.nFa + fa * ty.nVeOpts + ve) → o'[j]? = o[j]?)
    ⟨by simp, by simp [hfl], fun _ h => by omega, fun j hj _ => by simp [List.getElem?_set, Ne.symm hj]⟩
    (by
      rintro i o' hi ⟨i1, i2, i3, i4⟩
      obtain ⟨q, hq, -⟩ := facePt_nei hi p
      obtain ⟨nei, hnei, -⟩ := C88_face ty (fun _ _ => 0) q hfa
      have hb : ty.nFa + fa * ty.nVeOpts + i < o'.length := by rw [i1, ho]; exact hlen i hi
      refine ⟨o'.set (ty.nFa + fa * ty.nVeOpts + i) (some nei), by simp [hq, hnei, wr_some hb], by simp [i1], ?_, ?_, ?_⟩
      · rw [List.getElem?_set_ne (by omega)]; exact i2
      · intro ve hve
        rcases Nat.lt_succ_iff_lt_or_eq.1 hve with h | h
        · obtain ⟨q', a, b⟩ := i3 ve h
          exact ⟨q', a, by rw [List.getElem?_set_ne (by omega)]; exact b⟩
        · subst h
          exact ⟨q, hq, by rw [List.getElem?_set_self hb, hnei]⟩
      · intro j hj hve
        rw [List.getElem?_set_ne (fun e => hve i (by omega) e.symm)]
        exact i4 j hj (fun ve h => hve ve (by omega)))
  refine ⟨o', ?_, inv.1, by rw [inv.2.1, hloc], inv.2.2.1, inv.2.2.2⟩
  simp only [facesQp, hloc, wr_some hfl, Option.bind_eq_bind, Option.bind_some]
  exact ho'

/-- C88: `QuadratureEval::faces` writes every entry; entry `fa` is the point of face `fa`, and entry
`N_FACES + fa * N_VE_OPTS + ve` is the point of face `fa` as seen from a neighbour. -/
theorem faces_spec (ty : Ent) (p : Nat → K) :
    ∃ o, faces ty p = some o ∧ o.length = (ty.nVeOpts + 1) * ty.nFa ∧ ∀ fa < ty.nFa,
      o[fa]? = some (faToVolRef ty fa p) ∧ ∀ ve < ty.nVeOpts, ∃ q, faLocToFaNei ty ve p = some q ∧
        o[ty.nFa + fa * ty.nVeOpts + ve]? = some (faToVolRef ty fa q) := by
  obtain ⟨o, ho, inv⟩ := forN_inv (n := ty.nFa) (body := fun fa o => facesQp ty fa p o)
    (s := List.replicate ((ty.nVeOpts + 1) * ty.nFa) none)
    (fun i o => o.length = (ty.nVeOpts + 1) * ty.nFa ∧ ∀ fa < i,
      o[fa]? = some (faToVolRef ty fa p) ∧ ∀ ve < ty.nVeOpts, ∃ q, faLocToFaNei ty ve p = some q ∧
        o[ty.nFa + fa * ty.nVeOpts + ve]? = some (faToVolRef ty fa q))
    ⟨by simp, fun _ h => by omega⟩
    (by
      rintro i o hi ⟨i1, i2⟩
      obtain ⟨o', h1, h2, h3, h4, h5⟩ := facesQp_spec ty p hi i1
      refine ⟨o', h1, h2.trans i1, fun fa hfa => ?_⟩
      rcases Nat.lt_succ_iff_lt_or_eq.1 hfa with h | rfl
      · obtain ⟨j1, j2⟩ := i2 fa h
        have hm : (fa + 1) * ty.nVeOpts ≤ i * ty.nVeOpts := Nat.mul_le_mul_right _ h
        have hm' : (fa + 1) * ty.nVeOpts = fa * ty.nVeOpts + ty.nVeOpts := Nat.succ_mul _ _
        refine ⟨(h5 fa (by omega) (fun ve _ => by omega)).trans j1, fun ve hve => ?_⟩
        obtain ⟨q, a, b⟩ := j2 ve hve
        exact ⟨q, a, (h5 _ (by omega) (fun ve' _ => by omega)).trans b⟩
      · exact ⟨h3, h4⟩)
  exact ⟨o, ho, inv⟩

/-- C88: the quadrature points of a face are the same points in both elements: the local ones, in entry `fa`, and those of
the neighbour, in entry `N_FACES + fb * N_VE_OPTS + h`, where `fb` is the id of the face in the neighbour. -/
theorem C88_faces {ty : Ent} {h fa fb : Nat} (hh : h < ty.nVeOpts) (hfa : fa < ty.nFa) (hfb : fb < ty.nFa)
    (vesA vesB : Nat → Nat → K) (t : Nat → K)
    (ho : ∀ d < ty.nDim, Opposite ty h (fun k => faCrd ty vesA fa d k + t d) (faCrd ty vesB fb d)) (p : Nat → K) :
    ∃ o a b, faces ty p = some o ∧ o[fa]? = some (some a) ∧ o[ty.nFa + fb * ty.nVeOpts + h]? = some (some b) ∧
      (∀ d < ty.nDim, refToPhy ty vesA a d = facePt ty (faCrd ty vesA fa d) p) ∧
      ∀ d < ty.nDim, refToPhy ty vesB b d = refToPhy ty vesA a d + t d := by
  obtain ⟨o, e1, -, e2⟩ := faces_spec ty p
  obtain ⟨a, b, p', ha, hp, hb, hab⟩ := C88_neighbour hh hfa hfb vesA vesB t ho p
  obtain ⟨a', ha', ha''⟩ := C88_face ty vesA p hfa
  rw [ha] at ha'; cases ha'
  obtain ⟨q, hq, hq'⟩ := (e2 fb hfb).2 h hh
  rw [hp] at hq; cases hq
  refine ⟨o, a, b, e1, by rw [(e2 fa hfa).1, ha], by rw [hq', hb], ha'', hab⟩

/-! ### Tetrahedral meshes -/

/-- Coordinates of the vertices of the tetrahedron with the given vertices. -/
def tetVes (pt : Nat → Mesh.V3 K) (a : List Nat) (d v : Nat) : K := (pt (a.getD v 0)).crd d

theorem tetFa_cc {fa : Nat} (hfa : fa < 4) : Mesh.tetFa fa = faVeCc .tet fa := by
  interval_cases fa <;> rfl

variable [LinearOrder K]

/-- C88 composed with the ids computed by EDGE-V (C79): in two positively oriented tetrahedra on different sides of a common
face, the quadrature points of the local face `fa` and those of the neighbour for the face id and vertex id returned by
EDGE-V are the same points. -/
theorem C88_tetMesh [IsStrictOrderedRing K] {tol : K} {veCrds : Option (List (Mesh.V3 K))} {elVe : List Nat}
    {elFaEl : List (Option Nat)} {el fa ad fb : Nat} {a b : List Nat} (pt : Nat → Mesh.V3 K) (hfa : fa < 4) (hfb : fb < 4)
    (ha : Mesh.slice 4 elVe el = a) (hb : Mesh.slice 4 elVe ad = b) (hla : a.length = 4) (hlb : b.length = 4)
    (hnb : b.Nodup) (had : elFaEl[el * 4 + fa]? = some (some ad)) (hid : Mesh.faIdAd 4 elFaEl el fa = some fb)
    (hp : (Mesh.faceVes a fa).Perm (Mesh.faceVes b fb))
    (hoa : 0 < Mesh.det3 (pt (a.getD 0 0)) (pt (a.getD 1 0)) (pt (a.getD 2 0)) (pt (a.getD 3 0)))
    (hob : 0 < Mesh.det3 (pt (b.getD 0 0)) (pt (b.getD 1 0)) (pt (b.getD 2 0)) (pt (b.getD 3 0)))
    {x y z : Nat} (hx : Mesh.faceVes a fa = [x, y, z])
    (hside : Mesh.det3 (pt x) (pt y) (pt z) (pt (a.getD (3 - fa) 0)) *
      Mesh.det3 (pt x) (pt y) (pt z) (pt (b.getD (3 - fb) 0)) < 0) (p : Nat → K) :
    ∃ h o r s, Mesh.veIdAd tol veCrds elVe elFaEl el fa = some h ∧ faces .tet p = some o ∧ o[fa]? = some (some r) ∧
      o[4 + fb * 3 + h]? = some (some s) ∧
      ∀ d < 3, refToPhy .tet (tetVes pt b) s d = refToPhy .tet (tetVes pt a) r d := by
  obtain ⟨h, h1, h2, h3⟩ := Mesh.C79_veIdAd (tol := tol) (veCrds := veCrds) hfa hfb ha hb hla hlb hnb had hid hp
  obtain ⟨h4, h5⟩ := Mesh.C79_reversed pt hfa hfb hla hlb hnb hoa hob hp hx hside h2 h3
  have g : ∀ (l : List Nat) (f k v : Nat), f < 4 → (Mesh.faceVes l f)[k]? = some v → ∀ d,
      faCrd .tet (tetVes pt l) f d k = (pt v).crd d := by
    intro l f k v hf hk d
    simp only [Mesh.faceVes, List.getElem?_map, Option.map_eq_some_iff] at hk
    obtain ⟨w, hw, rfl⟩ := hk
    rw [tetFa_cc hf] at hw
    simp only [faCrd, tetVes, List.getD_eq_getElem?_getD, hw, Option.getD_some]
  rw [hx] at h3 h4 h5
  have hz : ∀ d, ∀ k v : Nat, (Mesh.faceVes a fa)[k]? = some v → faCrd .tet (tetVes pt a) fa d k + 0 = (pt v).crd d :=
    fun d k v hk => by rw [add_zero]; exact g a fa k v hfa hk d
  obtain ⟨o, r, s, e1, e2, e3, -, e4⟩ := C88_faces (ty := .tet) (h := h) (fa := fa) (fb := fb) h2 hfa hfb (tetVes pt a)
    (tetVes pt b) (fun _ => 0) (fun d _ => by
      refine ⟨h2, ?_, ?_, ?_⟩
      · exact (g b fb h x hfb h3 d).trans (hz d 0 x (by rw [hx]; rfl)).symm
      · exact (g b fb _ y hfb h4 d).trans (hz d 1 y (by rw [hx]; rfl)).symm
      · exact (g b fb _ z hfb h5 d).trans (hz d 2 z (by rw [hx]; rfl)).symm) p
  exact ⟨h, o, r, s, h1, e1, e2, e3, fun d hd => by rw [e4 d hd, add_zero]⟩

end

/-! ### Examples -/

/-- Two tetrahedra which share the face with vertices 1, 2, 3. -/
def exPt (v : Nat) : Mesh.V3 Rat := [⟨0, 0, 0⟩, ⟨1, 0, 0⟩, ⟨0, 1, 0⟩, ⟨0, 0, 1⟩, ⟨1, 1, 1⟩].getD v ⟨0, 0, 0⟩

example : Mesh.veIdAd (1 / 1000000 : Rat) none [0, 1, 2, 3, 1, 2, 3, 4] [none, none, none, some 1, some 0, none, none, none]
    0 3 = some 0 := by decide +kernel

example : Mesh.faIdAd 4 [none, none, none, some 1, some 0, none, none, none] 0 3 = some 0 ∧
    Mesh.faceVes [0, 1, 2, 3] 3 = [1, 2, 3] ∧ (Mesh.faceVes [0, 1, 2, 3] 3).Perm (Mesh.faceVes [1, 2, 3, 4] 0) := by
  decide +kernel

example : 0 < Mesh.det3 (exPt 0) (exPt 1) (exPt 2) (exPt 3) ∧ 0 < Mesh.det3 (exPt 1) (exPt 2) (exPt 3) (exPt 4) ∧
    Mesh.det3 (exPt 1) (exPt 2) (exPt 3) (exPt 0) * Mesh.det3 (exPt 1) (exPt 2) (exPt 3) (exPt 4) < 0 := by
  norm_num [Mesh.det3, exPt]

/-- Two cuboids next to each other in the first dimension: faces 2 and 4. -/
example : ∀ d < 3, Opposite .hex 0 (faCrd .hex (refVe .hex : Nat → Nat → Rat) 2 d)
    (faCrd .hex (fun e v => refVe .hex e v + if e = 0 then 1 else 0) 4 d) := by
  intro d hd
  interval_cases d <;> simp [Opposite, faCrd, faVeCc, refVe, tab]

end Edge.Map
