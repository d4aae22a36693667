import Verif.Fs.Props
import Verif.Mesh.Ids
/-!
The solvers of all faces compute the fluxes of the middle states, and the meshes of the preprocessing are accepted: C96.
-/
namespace Edge.Fs
open Edge Edge.Seismic Matrix

/-- `setUpFs` of 3D, called for a face (AderDgInit.hpp:530-547, 569-588). -/
noncomputable def setUp3 (visco : Bool) (jE jA : List ℝ) (l r : Material) (n s t : Fin 3 → ℝ) (free : Bool) : Option FaceFs :=
  setUpFs3 l.rho r.rho l.lam r.lam l.mu r.mu (n 0) (n 1) (n 2) (s 0) (s 1) (s 2) (t 0) (t 1) (t 2) visco jE jA free

/-- `setUpFs` of 2D, called for a face (AderDgInit.hpp:518-529, 555-567). -/
noncomputable def setUp2 (visco : Bool) (jE jA : List ℝ) (l r : Material) (n _s _t : Fin 3 → ℝ) (free : Bool) : Option FaceFs :=
  setUpFs2 l.rho r.rho l.lam r.lam l.mu r.mu (n 0) (n 1) visco jE jA free

theorem flat_scale {m n : Nat} (c : ℝ) (a : Matrix (Fin m) (Fin n) ℝ) : (flat a).map (· * c) = flat (c • a) := by
  rw [flat, List.map_ofFn, flat]
  congr 1
  funext p
  simp [mul_comm]

/-- Normal pointing out of element `el`. -/
def outN (el l : Nat) (ch : FaChars) : Fin 3 → ℝ := if l = el then ch.n else -ch.n

/-- Scaling of the solvers. -/
noncomputable def fac (ty : Map.Ent) (area d : ℝ) : ℝ := -(if ty = .tet then 2 else 1) * area / d

/-- The solvers `x` of element `el` at a face with normal `ν` pointing out of the element, behind which is the material `m'`, return the flux of the middle state of
the Riemann problem, scaled by `c`; at the free surface the traction of the right state is mirrored. -/
def Solves3 (c : ℝ) (m m' : Material) (ν : Fin 3 → ℝ) (free visco : Bool) (x : FaceFs) : Prop :=
  ∃ (el er : Matrix (Fin 9) (Fin 9) ℝ) (al ar : Matrix (Fin 6) (Fin 9) ℝ),
    x = ⟨flat (c • el), flat (c • er), if visco then some (flat (c • al), flat (c • ar)) else none⟩ ∧
    ∀ qL qR : Fin 9 → ℝ, ∃ τ v : Fin 3 → ℝ,
      IsMiddle m m' ν (stress3 qL *ᵥ ν) (vel3 qL) (if free then -(stress3 qR *ᵥ ν) else stress3 qR *ᵥ ν) (vel3 qR) τ v ∧
      stress3 (el *ᵥ qL + er *ᵥ qR) = fluxS m ν v ∧ vel3 (el *ᵥ qL + er *ᵥ qR) = fluxV m τ ∧
      strain3 (al *ᵥ qL + ar *ᵥ qR) = fluxE ν v

/-- First two components. -/
def to2 (n : Fin 3 → ℝ) : Fin 2 → ℝ := ![n 0, n 1]

def Solves2 (c : ℝ) (m m' : Material) (ν : Fin 2 → ℝ) (free visco : Bool) (x : FaceFs) : Prop :=
  ∃ (el er : Matrix (Fin 5) (Fin 5) ℝ) (al ar : Matrix (Fin 3) (Fin 5) ℝ),
    x = ⟨flat (c • el), flat (c • er), if visco then some (flat (c • al), flat (c • ar)) else none⟩ ∧
    ∀ qL qR : Fin 5 → ℝ, ∃ τ v : Fin 2 → ℝ,
      IsMiddle m m' ν (stress2 qL *ᵥ ν) (vel2 qL) (if free then -(stress2 qR *ᵥ ν) else stress2 qR *ᵥ ν) (vel2 qR) τ v ∧
      stress2 (el *ᵥ qL + er *ᵥ qR) = fluxS m ν v ∧ vel2 (el *ᵥ qL + er *ᵥ qR) = fluxV m τ ∧
      strain2 (al *ᵥ qL + ar *ᵥ qR) = fluxE ν v

theorem scale_ite {m n m' n' : Nat} (c : ℝ) (el er : Matrix (Fin m) (Fin n) ℝ) (al ar : Matrix (Fin m') (Fin n') ℝ) (visco : Bool) :
    scale c ⟨flat el, flat er, if visco then some (flat al, flat ar) else none⟩ =
      ⟨flat (c • el), flat (c • er), if visco then some (flat (c • al), flat (c • ar)) else none⟩ := by
  cases visco <;> simp [scale, flat_scale]

theorem Behind.mem {I : In} {el i : Nat} {m : Material} (h : Behind I el i m) : m ∈ I.bgPars ∨ m ∈ I.bgParsRe := by
  obtain ⟨f, l, r, ch, -, -, -, h⟩ := h
  rcases h with ⟨-, r', -, h⟩ | ⟨-, h⟩ | ⟨-, -, -, h⟩ | ⟨-, -, -, -, co, -, -, h⟩
  · exact Or.inl (List.mem_of_getElem? h)
  · exact Or.inl (List.mem_of_getElem? h)
  · exact Or.inl (List.mem_of_getElem? h)
  · exact Or.inr (List.mem_of_getElem? h)

/-- C96, 3D: after the set-up, in whatever order the faces were processed, the solvers of every face of every element return the flux of the middle state
between the element's material and the one behind the face, with respect to the normal pointing out of the element, scaled by minus the (reference) area of the face
divided by the volume of the element. -/
theorem C96_godunov3 {I : In} (h : Ok I) (hel : ∀ m, m ∈ I.bgPars ∨ m ∈ I.bgParsRe → m.Elastic) (hO : ∀ ch ∈ I.faChars, Orthonormal3 ch.n ch.s ch.t)
    {visco : Bool} {jE jA : List ℝ} (hE : jE.length = 9 * 9) (hA : jA.length = 6 * 9) {ord : List Nat} (hord : ord.Perm (List.range I.nFas)) :
    ∃ fs, initFs I (setUp3 visco jE jA) ord = some fs ∧ fs.length = I.nEls * I.ty.nFa ∧
      ∀ el < I.nEls, ∀ i < I.ty.nFa, ∃ (x : FaceFs) (f l : Nat) (r : Option Nat) (ch : FaChars) (m m' : Material) (d : ℝ),
        fs[el * I.ty.nFa + i]? = some (some x) ∧ I.elFa[el * I.ty.nFa + i]? = some f ∧ I.faEl[f]? = some (some l, r) ∧ I.faChars[f]? = some ch ∧
        I.bgPars[el]? = some m ∧ Behind I el i m' ∧ elDet I el = some d ∧ 0 < d ∧
        Solves3 (fac I.ty ch.area d) m m' (outN el l ch) ch.freeSurface visco x := by
  have hs : SetsUp I (setUp3 visco jE jA) := by
    intro m m' ch hm hm' hc
    refine ⟨fun b => ?_, ?_⟩
    · obtain ⟨el, er, al, ar, h1, -⟩ := face3 (hel m (Or.inl hm)) (hel m' hm') (hO ch hc) hE hA visco b
      exact ⟨_, h1⟩
    · obtain ⟨el, er, al, ar, h1, -⟩ := face3 (hel m (Or.inl hm)) (hel m' hm') (hO ch hc).flip hE hA visco false
      exact ⟨_, h1⟩
  obtain ⟨fs, h1, h2, h3⟩ := C96_solvers h hs hord
  refine ⟨fs, h1, h2, fun el hel' i hi => ?_⟩
  obtain ⟨x, k1, f, l, r, ch, m, m', d, F, e1, e2, e3, e4, e5, e6, e7, rfl⟩ := h3 el hel' i hi
  obtain ⟨d', hd, hp⟩ := h.det el hel'
  rw [e6, Option.some.injEq] at hd
  subst hd
  refine ⟨_, f, l, r, ch, m, m', d, k1, e1, e2, e3, e4, e5, e6, hp, ?_⟩
  have hO' : Orthonormal3 (outN el l ch) ch.s ch.t := by
    rw [outN]; split
    · exact hO ch (List.mem_of_getElem? e3)
    · exact (hO ch (List.mem_of_getElem? e3)).flip
  obtain ⟨a, b, c, c', j1, j2⟩ := face3 (hel m (Or.inl (List.mem_of_getElem? e4))) (hel m' e5.mem) hO' hE hA visco ch.freeSurface
  have : F = _ := Option.some.inj (e7.symm.trans j1)
  subst this
  exact ⟨a, b, c, c', scale_ite _ a b c c' visco, j2⟩

/-- C96, 2D. -/
theorem C96_godunov2 {I : In} (h : Ok I) (hel : ∀ m, m ∈ I.bgPars ∨ m ∈ I.bgParsRe → m.Elastic) (hO : ∀ ch ∈ I.faChars, ch.n 0 ^ 2 + ch.n 1 ^ 2 = 1)
    {visco : Bool} {jE jA : List ℝ} (hE : jE.length = 5 * 5) (hA : jA.length = 3 * 5) {ord : List Nat} (hord : ord.Perm (List.range I.nFas)) :
    ∃ fs, initFs I (setUp2 visco jE jA) ord = some fs ∧ fs.length = I.nEls * I.ty.nFa ∧
      ∀ el < I.nEls, ∀ i < I.ty.nFa, ∃ (x : FaceFs) (f l : Nat) (r : Option Nat) (ch : FaChars) (m m' : Material) (d : ℝ),
        fs[el * I.ty.nFa + i]? = some (some x) ∧ I.elFa[el * I.ty.nFa + i]? = some f ∧ I.faEl[f]? = some (some l, r) ∧ I.faChars[f]? = some ch ∧
        I.bgPars[el]? = some m ∧ Behind I el i m' ∧ elDet I el = some d ∧ 0 < d ∧
        Solves2 (fac I.ty ch.area d) m m' (to2 (outN el l ch)) ch.freeSurface visco x := by
  have hn : ∀ ch ∈ I.faChars, to2 ch.n ⬝ᵥ to2 ch.n = 1 ∧ to2 (-ch.n) ⬝ᵥ to2 (-ch.n) = 1 := by
    intro ch hc
    have := hO ch hc
    constructor <;> simp [to2, dotProduct, Fin.sum_univ_two] <;> linarith
  have hs : SetsUp I (setUp2 visco jE jA) := by
    intro m m' ch hm hm' hc
    refine ⟨fun b => ?_, ?_⟩
    · obtain ⟨el, er, al, ar, h1, -⟩ := face2 (hel m (Or.inl hm)) (hel m' hm') (hn ch hc).1 hE hA visco b
      exact ⟨_, h1⟩
    · obtain ⟨el, er, al, ar, h1, -⟩ := face2 (hel m (Or.inl hm)) (hel m' hm') (hn ch hc).2 hE hA visco false
      exact ⟨_, h1⟩
  obtain ⟨fs, h1, h2, h3⟩ := C96_solvers h hs hord
  refine ⟨fs, h1, h2, fun el hel' i hi => ?_⟩
  obtain ⟨x, k1, f, l, r, ch, m, m', d, F, e1, e2, e3, e4, e5, e6, e7, rfl⟩ := h3 el hel' i hi
  obtain ⟨d', hd, hp⟩ := h.det el hel'
  rw [e6, Option.some.injEq] at hd
  subst hd
  refine ⟨_, f, l, r, ch, m, m', d, k1, e1, e2, e3, e4, e5, e6, hp, ?_⟩
  have hO' : to2 (outN el l ch) ⬝ᵥ to2 (outN el l ch) = 1 := by
    rw [outN]; split
    · exact (hn ch (List.mem_of_getElem? e3)).1
    · exact (hn ch (List.mem_of_getElem? e3)).2
  obtain ⟨a, b, c, c', j1, j2⟩ := face2 (hel m (Or.inl (List.mem_of_getElem? e4))) (hel m' e5.mem) hO' hE hA visco ch.freeSurface
  have : F = _ := Option.some.inj (e7.symm.trans j1)
  subst this
  exact ⟨a, b, c, c', scale_ite _ a b c c' visco, j2⟩

/-! ### Meshes of the preprocessing -/

/-- The connectivity given to the solver is the one of the mesh; faces with partners at a periodic boundary are marked. -/
structure FromMesh (I : In) (R : Nat → Nat → Prop) (c : Mesh.Conn) : Prop where
  nFas : I.nFas = c.nFas
  elFa : I.elFa = c.elFa
  faEl : ∀ f < c.nFas, ∃ l r, c.faEl[f * 2]? = some l ∧ c.faEl[f * 2 + 1]? = some r ∧ I.faEl[f]? = some (l, r)
  periodic : ∀ f < c.nFas, ∀ g, R f g → ∃ ch, I.faChars[f]? = some ch ∧ ch.periodic = true

/-- C96: the meshes of the preprocessing (C80) have the connectivity which the set-up of the solvers needs, if no element is behind one of its own faces. -/
theorem C96_connectivity {I : In} {R : Nat → Nat → Prop} {c : Mesh.Conn} {elVe0 elVe : List Nat} (hm : Mesh.MeshSpec I.ty.nFa I.nEls R elVe0 c elVe)
    (hI : FromMesh I R c) (hself : ∀ el < I.nEls, ∀ i < I.ty.nFa, c.elFaEl[el * I.ty.nFa + i]? ≠ some (some el)) :
    I.elFa.length = I.nEls * I.ty.nFa ∧
    (∀ el < I.nEls, ∀ i < I.ty.nFa, ∀ j < I.ty.nFa, I.elFa[el * I.ty.nFa + i]? = I.elFa[el * I.ty.nFa + j]? → i = j) ∧
    (∀ f < I.nFas, ∃ l o i, I.faEl[f]? = some (some l, o) ∧ l < I.nEls ∧ i < I.ty.nFa ∧ I.elFa[l * I.ty.nFa + i]? = some f) ∧
    (∀ f < I.nFas, ∀ l r, I.faEl[f]? = some (l, some r) → r < I.nEls ∧ l ≠ some r ∧
      ((∃ i < I.ty.nFa, I.elFa[r * I.ty.nFa + i]? = some f) ∨ ∃ ch, I.faChars[f]? = some ch ∧ ch.periodic = true)) ∧
    (∀ el < I.nEls, ∀ i < I.ty.nFa, ∃ f < I.nFas, I.elFa[el * I.ty.nFa + i]? = some f ∧ ∃ l r, I.faEl[f]? = some (l, r) ∧ (l = some el ∨ r = some el)) := by
  have hl := hm.normIn.elFa_len
  have hpair : ∀ f < c.nFas, ∃ a i o, a < I.nEls ∧ i < I.ty.nFa ∧ c.elFa[a * I.ty.nFa + i]? = some f ∧ I.faEl[f]? = some (some a, o) ∧
      c.elFaEl[a * I.ty.nFa + i]? = some o := by
    intro f hf
    obtain ⟨a, i, o, h1, h2, h3, h4, h5, h6⟩ := hm.first f hf
    obtain ⟨l, r, k1, k2, k3⟩ := hI.faEl f hf
    rw [h3, Option.some.injEq] at k1
    rw [h5, Option.some.injEq] at k2
    subst k1 k2
    exact ⟨a, i, o, h1, h2, h4, k3, h6⟩
  refine ⟨by rw [hI.elFa, hl], ?_, ?_, ?_, ?_⟩
  · intro el hel i hi j hj he
    rw [hI.elFa] at he
    have hlen := Mesh.slice_length hl hel
    refine (List.getElem?_inj (by rw [hlen]; exact hi) (hm.normIn.elFa_nodup hel)).1 ?_
    rw [Mesh.slice_getElem? hi, Mesh.slice_getElem? hj, he]
  · intro f hf
    rw [hI.nFas] at hf
    obtain ⟨a, i, o, h1, h2, h3, h4, h5⟩ := hpair f hf
    exact ⟨a, o, i, h4, h1, h2, by rw [hI.elFa]; exact h3⟩
  · intro f hf l r he
    rw [hI.nFas] at hf
    obtain ⟨a, i, o, h1, h2, h3, h4, h5⟩ := hpair f hf
    rw [h4, Option.some.injEq, Prod.mk.injEq] at he
    obtain ⟨rfl, rfl⟩ := he
    obtain ⟨f', o', k1, k2, k3⟩ := hm.nb a i h1 h2
    rw [h3, Option.some.injEq] at k1
    rw [h5, Option.some.injEq] at k2
    subst k1 k2
    obtain ⟨j1, j2⟩ := (k3 r).1 rfl
    refine ⟨j1, ?_, ?_⟩
    · intro e
      rw [Option.some.injEq] at e
      subst e
      exact hself a h1 i h2 h5
    · rcases j2 with ⟨-, j2⟩ | ⟨g, j2, -⟩
      · left
        obtain ⟨k, hk, hk2⟩ := (Mesh.mem_slice hl j1).1 j2
        exact ⟨k, hk, by rw [hI.elFa]; exact hk2⟩
      · right; exact hI.periodic f hf g j2
  · intro el hel i hi
    have hlt : el * I.ty.nFa + i < c.elFa.length := by rw [hl]; exact pos_lt hel hi
    have hmem : c.elFa[el * I.ty.nFa + i] ∈ Mesh.slice I.ty.nFa c.elFa el :=
      (Mesh.mem_slice hl hel).2 ⟨i, hi, List.getElem?_eq_getElem hlt⟩
    have hf := hm.normIn.ids el hel _ hmem
    rw [hm.faVe_len] at hf
    obtain ⟨a, j, o, h1, h2, h3, h4, h5⟩ := hpair _ hf
    refine ⟨_, by rw [hI.nFas]; exact hf, by rw [hI.elFa]; exact List.getElem?_eq_getElem hlt, some a, o, h4, ?_⟩
    by_cases hea : a = el
    · left; rw [hea]
    · right
      obtain ⟨f', o', k1, k2, k3⟩ := hm.nb a j h1 h2
      rw [h3, Option.some.injEq] at k1
      rw [h5, Option.some.injEq] at k2
      subst k2
      refine (k3 el).2 ⟨hel, Or.inl ⟨fun e => hea e.symm, ?_⟩⟩
      rw [← k1]; exact hmem

/-- C96, refuted for an element which is behind one of its own faces (one layer of elements between periodic boundaries): the right side overwrites the solvers of the left side of the
face, which have the normal pointing into the element then and are scaled twice. -/
theorem C96_self_refuted {I : In} {setUp} {f el i : Nat} {ch : FaChars} {m : Material} {d : ℝ} {F G : FaceFs} {fs : List (Option FaceFs)}
    (hl : fs.length = I.nEls * I.ty.nFa) (e1 : I.faEl[f]? = some (some el, some el)) (e2 : I.faChars[f]? = some ch) (hel : el < I.nEls) (hi : i < I.ty.nFa)
    (e3 : findFa I (some el) f = some (some i)) (e4 : I.bgPars[el]? = some m) (hfree : ch.freeSurface = false)
    (hd : elDet I el = some d) (h0 : 0 < d) (ha : 0 < ch.area) (hF : setUp m m ch.n ch.s ch.t false = some F) (hG : setUp m m (-ch.n) ch.s ch.t false = some G) :
    ∃ fs', initFace I setUp f fs = some fs' ∧ fs'[el * I.ty.nFa + i]? = some (some (scale (fac I.ty ch.area d) (scale (fac I.ty ch.area d) G))) := by
  have hp : el * I.ty.nFa + i < fs.length := by rw [hl]; exact pos_lt hel hi
  have hs : scalar I ch el = some (fac I.ty ch.area d) := by
    simp only [scalar, hd, Option.bind_eq_bind, Option.bind_some, decide_eq_true h0, decide_eq_true ha, check_true, Option.pure_def, Option.some.injEq, fac]
    split <;> ring
  refine ⟨((((fs.set (el * I.ty.nFa + i) (some F)).set (el * I.ty.nFa + i) (some G)).set (el * I.ty.nFa + i) (some (scale (fac I.ty ch.area d) G))).set (el * I.ty.nFa + i)
      (some (scale (fac I.ty ch.area d) (scale (fac I.ty ch.area d) G)))), (initFace_eq e1 e2 e3 e3 (by simp) (by simp) e4 (mR := m) (by simpa [matR, rd] using e4)).trans ?_, ?_⟩
  · simp only [solve, Option.bind_eq_bind, Option.bind_some, hfree, hF, wr_some hp, Bool.not_false, check_true, hG, hs]
    rw [wr_some (by simpa using hp)]
    simp only [Option.bind_some]
    rw [scaleAt_some (F := G) (by rw [List.getElem?_set_self (by simpa using hp)])]
    simp only [Option.bind_some]
    rw [scaleAt_some (F := scale (fac I.ty ch.area d) G) (by rw [List.getElem?_set_self (by simpa using hp)])]
  · rw [List.getElem?_set_self (by simpa using hp)]

end Edge.Fs
