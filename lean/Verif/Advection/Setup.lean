import Verif.Advection.C109
import Verif.Step.Elastic

/-!
Simulations of the advection equation with the star matrices and flux solvers of the set-up.
-/
namespace Edge.Advection
open Edge Edge.Map Edge.Quad Edge.Basis Edge.Proj Edge.Gen Edge.Flux MvPolynomial

/-- Outward normal of face `fa` of element `el`. -/
noncomputable def outN (g : Desc ℝ) (el fa d : Nat) : ℝ := side g el (g.own el fa) * g.n (g.own el fa) d

/-- Elements `els` with the star matrices of `setupStarM` and the solvers of `setupSolvers` for the mesh `m`, described by `g`, with vertices `ves` and faces `f`
(AderDg.hpp:108-142, 144-178). Normals and areas are those of the vertices. Behind a face of an element, which is not at the outflow boundary, is another element with the same
face, seen from the other side; behind an outflow boundary is nothing. All elements have the same time step. -/
structure SetupOk (c : KCfg) (e : Ent) (o : Nat) (tol : ℝ) (els : List (AEl ℝ)) (m : Mesh ℝ) (g : Desc ℝ) (ves : Nat → Nat → Nat → ℝ) (f : Nat → Nat → AFace) : Prop where
  valid : Valid m g
  size : m.nIn + m.nSe = els.length
  dim : m.nd = e.nDim
  nfa : m.nElFa = e.nFa
  tet : m.tet = true ↔ e = .tet
  ord : m.order = o
  reg : ∀ el < els.length, Regular tol e (ves el)
  det : ∀ el < els.length, g.det el = jDet e (ves el)
  geo2 : e = .tria → ∀ el < els.length, ∀ fa < 3, Step.FaceGeo2 (ves el) fa (g.area (g.own el fa)) (fun d => outN g el fa d.val)
  geo3 : e = .tet → ∀ el < els.length, ∀ fa < 4, Step.FaceGeo3 (ves el) fa (g.area (g.own el fa)) (fun d => outN g el fa d.val)
  star2 : e = .tria → ∀ el E, els[el]? = some E → starM2 tol (ves el) (g.v el 0) (g.v el 1) = some E.star
  star3 : e = .tet → ∀ el E, els[el]? = some E → starM3 tol (ves el) (g.v el 0) (g.v el 1) (g.v el 2) = some E.star
  fs : ∃ fs, setupSolvers m = some fs ∧ ∀ el E, els[el]? = some E → rd fs el = some E.fs
  faces : ∀ el E, els[el]? = some E → ∀ fa < c.nFas, rd E.faces fa = some (f el fa)
  rel : ∀ el < els.length, ∀ fa < c.nFas, (f el fa).rel = .eq
  match_ : Matching e els.length f
  behind : ∀ el < els.length, ∀ fa < e.nFa, (f el fa).outflow = false → vNe g el fa = some (g.v (f el fa).ne) ∧
    g.area (g.own (f el fa).ne (f el fa).fId) = g.area (g.own el fa) ∧ ∀ d < e.nDim, outN g (f el fa).ne (f el fa).fId d = -outN g el fa d
  outside : ∀ el < els.length, ∀ fa < e.nFa, (f el fa).outflow = true → vNe g el fa = none

theorem outN_dot (m : Mesh ℝ) (g : Desc ℝ) (el fa : Nat) (v : Nat → ℝ) : side g el (g.own el fa) * dot m.nd v (g.n (g.own el fa)) = dot m.nd v (outN g el fa) := by
  simp only [dot, outN, Finset.mul_sum]
  exact Finset.sum_congr rfl fun d _ => by ring

theorem SetupOk.balanced {c : KCfg} {e : Ent} {o : Nat} {tol : ℝ} {els : List (AEl ℝ)} {m : Mesh ℝ} {g : Desc ℝ} {ves : Nat → Nat → Nat → ℝ} {f : Nat → Nat → AFace}
    (h : SetupOk c e o tol els m g ves f) : Balanced e els.length ves (sol m g) (fun el fa => sol m g el (e.nFa + fa)) f := by
  intro el hel fa hfa hou
  obtain ⟨h1, h2, h3, h4, h5, h6, h7⟩ := h.match_ el hel fa hfa hou
  obtain ⟨b1, -, -⟩ := h.behind _ h1 _ h2 h4
  obtain ⟨-, b2, b3⟩ := h.behind el hel fa hfa hou
  rw [h5] at b1
  rw [← h.det el hel, ← h.det _ h1]
  have p1 := (h.valid.det el (by rw [h.size]; exact hel)).2.ne'
  have p2 := (h.valid.det _ (by rw [h.size]; exact h1)).2.ne'
  have e1 : dot m.nd (g.v el) (outN g (f el fa).ne (f el fa).fId) = -dot m.nd (g.v el) (outN g el fa) := by
    simp only [dot, ← Finset.sum_neg_distrib]
    exact Finset.sum_congr rfl fun d hd => by rw [b3 d (by rw [← h.dim]; exact Finset.mem_range.1 hd)]; ring
  simp only [sol, h.nfa, hfa, if_true, show ¬ (e.nFa + (f el fa).fId < e.nFa) by omega, if_false, Nat.add_sub_cancel_left, outOwn, inNe, b1, factor, surf, b2, outN_dot, e1, neg_neg, codeDet]
  split <;> split <;> field_simp <;> ring

/-- The mesh of the set-up. -/
theorem SetupOk.mesh {c : KCfg} {e : Ent} (he : e = .tria ∨ e = .tet) {o : Nat} (hc : KFit c e o) {tol : ℝ} (ht : 0 ≤ tol) {els : List (AEl ℝ)} {m : Mesh ℝ} {g : Desc ℝ}
    {ves : Nat → Nat → Nat → ℝ} {f : Nat → Nat → AFace} (h : SetupOk c e o tol els m g ves f) :
    ∃ J, MeshOk c e tol els ves g.v (sol m g) (fun el fa => sol m g el (e.nFa + fa)) J f := by
  obtain ⟨fs, h1, h2⟩ := setup_spec h.valid
  obtain ⟨fs', h3, h4⟩ := h.fs
  cases h1.symm.trans h3
  have hst : ∀ el, ∃ J, ∀ E, els[el]? = some E → IsStar e (ves el) (g.v el) J E.star := by
    intro el
    cases hE : els[el]? with
    | none => exact ⟨fun _ _ => 0, fun E h => by cases h⟩
    | some E =>
      rcases he with rfl | rfl
      · obtain ⟨J, hJ⟩ := (C108_star2 ht (ves el) (g.v el)).2 _ (h.star2 rfl el E hE)
        exact ⟨J, fun E' h => by cases h; exact hJ⟩
      · obtain ⟨J, hJ⟩ := (C108_star3 ht (ves el) (g.v el)).2 _ (h.star3 rfl el E hE)
        exact ⟨J, fun E' h => by cases h; exact hJ⟩
  choose J hJ using hst
  have hrow : ∀ el E, els[el]? = some E → ∀ k < 2 * e.nFa, E.fs[k]? = some (sol m g el k) := by
    intro el E hE k hk
    have hel : el < els.length := (List.getElem?_eq_some_iff.1 hE).1
    obtain ⟨row, r1, r2⟩ := h2 el (by rw [h.size]; exact hel)
    rw [h4 el E hE] at r1
    cases r1
    exact r2 k (by rw [h.nfa]; exact hk)
  refine ⟨J, h.reg, fun el E hE => hJ el E hE, fun el E hE i hi => hrow el E hE i (by rw [hc.fas] at hi; omega), fun el E hE i hi => ?_, h.faces, fun el hel fa hfa hou => ?_, h.rel⟩
  · rw [hc.fas] at hi ⊢
    exact hrow el E hE _ (by omega)
  · obtain ⟨m1, m2, ⟨ve, m3, m4⟩, -⟩ := h.match_ el hel fa (by rw [← hc.fas]; exact hfa) hou
    exact ⟨m1, fun ve' hv => by rw [m4] at hv; cases hv; exact ⟨m3, m2⟩⟩

/-- Scaled outward normals are the normals of the reference element. -/
theorem SetupOk.normal {c : KCfg} {e : Ent} (he : e = .tria ∨ e = .tet) {o : Nat} {tol : ℝ} {els : List (AEl ℝ)} {m : Mesh ℝ} {g : Desc ℝ}
    {ves : Nat → Nat → Nat → ℝ} {f : Nat → Nat → AFace} (h : SetupOk c e o tol els m g ves f) {el : Nat} (hel : el < els.length) {fa : Nat} (hfa : fa < e.nFa) {J : Nat → Nat → ℝ}
    (hJ : ∀ d < e.nDim, ∀ d2 < e.nDim, ∑ di ∈ Finset.range e.nDim, J d di * evalJac e (ves el) di d2 = if d = d2 then 1 else 0) (v : Nat → ℝ) :
    surf m g (g.own el fa) / g.det el * dot m.nd v (outN g el fa) = ∑ di : Fin 3, if di.val < e.nDim then refNormal e fa di * starOf e v J di.val else 0 := by
  have hpos := (h.valid.det el (by rw [h.size]; exact hel)).2
  rw [h.det el hel] at hpos ⊢
  rw [dot, h.dim, surf]
  rcases he with rfl | rfl
  · have hn := Step.nanson2 hpos hfa (h.geo2 rfl el hel fa hfa) hJ
    have n0 := hn 0
    have n1 := hn 1
    simp only [Fs.fac, reduceCtorEq, if_false] at n0 n1
    have ht : ¬ m.tet = true := by rw [h.tet]; decide
    simp only [if_neg ht, Ent.nDim, Finset.sum_range_succ, Finset.sum_range_zero, zero_add, starOf, Fin.sum_univ_three]
    norm_num at n0 n1 ⊢
    linear_combination (-v 0) * n0 - v 1 * n1
  · have hn := Step.nanson3 hpos hfa (h.geo3 rfl el hel fa hfa) hJ
    have n0 := hn 0
    have n1 := hn 1
    have n2 := hn 2
    simp only [Fs.fac, if_true, Fin.sum_univ_three] at n0 n1 n2
    have ht : m.tet = true := by rw [h.tet]
    simp only [if_pos ht, Ent.nDim, Finset.sum_range_succ, Finset.sum_range_zero, zero_add, starOf, Fin.sum_univ_three]
    norm_num at n0 n1 n2 ⊢
    linear_combination (-v 0) * n0 - v 1 * n1 - v 2 * n2

end Edge.Advection
