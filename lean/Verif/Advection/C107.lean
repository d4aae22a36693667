import Mathlib.Algebra.BigOperators.Group.Finset.Sigma
import Mathlib.Data.Rat.Defs
import Mathlib.Algebra.Order.Ring.Rat
import Mathlib.Tactic.NormNum
import Mathlib.Tactic.IntervalCases
import Mathlib.Tactic.LinearCombination
import Verif.Advection.SolversProps

/-! C107: theorems on the flux solvers of the advection equation, and meshes which meet their hypotheses. -/
namespace Edge.Advection
open Finset

section
variable {K : Type} [Field K] [LinearOrder K] [IsStrictOrderedRing K]

/-- Solver `k` of element `el`. -/
def entry (fs : List (List K)) (el k : Nat) : Option K := (rd fs el).bind fun row => rd row k

omit [Field K] [LinearOrder K] [IsStrictOrderedRing K] in
theorem entry_tab {nEls nF : Nat} {fs : List (List K)} {F : Nat → Nat → K} (h : Tab nEls nF fs F) {el k : Nat} (he : el < nEls)
    (hk : k < nF) : entry fs el k = some (F el k) := by
  obtain ⟨row, h1, h2⟩ := h el he
  simp [entry, h1, h2 k hk]

omit [LinearOrder K] [IsStrictOrderedRing K] in
theorem codeDet_eq {m : Mesh K} {g : Desc K} (h : ¬ (m.tet = true ∧ m.order = 1)) (el : Nat) : codeDet m g el = g.det el := if_neg h

/-- C107, upwind solvers: for every valid mesh the setup succeeds. With the outward normal of the element, its own velocity
removes `max(v·n, 0)` and the velocity of the element behind the face brings `max(-v·n, 0)`, scaled by the surface factor
and the determinant of the element; nothing comes from outside of the domain. Missing for the full claim: tetrahedra with
order 1, see `C107_first_order_refuted`. -/
theorem C107_upwind_partial {m : Mesh K} {g : Desc K} (hm : Valid m g) (ho : ¬ (m.tet = true ∧ m.order = 1)) :
    ∃ fs, setupSolvers m = some fs ∧ ∀ el < m.nIn + m.nSe, ∀ fi < m.nElFa,
      entry fs el fi = some (-outOwn m g el fi * surf m g (g.own el fi) / g.det el) ∧
      entry fs el (m.nElFa + fi) = some (inNe m g el fi * surf m g (g.own el fi) / g.det el) := by
  obtain ⟨fs, h1, h2⟩ := setup_spec hm
  refine ⟨fs, h1, fun el he fi hf => ⟨?_, ?_⟩⟩
  · rw [entry_tab h2 he (by omega), sol, if_pos hf, factor, codeDet_eq ho, mul_div_assoc]
  · rw [entry_tab h2 he (by omega), sol, if_neg (by omega), factor, codeDet_eq ho, mul_div_assoc, Nat.add_sub_cancel_left]

/-- The solvers of tetrahedra with order 1 are those of the claim times six. -/
theorem first_order {m : Mesh K} {g : Desc K} (hm : Valid m g) (ho : m.tet = true ∧ m.order = 1) :
    ∃ fs, setupSolvers m = some fs ∧ ∀ el < m.nIn + m.nSe, ∀ fi < m.nElFa,
      entry fs el fi = some (6 * (-outOwn m g el fi * surf m g (g.own el fi) / g.det el)) ∧
      entry fs el (m.nElFa + fi) = some (6 * (inNe m g el fi * surf m g (g.own el fi) / g.det el)) := by
  obtain ⟨fs, h1, h2⟩ := setup_spec hm
  refine ⟨fs, h1, fun el he fi hf => ?_⟩
  have hp := (hm.det el he).2.ne'
  constructor
  · rw [entry_tab h2 he (by omega), sol, if_pos hf, factor, codeDet, if_pos ho]
    congr 1
    field_simp
  · rw [entry_tab h2 he (by omega), sol, if_neg (by omega), factor, codeDet, if_pos ho, Nat.add_sub_cancel_left]
    congr 1
    field_simp

/-- C107, conservation: at a face between two elements, what the left element loses by its velocity the right one gains,
and vice versa (the solvers times the determinants are the amounts). -/
theorem C107_conserve {m : Mesh K} {g : Desc K} (hm : Valid m g) {fa r i j : Nat} (hfa : fa < m.nFa) (hr : g.right fa = some r)
    (hi : i < m.nElFa) (hj : j < m.nElFa) (hL : g.own (g.left fa) i = fa) (hR : g.own r j = fa) :
    ∃ fs lossL gainR lossR gainL, setupSolvers m = some fs ∧
      entry fs (g.left fa) i = some lossL ∧ entry fs r (m.nElFa + j) = some gainR ∧
      entry fs r j = some lossR ∧ entry fs (g.left fa) (m.nElFa + i) = some gainL ∧
      lossL ≤ 0 ∧ lossR ≤ 0 ∧ g.det (g.left fa) * lossL + g.det r * gainR = 0 ∧ g.det r * lossR + g.det (g.left fa) * gainL = 0 := by
  obtain ⟨fs, h1, h2⟩ := setup_spec hm
  obtain ⟨r', -, hl, hne, hx⟩ := hm.faEl fa hfa
  have hrr : r < m.nIn + m.nSe ∧ r ≠ g.left fa := by
    rw [hr] at hx
    by_cases hc : r' < m.nIn + m.nSe
    · rw [if_pos hc] at hx
      cases hx
      exact ⟨hc, hne⟩
    · rw [if_neg hc] at hx; cases hx
  have hdL := (hm.det _ hl).2
  have hdR := (hm.det _ hrr.1).2
  have hA := (hm.area fa hfa).2
  have hs : 0 < surf m g fa := by
    unfold surf
    split
    · linarith
    · exact hA
  have sL : side g (g.left fa) fa = 1 := by simp [side]
  have sR : side g r fa = -1 := by simp [side, hrr.2.symm]
  have vL : vNe g (g.left fa) i = some (g.v r) := by simp [vNe, hL, hr]
  have vR : vNe g r j = some (g.v (g.left fa)) := by simp [vNe, hR, hrr.2.symm]
  have hcd : ∀ el, 0 < g.det el → 0 < codeDet m g el := by
    intro el hp
    unfold codeDet
    split
    · exact div_pos hp (by norm_num)
    · exact hp
  have hq : ∀ el, 0 < g.det el → g.det el * factor m g el fa = (if m.tet = true ∧ m.order = 1 then 6 else 1) * surf m g fa := by
    intro el hp
    have := hp.ne'
    unfold factor codeDet
    split <;> field_simp
  have fL := div_pos hs (hcd _ hdL)
  have fR := div_pos hs (hcd _ hdR)
  refine ⟨fs, _, _, _, _, h1, entry_tab h2 hl (by omega), entry_tab h2 hrr.1 (by omega), entry_tab h2 hrr.1 (by omega),
    entry_tab h2 hl (by omega), ?_, ?_, ?_, ?_⟩
  · rw [sol, if_pos hi, hL, neg_mul, neg_nonpos]
    exact mul_nonneg (le_max_right _ _) fL.le
  · rw [sol, if_pos hj, hR, neg_mul, neg_nonpos]
    exact mul_nonneg (le_max_right _ _) fR.le
  · rw [sol, if_pos hi, sol, if_neg (by omega), Nat.add_sub_cancel_left, outOwn, inNe, vR, hL, hR, sL, sR]
    simp only [one_mul, neg_one_mul, neg_neg]
    have e1 := hq _ hdL
    have e2 := hq _ hdR
    linear_combination (-(max (dot m.nd (g.v (g.left fa)) (g.n fa)) 0)) * e1 + (max (dot m.nd (g.v (g.left fa)) (g.n fa)) 0) * e2
  · rw [sol, if_pos hj, sol, if_neg (by omega), Nat.add_sub_cancel_left, outOwn, inNe, vL, hL, hR, sL, sR]
    simp only [one_mul, neg_one_mul]
    have e1 := hq _ hdL
    have e2 := hq _ hdR
    linear_combination (-(max (-dot m.nd (g.v r) (g.n fa)) 0)) * e2 + (max (-dot m.nd (g.v r) (g.n fa)) 0) * e1

omit [IsStrictOrderedRing K] [LinearOrder K] in
theorem dot_scaled (nd : Nat) (v n : Nat → K) (c : K) : c * dot nd v n = ∑ d ∈ range nd, v d * (c * n d) := by
  rw [dot, mul_sum]
  exact sum_congr rfl fun d _ => by ring

/-- C107, uniform flow: if the velocity is the same everywhere around an element and the element is closed (its outward
normals times areas add up to zero), its solvers add up to zero: a constant state stays constant. -/
theorem C107_uniform {m : Mesh K} {g : Desc K} (hm : Valid m g) {el : Nat} (he : el < m.nIn + m.nSe)
    (hv : ∀ fi < m.nElFa, vNe g el fi = some (g.v el))
    (hclosed : ∀ d < m.nd, ∑ fi ∈ range m.nElFa, g.area (g.own el fi) * (side g el (g.own el fi) * g.n (g.own el fi) d) = 0) :
    ∃ fs, ∃ F : Nat → K, setupSolvers m = some fs ∧ (∀ k < 2 * m.nElFa, entry fs el k = some (F k)) ∧
      ∑ fi ∈ range m.nElFa, (F fi + F (m.nElFa + fi)) = 0 := by
  obtain ⟨fs, h1, h2⟩ := setup_spec hm
  refine ⟨fs, sol m g el, h1, fun k hk => entry_tab h2 he hk, ?_⟩
  have key : ∀ fi ∈ range m.nElFa, sol m g el fi + sol m g el (m.nElFa + fi) =
      -((if m.tet = true then 2 else 1) / codeDet m g el) *
        (g.area (g.own el fi) * (side g el (g.own el fi) * dot m.nd (g.v el) (g.n (g.own el fi)))) := by
    intro fi hfi
    rw [mem_range] at hfi
    rw [sol, if_pos hfi, sol, if_neg (by omega), Nat.add_sub_cancel_left, outOwn, inNe, hv fi hfi]
    simp only []
    generalize side g el (g.own el fi) * dot m.nd (g.v el) (g.n (g.own el fi)) = x
    have hx : max x 0 - max (-x) 0 = x := by
      rcases le_total 0 x with h | h
      · rw [max_eq_left h, max_eq_right (by linarith)]; ring
      · rw [max_eq_right h, max_eq_left (by linarith)]; ring
    rw [← add_mul, show -max x 0 + max (-x) 0 = -x from by linarith, factor, surf]
    split <;> ring
  rw [sum_congr rfl key, ← mul_sum]
  have : ∑ fi ∈ range m.nElFa, g.area (g.own el fi) * (side g el (g.own el fi) * dot m.nd (g.v el) (g.n (g.own el fi))) =
      ∑ d ∈ range m.nd, g.v el d * ∑ fi ∈ range m.nElFa, g.area (g.own el fi) * (side g el (g.own el fi) * g.n (g.own el fi) d) := by
    rw [sum_congr rfl (g := fun fi => ∑ d ∈ range m.nd, g.v el d * (g.area (g.own el fi) * (side g el (g.own el fi) * g.n (g.own el fi) d)))
      (fun fi _ => by rw [← mul_assoc, dot_scaled]; exact sum_congr rfl fun d _ => by ring), sum_comm]
    exact sum_congr rfl fun d _ => by rw [mul_sum]
  rw [this, sum_eq_zero (fun d hd => by rw [hclosed d (mem_range.1 hd), mul_zero]), mul_zero]

/-- Description of a mesh given by its arrays. -/
def desc (m : Mesh K) (re : Nat → Nat → Option (Nat → K)) : Desc K where
  own el fi := (m.elFa.getD el []).getD fi 0
  left fa := (m.faEl.getD fa (0, 0)).1
  right fa := if (m.faEl.getD fa (0, 0)).2 < m.nIn + m.nSe then some (m.faEl.getD fa (0, 0)).2 else none
  per fa := m.periodic.getD fa false
  n fa d := (m.normal.getD fa []).getD d 0
  area fa := m.area.getD fa 0
  v el d := (m.v.getD el []).getD d 0
  det el := m.det.getD el 0
  re := re

end

/-- Two unit squares, connected by face 1; the velocities differ. -/
def exQuads : Mesh ℚ where
  tet := false
  order := 2
  nd := 2
  nElFa := 4
  nIn := 2
  nSe := 0
  nFa := 7
  recvFa := []
  recvEl := []
  faEl := [(0, 9), (0, 1), (0, 9), (0, 9), (1, 9), (1, 9), (1, 9)]
  elFa := [[0, 1, 2, 3], [4, 5, 6, 1]]
  normal := [[0, -1], [1, 0], [0, 1], [-1, 0], [0, -1], [1, 0], [0, 1]]
  area := [1, 1, 1, 1, 1, 1, 1]
  periodic := [false, false, false, false, false, false, false]
  v := [[3, 1], [2, -1]]
  vRe := []
  det := [1, 1]

theorem exQuads_valid : Valid exQuads (desc exQuads fun _ _ => none) where
  faEl := fun fa hfa => ⟨(exQuads.faEl.getD fa (0, 0)).2, by revert fa; decide +kernel⟩
  elFa := fun el he => ⟨exQuads.elFa.getD el [], by revert el; decide +kernel, by revert el; unfold Holds; decide +kernel⟩
  once := by decide +kernel
  faces := by decide +kernel
  inLeft := by decide +kernel
  inRight := by
    intro fa hfa r hr _
    have : fa = 1 ∧ r = 1 := by
      have hc : ∀ fa < 7, fa ≠ 1 → (desc exQuads fun _ _ => none).right fa = none := by decide +kernel
      by_cases h1 : fa = 1
      · subst h1
        have : (desc exQuads fun _ _ => none).right 1 = some 1 := by decide +kernel
        rw [this] at hr
        exact ⟨rfl, (Option.some.inj hr).symm⟩
      · rw [hc fa hfa h1] at hr; cases hr
    obtain ⟨rfl, rfl⟩ := this
    exact ⟨3, by decide +kernel, by decide +kernel⟩
  normal := fun fa hfa => ⟨exQuads.normal.getD fa [], by revert fa; decide +kernel, by revert fa; unfold Holds; decide +kernel⟩
  area := by decide +kernel
  periodic := by decide +kernel
  v := fun el he => ⟨exQuads.v.getD el [], by revert el; decide +kernel, by revert el; unfold Holds; decide +kernel⟩
  det := by decide +kernel
  recvLen := rfl
  recv := by simp [exQuads, rd]
  recvAll := by simp [desc]

-- the hypotheses of `C107_conserve` are met: face 1 is face 1 of element 0 and face 3 of element 1
example : ∃ fs lossL gainR lossR gainL, setupSolvers exQuads = some fs ∧
    entry fs 0 1 = some lossL ∧ entry fs 1 7 = some gainR ∧ entry fs 1 3 = some lossR ∧ entry fs 0 5 = some gainL ∧
    lossL ≤ 0 ∧ lossR ≤ 0 ∧ (1 : ℚ) * lossL + 1 * gainR = 0 ∧ (1 : ℚ) * lossR + 1 * gainL = 0 :=
  C107_conserve exQuads_valid (fa := 1) (r := 1) (i := 1) (j := 3) (by decide) (by decide +kernel) (by decide) (by decide)
    (by decide +kernel) (by decide +kernel)

-- the solvers: the flow of element 0 passes the faces 1 and 2, element 1 receives it with speed 3 and loses it by faces 4 and 5
example : setupSolvers exQuads = some [[0, -3, -1, 0, 0, 0, 0, 0], [-1, -2, 0, 0, 0, 0, 0, 3]] := by decide +kernel

/-- A tetrahedron with legs 1, 1 and 2 which is surrounded by elements of other ranks. -/
def exTet (order : Nat) : Mesh ℚ where
  tet := true
  order := order
  nd := 3
  nElFa := 4
  nIn := 0
  nSe := 1
  nFa := 4
  recvFa := [0, 1, 2, 3]
  recvEl := [0, 0, 0, 0]
  faEl := [(0, 9), (0, 9), (0, 9), (0, 9)]
  elFa := [[0, 1, 2, 3]]
  normal := [[0, 0, -1], [0, -1, 0], [-1, 0, 0], [2 / 3, 2 / 3, 1 / 3]]
  area := [1 / 2, 1, 1, 3 / 2]
  periodic := [false, false, false, false]
  v := [[1, 2, -3]]
  vRe := [[1, 2, -3], [1, 2, -3], [1, 2, -3], [1, 2, -3]]
  det := [2]

/-- The elements of the other ranks have the same velocity. -/
def exTetRe (el fi : Nat) : Option (Nat → ℚ) := if el = 0 ∧ fi < 4 then some (fun d => ([1, 2, -3] : List ℚ).getD d 0) else none

theorem exTet_valid3 : Valid (exTet 3) (desc (exTet 3) exTetRe) where
  faEl := fun fa hfa => ⟨9, by revert fa; decide +kernel⟩
  elFa := fun el he => ⟨(exTet 3).elFa.getD el [], by revert el; decide +kernel, by revert el; unfold Holds; decide +kernel⟩
  once := by decide +kernel
  faces := by decide +kernel
  inLeft := by decide +kernel
  inRight := by
    intro fa hfa r hr _
    have hc : ∀ fa < 4, (desc (exTet 3) exTetRe).right fa = none := by decide +kernel
    rw [hc fa hfa] at hr
    cases hr
  normal := fun fa hfa => ⟨(exTet 3).normal.getD fa [], by revert fa; decide +kernel, by revert fa; unfold Holds; decide +kernel⟩
  area := by decide +kernel
  periodic := by decide +kernel
  v := fun el he => ⟨(exTet 3).v.getD el [], by revert el; decide +kernel, by revert el; unfold Holds; decide +kernel⟩
  det := by decide +kernel
  recvLen := rfl
  recv := by
    intro co el f h1 h2
    have hco : co < 4 := by
      by_contra hc
      simp [exTet, rd, List.getElem?_eq_none (show ([0, 0, 0, 0] : List Nat).length ≤ co from Nat.le_of_not_lt hc)] at h1
    refine ⟨[1, 2, -3], fun d => ([1, 2, -3] : List ℚ).getD d 0, ?_, ?_, ?_⟩
    · have : ∀ co < 4, rd (exTet 3).vRe co = some [1, 2, -3] := by decide +kernel
      exact this co hco
    · unfold Holds; decide +kernel
    · have : el = 0 ∧ f < 4 := by
        interval_cases co <;> simp [exTet, rd] at h1 h2 <;> omega
      simp [desc, exTetRe, this]
  recvAll := by
    intro el f w h
    simp only [desc, exTetRe] at h
    split at h
    · rename_i hc
      obtain ⟨rfl, hf⟩ := hc
      exact ⟨Nat.le_refl 0, f, by revert f; decide +kernel⟩
    · cases h

theorem exTet_valid (order : Nat) : Valid (exTet order) (desc (exTet order) exTetRe) :=
  have h := exTet_valid3
  ⟨h.faEl, h.elFa, h.once, h.faces, h.inLeft, h.inRight, h.normal, h.area, h.periodic, h.v, h.det, h.recvLen, h.recv, h.recvAll⟩

-- the hypotheses of `C107_uniform` are met
example : ∃ fs, ∃ F : Nat → ℚ, setupSolvers (exTet 3) = some fs ∧ (∀ k < 8, entry fs 0 k = some (F k)) ∧
    ∑ fi ∈ range 4, (F fi + F (4 + fi)) = 0 :=
  C107_uniform (exTet_valid 3) (el := 0) (by decide) (by
    intro fi hfi
    have hv : ∀ fi < 4, (desc (exTet 3) exTetRe).left ((desc (exTet 3) exTetRe).own 0 fi) = 0 ∧
      (desc (exTet 3) exTetRe).right ((desc (exTet 3) exTetRe).own 0 fi) = none := by decide +kernel
    have hfi' : fi < 4 := hfi
    rw [vNe, if_pos (hv fi hfi').1, (hv fi hfi').2]
    simp only [desc, exTetRe, hfi', and_self, if_true]
    rfl) (by decide +kernel)

/-- C107 fails for tetrahedra with order 1: the code divides the determinant by six to account for the inverse mass matrix,
which the kernels apply, too. Every solver is six times too large. -/
theorem C107_first_order_refuted : ∃ (m : Mesh ℚ) (g : Desc ℚ), Valid m g ∧ m.tet = true ∧ m.order = 1 ∧
    ¬ ∃ fs, setupSolvers m = some fs ∧ ∀ el < m.nIn + m.nSe, ∀ fi < m.nElFa,
      entry fs el fi = some (-outOwn m g el fi * surf m g (g.own el fi) / g.det el) ∧
      entry fs el (m.nElFa + fi) = some (inNe m g el fi * surf m g (g.own el fi) / g.det el) := by
  refine ⟨exTet 1, desc (exTet 1) exTetRe, exTet_valid 1, rfl, rfl, ?_⟩
  rintro ⟨fs, h1, h2⟩
  obtain ⟨fs', h3, h4⟩ := first_order (exTet_valid 1) ⟨rfl, rfl⟩
  rw [h1] at h3
  cases h3
  have a := (h2 0 (by decide) 0 (by decide)).1
  have b := (h4 0 (by decide) 0 (by decide)).1
  rw [a] at b
  have hval : -outOwn (exTet 1) (desc (exTet 1) exTetRe) 0 0 * surf (exTet 1) (desc (exTet 1) exTetRe) ((desc (exTet 1) exTetRe).own 0 0) /
      (desc (exTet 1) exTetRe).det 0 = -3 / 2 := by decide +kernel
  rw [hval] at b
  norm_num at b

end Edge.Advection
