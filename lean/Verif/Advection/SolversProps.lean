import Mathlib.Algebra.BigOperators.Group.Finset.Basic
import Mathlib.Algebra.BigOperators.Ring.Finset
import Mathlib.Algebra.BigOperators.Field
import Mathlib.Algebra.Order.Ring.Defs
import Mathlib.Tactic.Ring
import Mathlib.Tactic.FieldSimp
import Mathlib.Tactic.Linarith
import Verif.Advection.Solvers

/-! C107: the flux solvers of the advection equation. -/
namespace Edge.Advection
open Finset

section
variable {K : Type} [Field K] [LinearOrder K] [IsStrictOrderedRing K]

/-- Description of a mesh by functions: adjacency, geometry and velocities. `own el fi` is the face `fi` of element `el`,
`left fa` and `right fa` are the two sides (`none`: no element of this rank). -/
structure Desc (K : Type) where
  own : Nat → Nat → Nat
  left : Nat → Nat
  right : Nat → Option Nat
  per : Nat → Bool
  n : Nat → Nat → K
  area : Nat → K
  v : Nat → Nat → K
  det : Nat → K
  /-- Velocity in the element of another rank behind face `fi` of `el`. -/
  re : Nat → Nat → Option (Nat → K)

/-- `v · n` at a face. -/
def dot (nd : Nat) (v n : Nat → K) : K := ∑ d ∈ range nd, v d * n d

/-- The array `l` holds the first `nd` values of `f`. -/
def Holds {α : Type} (nd : Nat) (l : List α) (f : Nat → α) : Prop := ∀ d < nd, rd l d = some (f d)

/-- The input describes the mesh, and the mesh is valid: every face lies in its left element, and in its right element unless
it is periodic (periodic faces appear twice, once for each element); no face lies in any other element. -/
structure Valid (m : Mesh K) (g : Desc K) : Prop where
  faEl : ∀ fa < m.nFa, ∃ r, rd m.faEl fa = some (g.left fa, r) ∧ g.left fa < m.nIn + m.nSe ∧ r ≠ g.left fa ∧
    (g.right fa = if r < m.nIn + m.nSe then some r else none)
  elFa : ∀ el < m.nIn + m.nSe, ∃ row, rd m.elFa el = some row ∧ Holds m.nElFa row (g.own el)
  once : ∀ el < m.nIn + m.nSe, ∀ i < m.nElFa, ∀ j < m.nElFa, g.own el i = g.own el j → i = j
  faces : ∀ el < m.nIn + m.nSe, ∀ i < m.nElFa, g.own el i < m.nFa ∧
    (g.left (g.own el i) = el ∨ (g.right (g.own el i) = some el ∧ g.per (g.own el i) = false))
  inLeft : ∀ fa < m.nFa, ∃ i < m.nElFa, g.own (g.left fa) i = fa
  inRight : ∀ fa < m.nFa, ∀ r, g.right fa = some r → g.per fa = false → ∃ i < m.nElFa, g.own r i = fa
  normal : ∀ fa < m.nFa, ∃ l, rd m.normal fa = some l ∧ Holds m.nd l (g.n fa)
  area : ∀ fa < m.nFa, rd m.area fa = some (g.area fa) ∧ 0 < g.area fa
  periodic : ∀ fa < m.nFa, rd m.periodic fa = some (g.per fa)
  v : ∀ el < m.nIn + m.nSe, ∃ l, rd m.v el = some l ∧ Holds m.nd l (g.v el)
  det : ∀ el < m.nIn + m.nSe, rd m.det el = some (g.det el) ∧ 0 < g.det el
  recvLen : m.recvFa.length = m.recvEl.length
  recv : ∀ co el f, rd m.recvEl co = some el → rd m.recvFa co = some f →
    ∃ l w, rd m.vRe co = some l ∧ Holds m.nd l w ∧ g.re el f = some w
  recvAll : ∀ el f w, g.re el f = some w → m.nIn ≤ el ∧ ∃ co, rd m.recvEl co = some el ∧ rd m.recvFa co = some f

/-- Surface factor of a face: the area, twice the area for tetrahedra (their faces' reference triangle has area 1/2). -/
def surf (m : Mesh K) (g : Desc K) (fa : Nat) : K := if m.tet then 2 * g.area fa else g.area fa

/-- Determinant used by the code. -/
def codeDet (m : Mesh K) (g : Desc K) (el : Nat) : K := if m.tet ∧ m.order = 1 then g.det el / 6 else g.det el

/-- `+1` if `el` is left of the face (the normal points out of it), `-1` if it is right of it. -/
def side (g : Desc K) (el fa : Nat) : K := if g.left fa = el then 1 else -1

/-- Velocity on the other side of face `fi` of `el`, if there is anything. -/
def vNe (g : Desc K) (el fi : Nat) : Option (Nat → K) :=
  let fa := g.own el fi
  if g.left fa = el then
    match g.right fa with
    | some r => some (g.v r)
    | none => g.re el fi
  else some (g.v (g.left fa))

/-- Outflow of `el` through its face `fi` by the own velocity. -/
def outOwn (m : Mesh K) (g : Desc K) (el fi : Nat) : K := max (side g el (g.own el fi) * dot m.nd (g.v el) (g.n (g.own el fi))) 0

/-- Inflow of `el` through its face `fi` by the velocity of the other side. -/
def inNe (m : Mesh K) (g : Desc K) (el fi : Nat) : K :=
  match vNe g el fi with
  | some w => max (-(side g el (g.own el fi) * dot m.nd w (g.n (g.own el fi)))) 0
  | none => 0

omit [LinearOrder K] [IsStrictOrderedRing K] in
theorem speed_spec {nd : Nat} {v n : List K} {f h : Nat → K} (hv : Holds nd v f) (hn : Holds nd n h) :
    speed nd v n = some (dot nd f h) := by
  obtain ⟨t, ht, hp⟩ := forN_inv (n := nd) (s := (0 : K)) (body := fun d s => do
    let a ← rd v d
    let b ← rd n d
    pure (s + a * b)) (fun d s => s = ∑ i ∈ range d, f i * h i) (by simp) (by
      rintro d s hd rfl
      exact ⟨_, by simp [hv d hd, hn d hd]; rfl, by rw [sum_range_succ]⟩)
  rw [speed, ht, hp]; rfl

theorem findLoc_spec {nElFa fa : Nat} {row : List Nat} {f : Nat → Nat} (h : Holds nElFa row f)
    (h1 : ∀ i < nElFa, ∀ j < nElFa, f i = f j → i = j) :
    ∃ r, findLoc nElFa row fa = some r ∧ (∀ i, r = some i → i < nElFa ∧ f i = fa) ∧ (r = none → ∀ i < nElFa, f i ≠ fa) := by
  obtain ⟨t, ht, hp⟩ := forN_inv (n := nElFa) (s := (none : Option Nat)) (body := fun fi loc => do
    let g ← rd row fi
    if g = fa then do
      check loc.isNone
      pure (some fi)
    else pure loc) (fun k r => (∀ i, r = some i → i < k ∧ f i = fa) ∧ (r = none → ∀ i < k, f i ≠ fa)) (by simp) (by
      rintro k r hk ⟨h2, h3⟩
      by_cases hf : f k = fa
      · have hr : r = none := by
          rcases r with _ | i
          · rfl
          · have := h2 i rfl
            have := h1 i (by omega) k hk (by rw [this.2, hf])
            omega
        subst hr
        exact ⟨some k, by simp [h k hk, hf], fun i hi => by cases hi; exact ⟨by omega, hf⟩, by simp⟩
      · refine ⟨r, by simp [h k hk, hf], fun i hi => ⟨by have := h2 i hi; omega, (h2 i hi).2⟩, fun hr i hi => ?_⟩
        rcases Nat.lt_or_ge i k with h4 | h4
        · exact h3 hr i h4
        · have : i = k := by omega
          subst this; exact hf)
  exact ⟨t, ht, hp⟩

omit [IsStrictOrderedRing K] in
theorem recvSpeed_spec {m : Mesh K} {g : Desc K} (hm : Valid m g) {el fi : Nat} (n : List K) {h : Nat → K} (hn : Holds m.nd n h) :
    recvSpeed m el (some fi) n = some ((g.re el fi).map (fun w => dot m.nd w h)) := by
  obtain ⟨t, ht, hp⟩ := forN_inv (n := m.recvEl.length) (s := (none : Option K)) (body := fun co (r : Option K) => do
    if r.isSome then pure r
    else do
      let e ← rd m.recvEl co
      let f ← rd m.recvFa co
      if e = el ∧ some f = some fi then do
        let w ← rd m.vRe co
        let s ← speed m.nd w n
        pure (some s)
      else pure r)
    (fun k r => (∀ s, r = some s → (g.re el fi).map (fun w => dot m.nd w h) = some s) ∧
      (r = none → ∀ co < k, ¬ (rd m.recvEl co = some el ∧ rd m.recvFa co = some fi))) (by simp) (by
      rintro k r hk ⟨h1, h2⟩
      rcases r with _ | s
      · obtain ⟨e, he⟩ : ∃ e, rd m.recvEl k = some e := ⟨_, rd_some hk⟩
        obtain ⟨f, hf⟩ : ∃ f, rd m.recvFa k = some f := ⟨_, rd_some (by rw [hm.recvLen]; exact hk)⟩
        by_cases hc : e = el ∧ f = fi
        · obtain ⟨rfl, rfl⟩ := hc
          obtain ⟨l, w, hl, hw, hg⟩ := hm.recv k e f he hf
          exact ⟨some (dot m.nd w h), by simp [he, hf, hl, speed_spec hw hn],
            fun s hs => by cases hs; rw [hg]; rfl, by simp⟩
        · refine ⟨none, by simp [he, hf, hc], by simp, fun _ co hco => ?_⟩
          rcases Nat.lt_or_ge co k with h4 | h4
          · exact h2 rfl co h4
          · have : co = k := by omega
            subst this
            rw [he, hf]
            rintro ⟨h5, h6⟩
            exact hc ⟨Option.some.inj h5, Option.some.inj h6⟩
      · exact ⟨some s, by simp, h1, by simp⟩)
  rw [recvSpeed, ht]
  rcases t with _ | s
  · rcases hr : g.re el fi with _ | w
    · rfl
    · obtain ⟨-, co, h3, h4⟩ := hm.recvAll el fi w hr
      have : co < m.recvEl.length := by
        by_contra hlt
        simp [rd, List.getElem?_eq_none (Nat.le_of_not_lt hlt)] at h3
      exact absurd ⟨h3, h4⟩ (hp.2 rfl co this)
  · rw [hp.1 s rfl]

/-- The array holds the table `F` of solvers. -/
def Tab (nEls nF : Nat) (fs : List (List K)) (F : Nat → Nat → K) : Prop :=
  ∀ el < nEls, ∃ row, rd fs el = some row ∧ ∀ k < nF, rd row k = some (F el k)

/-- One changed entry. -/
def put (F : Nat → Nat → K) (el k : Nat) (x : K) : Nat → Nat → K := fun e i => if e = el ∧ i = k then x else F e i

omit [Field K] [LinearOrder K] [IsStrictOrderedRing K] in
theorem upd_spec {nEls nF : Nat} {fs : List (List K)} {F : Nat → Nat → K} (h : Tab nEls nF fs F) {el k : Nat} (he : el < nEls)
    (hk : k < nF) (g : K → K) : ∃ fs', upd fs el k g = some fs' ∧ Tab nEls nF fs' (put F el k (g (F el k))) := by
  obtain ⟨row, h1, h2⟩ := h el he
  have hl : k < row.length := by
    by_contra hc
    have := h2 k hk
    simp [rd, List.getElem?_eq_none (Nat.le_of_not_lt hc)] at this
  have hl2 : el < fs.length := by
    by_contra hc
    simp [rd, List.getElem?_eq_none (Nat.le_of_not_lt hc)] at h1
  refine ⟨fs.set el (row.set k (g (F el k))), by simp [upd, h1, h2 k hk, wr_some hl, wr_some hl2], ?_⟩
  intro e hee
  by_cases hc : e = el
  · subst hc
    refine ⟨row.set k (g (F e k)), by simp [rd, hl2], fun i hi => ?_⟩
    by_cases hi2 : i = k
    · subst hi2
      simp [rd, hl, put]
    · have := h2 i hi
      simp only [rd] at this
      simp [rd, put, hi2, List.getElem?_set_ne (Ne.symm hi2), this]
  · obtain ⟨row', h3, h4⟩ := h e hee
    refine ⟨row', ?_, fun i hi => by rw [h4 i hi]; simp [put, hc]⟩
    simp only [rd] at h3 ⊢
    rw [List.getElem?_set_ne (Ne.symm hc), h3]

/-- The two factors of a scaled entry. -/
def factor (m : Mesh K) (g : Desc K) (el fa : Nat) : K := surf m g fa / codeDet m g el

theorem scale_spec {m : Mesh K} {g : Desc K} (hm : Valid m g) {fs : List (List K)} {F : Nat → Nat → K}
    (h : Tab (m.nIn + m.nSe) (2 * m.nElFa) fs F) {el loc fa : Nat} (he : el < m.nIn + m.nSe) (hl : loc < m.nElFa) :
    ∃ fs', scale m true fs el loc (g.area fa) = some fs' ∧ Tab (m.nIn + m.nSe) (2 * m.nElFa) fs'
      (fun e k => if e = el ∧ (k = loc ∨ k = m.nElFa + loc) then F e k * factor m g el fa else F e k) := by
  obtain ⟨hd, hpos⟩ := hm.det el he
  have hj : 0 < codeDet m g el := by
    unfold codeDet
    split
    · exact div_pos hpos (by norm_num)
    · exact hpos
  have hg : ∀ x : K, (if m.tet = true then x / codeDet m g el * g.area fa * 2 else x / codeDet m g el * g.area fa) =
      x * factor m g el fa := by
    intro x
    unfold factor surf
    split <;> ring
  obtain ⟨f1, a1, b1⟩ := upd_spec h he (k := loc) (by omega)
    (fun x => if m.tet = true then x / codeDet m g el * g.area fa * 2 else x / codeDet m g el * g.area fa)
  obtain ⟨f2, a2, b2⟩ := upd_spec b1 he (k := m.nElFa + loc) (by omega)
    (fun x => if m.tet = true then x / codeDet m g el * g.area fa * 2 else x / codeDet m g el * g.area fa)
  refine ⟨f2, ?_, ?_⟩
  · have hc : check (decide (0 < codeDet m g el)) = some () := by simp [hj]
    simp only [scale, hd, if_true, Option.bind_eq_bind, Option.bind_some]
    change ((check (decide (0 < codeDet m g el))).bind fun _ => (upd fs el loc _).bind _) = _
    rw [hc, Option.bind_some]
    erw [a1]
    exact a2
  · intro e hee
    obtain ⟨row, h1, h2⟩ := b2 e hee
    refine ⟨row, h1, fun k hk => ?_⟩
    rw [h2 k hk]
    congr 1
    simp only [hg, put]
    by_cases c1 : e = el
    · subst c1
      by_cases c2 : k = m.nElFa + loc
      · subst c2
        have : m.nElFa ≠ 0 := by omega
        simp [this]
      · by_cases c3 : k = loc
        · subst c3
          have : m.nElFa ≠ 0 := by omega
          simp [this]
        · simp [c2, c3]
    · simp [c1]

omit [Field K] [LinearOrder K] [IsStrictOrderedRing K] in
theorem tab_congr {nEls nF : Nat} {fs : List (List K)} {F G : Nat → Nat → K} (h : Tab nEls nF fs F)
    (he : ∀ e < nEls, ∀ k < nF, F e k = G e k) : Tab nEls nF fs G := by
  intro e hee
  obtain ⟨row, h1, h2⟩ := h e hee
  exact ⟨row, h1, fun k hk => by rw [h2 k hk, he e hee k hk]⟩

omit [IsStrictOrderedRing K] in
theorem fromLeft_spec {m : Mesh K} {nEls : Nat} {fs : List (List K)} {F : Nat → Nat → K} (h : Tab nEls (2 * m.nElFa) fs F)
    {L r i j : Nat} {exR : Bool} (hL : L < nEls) (hi : i < m.nElFa) (hne : r ≠ L) (hr : exR = true → r < nEls ∧ j < m.nElFa)
    (z1 : F L i = 0) (z2 : exR = true → F r (m.nElFa + j) = 0) (a : K) :
    ∃ fs', fromLeft m true exR (L, r) i j (some a) fs = some fs' ∧ Tab nEls (2 * m.nElFa) fs' (fun e k =>
      if e = L ∧ k = i then -max a 0 else if exR = true ∧ e = r ∧ k = m.nElFa + j then max a 0 else F e k) := by
  by_cases ha : 0 < a
  · have hmax : max a 0 = a := max_eq_left ha.le
    obtain ⟨f1, a1, b1⟩ := upd_spec h hL (k := i) (by omega) (fun _ => -a)
    cases exR
    · refine ⟨f1, by simp [fromLeft, ha, updIf, a1], tab_congr b1 fun e _ k _ => by simp [put, hmax]⟩
    · obtain ⟨hr1, hr2⟩ := hr rfl
      obtain ⟨f2, a2, b2⟩ := upd_spec b1 hr1 (k := m.nElFa + j) (by omega) (fun _ => a)
      refine ⟨f2, by simp [fromLeft, ha, updIf, a1, a2], tab_congr b2 fun e _ k _ => ?_⟩
      simp only [put, hmax, true_and]
      by_cases c : e = r
      · subst c
        simp [hne]
      · simp [c]
  · have hmax : max a 0 = 0 := max_eq_right (not_lt.1 ha)
    refine ⟨fs, by simp [fromLeft, ha], tab_congr h fun e _ k _ => ?_⟩
    simp only [hmax, neg_zero]
    split
    · rename_i c; rw [c.1, c.2, z1]
    · split
      · rename_i c; rw [c.2.1, c.2.2, z2 c.1]
      · rfl

/-- Inflow by an optional speed. -/
def inflow : Option K → K
  | some b => max (-b) 0
  | none => 0

theorem fromRight_spec {m : Mesh K} {nEls : Nat} {fs : List (List K)} {F : Nat → Nat → K} (h : Tab nEls (2 * m.nElFa) fs F)
    {L r i j : Nat} {exR : Bool} (hL : L < nEls) (hi : i < m.nElFa) (hne : r ≠ L) (hr : exR = true → r < nEls ∧ j < m.nElFa)
    (z1 : F L (m.nElFa + i) = 0) (z2 : exR = true → F r j = 0) (b : Option K) :
    ∃ fs', fromRight m true exR (L, r) i j b fs = some fs' ∧ Tab nEls (2 * m.nElFa) fs' (fun e k =>
      if e = L ∧ k = m.nElFa + i then inflow b else if exR = true ∧ e = r ∧ k = j then -inflow b else F e k) := by
  have noop : inflow b = 0 → Tab nEls (2 * m.nElFa) fs (fun e k =>
      if e = L ∧ k = m.nElFa + i then inflow b else if exR = true ∧ e = r ∧ k = j then -inflow b else F e k) := by
    intro hz
    refine tab_congr h fun e _ k _ => ?_
    simp only [hz, neg_zero]
    split
    · rename_i c; rw [c.1, c.2, z1]
    · split
      · rename_i c; rw [c.2.1, c.2.2, z2 c.1]
      · rfl
  rcases b with _ | b
  · exact ⟨fs, rfl, noop rfl⟩
  by_cases ha : b < 0
  · have hmax : inflow (some b) = -b := max_eq_left (by linarith)
    obtain ⟨f1, a1, b1⟩ := upd_spec h hL (k := m.nElFa + i) (by omega) (fun _ => -b)
    cases exR
    · refine ⟨f1, by simp [fromRight, ha, updIf, a1], tab_congr b1 fun e _ k _ => by simp [put, hmax]⟩
    · obtain ⟨hr1, hr2⟩ := hr rfl
      obtain ⟨f2, a2, b2⟩ := upd_spec b1 hr1 (k := j) (by omega) (fun _ => b)
      refine ⟨f2, by simp [fromRight, ha, updIf, a1, a2], tab_congr b2 fun e _ k _ => ?_⟩
      simp only [put, hmax, true_and, neg_neg]
      by_cases c : e = r
      · subst c
        simp [hne]
      · simp [c]
  · exact ⟨fs, by simp [fromRight, ha], noop (max_eq_right (by linarith))⟩

/-- Face of slot `k` of the solvers of an element: local contributions in the first half, neighbouring ones in the second. -/
def faceOf (m : Mesh K) (g : Desc K) (el k : Nat) : Nat := g.own el (if k < m.nElFa then k else k - m.nElFa)

/-- Value of slot `k`. -/
def sol (m : Mesh K) (g : Desc K) (el k : Nat) : K :=
  if k < m.nElFa then -outOwn m g el k * factor m g el (g.own el k)
  else inNe m g el (k - m.nElFa) * factor m g el (g.own el (k - m.nElFa))

/-- The solvers after the first `fa` faces. -/
def part (m : Mesh K) (g : Desc K) (fa el k : Nat) : K := if faceOf m g el k < fa then sol m g el k else 0

/-- All four slots of a face. -/
theorem sides_spec {m : Mesh K} {g : Desc K} (hm : Valid m g) {fs : List (List K)} {F : Nat → Nat → K}
    (h : Tab (m.nIn + m.nSe) (2 * m.nElFa) fs F) {L r i j fa : Nat} {exR : Bool} (hL : L < m.nIn + m.nSe) (hi : i < m.nElFa)
    (hne : r ≠ L) (hr : exR = true → r < m.nIn + m.nSe ∧ j < m.nElFa) (z1 : F L i = 0) (z2 : F L (m.nElFa + i) = 0)
    (z3 : exR = true → F r j = 0) (z4 : exR = true → F r (m.nElFa + j) = 0) (a : K) (b : Option K) :
    ∃ fs', ((fromLeft m true exR (L, r) i j (some a) fs).bind fun fs => (fromRight m true exR (L, r) i j b fs).bind fun fs =>
        (scale m true fs L i (g.area fa)).bind fun fs => scale m exR fs r j (g.area fa)) = some fs' ∧
      Tab (m.nIn + m.nSe) (2 * m.nElFa) fs' (fun e k =>
        if e = L ∧ k = i then -max a 0 * factor m g L fa
        else if e = L ∧ k = m.nElFa + i then inflow b * factor m g L fa
        else if exR = true ∧ e = r ∧ k = j then -inflow b * factor m g r fa
        else if exR = true ∧ e = r ∧ k = m.nElFa + j then max a 0 * factor m g r fa else F e k) := by
  have n0 : m.nElFa ≠ 0 := by omega
  obtain ⟨f1, a1, b1⟩ := fromLeft_spec h hL hi hne hr z1 z4 a
  obtain ⟨f2, a2, b2⟩ := fromRight_spec b1 hL hi hne hr (by simp [n0, hne.symm, z2]) (fun hx => by
    simp [hne, n0, z3 hx]) b
  obtain ⟨f3, a3, b3⟩ := scale_spec hm b2 (fa := fa) hL hi
  rw [a1, Option.bind_some, a2, Option.bind_some, a3, Option.bind_some]
  cases exR
  · refine ⟨f3, rfl, tab_congr b3 fun e _ k _ => ?_⟩
    by_cases c : e = L
    · subst c
      by_cases c1 : k = i
      · subst c1; simp [n0]
      · by_cases c2 : k = m.nElFa + i
        · subst c2; simp [n0]
        · simp [c1, c2]
    · simp [c]
  · obtain ⟨hr1, hr2⟩ := hr rfl
    obtain ⟨f4, a4, b4⟩ := scale_spec hm b3 (fa := fa) hr1 hr2
    refine ⟨f4, a4, tab_congr b4 fun e _ k _ => ?_⟩
    by_cases c : e = L
    · subst c
      by_cases c1 : k = i
      · subst c1; simp [n0, hne.symm]
      · by_cases c2 : k = m.nElFa + i
        · subst c2; simp [n0, hne.symm]
        · simp [c1, c2, hne.symm]
    · by_cases d : e = r
      · subst d
        by_cases c1 : k = j
        · subst c1; simp [n0, hne]
        · by_cases c2 : k = m.nElFa + j
          · subst c2; simp [n0, hne]
          · simp [c1, c2, hne]
      · simp [c, d]

omit [IsStrictOrderedRing K] in
theorem sideLoc_spec {m : Mesh K} {g : Desc K} (hm : Valid m g) {el fa : Nat} (he : el < m.nIn + m.nSe) :
    (∀ i < m.nElFa, g.own el i = fa → sideLoc m true el fa = some (some i)) ∧
    ((∀ i < m.nElFa, g.own el i ≠ fa) → sideLoc m true el fa = some none) := by
  obtain ⟨row, h1, h2⟩ := hm.elFa el he
  obtain ⟨r, h3, h4, h5⟩ := findLoc_spec (fa := fa) h2 (hm.once el he)
  have h6 : sideLoc m true el fa = some r := by simp [sideLoc, h1, h3]
  rw [h6]
  rcases r with _ | x
  · exact ⟨fun i hi hc => absurd hc (h5 rfl i hi), fun _ => rfl⟩
  · obtain ⟨hx, hx2⟩ := h4 x rfl
    exact ⟨fun i hi hc => by rw [hm.once el he i hi x hx (by rw [hc, hx2])], fun hc => absurd hx2 (hc x hx)⟩

omit [IsStrictOrderedRing K] in
theorem ownSpeed_spec {m : Mesh K} {g : Desc K} (hm : Valid m g) {el : Nat} (he : el < m.nIn + m.nSe) {n : List K} {h : Nat → K}
    (hn : Holds m.nd n h) : ownSpeed m el n = some (some (dot m.nd (g.v el) h)) := by
  obtain ⟨l, h1, h2⟩ := hm.v el he
  simp [ownSpeed, h1, speed_spec h2 hn]

theorem face_spec {m : Mesh K} {g : Desc K} (hm : Valid m g) {fa : Nat} (hfa : fa < m.nFa) {fs : List (List K)}
    (h : Tab (m.nIn + m.nSe) (2 * m.nElFa) fs (part m g fa)) :
    ∃ fs', face m fa fs = some fs' ∧ Tab (m.nIn + m.nSe) (2 * m.nElFa) fs' (part m g (fa + 1)) := by
  obtain ⟨r, e1, hL, hne, hright⟩ := hm.faEl fa hfa
  obtain ⟨n, e2, hn⟩ := hm.normal fa hfa
  obtain ⟨e3, hA⟩ := hm.area fa hfa
  have e4 := hm.periodic fa hfa
  obtain ⟨i, hi, hiL⟩ := hm.inLeft fa hfa
  have e5 := (sideLoc_spec hm hL).1 i hi hiL
  have e6 := ownSpeed_spec hm hL hn
  have z1 : part m g fa (g.left fa) i = 0 := by simp [part, faceOf, hi, hiL]
  have z2 : part m g fa (g.left fa) (m.nElFa + i) = 0 := by simp [part, faceOf, hiL]
  have cA : check (decide (0 < g.area fa)) = some () := by simp [hA]
  have sL : side g (g.left fa) fa = 1 := by simp [side]
  -- the right side as the code sees it
  obtain ⟨b, exR, j, e7, hr, hb⟩ : ∃ (b : Option K) (exR : Bool) (j : Nat),
      (∃ locR, sideLoc m (decide (r < m.nIn + m.nSe)) r fa = some locR ∧ locR.getD 0 = j ∧ locR.isSome = exR ∧
        rightSpeed m (decide (r < m.nIn + m.nSe)) (g.left fa, r) (some i) n = some b ∧
        check (!decide (r < m.nIn + m.nSe) || locR.isSome || g.per fa) = some ()) ∧
      (exR = true → r < m.nIn + m.nSe ∧ j < m.nElFa ∧ g.own r j = fa) ∧
      (b = (vNe g (g.left fa) i).map (fun w => dot m.nd w (g.n fa)) ∧
        (exR = false → ∀ e, g.right fa = some e → g.per fa = true)) := by
    by_cases hx : r < m.nIn + m.nSe
    · rw [if_pos hx] at hright
      have hv : vNe g (g.left fa) i = some (g.v r) := by simp [vNe, hiL, hright]
      have hs := ownSpeed_spec hm hx hn
      by_cases hf : ∃ j < m.nElFa, g.own r j = fa
      · obtain ⟨j, hj, hjf⟩ := hf
        refine ⟨some (dot m.nd (g.v r) (g.n fa)), true, j, ⟨some j, ?_, rfl, rfl, ?_, ?_⟩, fun _ => ⟨hx, hj, hjf⟩, ?_, by simp⟩
        · simpa [hx] using (sideLoc_spec hm hx).1 j hj hjf
        · simpa [hx, rightSpeed] using hs
        · simp
        · rw [hv]; rfl
      · have hf' : ∀ j < m.nElFa, g.own r j ≠ fa := fun j hj hc => hf ⟨j, hj, hc⟩
        have hp : g.per fa = true := by
          by_contra hc
          obtain ⟨j, hj, hjf⟩ := hm.inRight fa hfa r hright (by simpa using hc)
          exact hf' j hj hjf
        refine ⟨some (dot m.nd (g.v r) (g.n fa)), false, 0, ⟨none, ?_, rfl, rfl, ?_, ?_⟩, by simp, ?_, fun _ _ _ => hp⟩
        · simpa [hx] using (sideLoc_spec hm hx).2 hf'
        · simpa [hx, rightSpeed] using hs
        · simp [hp]
        · rw [hv]; rfl
    · rw [if_neg hx] at hright
      have hv : vNe g (g.left fa) i = g.re (g.left fa) i := by simp [vNe, hiL, hright]
      refine ⟨(g.re (g.left fa) i).map (fun w => dot m.nd w (g.n fa)), false, 0, ⟨none, ?_, rfl, rfl, ?_, ?_⟩, by simp, by rw [hv], ?_⟩
      · simp [hx, sideLoc]
      · by_cases hs : m.nIn ≤ g.left fa
        · simpa [hx, hs, rightSpeed] using recvSpeed_spec hm n hn
        · have : g.re (g.left fa) i = none := by
            rcases hre : g.re (g.left fa) i with _ | w
            · rfl
            · exact absurd (hm.recvAll _ _ _ hre).1 hs
          simp [hx, hs, this, rightSpeed]
      · simp [hx]
      · intro _ e he
        rw [hright] at he
        cases he
  obtain ⟨locR, e7, hj, hexR, e8, e9⟩ := e7
  rw [hexR] at e9
  obtain ⟨hb, hper⟩ := hb
  obtain ⟨fs', hfs, ht⟩ := sides_spec hm h (fa := fa) hL hi hne (fun hx => ⟨(hr hx).1, (hr hx).2.1⟩) z1 z2
    (fun hx => by simp [part, faceOf, (hr hx).2.1, (hr hx).2.2]) (fun hx => by simp [part, faceOf, (hr hx).2.2])
    (dot m.nd (g.v (g.left fa)) (g.n fa)) b
  refine ⟨fs', ?_, tab_congr ht fun e he k hk => ?_⟩
  · unfold face
    simp only [e1, e2, e3, e4, Option.bind_eq_bind, Option.bind_some, hL, decide_true, if_true, e5, e6, e7, e8, e9, cA, hj, hexR,
      Bool.not_true, Bool.false_or, Option.isSome_some, Bool.true_or, check_true, Bool.true_and, Option.getD_some]
    exact hfs
  · -- comparison of the slots
    have hin : inflow b = inNe m g (g.left fa) i := by
      rw [hb, inNe, hiL, sL]
      rcases vNe g (g.left fa) i with _ | w <;> simp [inflow]
    by_cases hf : faceOf m g e k = fa
    · have hlt : faceOf m g e k < fa + 1 := by omega
      rw [show part m g (fa + 1) e k = sol m g e k from if_pos hlt]
      by_cases hk1 : k < m.nElFa
      · have hok : g.own e k = fa := by simpa [faceOf, hk1] using hf
        by_cases hel : e = g.left fa
        · have hki : k = i := by
            subst hel
            exact hm.once _ hL k hk1 i hi (by rw [hok, hiL])
          rw [if_pos ⟨hel, hki⟩, sol, if_pos hk1, outOwn, hok, hel, sL, one_mul]
        · have hrt : g.right fa = some e ∧ g.per fa = false := by
            have := (hm.faces e he k hk1).2
            rw [hok] at this
            rcases this with h1 | h1
            · exact absurd h1.symm hel
            · exact h1
          have hx : exR = true := by
            by_contra hc
            have := hper (by simpa using hc) e hrt.1
            rw [hrt.2] at this; cases this
          have her : e = r := by
            rw [if_pos (hr hx).1] at hright
            rw [hright] at hrt
            exact (Option.some.inj hrt.1).symm
          have hkj : k = j := by
            subst her
            exact hm.once _ he k hk1 j (hr hx).2.1 (by rw [hok, (hr hx).2.2])
          rw [if_neg (fun hc => hel hc.1), if_neg (fun hc => hel hc.1), if_pos ⟨hx, her, hkj⟩, sol, if_pos hk1, outOwn, hok]
          have hs : side g e fa = -1 := by simp [side, Ne.symm hel]
          have hbb : b = some (dot m.nd (g.v e) (g.n fa)) := by
            rw [hb, vNe, hiL, if_pos rfl, hrt.1]; rfl
          rw [hs, hbb, inflow, neg_one_mul, her]
      · have hok : g.own e (k - m.nElFa) = fa := by simpa [faceOf, hk1] using hf
        have hk2 : k - m.nElFa < m.nElFa := by omega
        by_cases hel : e = g.left fa
        · have hki : k - m.nElFa = i := by
            subst hel
            exact hm.once _ hL _ hk2 i hi (by rw [hok, hiL])
          have hki2 : k = m.nElFa + i := by omega
          rw [if_neg (fun hc => by omega), if_pos ⟨hel, hki2⟩, sol, if_neg hk1, hki, hin, hel, hiL]
        · have hrt : g.right fa = some e ∧ g.per fa = false := by
            have := (hm.faces e he _ hk2).2
            rw [hok] at this
            rcases this with h1 | h1
            · exact absurd h1.symm hel
            · exact h1
          have hx : exR = true := by
            by_contra hc
            have := hper (by simpa using hc) e hrt.1
            rw [hrt.2] at this; cases this
          have her : e = r := by
            rw [if_pos (hr hx).1] at hright
            rw [hright] at hrt
            exact (Option.some.inj hrt.1).symm
          have hkj : k - m.nElFa = j := by
            subst her
            exact hm.once _ he _ hk2 j (hr hx).2.1 (by rw [hok, (hr hx).2.2])
          have hkj2 : k = m.nElFa + j := by omega
          have hjlt := (hr hx).2.1
          rw [if_neg (fun hc => hel hc.1), if_neg (fun hc => hel hc.1), if_neg (fun hc => by omega), if_pos ⟨hx, her, hkj2⟩, sol,
            if_neg hk1, inNe, hok]
          have hs : side g e fa = -1 := by simp [side, Ne.symm hel]
          have hbb : vNe g e (k - m.nElFa) = some (g.v (g.left fa)) := by
            rw [vNe, hok, if_neg (Ne.symm hel)]
          rw [hs, hbb]
          simp only [neg_one_mul, neg_neg, her]
    · have hlt : faceOf m g e k < fa + 1 ↔ faceOf m g e k < fa := by omega
      have c1 : ¬ (e = g.left fa ∧ k = i) := by
        rintro ⟨rfl, rfl⟩; exact hf (by simp [faceOf, hi, hiL])
      have c2 : ¬ (e = g.left fa ∧ k = m.nElFa + i) := by
        rintro ⟨rfl, rfl⟩; exact hf (by simp [faceOf, hiL])
      have c3 : ¬ (exR = true ∧ e = r ∧ k = j) := by
        rintro ⟨hx, rfl, rfl⟩; exact hf (by simp [faceOf, (hr hx).2.1, (hr hx).2.2])
      have c4 : ¬ (exR = true ∧ e = r ∧ k = m.nElFa + j) := by
        rintro ⟨hx, rfl, rfl⟩; exact hf (by simp [faceOf, (hr hx).2.2])
      rw [if_neg c1, if_neg c2, if_neg c3, if_neg c4, part, part]
      simp only [hlt]

theorem setup_spec {m : Mesh K} {g : Desc K} (hm : Valid m g) :
    ∃ fs, setupSolvers m = some fs ∧ Tab (m.nIn + m.nSe) (2 * m.nElFa) fs (sol m g) := by
  obtain ⟨fs, h1, h2⟩ := forN_inv (n := m.nFa) (body := face m)
    (s := List.replicate (m.nIn + m.nSe) (List.replicate (2 * m.nElFa) (0 : K)))
    (fun fa fs => Tab (m.nIn + m.nSe) (2 * m.nElFa) fs (part m g fa))
    (fun el he => ⟨_, by simp [rd, he]; rfl, fun k hk => by simp [rd, hk, part]⟩)
    (fun fa fs hfa h => face_spec hm hfa h)
  refine ⟨fs, h1, tab_congr h2 fun e he k hk => ?_⟩
  have : faceOf m g e k < m.nFa := by
    unfold faceOf
    split
    · exact (hm.faces e he k (by assumption)).1
    · exact (hm.faces e he _ (by omega)).1
  rw [part, if_pos this]

end
end Edge.Advection
