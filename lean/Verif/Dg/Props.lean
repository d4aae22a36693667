import Verif.Dg.Lts
/-!
Further theorems about time prediction and integrals in time (C58, C74), and cases which meet the hypotheses of the theorems of
this directory.
-/
namespace Edge.Dg
open Edge Edge.Linalg Finset

/-! ### Modes of the element types -/

/-- Element types (`t_entityType`, src/constants.hpp:28-59) of the seismic solver. -/
inductive El | line | quad4r | tria3 | hex8r | tet4

/-- `CE_N_ELEMENT_MODES` (src/constants.hpp:111-125). Unsigned overflow is not modelled. -/
def elModes : El → Nat → Nat
  | .line, o => o
  | .quad4r, o => o * o
  | .tria3, o => (o * o + o) / 2
  | .hex8r, o => o * o * o
  | .tet4, o => o * (o + 1) * (o + 2) / 6

/-- `CE_N_ELEMENT_MODES_CK` (src/constants.hpp:134-141). The kernels call it with `der ≤ order` only. -/
def elModesCk : El → Nat → Nat → Nat
  | .tria3, o, d => elModes .tria3 (o - d)
  | .tet4, o, d => elModes .tet4 (o - d)
  | e, o, _ => elModes e o

theorem elModesCk_le (e : El) (o d : Nat) : elModesCk e o d ≤ elModes e o := by
  have h : o - d ≤ o := Nat.sub_le _ _
  cases e with
  | tria3 => exact Nat.div_le_div_right (Nat.add_le_add (Nat.mul_le_mul h h) h)
  | tet4 => exact Nat.div_le_div_right (Nat.mul_le_mul (Nat.mul_le_mul h (by omega)) (by omega))
  | _ => exact le_rfl

/-- The modes of the element types meet the hypothesis on the sizes for every order and number of mechanisms and runs: two and
three-dimensional seismic problems (5 or 9 elastic quantities, 3 or 6 memory variables). -/
theorem sizes_el (e : El) (three : Bool) (o mdsFa crs rms fas : Nat) (ho : 0 < o) :
    Sizes ⟨if three then 3 else 2, if three then 9 else 5, if three then 6 else 3, elModes e o, mdsFa, crs, rms, o, fas,
      elModesCk e o⟩ := by
  refine ⟨by cases three <;> simp, ho, by cases e <;> rfl, elModesCk_le e o⟩

section
variable {K : Type} [Field K] [LinearOrder K]

/-! ### Elastic and relaxation -/

/-- C74: without relaxation mechanisms the prediction holds the derivatives and the time integral of the solution of the
equations which the volume integration (`C74_volInt`) uses. -/
theorem C74_elastic_partial {c : Cfg} (hs : Sizes c) (hr : c.nRms = 0) {dT : K} {stiffT starE starA srcA : List (List K)}
    {rfs : List K} {G S SA src : Nat → Nat → Nat → K} {rf : Nat → K} (hG : Mats c.nDis c.nMds c.nMds c.nMds stiffT G)
    (hh : Hier c G) (hm3 : Mats3 c starE starA srcA rfs S SA src rf) {dofsE : List K} {dofsA : List (List K)}
    {e0 : Nat → Nat → Nat → K} {a0 : Nat → Nat → Nat → Nat → K} (he : Rep c.nQtsE c.nMds c.nCrs dofsE e0)
    (ha : PerRm c a0 dofsA) {m : CkMem K} (hm : CkOut c m) :
    ∃ m', ck c dT stiffT starE starA srcA rfs dofsE dofsA m = some m' ∧
      (∀ n < c.oTi, ∃ d, rd m'.derE n = some d ∧
        Rep c.nQtsE c.nMds c.nCrs d (derivs c (-1) G S SA src rf e0 a0 n).1) ∧
      Rep c.nQtsE c.nMds c.nCrs m'.tIntE (fun q md r =>
        taylorInt c.oTi dT (fun n => (derivs c (-1) G S SA src rf e0 a0 n).1 q md r)) := by
  obtain ⟨m', h0, -, h1, -, h2, -⟩ := C74_ck_partial (dT := dT) hs hG hh hm3 he ha hm
  refine ⟨m', h0, fun n hn => ?_, ?_⟩
  · obtain ⟨d, g0, g1⟩ := h1 n hn
    exact ⟨d, g0, by rw [derivs_relax hr (-1) 1]; exact g1⟩
  · refine h2.congr fun q md r _ _ _ => ?_
    congr 1
    funext n
    rw [derivs_relax hr 1 (-1)]

/-- C74 is violated with relaxation: the first derivative of every memory variable `a ≠ 0` with relaxation frequency `ω ≠ 0` is
off by `2 ω a` from the one of the equations which the volume integration uses: the prediction of the memory variables grows
where the equations decay. -/
theorem C74_relaxation_refuted {c : Cfg} (hs : Sizes c) (ho : 1 < c.oTi) {dT : K} {stiffT starE starA srcA : List (List K)}
    {rfs : List K} {G S SA src : Nat → Nat → Nat → K} {rf : Nat → K} (hG : Mats c.nDis c.nMds c.nMds c.nMds stiffT G)
    (hh : Hier c G) (hm3 : Mats3 c starE starA srcA rfs S SA src rf) {dofsE : List K} {dofsA : List (List K)}
    {e0 : Nat → Nat → Nat → K} {a0 : Nat → Nat → Nat → Nat → K} (he : Rep c.nQtsE c.nMds c.nCrs dofsE e0)
    (ha : PerRm c a0 dofsA) {m : CkMem K} (hm : CkOut c m) {rm q md r : Nat} (hrm : rm < c.nRms) (h1 : q < c.nQtsM)
    (h2 : md < c.nMds) (h3 : r < c.nCrs) (h20 : (2 : K) ≠ 0) (hrf : rf rm ≠ 0) (haz : a0 rm q md r ≠ 0) :
    ∃ m' dA d x, ck c dT stiffT starE starA srcA rfs dofsE dofsA m = some m' ∧ rd m'.derA rm = some dA ∧ rd dA 1 = some d ∧
      d[at3 c.nMds c.nCrs q md r]? = some x ∧ x = rhsA c (-1) G SA rf e0 a0 rm q md r + 2 * rf rm * a0 rm q md r ∧
      x ≠ rhsA c (-1) G SA rf e0 a0 rm q md r := by
  obtain ⟨m', h0, -, -, g, -, -⟩ := C74_ck_partial (dT := dT) hs hG hh hm3 he ha hm
  obtain ⟨dA, g0, g1⟩ := g rm hrm
  obtain ⟨d, k0, k1⟩ := g1 1 ho
  have e : rhsA c 1 G SA rf e0 a0 rm q md r = rhsA c (-1) G SA rf e0 a0 rm q md r + 2 * rf rm * a0 rm q md r := by
    simp only [rhsA]; ring
  refine ⟨m', dA, d, _, h0, g0, k0, k1.2 q md r h1 h2 h3, e, ?_⟩
  show rhsA c 1 G SA rf e0 a0 rm q md r ≠ _
  rw [e]
  intro h
  have : 2 * rf rm * a0 rm q md r = 0 := by
    have := sub_eq_zero.2 h
    rwa [add_sub_cancel_left] at this
  rcases mul_eq_zero.1 this with h' | h'
  · rcases mul_eq_zero.1 h' with h'' | h''
    exacts [h20 h'', hrf h'']
  · exact haz h'

/-- All points of an evaluation. -/
theorem evalTimePrediction_spec {c : Cfg} {pts : List K} {der pre : List (List K)} {pre' : Nat → List K}
    (hl : pre.length = pts.length) (h : ∀ l p b, pts[l]? = some p → pre[l]? = some b → evalPoint c p der b = some (pre' l)) :
    ∃ out, evalTimePrediction c pts der pre = some out ∧ out.length = pts.length ∧
      ∀ l < pts.length, out[l]? = some (pre' l) := by
  obtain ⟨o, h0, h1, h2, -⟩ := forN_inv (n := pts.length) (s := pre) (body := fun l pre => do
    let pt ← rd pts l
    let p ← rd pre l
    let p ← evalPoint c pt der p
    wr pre l p)
    (fun i o => o.length = pts.length ∧ (∀ l < i, o[l]? = some (pre' l)) ∧ ∀ l, i ≤ l → o[l]? = pre[l]?)
    ⟨hl, by simp, by simp⟩ (by
    intro i o hi ⟨k1, k2, k3⟩
    have e1 : rd pts i = some pts[i] := List.getElem?_eq_getElem hi
    have e2 : rd o i = some (o[i]'(by omega)) := List.getElem?_eq_getElem (by omega)
    have e3 := h i _ _ e1 ((k3 i le_rfl).symm.trans e2)
    refine ⟨o.set i (pre' i), ?_, by simp [k1], fun l hl => ?_, fun l hl => ?_⟩
    · simp only [Option.bind_eq_bind]
      rw [e1, Option.bind_some, e2, Option.bind_some, e3, Option.bind_some, wr_some (by omega)]
    · by_cases e : i = l
      · subst e; rw [List.getElem?_set_self (by omega)]
      · rw [List.getElem?_set_ne e]; exact k2 l (by omega)
    · rw [List.getElem?_set_ne (by omega)]; exact k3 l (by omega))
  exact ⟨o, h0, h1, h2⟩

end

/-! ### The prediction of an element in time -/

/-- The prediction: Taylor polynomials of the derivatives. -/
theorem prediction_taylor {c : Cfg} (hs : Sizes c) (hr : c.nRms = 0) {dT : ℝ} {stiffT starE starA srcA : List (List ℝ)}
    {rfs : List ℝ} {G S SA src : Nat → Nat → Nat → ℝ} {rf : Nat → ℝ} (hG : Mats c.nDis c.nMds c.nMds c.nMds stiffT G)
    (hh : Hier c G) (hm3 : Mats3 c starE starA srcA rfs S SA src rf) {dofsE : List ℝ} {dofsA : List (List ℝ)}
    {e0 : Nat → Nat → Nat → ℝ} {a0 : Nat → Nat → Nat → Nat → ℝ} (he : Rep c.nQtsE c.nMds c.nCrs dofsE e0)
    (ha : PerRm c a0 dofsA) {m : CkMem ℝ} (hm : CkOut c m) :
    ∀ P : ℝ → Nat → Nat → Nat → ℝ, (P = fun τ q md r => taylor c.oTi τ (fun n => (derivs c 1 G S SA src rf e0 a0 n).1 q md r)) →
    ∃ m' : CkMem ℝ, ck c dT stiffT starE starA srcA rfs dofsE dofsA m = some m' ∧
      (∀ q md r, P 0 q md r = e0 q md r) ∧
      Rep c.nQtsE c.nMds c.nCrs m'.tIntE (fun q md r => ∫ τ in 0..dT, P τ q md r) ∧
      (∀ (pts : List ℝ) (pre : List (List ℝ)), Arrs pts.length (c.nQtsE * c.nMds * c.nCrs) pre →
        ∃ out, evalTimePrediction c pts m'.derE pre = some out ∧ out.length = pts.length ∧
          ∀ (l : Nat) (τ : ℝ), pts[l]? = some τ → ∃ x, out[l]? = some x ∧ Rep c.nQtsE c.nMds c.nCrs x (P τ)) ∧
      (∀ (t : ℝ) (buf : List ℝ), buf.length = c.nQtsE * c.nMds * c.nCrs →
        ∃ x, integrate c t m'.derE buf = some x ∧ Rep c.nQtsE c.nMds c.nCrs x (fun q md r => ∫ τ in 0..t, P τ q md r)) := by
  rintro P rfl
  obtain ⟨m', h0, -, h1, -, h2, -⟩ := C74_ck_partial (dT := dT) hs hG hh hm3 he ha hm
  have hz := derivs_zero (a0 := a0) (e0 := e0) (S := S) (SA := SA) (src := src) (rf := rf) (relax := (1 : ℝ)) hs hr hh
  have e0' : ∀ f, taylorInt c.oTi (0 : ℝ) f = 0 := fun f => by simp [taylorInt]
  have ho := hs.ord
  have hev : ∀ (n q md r : Nat), n < c.oTi → md < c.nMds → (if md < c.ck n then (derivs c 1 G S SA src rf e0 a0 n).1 q md r else 0) =
      (derivs c 1 G S SA src rf e0 a0 n).1 q md r := fun n q md r h1 h2 => by
    by_cases hc : md < c.ck n
    · rw [if_pos hc]
    · rw [if_neg hc, hz n h1 q md r (by omega) h2]
  refine ⟨m', h0, ?_, ?_, ?_, ?_⟩
  · intro q md r
    simp only [taylor]
    rw [sum_eq_single 0]
    · simp [derivs]
    · intro n _ hn; simp [hn]
    · intro h; simp at h; omega
  · exact h2.congr fun q md r _ _ _ => by rw [integral_taylor, e0', sub_zero]
  · intro pts pre hpre
    have h : ∀ l (hl : l < pts.length), ∃ x, Rep c.nQtsE c.nMds c.nCrs x (fun q md r => taylor c.oTi pts[l]
        (fun n => if md < c.ck n then (derivs c 1 G S SA src rf e0 a0 n).1 q md r else 0)) := by
      intro l hl
      obtain ⟨b, b0, b1⟩ := hpre.2 l hl
      obtain ⟨x, -, x1⟩ := evalPoint_spec (pt := pts[l]) hs h1 b1
      exact ⟨x, x1⟩
    have hinh : Inhabited (List ℝ) := ⟨[]⟩
    choose o o1 using h
    obtain ⟨out, k0, k1, k2⟩ := evalTimePrediction_spec (c := c) (pts := pts) (der := m'.derE) (pre := pre)
      (pre' := fun l => if hl : l < pts.length then o l hl else []) hpre.1 (by
      intro l p b hp hb
      have hl : l < pts.length := (List.getElem?_eq_some_iff.1 hp).1
      have ep : pts[l] = p := (List.getElem?_eq_some_iff.1 hp).2
      obtain ⟨b', hb0, hb1⟩ := hpre.2 l hl
      rw [hb] at hb0
      cases hb0
      rw [dif_pos hl, ← ep]
      obtain ⟨x, x0, x1⟩ := evalPoint_spec (pt := pts[l]) hs h1 hb1
      rw [x0]
      have := x1.ext (o1 l hl)
      rw [this])
    refine ⟨out, k0, k1, fun l τ hl => ?_⟩
    have hl' : l < pts.length := (List.getElem?_eq_some_iff.1 hl).1
    have el : pts[l] = τ := (List.getElem?_eq_some_iff.1 hl).2
    refine ⟨o l hl', by rw [k2 l hl', dif_pos hl'], (o1 l hl').congr fun q md r _ h2 _ => ?_⟩
    rw [el]
    simp only [taylor]
    refine sum_congr rfl fun n hn => ?_
    rw [hev n q md r (mem_range.1 hn) h2]
  · intro t buf hb
    obtain ⟨x, x0, x1⟩ := integrate_spec (dt := t) hs h1 hb
    refine ⟨x, x0, x1.congr fun q md r _ h2 _ => ?_⟩
    rw [integral_taylor, e0', sub_zero]
    simp only [taylorInt]
    refine sum_congr rfl fun n hn => ?_
    congr 1
    by_cases hc : c.nRms = 0 ∧ ¬ md < c.ck n
    · rw [if_pos hc, hz n (mem_range.1 hn) q md r (by omega) h2]
    · rw [if_neg hc]

/-- C58, from the degrees of freedom of an element: without relaxation mechanisms there is a function `P` in time (per
quantity, mode and run) with `P 0` the degrees of freedom, such that the prediction evaluated at any list of points in time
holds the values of `P`, the time integral of the prediction step is the integral of `P` over the time step, and so is any
integral over `[0, t]` of the derivatives. -/
theorem C58_prediction_partial {c : Cfg} (hs : Sizes c) (hr : c.nRms = 0) {dT : ℝ} {stiffT starE starA srcA : List (List ℝ)}
    {rfs : List ℝ} {G S SA src : Nat → Nat → Nat → ℝ} {rf : Nat → ℝ} (hG : Mats c.nDis c.nMds c.nMds c.nMds stiffT G)
    (hh : Hier c G) (hm3 : Mats3 c starE starA srcA rfs S SA src rf) {dofsE : List ℝ} {dofsA : List (List ℝ)}
    {e0 : Nat → Nat → Nat → ℝ} {a0 : Nat → Nat → Nat → Nat → ℝ} (he : Rep c.nQtsE c.nMds c.nCrs dofsE e0)
    (ha : PerRm c a0 dofsA) {m : CkMem ℝ} (hm : CkOut c m) :
    ∃ (m' : CkMem ℝ) (P : ℝ → Nat → Nat → Nat → ℝ), ck c dT stiffT starE starA srcA rfs dofsE dofsA m = some m' ∧
      (∀ q md r, P 0 q md r = e0 q md r) ∧
      Rep c.nQtsE c.nMds c.nCrs m'.tIntE (fun q md r => ∫ τ in 0..dT, P τ q md r) ∧
      (∀ (pts : List ℝ) (pre : List (List ℝ)), Arrs pts.length (c.nQtsE * c.nMds * c.nCrs) pre →
        ∃ out, evalTimePrediction c pts m'.derE pre = some out ∧ out.length = pts.length ∧
          ∀ (l : Nat) (τ : ℝ), pts[l]? = some τ → ∃ x, out[l]? = some x ∧ Rep c.nQtsE c.nMds c.nCrs x (P τ)) ∧
      (∀ (t : ℝ) (buf : List ℝ), buf.length = c.nQtsE * c.nMds * c.nCrs →
        ∃ x, integrate c t m'.derE buf = some x ∧ Rep c.nQtsE c.nMds c.nCrs x (fun q md r => ∫ τ in 0..t, P τ q md r)) := by
  obtain ⟨m', h⟩ := prediction_taylor (dT := dT) hs hr hG hh hm3 he ha hm _ rfl
  exact ⟨m', fun τ q md r => taylor c.oTi τ (fun n => (derivs c 1 G S SA src rf e0 a0 n).1 q md r), h⟩

/-- C58 is violated with relaxation mechanisms, from the degrees of freedom of an element (second order in time): if the source
term `Σ_rm src_rm a_rm` of the memory variables is not zero in a mode which the first derivative of the elastic part does not
have, the time integral of the prediction step is not the integral of the evaluated prediction. -/
theorem C58_relaxation_refuted {c : Cfg} (hs : Sizes c) (hr : 0 < c.nRms) (ho : c.oTi = 2) {dT : ℝ} (hdT : dT ≠ 0)
    {stiffT starE starA srcA : List (List ℝ)} {rfs : List ℝ} {G S SA src : Nat → Nat → Nat → ℝ} {rf : Nat → ℝ}
    (hG : Mats c.nDis c.nMds c.nMds c.nMds stiffT G) (hh : Hier c G) (hm3 : Mats3 c starE starA srcA rfs S SA src rf)
    {dofsE : List ℝ} {dofsA : List (List ℝ)} {e0 : Nat → Nat → Nat → ℝ} {a0 : Nat → Nat → Nat → Nat → ℝ}
    (he : Rep c.nQtsE c.nMds c.nCrs dofsE e0) (ha : PerRm c a0 dofsA) {m : CkMem ℝ} (hm : CkOut c m)
    {q md r : Nat} (h1 : q < c.nQtsM) (h2 : md < c.nMds) (h3 : r < c.nCrs) (hmd : c.ck 1 ≤ md)
    (hx : ∑ rm ∈ range c.nRms, ∑ p ∈ range c.nQtsM, src rm q p * a0 rm p md r ≠ 0) {buf : List ℝ}
    (hb : buf.length = c.nQtsE * c.nMds * c.nCrs) :
    ∃ (m' : CkMem ℝ) (pre : ℝ → List ℝ) (P : ℝ → ℝ) (y : ℝ),
      ck c dT stiffT starE starA srcA rfs dofsE dofsA m = some m' ∧
      (∀ τ, evalTimePrediction c [τ] m'.derE [buf] = some [pre τ] ∧ (pre τ)[at3 c.nMds c.nCrs q md r]? = some (P τ)) ∧
      m'.tIntE[at3 c.nMds c.nCrs q md r]? = some y ∧ y ≠ ∫ τ in 0..dT, P τ := by
  obtain ⟨m', h0, hm', hd, -, ht, -⟩ := C74_ck_partial (dT := dT) hs hG hh hm3 he ha hm
  have hq : q < c.nQtsE := by have := hs.qts; omega
  have hD1 : (derivs c 1 G S SA src rf e0 a0 1).1 q md r ≠ 0 := by
    show rhsE c G S src e0 a0 q md r ≠ 0
    rw [rhsE, if_pos h1, sum_eq_zero, zero_add]
    · exact hx
    · intro di hdi
      refine sum_eq_zero fun p _ => ?_
      rw [sum_eq_zero, mul_zero]
      intro k hk
      rw [hh 0 di k md (fun _ => rfl) (by omega) (mem_range.1 hdi) (by rw [hs.ck0]; exact mem_range.1 hk) hmd h2, mul_zero]
  obtain ⟨pre, P, tInt, y, k1, k2, k3, k4, k5⟩ := C58_derivatives_refuted hs hr ho hd hq h2 h3 hmd hD1 hb hm'.tIntE hdT
  refine ⟨m', pre, P, y, h0, fun τ => ⟨?_, (k1 τ).2⟩, ?_, k5⟩
  · simp [evalTimePrediction, forN, rd, wr, (k1 τ).1]
  · obtain ⟨t2, z0, z1⟩ := integrate_spec (dt := dT) hs hd hm'.tIntE
    rw [k2] at z0
    cases z0
    rw [← k3]
    congr 1
    refine ht.ext (z1.congr fun q md r _ _ _ => ?_)
    have : ¬ c.nRms = 0 := by omega
    simp [this]

/-! ### Cases which meet the hypotheses -/

section
variable {K : Type}

/-- Array with given entries. -/
def mk3 (Q M R : Nat) (f : Nat → Nat → Nat → K) : List K :=
  (List.range (Q * M * R)).map (fun p => f (p / R / M) (p / R % M) (p % R))

theorem rep_mk (Q M R : Nat) (f : Nat → Nat → Nat → K) : Rep Q M R (mk3 Q M R f) f := by
  refine ⟨by simp [mk3], fun q md r h1 h2 h3 => ?_⟩
  have hlt := at3_lt h1 h2 h3
  have e : at3 M R q md r = (q * M + md) * R + r := by rw [at3]; ring
  have e1 : at3 M R q md r / R = q * M + md := by
    rw [e, Nat.mul_comm, Nat.mul_add_div (by omega), Nat.div_eq_of_lt h3, Nat.add_zero]
  have e2 : at3 M R q md r % R = r := by rw [e, Nat.mul_comm, Nat.mul_add_mod, Nat.mod_eq_of_lt h3]
  rw [mk3, List.getElem?_map, List.getElem?_range hlt, Option.map_some, e1, e2, Nat.mul_comm q M,
    Nat.mul_add_div (by omega), Nat.div_eq_of_lt h2, Nat.mul_add_mod, Nat.mod_eq_of_lt h2, Nat.add_zero]

/-- Matrix with given entries. -/
def mkMat (rows cols : Nat) (f : Nat → Nat → K) : List K := (List.range (rows * cols)).map (fun p => f (p / cols) (p % cols))

theorem mat_mk (rows cols : Nat) (f : Nat → Nat → K) : Mat rows cols cols (mkMat rows cols f) f := by
  intro i j hi hj
  rw [mkMat, List.getElem?_map, List.getElem?_range (mad_lt hi hj), Option.map_some, Nat.mul_comm i,
    Nat.mul_add_div (by omega), Nat.div_eq_of_lt hj, Nat.mul_add_mod, Nat.mod_eq_of_lt hj, Nat.add_zero]

theorem mats_mk (n rows cols : Nat) (f : Nat → Nat → Nat → K) :
    Mats n rows cols cols ((List.range n).map fun i => mkMat rows cols (f i)) f := by
  intro i hi
  exact ⟨_, by simp [rd, hi], mat_mk rows cols (f i)⟩

theorem perRm_mk (c : Cfg) (f : Nat → Nat → Nat → Nat → K) :
    PerRm c f ((List.range c.nRms).map fun rm => mk3 c.nQtsM c.nMds c.nCrs (f rm)) :=
  ⟨by simp, fun rm h => ⟨_, by simp [rd, h], rep_mk _ _ _ (f rm)⟩⟩

theorem arrs_replicate (n sz : Nat) (x : K) : Arrs n sz (List.replicate n (List.replicate sz x)) :=
  ⟨by simp, fun i hi => ⟨List.replicate sz x, by simp [hi], by simp⟩⟩

/-- Zeroed output arguments. -/
def ckMem0 [Zero K] (c : Cfg) : CkMem K :=
  ⟨List.replicate c.oTi (List.replicate (c.nQtsE * c.nMds * c.nCrs) 0),
    List.replicate c.nRms (List.replicate c.oTi (List.replicate (c.nQtsM * c.nMds * c.nCrs) 0)),
    List.replicate (c.nQtsE * c.nMds * c.nCrs) 0, List.replicate c.nRms (List.replicate (c.nQtsM * c.nMds * c.nCrs) 0),
    List.replicate (c.nQtsE * c.nMds * c.nCrs) 0⟩

theorem ckMem0_out [Zero K] (c : Cfg) : CkOut c (ckMem0 c : CkMem K) :=
  ⟨arrs_replicate _ _ _, ⟨by simp [ckMem0], fun rm h =>
    ⟨List.replicate c.oTi (List.replicate (c.nQtsM * c.nMds * c.nCrs) 0), by simp [ckMem0, rd, h], arrs_replicate _ _ _⟩⟩,
    by simp [ckMem0], arrs_replicate _ _ _, by simp [ckMem0]⟩

end

/-- Triangles of second order, two fused runs, `rms` relaxation mechanisms. -/
def exCfg (rms : Nat) : Cfg := ⟨2, 5, 3, elModes .tria3 2, 2, 2, rms, 2, 3, elModesCk .tria3 2⟩

theorem exCfg_sizes (rms : Nat) : Sizes (exCfg rms) := sizes_el .tria3 false 2 2 2 rms 3 (by decide)

/-- Stiffness matrices: the derivatives of the two linear modes are constants. -/
def exG (di m md : Nat) : ℝ := if md = 0 ∧ 0 < m then di + m else 0

theorem exG_hier (rms : Nat) : Hier (exCfg rms) exG := by
  intro n di m md _ h2 _ _ h5 _
  have hn : n = 0 := by change n + 1 < 2 at h2; omega
  subst hn
  change 1 ≤ md at h5
  rw [exG, if_neg (by omega)]

/-- Jacobians, sources, frequencies and degrees of freedom. -/
def exS (di i j : Nat) : ℝ := di + 2 * i - j + 1
def exRf (rm : Nat) : ℝ := rm + 1
def exE (q md r : Nat) : ℝ := q - 2 * md + r
def exA (rm q md r : Nat) : ℝ := rm + q + md + r + 1

theorem exMats3 (rms : Nat) : ∃ starE starA srcA : List (List ℝ), ∃ rfs : List ℝ,
    Mats3 (exCfg rms) starE starA srcA rfs exS exS exS exRf :=
  ⟨_, _, _, (List.range rms).map exRf, ⟨mats_mk _ _ _ exS, fun _ => mats_mk _ _ _ exS, mats_mk _ _ _ exS,
    fun rm (h : rm < rms) => by simp [rd, h]⟩⟩

/-- `C74_ck_partial`, `C74_relaxation_refuted` and `C58_relaxation_refuted` with three relaxation mechanisms, and
`C74_elastic_partial` and `C58_prediction_partial` without them. -/
example : ∃ (stiffT starE starA srcA : List (List ℝ)) (rfs dofsE : List ℝ) (dofsA : List (List ℝ)),
    Mats (exCfg 3).nDis (exCfg 3).nMds (exCfg 3).nMds (exCfg 3).nMds stiffT exG ∧ Hier (exCfg 3) exG ∧
    Mats3 (exCfg 3) starE starA srcA rfs exS exS exS exRf ∧
    Rep (exCfg 3).nQtsE (exCfg 3).nMds (exCfg 3).nCrs dofsE exE ∧ PerRm (exCfg 3) exA dofsA ∧
    CkOut (exCfg 3) (ckMem0 (exCfg 3) : CkMem ℝ) ∧ Sizes (exCfg 3) ∧ 1 < (exCfg 3).oTi ∧ exRf 1 ≠ 0 ∧ exA 1 2 2 1 ≠ 0 ∧
    (exCfg 3).ck 1 ≤ 2 ∧ 2 < (exCfg 3).nMds ∧
    ∑ rm ∈ range (exCfg 3).nRms, ∑ p ∈ range (exCfg 3).nQtsM, exS rm 0 p * exA rm p 2 1 ≠ 0 := by
  obtain ⟨starE, starA, srcA, rfs, h⟩ := exMats3 3
  refine ⟨_, starE, starA, srcA, rfs, _, _, mats_mk _ _ _ exG, exG_hier 3, h, rep_mk _ _ _ exE, perRm_mk _ exA, ckMem0_out _,
    exCfg_sizes 3, by decide, by norm_num [exRf], by norm_num [exA], by decide, by decide, ?_⟩
  show ∑ rm ∈ range 3, ∑ p ∈ range 3, exS rm 0 p * exA rm p 2 1 ≠ 0
  norm_num [sum_range_succ, exS, exA]

example : ∃ (stiffT starE starA srcA : List (List ℝ)) (rfs dofsE : List ℝ) (dofsA : List (List ℝ)),
    (exCfg 0).nRms = 0 ∧ Mats (exCfg 0).nDis (exCfg 0).nMds (exCfg 0).nMds (exCfg 0).nMds stiffT exG ∧ Hier (exCfg 0) exG ∧
    Mats3 (exCfg 0) starE starA srcA rfs exS exS exS exRf ∧
    Rep (exCfg 0).nQtsE (exCfg 0).nMds (exCfg 0).nCrs dofsE exE ∧ PerRm (exCfg 0) exA dofsA ∧
    CkOut (exCfg 0) (ckMem0 (exCfg 0) : CkMem ℝ) ∧ Sizes (exCfg 0) := by
  obtain ⟨starE, starA, srcA, rfs, h⟩ := exMats3 0
  exact ⟨_, starE, starA, srcA, rfs, _, _, rfl, mats_mk _ _ _ exG, exG_hier 0, h, rep_mk _ _ _ exE, perRm_mk _ exA, ckMem0_out _,
    exCfg_sizes 0⟩

/-- `C74_volInt`: transposed stiffness matrices. -/
example : ∃ stiff : List (List ℝ), Mats (exCfg 3).nDis (exCfg 3).nMds (exCfg 3).nMds (exCfg 3).nMds stiff (fun di m md => exG di md m) ∧
    ∀ di m md, di < (exCfg 3).nDis → (exCfg 3).ck 1 ≤ m → m < (exCfg 3).nMds → md < (exCfg 3).nMds → exG di md m = 0 :=
  ⟨_, mats_mk _ _ _ (fun di m md => exG di md m), fun di m md _ h _ _ => by
    change 1 ≤ m at h
    rw [exG, if_neg (by omega)]⟩

/-- `C75_local`: flux matrices and solvers of the three faces. -/
example : ∃ (fIntLN fIntT fsE fsA : List (List ℝ)) (rfs : List ℝ),
    Mats (exCfg 3).nFas (exCfg 3).nMds (exCfg 3).nMdsFa (exCfg 3).nMdsFa fIntLN exS ∧
    Mats (exCfg 3).nFas (exCfg 3).nMdsFa (exCfg 3).nMds (exCfg 3).nMds fIntT exG ∧
    Mats (exCfg 3).nFas (exCfg 3).nQtsE (exCfg 3).nQtsE (exCfg 3).nQtsE fsE exS ∧
    Mats (exCfg 3).nFas (exCfg 3).nQtsM (exCfg 3).nQtsE (exCfg 3).nQtsE fsA exS ∧
    ∀ rm < (exCfg 3).nRms, rd rfs rm = some (exRf rm) :=
  ⟨_, _, _, _, (List.range 3).map exRf, mats_mk _ _ _ exS, mats_mk _ _ _ exG, mats_mk _ _ _ exS, mats_mk _ _ _ exS,
    fun rm (h : rm < 3) => by simp [rd, h]⟩

/-- `C57_message`, `C75_neigh`: an interior face of a faster element with a slower one behind it, second vertex option of
tetrahedra, opposite face 1; `C57_slower`, `C57_faster`: allocated arrays. -/
example : ∃ (fIntLN : List (List ℝ)) (t : TDofs ℝ) (f : FaceIn ℝ) (mat : List ℝ), Alloc (exCfg 1) .gt t ∧
    f.freeSurface = false ∧ f.outflow = false ∧ f.vId = some 0 ∧ f.ad = Rel.gt.flip.bits ∧
    rd fIntLN ((exCfg 1).nFas + 0 * (exCfg 1).nFas + f.fId) = some mat ∧
    Mat (exCfg 1).nMds (exCfg 1).nMdsFa (exCfg 1).nMdsFa mat (exS 4) ∧
    (∃ P, FaceData (exCfg 1) fIntLN false 0 f P) := by
  let t : TDofs ℝ := ⟨mk3 5 3 2 exE, none, some (mk3 5 3 2 fun q md r => exE q md r / 2)⟩
  let f : FaceIn ℝ := ⟨false, false, some 0, 1, ⟨false, true, false⟩, mkMat 5 5 (exS 0), mkMat 3 5 (exS 1), t, none⟩
  let fl : List (List ℝ) := (List.range 6).map fun i => mkMat 3 2 (exS i)
  have hE : Rep (exCfg 1).nQtsE (exCfg 1).nMds (exCfg 1).nCrs (mk3 5 3 2 exE) exE := rep_mk 5 3 2 exE
  have hG : Rep (exCfg 1).nQtsE (exCfg 1).nMds (exCfg 1).nCrs (mk3 5 3 2 fun q md r => exE q md r / 2)
    (fun q md r => exE q md r / 2) := rep_mk 5 3 2 _
  obtain ⟨x, x0, x1⟩ := assemble_half (c := exCfg 1) (lt := none) hE hG false
  have hm : rd fl ((exCfg 1).nFas + 0 * (exCfg 1).nFas + f.fId) = some (mkMat 3 2 (exS 4)) := by
    simp [rd, fl, f, exCfg]
  refine ⟨fl, t, f, _, ⟨hE.1, _, rfl, hG.1⟩, rfl, rfl, rfl, rfl, hm, mat_mk 3 2 (exS 4), _, x, _, mkMat 3 2 (exS 4), exS 4, x0, x1, ?_,
    mat_mk 3 2 (exS 4), fun _ _ _ _ _ _ => rfl⟩
  exact hm

end Edge.Dg
