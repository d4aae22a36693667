import Verif.Swe.Model
import Mathlib.Tactic.FieldSimp
import Mathlib.Tactic.Linarith
import Mathlib.Tactic.Positivity
/-!
Properties C46 and C47 of the shallow water solver.
-/
namespace Edge.Swe
open Edge

/-! ### f-wave solver -/

/-- Physical flux of mass and momentum of a column of height `h` and momentum `hu`. -/
noncomputable def flux (g h hu : ℝ) : ℝ × ℝ := (hu, hu * (hu / h) + g * h ^ 2 / 2)

theorem gDef_pos : 0 < gDef := by norm_num [gDef]

theorem evs_some {hL hR : ℝ} (h1 : 0 < hL) (h2 : 0 < hR) (uL uR : ℝ) {g : ℝ} (hg : 0 < g) :
    ∃ lam, evs hL hR uL uR g = some lam ∧ lam.1 < lam.2 ∧ lam.1 ≤ uL - Real.sqrt (g * hL) ∧
      uR + Real.sqrt (g * hR) ≤ lam.2 := by
  have a1 : 0 < Real.sqrt hL := Real.sqrt_pos.2 h1
  have a2 : 0 < Real.sqrt hR := Real.sqrt_pos.2 h2
  have a3 : Real.sqrt hL + Real.sqrt hR ≠ 0 := by positivity
  have b1 : g * hL ≥ 0 := by positivity
  have b2 : g * hR ≥ 0 := by positivity
  have b3 : g * (0.5 * (hL + hR)) ≥ 0 := by positivity
  have b4 : 0 < Real.sqrt (g * (0.5 * (hL + hR))) := Real.sqrt_pos.2 (by positivity)
  refine ⟨_, by simp only [evs, check, b1, b2, b3, h1.le, h2.le, a3, ge_iff_le, decide_true, if_true,
    Option.bind_eq_bind, Option.bind_some, ne_eq, not_false_eq_true, Option.pure_def]; rfl, ?_, ?_, ?_⟩
  · exact lt_of_le_of_lt (min_le_right _ _) (lt_of_lt_of_le (by linarith) (le_max_right _ _))
  · exact min_le_left _ _
  · exact le_max_left _ _

theorem nus_sum (lam beta : ℝ × ℝ) :
    (nus lam beta).1.1 + (nus lam beta).2.1 = beta.1 + beta.2 ∧
    (nus lam beta).1.2 + (nus lam beta).2.2 = beta.1 * lam.1 + beta.2 * lam.2 := by
  by_cases c1 : lam.1 < 0 <;> by_cases c2 : lam.2 > 0 <;> simp only [nus, c1, c2, if_true, if_false] <;>
    constructor <;> ring

/-- The solver for positive heights, with the jump of the fluxes and the source term in closed form. -/
theorem nusN_run {hL hR : ℝ} (h1 : 0 < hL) (h2 : 0 < hR) (huL huR bL bR g : ℝ) :
    ∃ lam, evs hL hR (huL / hL) (huR / hR) gDef = some lam ∧ lam.1 < lam.2 ∧
      nusN hL hR huL huR bL bR g =
        (let f0 := (flux g hR huR).1 - (flux g hL huL).1
         let f1 := (flux g hR huR).2 - (flux g hL huL).2 + g * ((hL + hR) / 2) * (bR - bL)
         some (nus lam ((lam.2 * f0 - f1) / (lam.2 - lam.1), (f1 - lam.1 * f0) / (lam.2 - lam.1)))) := by
  obtain ⟨lam, he, hlt, -, -⟩ := evs_some h1 h2 (huL / hL) (huR / hR) gDef_pos
  have hd : lam.2 - lam.1 ≠ 0 := (sub_pos.2 hlt).ne'
  refine ⟨lam, he, hlt, ?_⟩
  simp only [nusN, check, h1.ne', h2.ne', he, waveStrengths, hd, ne_eq, not_false_eq_true, decide_true,
    if_true, Option.bind_eq_bind, Option.bind_some, Option.pure_def, Option.some.injEq, flux]
  congr 1
  refine Prod.ext ?_ ?_ <;> simp only [] <;> field_simp <;> ring

/-- C46: for positive heights the net-updates exist, and left and right ones sum to the jump of the fluxes plus the source
term of the bathymetry. -/
theorem C46_conservative {hL hR : ℝ} (h1 : 0 < hL) (h2 : 0 < hR) (huL huR bL bR g : ℝ) :
    ∃ nL nR, nusN hL hR huL huR bL bR g = some (nL, nR) ∧
      nL.1 + nR.1 = (flux g hR huR).1 - (flux g hL huL).1 ∧
      nL.2 + nR.2 = (flux g hR huR).2 - (flux g hL huL).2 + g * ((hL + hR) / 2) * (bR - bL) := by
  obtain ⟨lam, -, hlt, hrun⟩ := nusN_run h1 h2 huL huR bL bR g
  have hd : lam.2 - lam.1 ≠ 0 := (sub_pos.2 hlt).ne'
  refine ⟨_, _, hrun.trans (congrArg some (Prod.eta _).symm), ?_, ?_⟩
  · rw [(nus_sum _ _).1]; field_simp; ring
  · rw [(nus_sum _ _).2]; field_simp; ring

theorem nus_zero (lam : ℝ × ℝ) : nus lam (0, 0) = ((0, 0), (0, 0)) := by
  by_cases c1 : lam.1 < 0 <;> by_cases c2 : lam.2 > 0 <;> simp [nus, c1, c2]

/-- C46: a lake at rest has no net-updates, for every bathymetry. -/
theorem C46_lake {hL hR bL bR : ℝ} (h1 : 0 < hL) (h2 : 0 < hR) (hs : hL + bL = hR + bR) (g : ℝ) :
    nusN hL hR 0 0 bL bR g = some ((0, 0), (0, 0)) := by
  obtain ⟨lam, -, hlt, hrun⟩ := nusN_run h1 h2 0 0 bL bR g
  have hj : (flux g hR 0).2 - (flux g hL 0).2 + g * ((hL + hR) / 2) * (bR - bL) = 0 := by
    have : bR - bL = hL - hR := by linarith
    rw [this, flux, flux]; ring
  have hf : (flux g hR 0).1 - (flux g hL 0).1 = 0 := by simp [flux]
  rw [hrun]
  simp only [hj, hf, mul_zero, sub_zero, zero_div, nus_zero]

/-- Mirroring exchanges the speeds and their signs. -/
theorem evs_mirror (hL hR uL uR g : ℝ) :
    evs hR hL (-uR) (-uL) g = (evs hL hR uL uR g).map (fun l => (-l.2, -l.1)) := by
  have e : (Real.sqrt hR * -uR + Real.sqrt hL * -uL) = -(Real.sqrt hL * uL + Real.sqrt hR * uR) := by ring
  simp only [evs, e, neg_div, add_comm hR hL, add_comm (Real.sqrt hR) (Real.sqrt hL)]
  by_cases c1 : g * hL ≥ 0 <;> by_cases c2 : g * hR ≥ 0 <;> by_cases c3 : hL ≥ 0 <;> by_cases c4 : hR ≥ 0 <;>
    by_cases c5 : Real.sqrt hL + Real.sqrt hR = 0 <;> by_cases c6 : g * (0.5 * (hL + hR)) ≥ 0 <;>
    simp only [check, c1, c2, c3, c4, c5, c6, decide_true, decide_false, if_true, Bool.false_eq_true, if_false,
      Option.bind_eq_bind, Option.bind_some, Option.bind_none, Option.map_none, Option.pure_def, Option.map_some,
      Option.some.injEq, Prod.mk.injEq, ne_eq, not_true_eq_false, not_false_eq_true]
  constructor
  · rw [← min_neg_neg]; congr 1 <;> ring
  · rw [← max_neg_neg]; congr 1 <;> ring

/-- C46: the net-updates do not depend on the orientation of the face: seen from the other side, left and right are
exchanged and the momentum changes its sign. -/
theorem C46_mirror {hL hR : ℝ} (h1 : 0 < hL) (h2 : 0 < hR) (huL huR bL bR g : ℝ) :
    nusN hR hL (-huR) (-huL) bR bL g =
      (nusN hL hR huL huR bL bR g).map (fun s => ((s.2.1, -s.2.2), (s.1.1, -s.1.2))) := by
  obtain ⟨lam, he, hlt, hrun⟩ := nusN_run h1 h2 huL huR bL bR g
  obtain ⟨lam', he', hlt', hrun'⟩ := nusN_run h2 h1 (-huR) (-huL) bR bL g
  rw [neg_div, neg_div, evs_mirror, he] at he'
  have el : lam' = (-lam.2, -lam.1) := (Option.some.inj he').symm
  rw [hrun, hrun', el]
  simp only [Option.map_some, Option.some.injEq]
  have hd : lam.2 - lam.1 ≠ 0 := (sub_pos.2 hlt).ne'
  have e : -lam.1 - -lam.2 = lam.2 - lam.1 := by ring
  have f1 : (flux g hL (-huL)).1 - (flux g hR (-huR)).1 = (flux g hR huR).1 - (flux g hL huL).1 := by
    simp only [flux]; ring
  have f2 : (flux g hL (-huL)).2 - (flux g hR (-huR)).2 + g * ((hR + hL) / 2) * (bL - bR) =
      -((flux g hR huR).2 - (flux g hL huL).2 + g * ((hL + hR) / 2) * (bR - bL)) := by
    simp only [flux]; ring
  rw [e, f1, f2]
  generalize (flux g hR huR).1 - (flux g hL huL).1 = x
  generalize (flux g hR huR).2 - (flux g hL huL).2 + g * ((hL + hR) / 2) * (bR - bL) = y
  have k1 : (-lam.2 < 0) = (lam.2 > 0) := by simp
  have k2 : (-lam.1 > 0) = (lam.1 < 0) := by simp
  by_cases c1 : lam.1 < 0 <;> by_cases c2 : lam.2 > 0 <;> simp only [nus, k1, k2, c1, c2, if_true, if_false,
    Prod.mk.injEq] <;> refine ⟨⟨?_, ?_⟩, ⟨?_, ?_⟩⟩ <;> first | simp; done | (field_simp; ring)

/-- C46: supersonic flow to the right does not change the left element. -/
theorem C46_upwind {hL hR : ℝ} (h1 : 0 < hL) (h2 : 0 < hR) (huL huR bL bR g : ℝ) {lam : ℝ × ℝ}
    (he : evs hL hR (huL / hL) (huR / hR) gDef = some lam) (hl : 0 ≤ lam.1) :
    ∃ nR, nusN hL hR huL huR bL bR g = some ((0, 0), nR) := by
  obtain ⟨lam', he', hlt, hrun⟩ := nusN_run h1 h2 huL huR bL bR g
  obtain rfl : lam = lam' := Option.some.inj (he.symm.trans he')
  rw [hrun]
  simp [nus, not_lt.2 hl, lt_of_le_of_lt hl hlt]

/-- C46: gravity of the eigenvalues. A gravity passed to the solver is not used for the wave speeds: for a step in the
bathymetry the net-updates differ from those of an f-wave solver with the same gravity in all places. -/
theorem C46_gravity_refuted :
    ∃ hL hR huL huR bL bR g, 0 < hL ∧ 0 < hR ∧ 0 < g ∧ ∃ lam beta,
      evs hL hR (huL / hL) (huR / hR) g = some lam ∧
      waveStrengths ((flux g hR huR).1 - (flux g hL huL).1,
        (flux g hR huR).2 - (flux g hL huL).2 + g * ((hL + hR) / 2) * (bR - bL)) lam = some beta ∧
      nusN hL hR huL huR bL bR g ≠ some (nus lam beta) := by
  refine ⟨1, 1, 0, 0, 0, 1, 1, one_pos, one_pos, one_pos, (-1, 1), (-1 / 2, 1 / 2), ?_, ?_, ?_⟩
  · have e : (1 : ℝ) * (0.5 * (1 + 1)) = 1 := by norm_num
    simp [evs, check, e]
  · norm_num [waveStrengths, check, flux]
  · obtain ⟨lam, he, hlt, hrun⟩ := nusN_run (hL := 1) (hR := 1) one_pos one_pos 0 0 0 1 1
    have hg : 0 < Real.sqrt gDef := Real.sqrt_pos.2 gDef_pos
    have hev : evs 1 1 (0 / 1) (0 / 1) gDef = some (-Real.sqrt gDef, Real.sqrt gDef) := by
      have e : gDef * (0.5 * (1 + 1)) = gDef := by ring
      simp [evs, check, gDef_pos.le, e]
    rw [hev] at he
    obtain rfl := Option.some.inj he
    rw [hrun]
    intro h
    have h := congrArg (fun x => x.1.1) (Option.some.inj h)
    simp [nus, hg, flux] at h
    have hs : Real.sqrt gDef = 1 := by
      field_simp at h
      linarith
    have := Real.sq_sqrt gDef_pos.le
    rw [hs] at this
    norm_num [gDef] at this

/-- Two rest states over a step of the ground, and a moving one. -/
example : (0 : ℝ) < 3 ∧ (0 : ℝ) < 1 ∧ (3 : ℝ) + -4 = 1 + -2 := by norm_num
example : ∃ lam, evs 1 1 (10 / 1) (10 / 1) gDef = some lam ∧ 0 ≤ lam.1 := by
  have e : gDef * (0.5 * (1 + 1)) = gDef := by ring
  have h1 : Real.sqrt gDef ≤ 10 := by
    rw [Real.sqrt_le_left (by norm_num)]; norm_num [gDef]
  refine ⟨(10 - Real.sqrt gDef, 10 + Real.sqrt gDef), ?_, by simpa using h1⟩
  have e2 : ((10 : ℝ) + 10) / (1 + 1) = 10 := by norm_num
  simp [evs, check, gDef_pos.le, e, e2]

/-! ### Finite volume solver -/

section
variable {nEl nFa nAd d : Nat}

/-- A face with reflecting boundary conditions. -/
def Mesh.Wall (m : Mesh nEl nFa nAd d) (fa : Fin nFa) : Prop :=
  m.spType fa &&& OUTFLOW ≠ OUTFLOW ∧ m.spType fa &&& REFLECTING = REFLECTING

/-- A face without boundary conditions. -/
def Mesh.Inner (m : Mesh nEl nFa nAd d) (fa : Fin nFa) : Prop :=
  m.spType fa &&& OUTFLOW ≠ OUTFLOW ∧ m.spType fa &&& REFLECTING ≠ REFLECTING

/-- Normal of a face, pointing out of the element. -/
noncomputable def Mesh.out (m : Mesh nEl nFa nAd d) (s : Fin nEl × Fin nAd) : Fin d → ℝ :=
  if (m.faEl (m.elFa s.1 s.2)).1 = s.1 then m.normal (m.elFa s.1 s.2) else -m.normal (m.elFa s.1 s.2)

/-- The element on the other side. -/
def Mesh.other (m : Mesh nEl nFa nAd d) (s : Fin nEl × Fin nAd) : Option (Fin nEl) :=
  if (m.faEl (m.elFa s.1 s.2)).1 = s.1 then (m.faEl (m.elFa s.1 s.2)).2 else some (m.faEl (m.elFa s.1 s.2)).1

/-- A mesh without open boundary: every side of an element is a wall or touches the side `p s` of another element (the
same face, or the opposite face of a periodic boundary). -/
structure Watertight (m : Mesh nEl nFa nAd d) (p : Fin nEl × Fin nAd → Fin nEl × Fin nAd) : Prop where
  /-- The elements are closed polygons. -/
  closed : ∀ el di, ∑ ad, m.area (m.elFa el ad) * m.out (el, ad) di = 0
  kind : ∀ s : Fin nEl × Fin nAd, m.Wall (m.elFa s.1 s.2) ∨ m.Inner (m.elFa s.1 s.2)
  own : ∀ s : Fin nEl × Fin nAd, (m.faEl (m.elFa s.1 s.2)).1 = s.1 ∨
    m.Inner (m.elFa s.1 s.2) ∧ (m.faEl (m.elFa s.1 s.2)).2 = some s.1
  inner : ∀ s : Fin nEl × Fin nAd, m.Inner (m.elFa s.1 s.2) →
    p (p s) = s ∧ m.Inner (m.elFa (p s).1 (p s).2) ∧ m.other s = some (p s).1 ∧ m.other (p s) = some s.1 ∧
    m.out (p s) = -m.out s ∧ m.area (m.elFa (p s).1 (p s).2) = m.area (m.elFa s.1 s.2)

theorem forAll_some {A : Type} {n : Nat} {f : Fin n → Option A} {g : Fin n → A} (h : forAll f = some g) (i : Fin n) :
    f i = some (g i) := by
  unfold forAll at h
  split at h
  · obtain rfl := Option.some.inj h
    simp
  · cases h

theorem forAll_of {A : Type} {n : Nat} {f : Fin n → Option A} {g : Fin n → A} (h : ∀ i, f i = some (g i)) :
    forAll f = some g := by
  have hs : ∀ i, (f i).isSome := fun i => by rw [h i]; rfl
  rw [forAll, dif_pos hs]
  congr 1
  funext i
  simp [h i]

/-- The net-update of an element at one of its sides. -/
noncomputable def sideNus (m : Mesh nEl nFa nAd d) (ns : Fin nFa → (ℝ × ℝ) × (ℝ × ℝ)) (s : Fin nEl × Fin nAd) : ℝ × ℝ :=
  if (m.faEl (m.elFa s.1 s.2)).1 = s.1 then (ns (m.elFa s.1 s.2)).1 else (ns (m.elFa s.1 s.2)).2

theorem updateEl_h (m : Mesh nEl nFa nAd d) (dT : ℝ) (ns : Fin nFa → (ℝ × ℝ) × (ℝ × ℝ)) (el : Fin nEl) (q : Dofs d) :
    (updateEl m dT ns el q).h = q.h - dT / m.vol el * ∑ ad, m.area (m.elFa el ad) * (sideNus m ns (el, ad)).1 := by
  have key : ∀ (l : List (Fin nAd)) (q : Dofs d), (l.foldl (fun q ad =>
      let fa := m.elFa el ad
      let scaFa := dT * (1 / m.vol el) * m.area fa
      let s := if (m.faEl fa).1 ≠ el then (ns fa).2 else (ns fa).1
      (⟨q.h - scaFa * s.1, fun di => q.hu di - scaFa * m.normal fa di * s.2⟩ : Dofs d)) q).h =
      q.h - dT / m.vol el * (l.map (fun ad => m.area (m.elFa el ad) * (sideNus m ns (el, ad)).1)).sum := by
    intro l
    induction l with
    | nil => intro q; simp
    | cons a l ih =>
      intro q
      rw [List.foldl_cons, ih, List.map_cons, List.sum_cons]
      simp only [sideNus]
      by_cases h : (m.faEl (m.elFa el a)).1 = el <;> simp [h] <;> ring
  rw [updateEl]
  refine (key _ q).trans ?_
  rw [← List.ofFn_eq_map, List.sum_ofFn]

/-- Reflection at a wall: no water passes. -/
theorem nusN_wall {h : ℝ} (h0 : 0 < h) (hu b g : ℝ) :
    ∃ nL nR, nusN h h hu (-hu) b b g = some (nL, nR) ∧ nL.1 = -hu ∧ nR.1 = -hu := by
  obtain ⟨lam, he, hlt, hrun⟩ := nusN_run h0 h0 hu (-hu) b b g
  have hm := evs_mirror h h (hu / h) (-hu / h) gDef
  rw [show -(-hu / h) = hu / h by ring, ← neg_div, he] at hm
  have e1 : lam.1 = -lam.2 := congrArg Prod.fst (Option.some.inj hm)
  have hp : 0 < lam.2 := by linarith
  have hn : lam.1 < 0 := by linarith
  refine ⟨_, _, hrun.trans (congrArg some (Prod.eta _).symm), ?_, ?_⟩
  · simp only [nus, hn, hp, gt_iff_lt, if_true, if_false, not_lt.2 hp.le, flux]
    rw [e1]
    field_simp; ring
  · simp only [nus, hn, hp, gt_iff_lt, if_true, if_false, not_lt.2 hn.le, flux]
    rw [e1]
    field_simp; ring

theorem huN_neg (n : Fin d → ℝ) (q : Dofs d) : huN (-n) q = -huN n q := by
  simp [huN, Finset.sum_neg_distrib]

/-- Outflow of water through a side of a wet element: advective flux plus net-update. -/
noncomputable def outflow (m : Mesh nEl nFa nAd d) (dofs : Fin nEl → Dofs d) (bath : Fin nEl → ℝ)
    (ns : Fin nFa → (ℝ × ℝ) × (ℝ × ℝ)) (s : Fin nEl × Fin nAd) : ℝ :=
  if bath s.1 < 0 then huN (m.out s) (dofs s.1) + (sideNus m ns s).1 else 0

variable {m : Mesh nEl nFa nAd d} {p : Fin nEl × Fin nAd → Fin nEl × Fin nAd} {dofs : Fin nEl → Dofs d}
  {bath : Fin nEl → ℝ} {ns : Fin nFa → (ℝ × ℝ) × (ℝ × ℝ)}

theorem qtsLr_wall {fa : Fin nFa} (h : m.Wall fa) (dofs : Fin nEl → Dofs d) (bath : Fin nEl → ℝ) :
    qtsLr (m.spType fa) (m.faEl fa) (m.normal fa) dofs bath =
      (let l : Side := ⟨(dofs (m.faEl fa).1).h, huN (m.normal fa) (dofs (m.faEl fa).1), bath (m.faEl fa).1⟩
       some (l, ⟨l.h, -l.hu, l.b⟩)) := by
  simp only [qtsLr, if_neg h.1, if_pos h.2]; rfl

theorem qtsLr_inner {fa : Fin nFa} (h : m.Inner fa) {r : Fin nEl} (hr : (m.faEl fa).2 = some r) (dofs : Fin nEl → Dofs d)
    (bath : Fin nEl → ℝ) :
    qtsLr (m.spType fa) (m.faEl fa) (m.normal fa) dofs bath =
      some (⟨(dofs (m.faEl fa).1).h, huN (m.normal fa) (dofs (m.faEl fa).1), bath (m.faEl fa).1⟩,
        ⟨(dofs r).h, huN (m.normal fa) (dofs r), bath r⟩) := by
  simp only [qtsLr, if_neg h.1, if_neg h.2, hr]; rfl

/-- Net-updates of a face between two elements, seen from one of them. -/
theorem side_inner (hns : ∀ fa, faceNus m dofs bath fa = some (ns fa)) (hpos : ∀ el, bath el < 0 → 0 < (dofs el).h)
    {s : Fin nEl × Fin nAd} (hi : m.Inner (m.elFa s.1 s.2))
    (hown : (m.faEl (m.elFa s.1 s.2)).1 = s.1 ∨ (m.faEl (m.elFa s.1 s.2)).2 = some s.1)
    {o : Fin nEl} (ho : m.other s = some o) (hw : bath s.1 < 0) :
    (bath o < 0 → ∃ nL nR, nusN (dofs s.1).h (dofs o).h (huN (m.out s) (dofs s.1)) (huN (m.out s) (dofs o)) (bath s.1)
      (bath o) gDef = some (nL, nR) ∧ (sideNus m ns s).1 = nL.1) ∧
    (¬bath o < 0 → (sideNus m ns s).1 = -huN (m.out s) (dofs s.1)) := by
  have hs := hns (m.elFa s.1 s.2)
  have p1 := hpos _ hw
  by_cases h : (m.faEl (m.elFa s.1 s.2)).1 = s.1
  · rw [Mesh.other, if_pos h] at ho
    rw [faceNus, qtsLr_inner hi ho] at hs
    have e1 : m.out s = m.normal (m.elFa s.1 s.2) := if_pos h
    have e2 : sideNus m ns s = (ns (m.elFa s.1 s.2)).1 := if_pos h
    rw [e1, e2]
    simp only [h, Option.bind_eq_bind, Option.bind_some, hw, true_and, if_true] at hs
    constructor
    · intro hb
      obtain ⟨nL, nR, hr, -⟩ := C46_conservative p1 (hpos _ hb) (huN (m.normal (m.elFa s.1 s.2)) (dofs s.1))
        (huN (m.normal (m.elFa s.1 s.2)) (dofs o)) (bath s.1) (bath o) gDef
      refine ⟨nL, nR, hr, ?_⟩
      simp only [hb, if_true, hr, Option.bind_some, ge_iff_le, not_le.2 hw, not_le.2 hb, if_false, Option.pure_def,
        Option.some.injEq] at hs
      rw [← hs]
    · intro hb
      obtain ⟨nL, nR, hr, h1, -⟩ := nusN_wall p1 (huN (m.normal (m.elFa s.1 s.2)) (dofs s.1)) (bath s.1) gDef
      simp only [hb, if_false, hr, Option.bind_some, ge_iff_le, not_le.2 hw, not_lt.1 hb, if_true, Option.pure_def,
        Option.some.injEq] at hs
      rw [← hs]; exact h1
  · have h' := hown.resolve_left h
    rw [Mesh.other, if_neg h] at ho
    rw [faceNus, qtsLr_inner hi h'] at hs
    have e1 : m.out s = -m.normal (m.elFa s.1 s.2) := if_neg h
    have e2 : sideNus m ns s = (ns (m.elFa s.1 s.2)).2 := if_neg h
    have ho' : (m.faEl (m.elFa s.1 s.2)).1 = o := Option.some.inj ho
    rw [e1, e2]
    simp only [ho', Option.bind_eq_bind, Option.bind_some, hw, and_true, if_true] at hs
    constructor
    · intro hb
      obtain ⟨nL, nR, hr, -⟩ := C46_conservative (hpos _ hb) p1 (huN (m.normal (m.elFa s.1 s.2)) (dofs o))
        (huN (m.normal (m.elFa s.1 s.2)) (dofs s.1)) (bath o) (bath s.1) gDef
      have hm := C46_mirror (hpos _ hb) p1 (huN (m.normal (m.elFa s.1 s.2)) (dofs o))
        (huN (m.normal (m.elFa s.1 s.2)) (dofs s.1)) (bath o) (bath s.1) gDef
      rw [hr] at hm
      rw [huN_neg, huN_neg]
      refine ⟨_, _, hm, ?_⟩
      simp only [hb, if_true, hr, Option.bind_some, ge_iff_le, not_le.2 hw, not_le.2 hb, if_false, Option.pure_def,
        Option.some.injEq] at hs
      rw [← hs]
    · intro hb
      obtain ⟨nL, nR, hr, -, h1⟩ := nusN_wall p1 (-huN (m.normal (m.elFa s.1 s.2)) (dofs s.1)) (bath s.1) gDef
      rw [neg_neg] at hr h1
      simp only [hb, if_false, hr, Option.bind_some, ge_iff_le, not_le.2 hw, not_lt.1 hb, if_true, Option.pure_def,
        Option.some.injEq] at hs
      rw [← hs, huN_neg, neg_neg]; exact h1

/-- No water leaves through walls; what leaves one element enters its neighbor. -/
theorem outflow_sides (hW : Watertight m p) (hns : ∀ fa, faceNus m dofs bath fa = some (ns fa))
    (hpos : ∀ el, bath el < 0 → 0 < (dofs el).h) (s : Fin nEl × Fin nAd) :
    (m.Wall (m.elFa s.1 s.2) → outflow m dofs bath ns s = 0) ∧
    (m.Inner (m.elFa s.1 s.2) → outflow m dofs bath ns (p s) = -outflow m dofs bath ns s) := by
  constructor
  · intro hw
    unfold outflow
    split
    · rename_i hb
      have h : (m.faEl (m.elFa s.1 s.2)).1 = s.1 := (hW.own s).resolve_right (fun h => h.1.2 hw.2)
      have hs := hns (m.elFa s.1 s.2)
      rw [faceNus, qtsLr_wall hw] at hs
      have e1 : m.out s = m.normal (m.elFa s.1 s.2) := if_pos h
      have e2 : sideNus m ns s = (ns (m.elFa s.1 s.2)).1 := if_pos h
      obtain ⟨nL, nR, hr, h1, -⟩ := nusN_wall (hpos _ hb) (huN (m.normal (m.elFa s.1 s.2)) (dofs s.1)) (bath s.1) gDef
      simp only [h, Option.bind_eq_bind, Option.bind_some, hb, and_self, if_true, hr, ge_iff_le, not_le.2 hb, if_false,
        Option.pure_def, Option.some.injEq] at hs
      rw [e1, e2, ← hs, h1, add_neg_cancel]
    · rfl
  · intro hi
    obtain ⟨hpp, hi', ho, ho', hout, -⟩ := hW.inner s hi
    have own' : ∀ s : Fin nEl × Fin nAd, (m.faEl (m.elFa s.1 s.2)).1 = s.1 ∨ (m.faEl (m.elFa s.1 s.2)).2 = some s.1 :=
      fun s => (hW.own s).imp id And.right
    unfold outflow
    by_cases h1 : bath s.1 < 0 <;> by_cases h2 : bath (p s).1 < 0
    · rw [if_pos h1, if_pos h2]
      obtain ⟨nL, nR, a1, a2⟩ := (side_inner hns hpos hi (own' s) ho h1).1 h2
      obtain ⟨nL', nR', b1, b2⟩ := (side_inner hns hpos hi' (own' (p s)) ho' h2).1 h1
      obtain ⟨cL, cR, c1, c2, -⟩ := C46_conservative (hpos _ h1) (hpos _ h2) (huN (m.out s) (dofs s.1))
        (huN (m.out s) (dofs (p s).1)) (bath s.1) (bath (p s).1) gDef
      rw [a1] at c1
      obtain ⟨rfl, rfl⟩ := Prod.mk.inj (Option.some.inj c1)
      have hm := C46_mirror (hpos _ h1) (hpos _ h2) (huN (m.out s) (dofs s.1)) (huN (m.out s) (dofs (p s).1)) (bath s.1)
        (bath (p s).1) gDef
      rw [a1] at hm
      rw [hout, huN_neg, huN_neg, hm] at b1
      have e := (Prod.mk.inj (Option.some.inj b1)).1
      rw [a2, b2, ← e, hout, huN_neg]
      simp only [flux] at c2
      linarith
    · rw [if_pos h1, if_neg h2, (side_inner hns hpos hi (own' s) ho h1).2 h2]; simp
    · rw [if_neg h1, if_pos h2, (side_inner hns hpos hi' (own' (p s)) ho' h2).2 h1]; simp
    · rw [if_neg h1, if_neg h2]; simp

/-- A dry element has no net-updates. -/
theorem side_dry (hW : Watertight m p) (hns : ∀ fa, faceNus m dofs bath fa = some (ns fa)) {s : Fin nEl × Fin nAd}
    (hb : ¬bath s.1 < 0) : (sideNus m ns s).1 = 0 := by
  have hs := hns (m.elFa s.1 s.2)
  have hb' := not_lt.1 hb
  by_cases h : (m.faEl (m.elFa s.1 s.2)).1 = s.1
  · have e2 : sideNus m ns s = (ns (m.elFa s.1 s.2)).1 := if_pos h
    rw [e2]
    have hq : ∃ l r, qtsLr (m.spType (m.elFa s.1 s.2)) (m.faEl (m.elFa s.1 s.2)) (m.normal (m.elFa s.1 s.2)) dofs bath =
        some (l, r) ∧ l.b = bath s.1 := by
      rcases hW.kind s with hk | hk
      · exact ⟨_, _, qtsLr_wall hk dofs bath, by rw [h]⟩
      · obtain ⟨-, -, ho, -⟩ := hW.inner s hk
        rw [Mesh.other, if_pos h] at ho
        exact ⟨_, _, qtsLr_inner hk ho dofs bath, by rw [h]⟩
    obtain ⟨l, r, hq, hl⟩ := hq
    rw [faceNus, hq] at hs
    simp only [Option.bind_eq_bind, Option.bind_some, hl, hb, false_and, if_false] at hs
    by_cases hr : r.b < 0
    · simp only [hr, if_true, ge_iff_le, hb', not_le.2 hr, if_false] at hs
      cases hn : nusN r.h r.h (-r.hu) r.hu r.b r.b gDef with
      | none => rw [hn] at hs; cases hs
      | some x => rw [hn] at hs; simp only [Option.bind_some, Option.pure_def, Option.some.injEq] at hs; rw [← hs]
    · simp only [hr, if_false, Option.pure_def, Option.some.injEq] at hs
      rw [← hs]
  · have e2 : sideNus m ns s = (ns (m.elFa s.1 s.2)).2 := if_neg h
    obtain ⟨hk, hr⟩ := (hW.own s).resolve_left h
    rw [e2]
    have hq : ∃ l r, qtsLr (m.spType (m.elFa s.1 s.2)) (m.faEl (m.elFa s.1 s.2)) (m.normal (m.elFa s.1 s.2)) dofs bath =
        some (l, r) ∧ r.b = bath s.1 := ⟨_, _, qtsLr_inner hk hr dofs bath, rfl⟩
    obtain ⟨l, r, hq, hrb⟩ := hq
    rw [faceNus, hq] at hs
    simp only [Option.bind_eq_bind, Option.bind_some, hrb, hb, and_false, if_false, ge_iff_le, hb', if_true] at hs
    by_cases hl : l.b < 0
    · simp only [hl, if_true, not_le.2 hl, if_false] at hs
      cases hn : nusN l.h l.h l.hu (-l.hu) l.b l.b gDef with
      | none => rw [hn] at hs; cases hs
      | some x => rw [hn] at hs; simp only [Option.bind_some, Option.pure_def, Option.some.injEq] at hs; rw [← hs]
    · simp only [hl, if_false, Option.pure_def, Option.some.injEq] at hs
      rw [← hs]

/-- C47: a time step does not change the total volume of water of a mesh with inner, periodic and reflecting faces. -/
theorem C47_volume (hW : Watertight m p) (hpos : ∀ el, bath el < 0 → 0 < (dofs el).h) {dT : ℝ}
    {dofs' : Fin nEl → Dofs d} (h : step m dT bath dofs = some dofs') :
    ∑ el, m.vol el * (dofs' el).h = ∑ el, m.vol el * (dofs el).h := by
  simp only [step, Option.bind_eq_bind, Option.bind_eq_some_iff, Option.pure_def, Option.some.injEq] at h
  obtain ⟨ns, hn, u, hc, rfl⟩ := h
  have hvol : ∀ el, m.vol el ≠ 0 := by
    rw [check_some] at hc; exact of_decide_eq_true hc
  have hns := forAll_some hn
  have e1 : ∀ el, m.vol el * (updateEl m dT ns el (dofs el)).h = m.vol el * (dofs el).h -
      dT * ∑ ad, m.area (m.elFa el ad) * outflow m dofs bath ns (el, ad) := by
    intro el
    rw [updateEl_h]
    have : ∑ ad, m.area (m.elFa el ad) * (sideNus m ns (el, ad)).1 =
        ∑ ad, m.area (m.elFa el ad) * outflow m dofs bath ns (el, ad) := by
      by_cases hb : bath el < 0
      · have hz : ∑ ad, m.area (m.elFa el ad) * huN (m.out (el, ad)) (dofs el) = 0 := by
          simp only [huN, Finset.mul_sum]
          rw [Finset.sum_comm]
          refine Finset.sum_eq_zero (fun di _ => ?_)
          have := hW.closed el di
          simp only [← mul_assoc]
          rw [← Finset.sum_mul, this, zero_mul]
        simp only [outflow, if_pos hb, mul_add, Finset.sum_add_distrib, hz, zero_add]
      · refine Finset.sum_congr rfl (fun ad _ => ?_)
        rw [side_dry hW hns (s := (el, ad)) hb, outflow, if_neg hb]
    rw [this]
    have := hvol el
    field_simp
  simp only [e1, Finset.sum_sub_distrib, ← Finset.mul_sum]
  have hsum : ∑ el, ∑ ad, m.area (m.elFa el ad) * outflow m dofs bath ns (el, ad) = 0 := by
    rw [← Finset.sum_product']
    classical
    have hinv : Function.Involutive (fun s : Fin nEl × Fin nAd => if m.Inner (m.elFa s.1 s.2) then p s else s) := by
      intro s
      by_cases hi : m.Inner (m.elFa s.1 s.2)
      · obtain ⟨a, b, -⟩ := hW.inner s hi
        simp only [hi, b, if_true, a]
      · simp only [hi, if_false]
    have hcomp := Equiv.sum_comp (Function.Involutive.toPerm _ hinv) (fun s : Fin nEl × Fin nAd =>
      m.area (m.elFa s.1 s.2) * outflow m dofs bath ns s)
    have hneg : ∀ t : Fin nEl × Fin nAd, (fun s : Fin nEl × Fin nAd => m.area (m.elFa s.1 s.2) * outflow m dofs bath ns s) (Function.Involutive.toPerm _ hinv t) =
        -(m.area (m.elFa t.1 t.2) * outflow m dofs bath ns t) := by
      intro s
      simp only [Function.Involutive.coe_toPerm]
      rcases hW.kind s with hk | hk
      · have hi : ¬m.Inner (m.elFa s.1 s.2) := fun h => h.2 hk.2
        rw [if_neg hi, (outflow_sides hW hns hpos s).1 hk]; simp
      · obtain ⟨-, -, -, -, -, ha⟩ := hW.inner s hk
        rw [if_pos hk, (outflow_sides hW hns hpos s).2 hk, ha]; ring
    rw [Finset.sum_congr rfl (fun s _ => hneg s), Finset.sum_neg_distrib] at hcomp
    rw [Finset.univ_product_univ]
    linarith
  rw [hsum]; ring

/-- C47: the step exists if all wet elements contain water, inner faces have two elements, and all volumes are nonzero. -/
theorem C47_runs (hpos : ∀ el, bath el < 0 → 0 < (dofs el).h) (hvol : ∀ el, m.vol el ≠ 0)
    (hfa : ∀ fa, m.Inner fa → (m.faEl fa).2.isSome) (dT : ℝ) : ∃ dofs', step m dT bath dofs = some dofs' := by
  have key : ∀ fa, (faceNus m dofs bath fa).isSome := by
    intro fa
    have hq : ∃ l r, qtsLr (m.spType fa) (m.faEl fa) (m.normal fa) dofs bath = some (l, r) ∧
        (l.b < 0 → 0 < l.h) ∧ (r.b < 0 → 0 < r.h) := by
      simp only [qtsLr]
      split
      · exact ⟨_, _, rfl, hpos _, hpos _⟩
      · split
        · exact ⟨_, _, rfl, hpos _, hpos _⟩
        · rename_i h1 h2
          obtain ⟨r, hr⟩ := Option.isSome_iff_exists.1 (hfa fa ⟨h1, h2⟩)
          rw [hr]
          exact ⟨_, _, rfl, hpos _, hpos _⟩
    obtain ⟨l, r, hq, hl, hr⟩ := hq
    simp only [faceNus, hq, Option.bind_eq_bind, Option.bind_some]
    by_cases h1 : l.b < 0 <;> by_cases h2 : r.b < 0 <;> simp only [h1, h2, and_self, and_true, true_and, and_false,
      if_true, if_false]
    · obtain ⟨a, b, e, -⟩ := C46_conservative (hl h1) (hr h2) l.hu r.hu l.b r.b gDef
      rw [e]; rfl
    · obtain ⟨a, b, e, -⟩ := C46_conservative (hl h1) (hl h1) l.hu (-l.hu) l.b l.b gDef
      rw [e]; rfl
    · obtain ⟨a, b, e, -⟩ := C46_conservative (hr h2) (hr h2) (-r.hu) r.hu r.b r.b gDef
      rw [e]; rfl
    · rfl
  have hA : forAll (faceNus m dofs bath) = some (fun i => (faceNus m dofs bath i).get (key i)) := by
    rw [forAll, dif_pos key]
  refine ⟨_, by simp only [step, hA, check, hvol, Option.bind_eq_bind, Option.bind_some, ne_eq, not_false_eq_true,
    implies_true, decide_true, if_true]; rfl⟩

/-- C46: a lake at rest (any bathymetry, any coast line, any boundary conditions) stays at rest. -/
theorem C46_lakeStep {c : ℝ} (hrest : ∀ el, bath el < 0 → 0 < (dofs el).h ∧ (dofs el).h + bath el = c ∧ (dofs el).hu = 0)
    (hvol : ∀ el, m.vol el ≠ 0) (hfa : ∀ fa, m.Inner fa → (m.faEl fa).2.isSome) (dT : ℝ) :
    step m dT bath dofs = some dofs := by
  have hu0 : ∀ el n, bath el < 0 → huN n (dofs el) = 0 := by
    intro el n h
    simp [huN, (hrest el h).2.2]
  have key : ∀ fa, faceNus m dofs bath fa = some ((0, 0), (0, 0)) := by
    intro fa
    have hq : ∃ l r, qtsLr (m.spType fa) (m.faEl fa) (m.normal fa) dofs bath = some (l, r) ∧
        (l.b < 0 → 0 < l.h ∧ l.h + l.b = c ∧ l.hu = 0) ∧ (r.b < 0 → 0 < r.h ∧ r.h + r.b = c ∧ r.hu = 0) := by
      simp only [qtsLr]
      split
      · exact ⟨_, _, rfl, fun h => ⟨(hrest _ h).1, (hrest _ h).2.1, hu0 _ _ h⟩,
          fun h => ⟨(hrest _ h).1, (hrest _ h).2.1, hu0 _ _ h⟩⟩
      · split
        · exact ⟨_, _, rfl, fun h => ⟨(hrest _ h).1, (hrest _ h).2.1, hu0 _ _ h⟩,
            fun h => ⟨(hrest _ h).1, (hrest _ h).2.1, by rw [hu0 _ _ h, neg_zero]⟩⟩
        · rename_i h1 h2
          obtain ⟨r, hr⟩ := Option.isSome_iff_exists.1 (hfa fa ⟨h1, h2⟩)
          rw [hr]
          exact ⟨_, _, rfl, fun h => ⟨(hrest _ h).1, (hrest _ h).2.1, hu0 _ _ h⟩,
            fun h => ⟨(hrest _ h).1, (hrest _ h).2.1, hu0 _ _ h⟩⟩
    obtain ⟨l, r, hq, hl, hr⟩ := hq
    simp only [faceNus, hq, Option.bind_eq_bind, Option.bind_some]
    by_cases h1 : l.b < 0 <;> by_cases h2 : r.b < 0 <;> simp only [h1, h2, and_self, and_true, true_and, and_false,
      if_true, if_false, ge_iff_le]
    · obtain ⟨a1, a2, a3⟩ := hl h1
      obtain ⟨b1, b2, b3⟩ := hr h2
      rw [a3, b3, C46_lake a1 b1 (by linarith) gDef]
      simp
    · obtain ⟨a1, a2, a3⟩ := hl h1
      rw [a3, neg_zero, C46_lake a1 a1 rfl gDef]
      simp
    · obtain ⟨b1, b2, b3⟩ := hr h2
      rw [b3, neg_zero, C46_lake b1 b1 rfl gDef]
      simp
    · rfl
  have hup : ∀ el q, updateEl m dT (fun _ => ((0, 0), (0, 0))) el q = q := by
    intro el q
    rw [updateEl]
    generalize List.finRange nAd = l
    induction l with
    | nil => rfl
    | cons a l ih => rw [List.foldl_cons]; simp [ih]
  simp only [step, forAll_of key, check, hvol, Option.bind_eq_bind, Option.bind_some, ne_eq, not_false_eq_true,
    implies_true, decide_true, if_true, hup]
  rfl

/-- C47: supercritical flow in a channel with flat ground: the new state of an element is the one of the first order
upwind scheme, for the height and for the momentum. -/
theorem C47_upwind {nEl nFa : Nat} {m : Mesh nEl nFa 2 1} {dofs dofs' : Fin nEl → Dofs 1} {bath : Fin nEl → ℝ} {dT : ℝ}
    {w el e : Fin nEl} (hne : w ≠ el)
    (hL : m.Inner (m.elFa el 0) ∧ m.faEl (m.elFa el 0) = (w, some el) ∧ m.normal (m.elFa el 0) = ![1] ∧
      m.area (m.elFa el 0) = 1)
    (hR : m.Inner (m.elFa el 1) ∧ m.faEl (m.elFa el 1) = (el, some e) ∧ m.normal (m.elFa el 1) = ![1] ∧
      m.area (m.elFa el 1) = 1)
    (hbw : bath w = bath el) (hbe : bath e = bath el) (hwet : bath el < 0)
    (hw : 0 < (dofs w).h) (hel : 0 < (dofs el).h) (he : 0 < (dofs e).h)
    (hsL : ∃ lam, evs (dofs w).h (dofs el).h ((dofs w).hu 0 / (dofs w).h) ((dofs el).hu 0 / (dofs el).h) gDef = some lam ∧
      0 ≤ lam.1)
    (hsR : ∃ lam, evs (dofs el).h (dofs e).h ((dofs el).hu 0 / (dofs el).h) ((dofs e).hu 0 / (dofs e).h) gDef = some lam ∧
      0 ≤ lam.1)
    (h : step m dT bath dofs = some dofs') :
    (dofs' el).h = (dofs el).h - dT / m.vol el *
      ((flux gDef (dofs el).h ((dofs el).hu 0)).1 - (flux gDef (dofs w).h ((dofs w).hu 0)).1) ∧
    (dofs' el).hu 0 = (dofs el).hu 0 - dT / m.vol el *
      ((flux gDef (dofs el).h ((dofs el).hu 0)).2 - (flux gDef (dofs w).h ((dofs w).hu 0)).2) := by
  simp only [step, Option.bind_eq_bind, Option.bind_eq_some_iff, Option.pure_def, Option.some.injEq] at h
  obtain ⟨ns, hn, u, -, rfl⟩ := h
  have hns := forAll_some hn
  obtain ⟨i1, f1, n1, a1⟩ := hL
  obtain ⟨i2, f2, n2, a2⟩ := hR
  have hz : ∀ q : Dofs 1, huN ![1] q = q.hu 0 := by intro q; simp [huN]
  have s1 := hns (m.elFa el 0)
  have s2 := hns (m.elFa el 1)
  obtain ⟨lL, eL, pL⟩ := hsL
  obtain ⟨lR, eR, pR⟩ := hsR
  obtain ⟨x, hx⟩ := C46_upwind hw hel ((dofs w).hu 0) ((dofs el).hu 0) (bath el) (bath el) gDef eL pL
  obtain ⟨y, hy⟩ := C46_upwind hel he ((dofs el).hu 0) ((dofs e).hu 0) (bath el) (bath el) gDef eR pR
  obtain ⟨c1, c2, c3, c4, c5⟩ := C46_conservative hw hel ((dofs w).hu 0) ((dofs el).hu 0) (bath el) (bath el) gDef
  rw [hx] at c3
  obtain ⟨rfl, rfl⟩ := Prod.mk.inj (Option.some.inj c3)
  rw [faceNus, qtsLr_inner i1 (congrArg Prod.snd f1)] at s1
  rw [faceNus, qtsLr_inner i2 (congrArg Prod.snd f2)] at s2
  simp only [f1, n1, hz, hbw, hwet, Option.bind_eq_bind, Option.bind_some, and_self, if_true, hx, ge_iff_le,
    not_le.2 hwet, if_false, Option.pure_def, Option.some.injEq] at s1
  simp only [f2, n2, hz, hbe, hwet, Option.bind_eq_bind, Option.bind_some, and_self, if_true, hy, ge_iff_le,
    not_le.2 hwet, if_false, Option.pure_def, Option.some.injEq] at s2
  simp only [zero_add, sub_self, mul_zero, add_zero] at c4 c5
  have hfr : List.finRange 2 = [0, 1] := by decide
  simp only [updateEl, hfr, List.foldl_cons, List.foldl_nil, f1, f2, ← s1, ← s2, hne, ne_eq, not_true_eq_false,
    not_false_eq_true, if_true, if_false, a1, a2, n1, n2, c4, c5]
  constructor
  · ring
  · simp only [Matrix.cons_val_fin_one]; ring

/-- Two elements of a channel with walls at both ends. -/
noncomputable def channel : Mesh 2 3 2 1 where
  faEl := ![(0, none), (0, some 1), (1, none)]
  elFa := ![![0, 1], ![1, 2]]
  normal := ![![-1], ![1], ![1]]
  area := ![1, 1, 1]
  spType := ![101, 0, 101]
  vol := ![2, 3]

example : Watertight channel (fun s => if s = (0, 1) then (1, 0) else if s = (1, 0) then (0, 1) else s) where
  closed el di := by
    fin_cases el <;> fin_cases di <;> simp [channel, Mesh.out, Fin.sum_univ_two]
  kind s := by
    obtain ⟨a, b⟩ := s
    fin_cases a <;> fin_cases b <;> simp [channel, Mesh.Wall, Mesh.Inner, OUTFLOW, REFLECTING]
  own s := by
    obtain ⟨a, b⟩ := s
    fin_cases a <;> fin_cases b <;> simp [channel, Mesh.Inner, OUTFLOW, REFLECTING]
  inner s := by
    obtain ⟨a, b⟩ := s
    fin_cases a <;> fin_cases b <;> simp [channel, Mesh.Inner, Mesh.other, Mesh.out, OUTFLOW, REFLECTING]

example : ∃ dofs', step channel 0.01 ![-1, -2] ![⟨3, ![1]⟩, ⟨1, ![0]⟩] = some dofs' := by
  refine C47_runs ?_ ?_ ?_ _
  · intro el; fin_cases el <;> norm_num
  · intro el; fin_cases el <;> simp [channel]
  · intro fa; fin_cases fa <;> simp [channel, Mesh.Inner, OUTFLOW, REFLECTING]

/-- Three elements of a ring. -/
noncomputable def ring3 : Mesh 3 3 2 1 where
  faEl := ![(2, some 0), (0, some 1), (1, some 2)]
  elFa := ![![0, 1], ![1, 2], ![2, 0]]
  normal := fun _ => ![1]
  area := fun _ => 1
  spType := fun _ => 0
  vol := fun _ => 2

example {dofs' : Fin 3 → Dofs 1} (h : step ring3 0.01 (fun _ => -1) (fun _ => ⟨1, ![10]⟩) = some dofs') :
    (dofs' 1).h = 1 := by
  have e : gDef * (0.5 * (1 + 1)) = gDef := by ring
  have h1 : Real.sqrt gDef ≤ 10 := by
    rw [Real.sqrt_le_left (by norm_num)]; norm_num [gDef]
  have e2 : ((10 : ℝ) + 10) / (1 + 1) = 10 := by norm_num
  have hev : ∃ lam, evs 1 1 (10 / 1) (10 / 1) gDef = some lam ∧ 0 ≤ lam.1 := by
    refine ⟨(10 - Real.sqrt gDef, 10 + Real.sqrt gDef), ?_, by simpa using h1⟩
    simp [evs, check, gDef_pos.le, e, e2]
  have := (C47_upwind (w := 0) (el := 1) (e := 2) (m := ring3) (by decide)
    (by simp [ring3, Mesh.Inner, OUTFLOW, REFLECTING]) (by simp [ring3, Mesh.Inner, OUTFLOW, REFLECTING]) rfl rfl
    (by norm_num) (by norm_num) (by norm_num) (by norm_num) (by simpa using hev) (by simpa using hev) h).1
  simpa [flux] using this
end

end Edge.Swe
