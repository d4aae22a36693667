import Verif.Visco.C111

/-!
C112: material parameters on both sides of a face between two partitions in viscoelastic simulations. The parameters of the elements of other partitions are exchanged before the
parameters are replaced by the elastic ones, thus the flux solvers of the faces between partitions mix both kinds.
-/

namespace Edge.Visco

/-! ### Model -/

/-- The exchange of the parameters before the solver is constructed (src/impl/seismic/setup.inc:248-262): entry `co` holds the parameters of the element `sendEl[co]` of the other
partition. -/
def exchange (remote : List BgPars) (sendEl : List Nat) : Option (List BgPars) := sendEl.mapM fun el => remote[el]?

/-- The part of the constructor `AderDg` which replaces the parameters of the own elements (src/impl/seismic/solvers/AderDg.hpp:274-283). -/
noncomputable def ctor (fit : (Nat → Nat → ℝ) → (Nat → ℝ) → Nat → ℝ) (nRms : Nat) (freqCen freqRat : ℝ) (bg : List BgPars) : List BgPars :=
  if 0 < nRms then bg.map (initSrcA fit nRms freqCen freqRat) else bg

/-- The parameters of the right element which `initFs` hands to the flux solvers (src/impl/seismic/solvers/AderDgInit.hpp:485-505): of the element `elR`, if it is in the own partition,
otherwise entry `co` of the received parameters. The search of `co` is not modelled, nor are boundary conditions. -/
def rightPars (bg bgRe : List BgPars) (elR : Option Nat) (co : Nat) : Option BgPars :=
  match elR with
  | some el => bg[el]?
  | none => bgRe[co]?

/-- Parameters of the right element of a face whose elements are in the same partition. -/
noncomputable def sameSide (fit : (Nat → Nat → ℝ) → (Nat → ℝ) → Nat → ℝ) (nRms : Nat) (freqCen freqRat : ℝ) (bg : List BgPars) (el : Nat) : Option BgPars :=
  rightPars (ctor fit nRms freqCen freqRat bg) [] (some el) 0

/-- Parameters of the right element of a face whose right element is element `el` of another partition with parameters `remote`. -/
noncomputable def otherSide (fit : (Nat → Nat → ℝ) → (Nat → ℝ) → Nat → ℝ) (nRms : Nat) (freqCen freqRat : ℝ) (bg remote : List BgPars) (sendEl : List Nat) (co : Nat) : Option BgPars := do
  let re ← exchange remote sendEl
  rightPars (ctor fit nRms freqCen freqRat bg) re none co

/-! ### Specification -/

/-- `fit` solves least squares problems with `2n-1` equations and `n` unknowns. -/
def Fits (n : Nat) (fit : (Nat → Nat → ℝ) → (Nat → ℝ) → Nat → ℝ) : Prop :=
  ∀ (A : Nat → Nat → ℝ) (b y : Nat → ℝ), ∑ i ∈ Finset.range (2 * n - 1), (∑ j ∈ Finset.range n, A i j * fit A b j - b i) ^ 2 ≤ ∑ i ∈ Finset.range (2 * n - 1), (∑ j ∈ Finset.range n, A i j * y j - b i) ^ 2

/-! ### Theorems -/

theorem exchange_get {remote : List BgPars} {sendEl : List Nat} {re : List BgPars} (h : exchange remote sendEl = some re) {co el : Nat} (hc : sendEl[co]? = some el) :
    re[co]? = remote[el]? := by
  induction sendEl generalizing re co with
  | nil => simp at hc
  | cons s ss ih =>
    simp only [exchange, List.mapM_cons, Option.bind_eq_bind, Option.bind_eq_some_iff, Option.pure_def] at h
    obtain ⟨b, hb, bs, hbs, h⟩ := h
    cases h
    cases co with
    | zero => simp at hc; subst hc; simp [hb]
    | succ co => simpa using ih hbs (by simpa using hc)

/-- C112: without relaxation mechanisms the parameters of the right element do not depend on whether it belongs to the same partition. -/
theorem C112_elastic_partial {fit : (Nat → Nat → ℝ) → (Nat → ℝ) → Nat → ℝ} {freqCen freqRat : ℝ} {bg remote : List BgPars} {sendEl : List Nat} {re : List BgPars}
    (h : exchange remote sendEl = some re) {co el : Nat} (hc : sendEl[co]? = some el) :
    otherSide fit 0 freqCen freqRat bg remote sendEl co = sameSide fit 0 freqCen freqRat remote el := by
  simp [otherSide, sameSide, rightPars, ctor, h, exchange_get h hc]

/-- C112: with relaxation mechanisms, the parameters of an element of another partition are the ones of the input, those of an element of the same partition the elastic ones. -/
theorem C112_mixed {fit : (Nat → Nat → ℝ) → (Nat → ℝ) → Nat → ℝ} {nRms : Nat} (hn : 0 < nRms) {freqCen freqRat : ℝ} {bg remote : List BgPars} {sendEl : List Nat} {re : List BgPars}
    (h : exchange remote sendEl = some re) {co el : Nat} (hc : sendEl[co]? = some el) {b : BgPars} (hb : remote[el]? = some b) :
    otherSide fit nRms freqCen freqRat bg remote sendEl co = some b ∧
    sameSide fit nRms freqCen freqRat remote el = some { b with
      lam := (anelasticCoeffLame fit nRms freqCen freqRat b.qp b.qs b.lam b.mu).lam, mu := (anelasticCoeffLame fit nRms freqCen freqRat b.qp b.qs b.lam b.mu).mu } := by
  simp [otherSide, sameSide, rightPars, ctor, h, exchange_get h hc, hn, hb, initSrcA]

theorem fits_one : Fits 1 (fun A b _ => b 0 / A 0 0) := by
  intro A b y
  simp only [show 2 * 1 - 1 = 1 from rfl, Finset.sum_range_one]
  by_cases h : A 0 0 = 0
  · simp [h]
  · rw [mul_div_cancel₀ _ h]; simp; positivity

/-- Elastic shear modulus for one mechanism and quality factor 3/4. -/
theorem mu_one (qp lam : ℝ) (mu : ℝ) : (anelasticCoeffLame (fun A b _ => b 0 / A 0 0) 1 1 1 qp (3 / 4) lam mu).mu = mu * (28 / 25) := by
  have hp := Real.pi_pos
  have f0 : frequencies 1 1 1 0 = 2 * Real.pi := by simp [frequencies]
  have y0 : anelasticCoeffPs (fun A b _ => b 0 / A 0 0) (3 / 4) (frequencies 1 1 1) 0 = 8 / 7 := by
    simp only [anelasticCoeffPs, lsqMat, zero_mul, f0]
    field_simp
    norm_num
  have t0 : thetas 1 (2 * Real.pi * 1) (frequencies 1 1 1) (anelasticCoeffPs (fun A b _ => b 0 / A 0 0) (3 / 4) (frequencies 1 1 1)) = (3 / 7, 4 / 7) := by
    simp only [thetas, List.range_one, List.foldl_cons, List.foldl_nil, zero_mul, f0, y0, mul_one, div_self (by positivity : (2 * Real.pi) ≠ 0)]
    norm_num
  have s0 : Real.sqrt (3 / 7 * (3 / 7) + 4 / 7 * (4 / 7)) = 5 / 7 := by
    rw [show (3 / 7 * (3 / 7) + 4 / 7 * (4 / 7) : ℝ) = 5 / 7 * (5 / 7) by norm_num, Real.sqrt_mul_self (by norm_num)]
  simp only [anelasticCoeffLame, elasticLame, t0, factor, s0]
  norm_num

/-- C112: the parameters which the flux solvers use for an element depend on the partitioning of the mesh, also if the least squares problem is solved exactly. -/
theorem C112_partitions_refuted : ∃ fit, Fits 1 fit ∧ ∃ (remote : List BgPars) (sendEl : List Nat) (co el : Nat), sendEl[co]? = some el ∧
    (∀ b ∈ remote, 0 < b.rho ∧ 0 < b.lam ∧ 0 < b.mu ∧ 0 < b.qp ∧ 0 < b.qs) ∧
    ∀ bg, ∃ b b', otherSide fit 1 1 1 bg remote sendEl co = some b ∧ sameSide fit 1 1 1 remote el = some b' ∧ b.mu < b'.mu := by
  refine ⟨_, fits_one, [⟨1, 1, 1, 3 / 4, 3 / 4⟩], [0], 0, 0, rfl, by norm_num, fun bg => ?_⟩
  obtain ⟨h1, h2⟩ := C112_mixed (fit := fun A b _ => b 0 / A 0 0) (nRms := 1) Nat.one_pos (freqCen := 1) (freqRat := 1) (bg := bg) (remote := [⟨1, 1, 1, 3 / 4, 3 / 4⟩])
    (sendEl := [0]) (re := [⟨1, 1, 1, 3 / 4, 3 / 4⟩]) rfl (co := 0) (el := 0) rfl rfl
  refine ⟨_, _, h1, h2, ?_⟩
  simp only [mu_one]
  norm_num

/-- A material with one mechanism meets the hypotheses of C111: the S-wave has the requested speed. -/
example : PhaseVelocity 1 2 (anelasticCoeffLame (fun A b _ => b 0 / A 0 0) 1 1 1 (3 / 4) (3 / 4) 3 8).mu (1 / 2) (fun l => frequencies 1 1 1 (2 * l))
    (fun l => (srcNzs (anelasticCoeffLame (fun A b _ => b 0 / A 0 0) 1 1 1 (3 / 4) (3 / 4) 3 8) l).2.1) (2 * Real.pi * 1) 2 := by
  have h := C111_s_wave (fit := fun A b _ => b 0 / A 0 0) (n := 1) (freqCen := 1) (freqRat := 1) (qp := 3 / 4) (qs := 3 / 4) (lamPhase := 3) (muPhase := 8) (rho := 2)
    (by norm_num) (by norm_num) (by norm_num) (by norm_num) (by rw [mu_one]; norm_num)
  rwa [show Real.sqrt (8 / 2) = (2 : ℝ) by rw [show (8 / 2 : ℝ) = 2 * 2 by norm_num, Real.sqrt_mul_self (by norm_num)]] at h

theorem lam_one (lam mu : ℝ) : (anelasticCoeffLame (fun A b _ => b 0 / A 0 0) 1 1 1 (3 / 4) (3 / 4) lam mu).lam = lam * (28 / 25) := by
  have h1 := mu_one (3 / 4) lam mu
  have h2 := mu_one (3 / 4) lam (lam + 2 * mu)
  simp only [anelasticCoeffLame, elasticLame] at h1 h2 ⊢
  linarith

/-- The hypotheses of the theorem on P-waves hold for this material, too. -/
example : PhaseVelocity 1 1 ((anelasticCoeffLame (fun A b _ => b 0 / A 0 0) 1 1 1 (3 / 4) (3 / 4) 2 1).lam + 2 * (anelasticCoeffLame (fun A b _ => b 0 / A 0 0) 1 1 1 (3 / 4) (3 / 4) 2 1).mu)
    1 (fun l => frequencies 1 1 1 (2 * l)) (fun l => (srcNzs (anelasticCoeffLame (fun A b _ => b 0 / A 0 0) 1 1 1 (3 / 4) (3 / 4) 2 1) l).1) (2 * Real.pi * 1) 2 := by
  have h := C111_p_wave (fit := fun A b _ => b 0 / A 0 0) (n := 1) (freqCen := 1) (freqRat := 1) (qp := 3 / 4) (qs := 3 / 4) (lamPhase := 2) (muPhase := 1) (rho := 1)
    (by norm_num) (by norm_num) (by norm_num) (by norm_num) (by rw [lam_one]; norm_num) (by rw [lam_one, mu_one]; norm_num)
  rwa [show Real.sqrt ((2 + 2 * 1) / 1) = (2 : ℝ) by rw [show ((2 + 2 * 1) / 1 : ℝ) = 2 * 2 by norm_num, Real.sqrt_mul_self (by norm_num)]] at h

/-- The fit of one mechanism is exact, thus the quality factor is the requested one. -/
example : (rel 1 (frequencies 1 1 1 0) (fun l => frequencies 1 1 1 (l * 2)) (fun _ => 8 / 7)).re = 3 / 4 * (rel 1 (frequencies 1 1 1 0) (fun l => frequencies 1 1 1 (l * 2)) (fun _ => 8 / 7)).im := by
  refine C111_quality (by norm_num) (fun l _ => freq_pos (by norm_num) (by norm_num) _) ?_
  have hp := Real.pi_pos
  have f0 : frequencies 1 1 1 0 = 2 * Real.pi := by simp [frequencies]
  simp only [Finset.sum_range_one, lsqMat, zero_mul, f0]
  field_simp
  norm_num

/-- The frequencies of three mechanisms with ratio 100. -/
example : frequencies 3 1 100 2 = 2 * Real.pi * 1 ∧ frequencies 3 1 100 4 / frequencies 3 1 100 0 = 100 :=
  let h := C111_frequencies (n := 3) (freqCen := 1) (freqRat := 100) (by norm_num) (by norm_num) (by norm_num)
  ⟨h.1, h.2.1⟩

/-- Two mechanisms with different coefficients have a positive modulus. -/
example : 0 < 5 * factor (thetas 2 1 (fun i => i + 1) (fun i => i)) := C111_positive (n := 2) (by norm_num) one_pos (fun l _ => by positivity) (fun l _ => by positivity)

/-- The parameters of an element of another partition without mechanisms. -/
example : otherSide (fun A b _ => b 0 / A 0 0) 0 1 1 [] [⟨1, 2, 3, 4, 5⟩] [0, 0] 1 = sameSide (fun A b _ => b 0 / A 0 0) 0 1 1 [⟨1, 2, 3, 4, 5⟩] 0 :=
  C112_elastic_partial (re := [⟨1, 2, 3, 4, 5⟩, ⟨1, 2, 3, 4, 5⟩]) rfl rfl

end Edge.Visco
