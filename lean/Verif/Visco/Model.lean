import Mathlib.Analysis.SpecialFunctions.Pow.Real

/-!
Model of the material set-up of viscoelastic simulations: `src/impl/seismic/setups/ViscoElasticity.{h,cpp}` and `AderDgInit::initSrcA`.

Real numbers replace floating point numbers. Arrays are functions of the position; the positions read are below the sizes of the arrays in the code. The singular value decomposition of
the library Eigen, which solves the least squares problem, is the parameter `fit` (matrix and right-hand side to solution).
-/

namespace Edge.Visco

/-- `ViscoElasticity::frequencies` (src/impl/seismic/setups/ViscoElasticity.h:168-183), entry `fr` of `o_freqs`. -/
noncomputable def frequencies (nMechs : Nat) (freqCen freqRat : ℝ) (fr : Nat) : ℝ :=
  let f0 := 2 * Real.pi * freqCen / Real.sqrt freqRat
  if fr = 0 then f0 else Real.exp (Real.log f0 + (fr * Real.log freqRat) / (2 * ((nMechs : ℝ) - 1)))

/-- The loop over the mechanisms in `elasticLame` for one of the two moduli (src/impl/seismic/setups/ViscoElasticity.cpp:42-52): `l_theta1` and `l_theta2`. -/
noncomputable def thetas (nMechs : Nat) (freqRef : ℝ) (freqs coeffs : Nat → ℝ) : ℝ × ℝ :=
  (List.range nMechs).foldl (fun t me =>
    let rat := freqRef / freqs (me * 2)
    let sca := 1 / (1 + rat * rat)
    (t.1 - coeffs me * sca, t.2 + coeffs me * rat * sca)) (1, 0)

/-- The factor of the phase modulus (src/impl/seismic/setups/ViscoElasticity.cpp:54-64). -/
noncomputable def factor (t : ℝ × ℝ) : ℝ :=
  let r := Real.sqrt (t.1 * t.1 + t.2 * t.2)
  (r + t.1) / (2 * r * r)

/-- `ViscoElasticity::elasticLame` (src/impl/seismic/setups/ViscoElasticity.cpp:30-67): elastic lambda and mu. -/
noncomputable def elasticLame (nMechs : Nat) (freqRef : ℝ) (freqs coeffsKappa coeffsMu : Nat → ℝ) (lamPhase muPhase : ℝ) : ℝ × ℝ :=
  let muElastic := muPhase * factor (thetas nMechs freqRef freqs coeffsMu)
  let kappa := (lamPhase + 2 * muPhase) * factor (thetas nMechs freqRef freqs coeffsKappa)
  (kappa - 2 * muElastic, muElastic)

/-- The matrix of the least squares problem in `anelasticCoeffPs` (src/impl/seismic/setups/ViscoElasticity.cpp:83-91). -/
noncomputable def lsqMat (q : ℝ) (freqs : Nat → ℝ) (fr me : Nat) : ℝ :=
  let mf := freqs (me * 2)
  (mf * freqs fr + mf * mf * (1 / q)) / (freqs fr * freqs fr + mf * mf)

/-- `ViscoElasticity::anelasticCoeffPs` (src/impl/seismic/setups/ViscoElasticity.cpp:69-128). -/
noncomputable def anelasticCoeffPs (fit : (Nat → Nat → ℝ) → (Nat → ℝ) → Nat → ℝ) (q : ℝ) (freqs : Nat → ℝ) : Nat → ℝ :=
  fit (lsqMat q freqs) (fun _ => 1 / q)

/-- Result of `anelasticCoeffLame`. -/
structure Mat where
  /-- `o_lamElastic` -/
  lam : ℝ
  /-- `o_muElastic` -/
  mu : ℝ
  /-- the first `i_nMechs` entries of `o_coeffs` -/
  coeffsLam : Nat → ℝ
  /-- the remaining entries of `o_coeffs` -/
  coeffsMu : Nat → ℝ

/-- `ViscoElasticity::anelasticCoeffLame` (src/impl/seismic/setups/ViscoElasticity.cpp:130-176). -/
noncomputable def anelasticCoeffLame (fit : (Nat → Nat → ℝ) → (Nat → ℝ) → Nat → ℝ) (nMechs : Nat) (freqCen freqRat qp qs lamPhase muPhase : ℝ) : Mat :=
  let freqs := frequencies nMechs freqCen freqRat
  let kap := anelasticCoeffPs fit qp freqs
  let mu := anelasticCoeffPs fit qs freqs
  let e := elasticLame nMechs (2 * Real.pi * freqCen) freqs kap mu lamPhase muPhase
  let sca := 2 * e.2 / e.1
  ⟨e.1, e.2, fun me => (1 + sca) * kap me - sca * mu me, mu⟩

/-- The non-zero entries `l_nzs` of the source matrix of mechanism `me` in `ViscoElasticity::src` (src/impl/seismic/setups/ViscoElasticity.h:242-249, 416-423). -/
noncomputable def srcNzs (m : Mat) (me : Nat) : ℝ × ℝ × ℝ :=
  (-m.lam * m.coeffsLam me - 2 * m.mu * m.coeffsMu me, -2 * m.mu * m.coeffsMu me, -m.lam * m.coeffsLam me)

/-- Background parameters of an element (`t_bgPars`, src/impl/seismic/inc/impl.inc). -/
structure BgPars where
  rho : ℝ
  lam : ℝ
  mu : ℝ
  qp : ℝ
  qs : ℝ

/-- `AderDgInit::initSrcA` for an element: the Lamé parameters are replaced (src/impl/seismic/solvers/AderDgInit.hpp:100-117). -/
noncomputable def initSrcA (fit : (Nat → Nat → ℝ) → (Nat → ℝ) → Nat → ℝ) (nMechs : Nat) (freqCen freqRat : ℝ) (b : BgPars) : BgPars :=
  let m := anelasticCoeffLame fit nMechs freqCen freqRat b.qp b.qs b.lam b.mu
  { b with lam := m.lam, mu := m.mu }

end Edge.Visco
