import Mathlib.Data.Real.Sqrt
import Mathlib.Tactic.FieldSimp
import Mathlib.Tactic.Linarith
import Mathlib.Tactic.Positivity
/-!
Model of the linear slip weakening friction law (`src/impl/seismic/solvers/FrictionLaws.hpp`) over the real numbers, for
one sub-face and one of the fused runs (the loops over the runs are independent).
-/
namespace Edge.Seismic
open Classical

/-- Parameters of the law and of the face (src/impl/seismic/solvers/FrictionLaws.type: `t_LinSlipWeakGlobal`,
`t_LinSlipWeakFace`). -/
structure LswPars where
  mus : ℝ
  mud : ℝ
  dcInv : ℝ
  lEqM : Bool
  csDmuM : ℝ
  csDmuP : ℝ

/-- Fault strength (src/impl/seismic/solvers/FrictionLaws.hpp:127-132 in 2D, 342-347 in 3D). -/
noncomputable def lswStrength (muf sn0 co0 msN : ℝ) : ℝ :=
  let st := muf * (sn0 + msN)
  let st := st + co0
  if st < 0 then -st else 0

/-- Update of the friction coefficient (src/impl/seismic/solvers/FrictionLaws.hpp:166-170 in 2D, 399-403 in 3D). -/
noncomputable def lswCoeff (q : LswPars) (dd : ℝ) : ℝ :=
  let arg := -(q.mus - q.mud) * q.dcInv
  let arg := arg * dd
  let arg := arg + q.mus
  max q.mud arg

/-- Data of a sub-face in 2D: initial stresses and cohesion, friction coefficient, slip (`t_LinSlipWeakSubFace`). -/
structure Sf2 where
  sn0 : ℝ
  co0 : ℝ
  ss0 : ℝ
  muf : ℝ
  dd : ℝ

/-- What an evaluation of the law sets. -/
structure Lsw2Out where
  st : ℝ
  per : Bool
  tr : ℝ
  sr : ℝ
  msM : Fin 5 → ℝ
  msP : Fin 5 → ℝ
  sf : Sf2

/-- `FrictionLaws< 2 >::linSlipWeak` (src/impl/seismic/solvers/FrictionLaws.hpp:99-175). -/
noncomputable def lsw2 (dt : ℝ) (q : LswPars) (ms : Fin 5 → ℝ) (sf : Sf2) : Lsw2Out :=
  let st := lswStrength sf.muf sf.sn0 sf.co0 (ms 0)
  let shear := sf.ss0 + ms 2
  let per := decide (|shear| > st)
  let tr := st - |sf.ss0|
  let tr := if sf.ss0 > 0 then tr else -tr
  let tr := if per then tr else ms 2
  let msM := Function.update ms 2 tr
  let msP := Function.update ms 2 tr
  let msM := Function.update msM 4 (msM 4 - q.csDmuM * (tr - ms 2))
  let msP := Function.update msP 4 (msP 4 + q.csDmuP * (tr - ms 2))
  let sr := msP 4 - msM 4
  let dd := sf.dd + |sr| * dt
  let muf := lswCoeff q dd
  ⟨st, per, tr + sf.ss0, sr, msM, msP, { sf with muf := muf, dd := dd }⟩

/-- Data of a sub-face in 3D. -/
structure Sf3 where
  sn0 : ℝ
  co0 : ℝ
  ss0 : ℝ × ℝ
  muf : ℝ
  dd : ℝ × ℝ

/-- What an evaluation of the law sets in 3D. -/
structure Lsw3Out where
  st : ℝ
  per : Bool
  tr : ℝ × ℝ
  sr : ℝ × ℝ
  msM : Fin 9 → ℝ
  msP : Fin 9 → ℝ
  sf : Sf3

/-- `FrictionLaws< 3 >::linSlipWeak` (src/impl/seismic/solvers/FrictionLaws.hpp:308-408). The quotient `st / shear` is used
only if the fault fails, i.e. for `shear > st ≥ 0`; the model forms it only in this case. -/
noncomputable def lsw3 (dt : ℝ) (q : LswPars) (ms : Fin 9 → ℝ) (sf : Sf3) : Lsw3Out :=
  let st := lswStrength sf.muf sf.sn0 sf.co0 (ms 0)
  let shear1 := sf.ss0.1 + ms 3
  let shear2 := sf.ss0.2 + ms 5
  let shear := Real.sqrt (shear1 * shear1 + shear2 * shear2)
  let per := decide (shear > st)
  let tr0 := if per then (sf.ss0.1 + ms 3) * (st / shear) - sf.ss0.1 else ms 3
  let tr1 := if per then (sf.ss0.2 + ms 5) * (st / shear) - sf.ss0.2 else ms 5
  let msM := Function.update (Function.update ms 3 tr0) 5 tr1
  let msP := Function.update (Function.update ms 3 tr0) 5 tr1
  let diff1 := tr0 - ms 3
  let diff2 := tr1 - ms 5
  let msM := Function.update msM 7 (msM 7 - q.csDmuM * diff1)
  let msM := Function.update msM 8 (msM 8 - q.csDmuM * diff2)
  let msP := Function.update msP 7 (msP 7 + q.csDmuP * diff1)
  let msP := Function.update msP 8 (msP 8 + q.csDmuP * diff2)
  let sr := (msP 7 - msM 7, msP 8 - msM 8)
  let dd := (sf.dd.1 + |sr.1| * dt, sf.dd.2 + |sr.2| * dt)
  let ddA := Real.sqrt (dd.1 * dd.1 + dd.2 * dd.2)
  let muf := lswCoeff q ddA
  ⟨st, per, (tr0 + sf.ss0.1, tr1 + sf.ss0.2), sr, msM, msP, { sf with muf := muf, dd := dd }⟩

/-- `perturb` (src/impl/seismic/solvers/FrictionLaws.hpp:191-222 in 2D): left- and right-side middle state. -/
noncomputable def perturb2 (dt : ℝ) (q : LswPars) (ms : Fin 5 → ℝ) (sf : Sf2) :
    (Fin 5 → ℝ) × (Fin 5 → ℝ) × Lsw2Out :=
  let o := lsw2 dt q ms sf
  if q.lEqM then (o.msM, o.msP, o) else (o.msP, o.msM, o)

/-- `perturb` in 3D (src/impl/seismic/solvers/FrictionLaws.hpp:424-456). -/
noncomputable def perturb3 (dt : ℝ) (q : LswPars) (ms : Fin 9 → ℝ) (sf : Sf3) :
    (Fin 9 → ℝ) × (Fin 9 → ℝ) × Lsw3Out :=
  let o := lsw3 dt q ms sf
  if q.lEqM then (o.msM, o.msP, o) else (o.msP, o.msM, o)

/-! ### Specification -/

/-- The law as documented: linear decay from the static to the dynamic coefficient over the slip `1 / dcInv`. -/
noncomputable def LswPars.law (q : LswPars) (slip : ℝ) : ℝ := max q.mud (q.mus - (q.mus - q.mud) * (q.dcInv * slip))

/-- Coulomb strength of a fault under normal stress `sn` (negative: compression). -/
noncomputable def coulomb (muf sn co : ℝ) : ℝ := max 0 (-(muf * sn + co))

/-- Sensible parameters. -/
def LswPars.Valid (q : LswPars) : Prop := 0 ≤ q.mud ∧ q.mud ≤ q.mus ∧ 0 ≤ q.dcInv ∧ 0 ≤ q.csDmuM ∧ 0 ≤ q.csDmuP

/-- Magnitude of a shear stress. -/
noncomputable def mag (x : ℝ × ℝ) : ℝ := Real.sqrt (x.1 ^ 2 + x.2 ^ 2)

/-- A history of evaluations: time steps and middle states. -/
noncomputable def hist2 (q : LswPars) (l : List (ℝ × (Fin 5 → ℝ))) (sf : Sf2) : Sf2 :=
  l.foldl (fun sf x => (lsw2 x.1 q x.2 sf).sf) sf
noncomputable def hist3 (q : LswPars) (l : List (ℝ × (Fin 9 → ℝ))) (sf : Sf3) : Sf3 :=
  l.foldl (fun sf x => (lsw3 x.1 q x.2 sf).sf) sf

/-! ### Proofs -/

theorem lswCoeff_law (q : LswPars) (dd : ℝ) : lswCoeff q dd = q.law dd := by
  simp only [lswCoeff, LswPars.law]; congr 1; ring

theorem strength_coulomb (muf sn0 co0 x : ℝ) : lswStrength muf sn0 co0 x = coulomb muf (sn0 + x) co0 := by
  simp only [lswStrength, coulomb]
  by_cases h : muf * (sn0 + x) + co0 < 0 <;> simp only [h, if_true, if_false]
  · rw [max_eq_right (by linarith)]
  · rw [max_eq_left (by linarith)]

theorem coulomb_nonneg (a b c : ℝ) : 0 ≤ coulomb a b c := le_max_left _ _

theorem law_bounds {q : LswPars} (h : q.Valid) {s : ℝ} (hs : 0 ≤ s) : q.mud ≤ q.law s ∧ q.law s ≤ q.mus := by
  obtain ⟨-, h2, h3, -, -⟩ := h
  refine ⟨le_max_left _ _, max_le h2 ?_⟩
  have : 0 ≤ (q.mus - q.mud) * (q.dcInv * s) := mul_nonneg (by linarith) (mul_nonneg h3 hs)
  linarith

theorem law_anti {q : LswPars} (h : q.Valid) {s s' : ℝ} (hs : s ≤ s') : q.law s' ≤ q.law s := by
  obtain ⟨-, h2, h3, -, -⟩ := h
  refine max_le_max le_rfl ?_
  have : (q.mus - q.mud) * (q.dcInv * s) ≤ (q.mus - q.mud) * (q.dcInv * s') :=
    mul_le_mul_of_nonneg_left (mul_le_mul_of_nonneg_left hs h3) (by linarith)
  linarith

theorem law_end {q : LswPars} (h : q.Valid) {s : ℝ} (hs : 1 ≤ q.dcInv * s) : q.law s = q.mud := by
  obtain ⟨-, h2, -, -, -⟩ := h
  refine max_eq_left ?_
  have : (q.mus - q.mud) * 1 ≤ (q.mus - q.mud) * (q.dcInv * s) := mul_le_mul_of_nonneg_left hs (by linarith)
  linarith

/-- C48 (2D): the fault fails exactly if the shear stress exceeds the Coulomb strength; the total shear traction never
exceeds it and equals it if the fault fails; traction is continuous, normal components and the remaining stress are
untouched on both sides. -/
theorem C48_strength2 (dt : ℝ) (q : LswPars) (ms : Fin 5 → ℝ) (sf : Sf2) :
    let o := lsw2 dt q ms sf
    let st := coulomb sf.muf (sf.sn0 + ms 0) sf.co0
    o.st = st ∧ (o.per = true ↔ |sf.ss0 + ms 2| > st) ∧ |o.tr| ≤ st ∧ (o.per = true → |o.tr| = st) ∧
      o.tr = sf.ss0 + o.msM 2 ∧ o.msM 2 = o.msP 2 ∧
      ∀ i, i ≠ 2 → i ≠ 4 → o.msM i = ms i ∧ o.msP i = ms i := by
  intro o st
  have hst : o.st = st := strength_coulomb _ _ _ _
  have h0 : 0 ≤ st := coulomb_nonneg _ _ _
  have hper : o.per = true ↔ |sf.ss0 + ms 2| > st := by
    change decide (|sf.ss0 + ms 2| > o.st) = true ↔ _
    rw [hst, decide_eq_true_iff]
  have hfail : |sf.ss0 + ms 2| > st → |o.tr| = st := by
    intro h
    have hp : decide (|sf.ss0 + ms 2| > o.st) = true := hper.2 h
    have e : o.tr = (if decide (|sf.ss0 + ms 2| > o.st) = true then
        (if sf.ss0 > 0 then o.st - |sf.ss0| else -(o.st - |sf.ss0|)) else ms 2) + sf.ss0 := rfl
    rw [e, if_pos hp, hst]
    by_cases hs : sf.ss0 > 0
    · rw [if_pos hs, abs_of_pos hs, sub_add_cancel, abs_of_nonneg h0]
    · rw [if_neg hs, abs_of_nonpos (not_lt.1 hs)]
      rw [show -(st - -sf.ss0) + sf.ss0 = -st by ring, abs_neg, abs_of_nonneg h0]
  refine ⟨hst, hper, ?_, fun h => hfail (hper.1 h), ?_, ?_, ?_⟩
  · by_cases h : |sf.ss0 + ms 2| > st
    · exact (hfail h).le
    · have hp : ¬decide (|sf.ss0 + ms 2| > o.st) = true := fun h' => h (hper.1 h')
      have e : o.tr = (if decide (|sf.ss0 + ms 2| > o.st) = true then
          (if sf.ss0 > 0 then o.st - |sf.ss0| else -(o.st - |sf.ss0|)) else ms 2) + sf.ss0 := rfl
      rw [e, if_neg hp, add_comm]
      exact not_lt.1 h
  · simp [o, lsw2]; ring
  · simp [o, lsw2]
  · intro i h2 h4
    simp [o, lsw2, Function.update_of_ne h2, Function.update_of_ne h4]

/-- C48 (2D): a locked fault does not slip, and its middle state is not changed. -/
theorem C48_locked2 (dt : ℝ) (q : LswPars) (ms : Fin 5 → ℝ) (sf : Sf2) (h : (lsw2 dt q ms sf).per = false) :
    let o := lsw2 dt q ms sf
    o.msM = ms ∧ o.msP = ms ∧ o.sr = 0 ∧ o.sf.dd = sf.dd := by
  have hp : decide (|sf.ss0 + ms 2| > lswStrength sf.muf sf.sn0 sf.co0 (ms 0)) = false := h
  have e1 : Function.update ms 2 (ms 2) = ms := Function.update_eq_self _ _
  have e2 : Function.update ms 4 (ms 4) = ms := Function.update_eq_self _ _
  simp [lsw2, hp, e1, e2]

/-- C48 (2D): the velocities jump by the amount which belongs to the change of the shear stress in outgoing s-waves (plus
side left, minus side right of the fault-aligned frame), and the slip rate is the difference of the velocities. -/
theorem C48_waves2 (dt : ℝ) (q : LswPars) (ms : Fin 5 → ℝ) (sf : Sf2) :
    let o := lsw2 dt q ms sf
    o.msP 4 - ms 4 = q.csDmuP * (o.msP 2 - ms 2) ∧ o.msM 4 - ms 4 = -q.csDmuM * (o.msM 2 - ms 2) ∧
      o.sr = o.msP 4 - o.msM 4 ∧ o.sf.dd = sf.dd + |o.sr| * dt ∧ o.sf.muf = q.law o.sf.dd ∧
      o.sf.sn0 = sf.sn0 ∧ o.sf.co0 = sf.co0 ∧ o.sf.ss0 = sf.ss0 := by
  intro o
  refine ⟨?_, ?_, rfl, rfl, lswCoeff_law _ _, rfl, rfl, rfl⟩ <;> simp [o, lsw2]

/-- C48 (2D), every history: slip never decreases; after every non-empty history the friction coefficient is the one of
the law for the accumulated slip; it lies between the dynamic and the static value and never increases. -/
theorem C48_history2 {q : LswPars} (hq : q.Valid) {sf : Sf2} (h0 : 0 ≤ sf.dd) (hmu : sf.muf = q.law sf.dd)
    (l l' : List (ℝ × (Fin 5 → ℝ))) (hdt : ∀ x ∈ l ++ l', 0 ≤ x.1) :
    let a := hist2 q l sf
    let b := hist2 q (l ++ l') sf
    a.dd ≤ b.dd ∧ b.muf = q.law b.dd ∧ b.muf ≤ a.muf ∧ q.mud ≤ b.muf ∧ b.muf ≤ q.mus := by
  have key : ∀ (l : List (ℝ × (Fin 5 → ℝ))) (sf : Sf2), (∀ x ∈ l, 0 ≤ x.1) → sf.muf = q.law sf.dd →
      sf.dd ≤ (hist2 q l sf).dd ∧ (hist2 q l sf).muf = q.law (hist2 q l sf).dd := by
    intro l
    induction l with
    | nil => intro sf _ h; exact ⟨le_rfl, h⟩
    | cons x l ih =>
      intro sf hx h
      obtain ⟨-, -, -, w1, w2, -⟩ := C48_waves2 x.1 q x.2 sf
      obtain ⟨i1, i2⟩ := ih (lsw2 x.1 q x.2 sf).sf (fun y hy => hx y (List.mem_cons_of_mem _ hy)) w2
      refine ⟨le_trans ?_ i1, i2⟩
      rw [w1]
      have := mul_nonneg (abs_nonneg (lsw2 x.1 q x.2 sf).sr) (hx x List.mem_cons_self)
      linarith
  intro a b
  have hb : b = hist2 q l' a := by simp only [a, b, hist2, List.foldl_append]
  obtain ⟨a1, a2⟩ := key l sf (fun x hx => hdt x (List.mem_append_left _ hx)) hmu
  obtain ⟨b1, b2⟩ := key l' a (fun x hx => hdt x (List.mem_append_right _ hx)) a2
  rw [← hb] at b1 b2
  have hpos : 0 ≤ b.dd := le_trans h0 (le_trans a1 b1)
  refine ⟨b1, b2, ?_, ?_, ?_⟩
  · rw [b2, show a.muf = q.law a.dd from a2]; exact law_anti hq b1
  · rw [b2]; exact (law_bounds hq hpos).1
  · rw [b2]; exact (law_bounds hq hpos).2

theorem mag_nonneg (x : ℝ × ℝ) : 0 ≤ mag x := Real.sqrt_nonneg _

theorem mag_mul (c : ℝ) (x : ℝ × ℝ) : mag (x.1 * c, x.2 * c) = mag x * |c| := by
  rw [mag, mag, ← Real.sqrt_sq_eq_abs, ← Real.sqrt_mul (by positivity)]
  congr 1; ring

/-- C48 (3D): as in 2D, for the vector of the shear tractions along strike and dip. -/
theorem C48_strength3 (dt : ℝ) (q : LswPars) (ms : Fin 9 → ℝ) (sf : Sf3) :
    let o := lsw3 dt q ms sf
    let st := coulomb sf.muf (sf.sn0 + ms 0) sf.co0
    let shear := (sf.ss0.1 + ms 3, sf.ss0.2 + ms 5)
    o.st = st ∧ (o.per = true ↔ mag shear > st) ∧ mag o.tr ≤ st ∧ (o.per = true → mag o.tr = st) ∧
      o.tr = (sf.ss0.1 + o.msM 3, sf.ss0.2 + o.msM 5) ∧ o.msM 3 = o.msP 3 ∧ o.msM 5 = o.msP 5 ∧
      ∀ i, i ≠ 3 → i ≠ 5 → i ≠ 7 → i ≠ 8 → o.msM i = ms i ∧ o.msP i = ms i := by
  intro o st shear
  have hst : o.st = st := strength_coulomb _ _ _ _
  have h0 : 0 ≤ st := coulomb_nonneg _ _ _
  have hmag : Real.sqrt ((sf.ss0.1 + ms 3) * (sf.ss0.1 + ms 3) + (sf.ss0.2 + ms 5) * (sf.ss0.2 + ms 5)) = mag shear := by
    simp only [mag, shear, sq]
  have hper : o.per = true ↔ mag shear > st := by
    change decide (Real.sqrt ((sf.ss0.1 + ms 3) * (sf.ss0.1 + ms 3) + (sf.ss0.2 + ms 5) * (sf.ss0.2 + ms 5)) > o.st) = true
      ↔ _
    rw [hst, hmag, decide_eq_true_iff]
  have hd : ∀ b, o.per = b → decide (Real.sqrt ((sf.ss0.1 + ms 3) * (sf.ss0.1 + ms 3) +
      (sf.ss0.2 + ms 5) * (sf.ss0.2 + ms 5)) > lswStrength sf.muf sf.sn0 sf.co0 (ms 0)) = b := fun b h => h
  have hfail : o.per = true → mag o.tr = st := by
    intro h
    have e : o.tr = (shear.1 * (st / mag shear), shear.2 * (st / mag shear)) := by
      have h' := hd true h
      simp only [o, lsw3, h', if_true]
      rw [hmag, strength_coulomb, sub_add_cancel, sub_add_cancel]
    have hpos : 0 < mag shear := lt_of_le_of_lt h0 (hper.1 h)
    rw [e, mag_mul, abs_of_nonneg (div_nonneg h0 hpos.le), mul_div_cancel₀ _ hpos.ne']
  refine ⟨hst, hper, ?_, hfail, ?_, ?_, ?_, ?_⟩
  · by_cases h : o.per = true
    · exact (hfail h).le
    · have hf : o.per = false := Bool.eq_false_iff.2 h
      have e : o.tr = shear := by
        have h' := hd false hf
        simp only [o, lsw3, h', Bool.false_eq_true, if_false]
        rw [add_comm, add_comm (ms 5)]
      rw [e]
      exact not_lt.1 (fun h' => h (hper.2 h'))
  · have h3 : o.tr.1 - sf.ss0.1 = o.msM 3 := by simp [o, lsw3]
    have h5 : o.tr.2 - sf.ss0.2 = o.msM 5 := by simp [o, lsw3]
    rw [← h3, ← h5, add_sub_cancel, add_sub_cancel]
  · simp [o, lsw3]
  · simp [o, lsw3]
  · intro i h3 h5 h7 h8
    simp [o, lsw3, Function.update_of_ne h3, Function.update_of_ne h5, Function.update_of_ne h7, Function.update_of_ne h8]

/-- C48 (3D): a locked fault does not slip. -/
theorem C48_locked3 (dt : ℝ) (q : LswPars) (ms : Fin 9 → ℝ) (sf : Sf3) (h : (lsw3 dt q ms sf).per = false) :
    let o := lsw3 dt q ms sf
    o.msM = ms ∧ o.msP = ms ∧ o.sr = (0, 0) ∧ o.sf.dd = sf.dd := by
  have hp : decide (Real.sqrt ((sf.ss0.1 + ms 3) * (sf.ss0.1 + ms 3) +
      (sf.ss0.2 + ms 5) * (sf.ss0.2 + ms 5)) > lswStrength sf.muf sf.sn0 sf.co0 (ms 0)) = false := h
  simp only [lsw3, hp, Bool.false_eq_true, if_false, Function.update_eq_self, sub_self, mul_zero, sub_zero, add_zero,
    abs_zero, zero_mul, and_self]

/-- C48 (3D): outgoing s-waves, slip rate and slip. -/
theorem C48_waves3 (dt : ℝ) (q : LswPars) (ms : Fin 9 → ℝ) (sf : Sf3) :
    let o := lsw3 dt q ms sf
    (o.msP 7 - ms 7 = q.csDmuP * (o.msP 3 - ms 3) ∧ o.msP 8 - ms 8 = q.csDmuP * (o.msP 5 - ms 5)) ∧
      (o.msM 7 - ms 7 = -q.csDmuM * (o.msM 3 - ms 3) ∧ o.msM 8 - ms 8 = -q.csDmuM * (o.msM 5 - ms 5)) ∧
      o.sr = (o.msP 7 - o.msM 7, o.msP 8 - o.msM 8) ∧
      o.sf.dd = (sf.dd.1 + |o.sr.1| * dt, sf.dd.2 + |o.sr.2| * dt) ∧ o.sf.muf = q.law (mag o.sf.dd) ∧
      o.sf.sn0 = sf.sn0 ∧ o.sf.co0 = sf.co0 ∧ o.sf.ss0 = sf.ss0 := by
  intro o
  refine ⟨⟨?_, ?_⟩, ⟨?_, ?_⟩, rfl, rfl, ?_, rfl, rfl, rfl⟩
  · simp [o, lsw3]
  · simp [o, lsw3]
  · simp [o, lsw3]
  · simp [o, lsw3]
  · change lswCoeff q (Real.sqrt (o.sf.dd.1 * o.sf.dd.1 + o.sf.dd.2 * o.sf.dd.2)) = _
    rw [lswCoeff_law, mag, sq, sq]

theorem mag_mono {x y : ℝ × ℝ} (h1 : 0 ≤ x.1) (h2 : 0 ≤ x.2) (h3 : x.1 ≤ y.1) (h4 : x.2 ≤ y.2) : mag x ≤ mag y := by
  refine Real.sqrt_le_sqrt (add_le_add ?_ ?_) <;> gcongr

theorem mag_add (x y : ℝ × ℝ) : mag (x.1 + y.1, x.2 + y.2) ≤ mag x + mag y := by
  have hx : mag x ^ 2 = x.1 ^ 2 + x.2 ^ 2 := Real.sq_sqrt (by positivity)
  have hy : mag y ^ 2 = y.1 ^ 2 + y.2 ^ 2 := Real.sq_sqrt (by positivity)
  have h1 : x.1 * y.1 + x.2 * y.2 ≤ mag x * mag y := by
    rw [mag, mag, ← Real.sqrt_mul (by positivity)]
    refine le_trans (le_abs_self _) (Real.abs_le_sqrt ?_)
    nlinarith [sq_nonneg (x.1 * y.2 - x.2 * y.1)]
  refine Real.sqrt_le_iff.2 ⟨add_nonneg (mag_nonneg _) (mag_nonneg _), ?_⟩
  nlinarith

/-- Length of the path of the slip in a history. -/
noncomputable def path3 (q : LswPars) : List (ℝ × (Fin 9 → ℝ)) → Sf3 → ℝ
  | [], _ => 0
  | x :: l, sf => x.1 * mag (lsw3 x.1 q x.2 sf).sr + path3 q l (lsw3 x.1 q x.2 sf).sf

/-- C48 (3D), every history: the slip along strike and dip never decreases; the friction coefficient is the one of the law
for the magnitude of the slip, lies between the dynamic and the static value, and never increases. The magnitude is at most
the length of the path of the slip: in 3D weakening is never overestimated. -/
theorem C48_history3 {q : LswPars} (hq : q.Valid) {sf : Sf3} (h0 : 0 ≤ sf.dd.1 ∧ 0 ≤ sf.dd.2)
    (hmu : sf.muf = q.law (mag sf.dd)) (l l' : List (ℝ × (Fin 9 → ℝ))) (hdt : ∀ x ∈ l ++ l', 0 ≤ x.1) :
    let a := hist3 q l sf
    let b := hist3 q (l ++ l') sf
    a.dd.1 ≤ b.dd.1 ∧ a.dd.2 ≤ b.dd.2 ∧ b.muf = q.law (mag b.dd) ∧ b.muf ≤ a.muf ∧ q.mud ≤ b.muf ∧ b.muf ≤ q.mus ∧
      mag a.dd ≤ mag sf.dd + path3 q l sf := by
  have key : ∀ (l : List (ℝ × (Fin 9 → ℝ))) (sf : Sf3), (∀ x ∈ l, 0 ≤ x.1) → sf.muf = q.law (mag sf.dd) →
      0 ≤ sf.dd.1 → 0 ≤ sf.dd.2 →
      sf.dd.1 ≤ (hist3 q l sf).dd.1 ∧ sf.dd.2 ≤ (hist3 q l sf).dd.2 ∧
        (hist3 q l sf).muf = q.law (mag (hist3 q l sf).dd) ∧ mag (hist3 q l sf).dd ≤ mag sf.dd + path3 q l sf := by
    intro l
    induction l with
    | nil => intro sf _ h _ _; exact ⟨le_rfl, le_rfl, h, by simp [hist3, path3]⟩
    | cons x l ih =>
      intro sf hx h p1 p2
      obtain ⟨-, -, -, w1, w2, -⟩ := C48_waves3 x.1 q x.2 sf
      have hx0 := hx x List.mem_cons_self
      have n1 := mul_nonneg (abs_nonneg (lsw3 x.1 q x.2 sf).sr.1) hx0
      have n2 := mul_nonneg (abs_nonneg (lsw3 x.1 q x.2 sf).sr.2) hx0
      have g1 : (lsw3 x.1 q x.2 sf).sf.dd.1 = sf.dd.1 + |(lsw3 x.1 q x.2 sf).sr.1| * x.1 := by rw [w1]
      have g2 : (lsw3 x.1 q x.2 sf).sf.dd.2 = sf.dd.2 + |(lsw3 x.1 q x.2 sf).sr.2| * x.1 := by rw [w1]
      obtain ⟨i1, i2, i3, i4⟩ := ih (lsw3 x.1 q x.2 sf).sf (fun y hy => hx y (List.mem_cons_of_mem _ hy)) w2
        (by linarith) (by linarith)
      refine ⟨by rw [g1] at i1; exact le_trans (by linarith) i1, by rw [g2] at i2; exact le_trans (by linarith) i2, i3,
        le_trans i4 ?_⟩
      have e := mag_add sf.dd (|(lsw3 x.1 q x.2 sf).sr.1| * x.1, |(lsw3 x.1 q x.2 sf).sr.2| * x.1)
      have e2 := mag_mul x.1 (|(lsw3 x.1 q x.2 sf).sr.1|, |(lsw3 x.1 q x.2 sf).sr.2|)
      have e3 : mag (|(lsw3 x.1 q x.2 sf).sr.1|, |(lsw3 x.1 q x.2 sf).sr.2|) = mag (lsw3 x.1 q x.2 sf).sr := by
        simp only [mag, sq_abs]
      rw [e3, abs_of_nonneg hx0] at e2
      have e4 : mag (lsw3 x.1 q x.2 sf).sf.dd ≤ mag sf.dd + x.1 * mag (lsw3 x.1 q x.2 sf).sr := by
        rw [w1]; refine le_trans e ?_; rw [e2, mul_comm]
      rw [path3]
      linarith
  intro a b
  have hb : b = hist3 q l' a := by simp only [a, b, hist3, List.foldl_append]
  obtain ⟨a1, a2, a3, a4⟩ := key l sf (fun x hx => hdt x (List.mem_append_left _ hx)) hmu h0.1 h0.2
  have pa1 : 0 ≤ a.dd.1 := le_trans h0.1 a1
  have pa2 : 0 ≤ a.dd.2 := le_trans h0.2 a2
  obtain ⟨b1, b2, b3, -⟩ := key l' a (fun x hx => hdt x (List.mem_append_right _ hx)) a3 pa1 pa2
  rw [← hb] at b1 b2 b3
  refine ⟨b1, b2, b3, ?_, ?_, ?_, a4⟩
  · rw [b3, show a.muf = q.law (mag a.dd) from a3]; exact law_anti hq (mag_mono pa1 pa2 b1 b2)
  · rw [b3]; exact (law_bounds hq (mag_nonneg _)).1
  · rw [b3]; exact (law_bounds hq (mag_nonneg _)).2

/-- C49 (3D): the traction of a failing fault points in the direction of the applied shear stress, and the slip rate
(velocity of the plus side relative to the minus side) is opposite to the traction which the minus side exerts: friction
does not create energy. -/
theorem C49_direction3 (dt : ℝ) {q : LswPars} (hq : q.Valid) (ms : Fin 9 → ℝ) (sf : Sf3) :
    let o := lsw3 dt q ms sf
    (∃ c, 0 ≤ c ∧ c ≤ 1 ∧ o.tr = (c * (sf.ss0.1 + ms 3), c * (sf.ss0.2 + ms 5))) ∧
      o.sr.1 * o.tr.1 + o.sr.2 * o.tr.2 ≤ 0 ∧
      o.sr.1 * (sf.ss0.1 + ms 3) + o.sr.2 * (sf.ss0.2 + ms 5) ≤ 0 := by
  intro o
  obtain ⟨-, -, -, hM, hP⟩ := hq
  obtain ⟨s1, s2, -, -, s5, s6, s7, -⟩ := C48_strength3 dt q ms sf
  obtain ⟨⟨w1, w2⟩, ⟨w3, w4⟩, w5, -⟩ := C48_waves3 dt q ms sf
  have hc : ∃ c, 0 ≤ c ∧ c ≤ 1 ∧ o.tr = (c * (sf.ss0.1 + ms 3), c * (sf.ss0.2 + ms 5)) := by
    by_cases h : o.per = true
    · have h0 := coulomb_nonneg sf.muf (sf.sn0 + ms 0) sf.co0
      have hlt := s2.1 h
      have hpos : 0 < mag (sf.ss0.1 + ms 3, sf.ss0.2 + ms 5) := lt_of_le_of_lt h0 hlt
      refine ⟨coulomb sf.muf (sf.sn0 + ms 0) sf.co0 / mag (sf.ss0.1 + ms 3, sf.ss0.2 + ms 5),
        div_nonneg h0 hpos.le, (div_le_one hpos).2 hlt.le, ?_⟩
      have hmag : Real.sqrt ((sf.ss0.1 + ms 3) * (sf.ss0.1 + ms 3) + (sf.ss0.2 + ms 5) * (sf.ss0.2 + ms 5)) =
          mag (sf.ss0.1 + ms 3, sf.ss0.2 + ms 5) := by simp only [mag, sq]
      have h' : decide (Real.sqrt ((sf.ss0.1 + ms 3) * (sf.ss0.1 + ms 3) +
        (sf.ss0.2 + ms 5) * (sf.ss0.2 + ms 5)) > lswStrength sf.muf sf.sn0 sf.co0 (ms 0)) = true := h
      simp only [o, lsw3, h', if_true]
      rw [hmag, strength_coulomb, sub_add_cancel, sub_add_cancel, mul_comm, mul_comm (sf.ss0.2 + ms 5)]
    · have h' : decide (Real.sqrt ((sf.ss0.1 + ms 3) * (sf.ss0.1 + ms 3) +
        (sf.ss0.2 + ms 5) * (sf.ss0.2 + ms 5)) > lswStrength sf.muf sf.sn0 sf.co0 (ms 0)) = false :=
        Bool.eq_false_iff.2 h
      refine ⟨1, zero_le_one, le_rfl, ?_⟩
      simp only [o, lsw3, h', Bool.false_eq_true, if_false, one_mul]
      rw [add_comm, add_comm (ms 5)]
  refine ⟨hc, ?_⟩
  obtain ⟨c, c0, c1, hc⟩ := hc
  have k0 : 0 ≤ q.csDmuP + q.csDmuM := add_nonneg hP hM
  have t1 : sf.ss0.1 + o.msM 3 = c * (sf.ss0.1 + ms 3) := congrArg Prod.fst (s5.symm.trans hc)
  have t2 : sf.ss0.2 + o.msM 5 = c * (sf.ss0.2 + ms 5) := congrArg Prod.snd (s5.symm.trans hc)
  have e1 : o.sr.1 = -((q.csDmuP + q.csDmuM) * (1 - c)) * (sf.ss0.1 + ms 3) := by
    have : o.sr.1 = o.msP 7 - o.msM 7 := rfl
    have d : o.msM 3 - ms 3 = -(1 - c) * (sf.ss0.1 + ms 3) := by linarith
    rw [← s6, d] at w1
    rw [d] at w3
    rw [this]; linarith
  have e2 : o.sr.2 = -((q.csDmuP + q.csDmuM) * (1 - c)) * (sf.ss0.2 + ms 5) := by
    have : o.sr.2 = o.msP 8 - o.msM 8 := rfl
    have d : o.msM 5 - ms 5 = -(1 - c) * (sf.ss0.2 + ms 5) := by linarith
    rw [← s7, d] at w2
    rw [d] at w4
    rw [this]; linarith
  have hk : 0 ≤ (q.csDmuP + q.csDmuM) * (1 - c) := mul_nonneg k0 (by linarith)
  rw [hc, e1, e2]
  constructor
  · have : 0 ≤ (q.csDmuP + q.csDmuM) * (1 - c) * c * ((sf.ss0.1 + ms 3) ^ 2 + (sf.ss0.2 + ms 5) ^ 2) := by positivity
    nlinarith
  · have : 0 ≤ (q.csDmuP + q.csDmuM) * (1 - c) * ((sf.ss0.1 + ms 3) ^ 2 + (sf.ss0.2 + ms 5) ^ 2) := by positivity
    nlinarith

/-- C49 (2D): the same holds if the background shear stress and the total shear stress have the same sign. Missing: the
other case, in which the claim is false (`C49_direction2_refuted`). -/
theorem C49_direction2_partial (dt : ℝ) {q : LswPars} (hq : q.Valid) (ms : Fin 5 → ℝ) (sf : Sf2)
    (hs : 0 < sf.ss0 ∧ 0 ≤ sf.ss0 + ms 2 ∨ sf.ss0 ≤ 0 ∧ sf.ss0 + ms 2 ≤ 0) :
    let o := lsw2 dt q ms sf
    (∃ c, 0 ≤ c ∧ c ≤ 1 ∧ o.tr = c * (sf.ss0 + ms 2)) ∧ o.sr * o.tr ≤ 0 ∧ o.sr * (sf.ss0 + ms 2) ≤ 0 := by
  intro o
  obtain ⟨-, -, -, hM, hP⟩ := hq
  obtain ⟨s1, s2, -, -, s5, s6, -⟩ := C48_strength2 dt q ms sf
  obtain ⟨w1, w3, w5, -⟩ := C48_waves2 dt q ms sf
  have hc : ∃ c, 0 ≤ c ∧ c ≤ 1 ∧ o.tr = c * (sf.ss0 + ms 2) := by
    have e : o.tr = (if o.per = true then
        (if sf.ss0 > 0 then o.st - |sf.ss0| else -(o.st - |sf.ss0|)) else ms 2) + sf.ss0 := rfl
    by_cases h : o.per = true
    · have h0 := coulomb_nonneg sf.muf (sf.sn0 + ms 0) sf.co0
      have hlt := s2.1 h
      have hpos : 0 < |sf.ss0 + ms 2| := lt_of_le_of_lt h0 hlt
      refine ⟨coulomb sf.muf (sf.sn0 + ms 0) sf.co0 / |sf.ss0 + ms 2|, div_nonneg h0 hpos.le, (div_le_one hpos).2 hlt.le, ?_⟩
      rw [e, if_pos h, show o.st = _ from s1]
      rcases hs with ⟨a, b⟩ | ⟨a, b⟩
      · have b' : sf.ss0 + ms 2 ≠ 0 := fun h => by rw [h, abs_zero] at hpos; exact lt_irrefl _ hpos
        rw [if_pos a, abs_of_pos a, abs_of_nonneg b, sub_add_cancel, div_mul_cancel₀ _ b']
      · have b' : sf.ss0 + ms 2 ≠ 0 := fun h => by rw [h, abs_zero] at hpos; exact lt_irrefl _ hpos
        rw [if_neg (not_lt.2 a), abs_of_nonpos a, abs_of_nonpos b, div_neg, neg_mul, div_mul_cancel₀ _ b']
        ring
    · refine ⟨1, zero_le_one, le_rfl, ?_⟩
      rw [e, if_neg h]; ring
  refine ⟨hc, ?_⟩
  obtain ⟨c, c0, c1, hc⟩ := hc
  have k0 : 0 ≤ q.csDmuP + q.csDmuM := add_nonneg hP hM
  have t1 : sf.ss0 + o.msM 2 = c * (sf.ss0 + ms 2) := s5.symm.trans hc
  have e1 : o.sr = -((q.csDmuP + q.csDmuM) * (1 - c)) * (sf.ss0 + ms 2) := by
    have : o.sr = o.msP 4 - o.msM 4 := rfl
    have d : o.msM 2 - ms 2 = -(1 - c) * (sf.ss0 + ms 2) := by linarith
    rw [← s6, d] at w1
    rw [d] at w3
    rw [this]; linarith
  have hk : 0 ≤ (q.csDmuP + q.csDmuM) * (1 - c) := mul_nonneg k0 (by linarith)
  rw [hc, e1]
  constructor
  · have : 0 ≤ (q.csDmuP + q.csDmuM) * (1 - c) * c * (sf.ss0 + ms 2) ^ 2 := by positivity
    nlinarith
  · have : 0 ≤ (q.csDmuP + q.csDmuM) * (1 - c) * (sf.ss0 + ms 2) ^ 2 := by positivity
    nlinarith

/-- C49 (2D) is false in general: the code takes the sign of the background stress instead of the one of the total shear
stress. If waves reverse the stress, the traction points the wrong way and the fault is accelerated by friction. -/
theorem C49_direction2_refuted : ∃ (q : LswPars) (ms : Fin 5 → ℝ) (sf : Sf2), q.Valid ∧ 0 < sf.ss0 + ms 2 ∧
    (lsw2 1 q ms sf).per = true ∧ (lsw2 1 q ms sf).tr < 0 ∧ 0 < (lsw2 1 q ms sf).sr * (lsw2 1 q ms sf).tr := by
  have h20 : ¬((2 : Fin 5) = 0) := by decide
  refine ⟨⟨0.6, 0.4, 1, true, 1, 1⟩, fun i => if i = 0 then -10 else if i = 2 then 20 else 0, ⟨0, 0, -1, 0.6, 0⟩, ?_, ?_, ?_, ?_, ?_⟩
  · norm_num [LswPars.Valid]
  · norm_num [h20]
  · norm_num [lsw2, lswStrength, abs_of_pos, h20]
  · norm_num [lsw2, lswStrength, abs_of_pos, h20]
  · norm_num [lsw2, lswStrength, abs_of_pos, h20]

/-- Parameters of a benchmark, a failing and a locked state. -/
example : (⟨0.677, 0.525, 2.5, false, 1, 1⟩ : LswPars).Valid := by norm_num [LswPars.Valid]
example : (lsw3 1 ⟨0.677, 0.525, 2.5, false, 1, 1⟩ (fun i => if i = 0 then -10 else if i = 3 then 30 else if i = 5 then 40 else 0) ⟨-20, 0, (0, 0), 0.5, (0, 0)⟩).per = true := by
  have h : Real.sqrt (30 * 30 + 40 * 40) = 50 := by
    rw [show (30 * 30 + 40 * 40 : ℝ) = 50 ^ 2 by norm_num]; exact Real.sqrt_sq (by norm_num)
  have h1 : ¬((3 : Fin 9) = 0) := by decide
  have h2 : ¬((5 : Fin 9) = 0) := by decide
  have h3 : ¬((5 : Fin 9) = 3) := by decide
  norm_num [lsw3, lswStrength, h1, h2, h3] at h ⊢
  rw [h]; norm_num
example : (lsw2 1 ⟨0.677, 0.525, 2.5, false, 1, 1⟩ (fun i => if i = 0 then -10 else if i = 2 then 3 else 0) ⟨-20, 0, 1, 0.5, 0⟩).per = false := by
  have h20 : ¬((2 : Fin 5) = 0) := by decide
  norm_num [lsw2, lswStrength, abs_of_pos, h20]
/-- The initial state of a history: no slip, static friction. -/
example : (⟨-20, 0, 1, 0.677, 0⟩ : Sf2).muf = (⟨0.677, 0.525, 2.5, false, 1, 1⟩ : LswPars).law 0 := by
  norm_num [LswPars.law]

end Edge.Seismic
