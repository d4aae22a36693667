import Verif.Time.Model
import Mathlib.Tactic.Linarith
import Mathlib.Tactic.FieldSimp
import Mathlib.Tactic.Ring
import Mathlib.Tactic.NormNum
/-! Helper lemmas for `Verif.Time.Props`. -/
namespace Edge.Time

theorem doubleShort_eq (n : ℕ) (h : n < 16) : doubleShort n = 2 ^ n := by
  induction n with
  | zero => rfl
  | succ n ih =>
    rw [doubleShort, ih (by omega), pow_succ, Nat.mul_comm]
    apply Nat.mod_eq_of_lt
    rw [← pow_succ]
    exact Nat.pow_lt_pow_right (by norm_num) h

theorem doubleShort_wrap (n : ℕ) (h : 16 ≤ n) : doubleShort n = 0 := by
  induction n with
  | zero => omega
  | succ n ih =>
    by_cases hn : 16 ≤ n
    · rw [doubleShort, ih hn]; rfl
    · have : n = 15 := by omega
      subst this
      rfl

@[simp] theorem setDt_nTsSync (g : Group) : g.setDt.nTsSync = g.nTsSync := by unfold Group.setDt; split <;> rfl
@[simp] theorem setDt_nTsPer (g : Group) : g.setDt.nTsPer = g.nTsPer := by unfold Group.setDt; split <;> rfl
@[simp] theorem setDt_nTsReqFull (g : Group) : g.setDt.nTsReqFull = g.nTsReqFull := by unfold Group.setDt; split <;> rfl
@[simp] theorem setDt_funMul (g : Group) : g.setDt.funMul = g.funMul := by unfold Group.setDt; split <;> rfl
@[simp] theorem setDt_maxDiv (g : Group) : g.setDt.maxDiv = g.maxDiv := by unfold Group.setDt; split <;> rfl
@[simp] theorem setDt_cov (g : Group) : g.setDt.covSimTime = g.covSimTime := by unfold Group.setDt; split <;> rfl
@[simp] theorem setDt_dtFull (g : Group) : g.setDt.dtFull = g.dtFull := by unfold Group.setDt; split <;> rfl
@[simp] theorem setDt_dtSync (g : Group) : g.setDt.dtSync = g.dtSync := by unfold Group.setDt; split <;> rfl
theorem setDt_dt (g : Group) :
    g.setDt.dt = if g.nTsSync < g.nTsReqFull then g.dtFull else g.dtSync := by
  unfold Group.setDt; split <;> rfl

section after
variable (g : Group) (n : ℕ)
@[simp] theorem after_nTsSync : (g.after n).nTsSync = g.nTsSync + n := by
  induction n with
  | zero => rfl
  | succ n ih => simp [Group.after, Group.updateTsInfo, ih]; omega
@[simp] theorem after_nTsPer : (g.after n).nTsPer = g.nTsPer + n := by
  induction n with
  | zero => rfl
  | succ n ih => simp [Group.after, Group.updateTsInfo, ih]; omega
@[simp] theorem after_nTsReqFull : (g.after n).nTsReqFull = g.nTsReqFull := by
  induction n with
  | zero => rfl
  | succ n ih => simp [Group.after, Group.updateTsInfo, ih]
@[simp] theorem after_maxDiv : (g.after n).maxDiv = g.maxDiv := by
  induction n with
  | zero => rfl
  | succ n ih => simp [Group.after, Group.updateTsInfo, ih]
@[simp] theorem after_funMul : (g.after n).funMul = g.funMul := by
  induction n with
  | zero => rfl
  | succ n ih => simp [Group.after, Group.updateTsInfo, ih]
@[simp] theorem after_dtFull : (g.after n).dtFull = g.dtFull := by
  induction n with
  | zero => rfl
  | succ n ih => simp [Group.after, Group.updateTsInfo, ih]
@[simp] theorem after_dtSync : (g.after n).dtSync = g.dtSync := by
  induction n with
  | zero => rfl
  | succ n ih => simp [Group.after, Group.updateTsInfo, ih]
end after

/-- A group whose `dt` has been set by `setDt`. -/
def DtSet (g : Group) : Prop := g.dt = if g.nTsSync < g.nTsReqFull then g.dtFull else g.dtSync

theorem dtSet_setDt (g : Group) : DtSet g.setDt := by
  unfold DtSet; rw [setDt_dt]; simp

theorem dtSet_after (g : Group) (h : DtSet g) (n : ℕ) : DtSet (g.after n) := by
  cases n with
  | zero => exact h
  | succ n => exact dtSet_setDt _

/-- Closed form of the covered time. -/
theorem after_cov (g : Group) (h : DtSet g) (h0 : g.nTsSync = 0) (n : ℕ) :
    (g.after n).covSimTime =
      g.covSimTime + (min n g.nTsReqFull : ℕ) * g.dtFull + ((n - g.nTsReqFull : ℕ) : ℚ) * g.dtSync := by
  induction n with
  | zero => simp [Group.after]
  | succ n ih =>
    have hd := dtSet_after g h n
    unfold DtSet at hd
    simp only [after_nTsSync, after_nTsReqFull, after_dtFull, after_dtSync, h0, Nat.zero_add] at hd
    simp only [Group.after, Group.updateTsInfo, setDt_cov, ih, hd]
    by_cases hn : n < g.nTsReqFull
    · have h1 : min (n + 1) g.nTsReqFull = n + 1 := by omega
      have h2 : min n g.nTsReqFull = n := by omega
      have h3 : n - g.nTsReqFull = 0 := by omega
      have h4 : n + 1 - g.nTsReqFull = 0 := by omega
      simp only [hn, if_true, h1, h2, h3, h4]
      push_cast; ring
    · have h1 : min (n + 1) g.nTsReqFull = g.nTsReqFull := by omega
      have h2 : min n g.nTsReqFull = g.nTsReqFull := by omega
      have h4 : n + 1 - g.nTsReqFull = (n - g.nTsReqFull) + 1 := by omega
      simp only [hn, if_false, h1, h2, h4]
      push_cast; ring

section setUp
variable (g : Group) (dtFun time : ℚ)
@[simp] theorem setUp_nTsSync : (g.setUp dtFun time).nTsSync = 0 := by simp [Group.setUp]
@[simp] theorem setUp_nTsPer : (g.setUp dtFun time).nTsPer = g.nTsPer := by simp [Group.setUp]
@[simp] theorem setUp_cov : (g.setUp dtFun time).covSimTime = g.covSimTime := by simp [Group.setUp]
@[simp] theorem setUp_maxDiv : (g.setUp dtFun time).maxDiv = g.maxDiv := by simp [Group.setUp]
@[simp] theorem setUp_funMul : (g.setUp dtFun time).funMul = g.funMul := by simp [Group.setUp]
@[simp] theorem setUp_dtFull : (g.setUp dtFun time).dtFull = dtFun * g.funMul := by simp [Group.setUp]
theorem setUp_nTsReqFull : (g.setUp dtFun time).nTsReqFull =
    ⌊time / (dtFun * ((g.funMul * g.maxDiv : ℕ) : ℚ))⌋₊ * g.maxDiv := by simp [Group.setUp]
theorem setUp_dtSync : (g.setUp dtFun time).dtSync =
    max 0 ((time - (⌊time / (dtFun * ((g.funMul * g.maxDiv : ℕ) : ℚ))⌋₊ : ℚ)
      * (dtFun * ((g.funMul * g.maxDiv : ℕ) : ℚ))) / (g.maxDiv : ℚ)) := by simp [Group.setUp]
theorem setUp_dtSet : DtSet (g.setUp dtFun time) := dtSet_setDt _
end setUp

/-- Remainder facts of the truncated division in `setUp`. -/
theorem floor_rem (time m : ℚ) (ht : 0 ≤ time) (hm : 0 < m) :
    0 ≤ time - (⌊time / m⌋₊ : ℚ) * m ∧ time - (⌊time / m⌋₊ : ℚ) * m < m := by
  have h1 : (⌊time / m⌋₊ : ℚ) ≤ time / m := Nat.floor_le (by positivity)
  have h2 : time / m < (⌊time / m⌋₊ : ℚ) + 1 := Nat.lt_floor_add_one _
  rw [le_div_iff₀ hm] at h1
  rw [div_lt_iff₀ hm] at h2
  constructor <;> linarith

theorem dtSync_eq (g : Group) (dtFun time : ℚ) (hd : 0 < dtFun) (ht : 0 ≤ time)
    (hf : 0 < g.funMul) (hm : 0 < g.maxDiv) :
    (g.setUp dtFun time).dtSync =
      (time - (⌊time / (dtFun * ((g.funMul * g.maxDiv : ℕ) : ℚ))⌋₊ : ℚ)
      * (dtFun * ((g.funMul * g.maxDiv : ℕ) : ℚ))) / (g.maxDiv : ℚ) := by
  rw [setUp_dtSync, max_eq_right]
  have hm' : (0 : ℚ) < g.maxDiv := by exact_mod_cast hm
  have hf' : (0 : ℚ) < g.funMul := by exact_mod_cast hf
  have := (floor_rem time (dtFun * ((g.funMul * g.maxDiv : ℕ) : ℚ)) ht (by push_cast; positivity)).1
  positivity

theorem funMul_pos {nTgs tg : ℕ} (h : tg < nTgs) (h16 : nTgs ≤ 16) : 0 < doubleShort tg := by
  rw [doubleShort_eq _ (by omega)]; positivity

theorem maxDiv_pos {nTgs tg : ℕ} (h : tg < nTgs) (h16 : nTgs ≤ 16) : 0 < doubleShort (nTgs - (tg + 1)) := by
  rw [doubleShort_eq _ (by omega)]; positivity

end Edge.Time
