import Verif.Proj.Table
/-!
Projections, evaluations, and the loops over points and elements.
-/
namespace Edge.Proj
open Edge Edge.Map Edge.Quad Edge.Basis

/-- Coefficient of a basis function by quadrature. -/
noncomputable def coef (pair : Nat → Nat → ℝ × ℝ) (e : Ent) (o : Nat) (F : ℝ → ℝ → ℝ → ℝ) (i : Idx) : ℝ :=
  rule (refPts pair e (o + 1)) (fun x y z => F x y z * phi e i x y z) / mass e i

theorem qpts2modal_good {pair : Nat → Nat → ℝ × ℝ} {e : Ent} {o : Nat} {b : Bas ℝ} (hb : Good pair e o b) {evalF : List ℝ} {F : ℝ → ℝ → ℝ → ℝ}
    (hF : ∀ (qp : Nat) q, (refPts pair e (o + 1))[qp]? = some q → evalF[qp]? = some (F q.x q.y q.z)) :
    b.qpts2modal evalF (o + 1) = some ((idx e o).map (coef pair e o F)) := by
  obtain ⟨r, h1, h2, h3⟩ := hb.tab o (by omega)
  rw [Bas.qpts2modal, decide_eq_true (Nat.succ_pos o), hb.len, decide_eq_true (le_refl (o + 1)), check_true]
  simp only [Option.bind_eq_bind, Option.bind_some, Nat.add_sub_cancel]
  rw [hb.nBase, forN_app (l := idx e o) (a := coef pair e o F) ?_ [], List.nil_append]
  intro md i hi s
  have hlt := (List.getElem?_eq_some_iff.1 hi).1
  simp only [rd, h1, h2, Option.bind_some]
  rw [forN_sum (l := refPts pair e (o + 1)) (a := fun q => F q.x q.y q.z * phi e i q.x q.y q.z * q.w) (fun qp q hq t => by
    rw [hF qp q hq, h3 qp q md i hq hi, hq]; rfl) 0]
  simp only [Option.bind_some, hb.nz, hb.ro, hb.co, List.length_map, List.getElem?_range hlt, List.getElem?_map, hi, Option.map_some,
    decide_eq_true hlt, check_true, decide_true]
  rw [coef, rule, zero_add]
  congr 4
  exact congrArg List.sum (List.map_congr_left (fun q _ => by ring))

theorem sum_degs (e : Ent) (o : Nat) (f : Idx → ℝ) : ((idx e o).map f).sum = ∑ i ∈ degs e o, f i := by
  rw [degs, List.sum_toFinset _ (idx_nodup e o)]

/-- The value of a modal representation. -/
theorem modal2ptval_good {pair : Nat → Nat → ℝ × ℝ} {e : Ent} {o : Nat} {b : Bas ℝ} (hb : Good pair e o b) (ho : o ≤ maxOrder e) {modes : Nat → ℝ}
    {c : Idx → ℝ} (hc : ∀ (md : Nat) i, (idx e o)[md]? = some i → modes md = c i) {x y z : ℝ} (hp : PtOk e x y z) :
    b.modal2ptval x y z modes = some (∑ i ∈ degs e o, c i * phi e i x y z) := by
  rw [Bas.modal2ptval, hb.nBase, hb.ent, hb.order, forN_sum (l := idx e o) (a := fun i => c i * phi e i x y z) ?_ 0, zero_add, sum_degs]
  intro md i hi s
  rw [basis_val ho hi _ _ _ hp, hc md i hi, Option.bind_eq_bind, Option.bind_some, mul_comm]

theorem modal2refPtVal_good {pair : Nat → Nat → ℝ × ℝ} {e : Ent} {o : Nat} {b : Bas ℝ} (hb : Good pair e o b) {modes : Nat → ℝ}
    {c : Idx → ℝ} (hc : ∀ (md : Nat) i, (idx e o)[md]? = some i → modes md = c i) {n qp : Nat} (h0 : 0 < n) (hn : n ≤ o + 1) {q : Qp ℝ}
    (hq : (refPts pair e n)[qp]? = some q) :
    b.modal2refPtVal n qp modes = some (∑ i ∈ degs e o, c i * phi e i q.x q.y q.z) := by
  obtain ⟨k, rfl⟩ : ∃ k, n = k + 1 := ⟨n - 1, by omega⟩
  obtain ⟨r, -, -, h3⟩ := hb.tab k (by omega)
  rw [Bas.modal2refPtVal, hb.nBase, forN_sum (l := idx e o) (a := fun i => c i * phi e i q.x q.y q.z) ?_ 0, zero_add, sum_degs]
  intro md i hi s
  rw [h3 qp q md i hq hi, hc md i hi, Option.bind_eq_bind, Option.bind_some, mul_comm]

/-! ### Expressions -/

/-- Coordinates in the dimensions of the element, zero beyond. -/
def cut (e : Ent) (c : Nat → ℝ) : Nat → ℝ := fun d => if d < e.nDim then c d else 0

/-- Values of the expressions at the points: `g` gives the value of a quantity of a run; `Q` holds for the quantities whenever an expression
is evaluated and is kept by the expressions. -/
theorem evalPts_good {reset : Bool} {e : Ent} {o nQts nCrs : Nat} {E : Exprs ℝ} {g : Nat → Nat → (Nat → ℝ) → ℝ} {Q : Nat → (Nat → ℝ) → Prop}
    (hE : ∀ cr < nCrs, ∀ c q, (if reset then ∀ qt < nQts, q qt = 0 else Q cr q) →
      (∀ d < e.nDim, (E cr c q).1 d = c d) ∧ (∀ qt < nQts, (E cr c q).2 qt = g cr qt (cut e c)) ∧ Q cr (E cr c q).2)
    {pts : List (Qp ℝ)} (hl : pts.length = nQps e (o + 1)) {m : Mem ℝ} (hm : reset = false → ∀ cr < nCrs, Q cr (m.qts cr)) (q0 : Nat → Nat → Nat → ℝ) :
    ∃ r, evalPts reset e o nQts nCrs E pts (m, q0) = some r ∧ (reset = false → ∀ cr < nCrs, Q cr (r.1.qts cr)) ∧
      ∀ cr < nCrs, ∀ qt < nQts, ∀ (qp : Nat) p, pts[qp]? = some p → r.2 cr qt qp = g cr qt (cut e (ptCrd p)) := by
  rw [evalPts]
  obtain ⟨r, h1, h2, h3⟩ := forN_inv (n := nQps e (o + 1)) (s := (m, q0)) (body := fun qp s => (do
    let p ← rd pts qp
    forN nCrs (fun cr s => some (evalRun reset nQts E qp cr s)) (⟨fun d => if d < e.nDim then ptCrd p d else s.1.crds d, s.1.qts⟩, s.2)
      : Option (Mem ℝ × (Nat → Nat → Nat → ℝ))))
    (fun k s => (reset = false → ∀ cr < nCrs, Q cr (s.1.qts cr)) ∧ ∀ cr < nCrs, ∀ qt < nQts, ∀ (qp : Nat) p, pts[qp]? = some p → qp < k →
      s.2 cr qt qp = g cr qt (cut e (ptCrd p))) ⟨hm, fun _ _ _ _ _ _ _ h => absurd h (by omega)⟩ (by
      intro k s hk hs
      obtain ⟨p, hp⟩ : ∃ p, pts[k]? = some p := ⟨_, List.getElem?_eq_getElem (by omega)⟩
      obtain ⟨r, h1, h2⟩ := forN_inv (n := nCrs) (s := ((⟨fun d => if d < e.nDim then ptCrd p d else s.1.crds d, s.1.qts⟩, s.2) :
          Mem ℝ × (Nat → Nat → Nat → ℝ))) (body := fun cr s => some (evalRun reset nQts E k cr s))
        (fun n t => (∀ d < e.nDim, t.1.crds d = ptCrd p d) ∧ (reset = false → ∀ cr < nCrs, Q cr (t.1.qts cr)) ∧
          ∀ cr < nCrs, ∀ qt < nQts, ∀ (qp : Nat) p, pts[qp]? = some p → (qp < k ∨ qp = k ∧ cr < n) → t.2 cr qt qp = g cr qt (cut e (ptCrd p)))
        ⟨fun d hd => if_pos hd, hs.1, fun cr hcr qt hqt qp p' hp' h => by
          rcases h with h | h
          · exact hs.2 cr hcr qt hqt qp p' hp' h
          · omega⟩ (by
          intro n t hn ht
          obtain ⟨t1, t2, t3⟩ := ht
          obtain ⟨e1, e2, e3⟩ := hE n hn t.1.crds (if reset then fun qt => if qt < nQts then 0 else t.1.qts n qt else t.1.qts n) (by
            cases reset with
            | true => simp only [if_true]; exact fun qt hqt => if_pos hqt
            | false => simpa using t2 rfl n hn)
          have hcut : cut e t.1.crds = cut e (ptCrd p) := by
            funext d
            simp only [cut]
            split
            · exact t1 d (by assumption)
            · rfl
          refine ⟨_, rfl, ?_, ?_, ?_⟩
          · intro d hd
            simp only [evalRun]
            rw [e1 d hd, t1 d hd]
          · intro hr cr hcr
            simp only [evalRun]
            by_cases hc : cr = n
            · rw [if_pos hc, hc]; exact e3
            · rw [if_neg hc]; exact t2 hr cr hcr
          · intro cr hcr qt hqt qp p' hp' h
            simp only [evalRun]
            by_cases hc : cr = n ∧ qt < nQts ∧ qp = k
            · rw [if_pos hc]
              obtain ⟨rfl, -, rfl⟩ := hc
              rw [hp] at hp'
              obtain rfl := Option.some.inj hp'
              rw [e2 qt hqt, hcut]
            · rw [if_neg hc]
              refine t3 cr hcr qt hqt qp p' hp' ?_
              rcases h with h | ⟨h, h'⟩
              · exact Or.inl h
              · exact Or.inr ⟨h, by
                  have : cr ≠ n := fun hcn => hc ⟨hcn, hqt, h⟩
                  omega⟩)
      refine ⟨r, by rw [rd, hp]; exact h1, h2.2.1, fun cr hcr qt hqt qp p' hp' h => h2.2.2 cr hcr qt hqt qp p' hp' (by omega)⟩)
  exact ⟨r, h1, h2, fun cr hcr qt hqt qp p hp => h3 cr hcr qt hqt qp p hp (by rw [← hl]; exact (List.getElem?_eq_some_iff.1 hp).1)⟩

/-! ### Points of elements -/

theorem nQps_eq (e : Ent) (n : Nat) : nQps e n = n ^ e.nDim := by
  cases e <;> simp [nQps, Ent.nDim, pow_succ]

theorem refToPhy_beyond (e : Ent) (ves : Nat → Nat → ℝ) (xi : Nat → ℝ) {d : Nat} (h : ¬ d < e.nDim) : refToPhy e ves xi d = 0 := by
  cases e <;> simp only [Ent.nDim] at h <;> simp [refToPhy] <;> omega

theorem cut_phys (e : Ent) (ves : Nat → Nat → ℝ) (q : Qp ℝ) : cut e (ptCrd (phys e ves q)) = refToPhy e ves (vec q.x q.y q.z) := by
  funext d
  simp only [cut]
  split
  · rename_i h
    have : d < 3 := lt_of_lt_of_le h (by cases e <;> simp [Ent.nDim])
    interval_cases d <;> simp [ptCrd, phys]
  · rename_i h
    rw [refToPhy_beyond e ves _ h]

end Edge.Proj
