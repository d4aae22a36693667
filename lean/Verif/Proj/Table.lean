import Verif.Proj.Model
import Verif.Linalg.Formats
import Verif.Proj.Span
import Verif.Linalg.Dense
/-!
The basis object: mass matrix and tables of values.
-/
namespace Edge.Proj
open Edge Edge.Map Edge.Quad Edge.Basis

/-! ### Loops -/

theorem mapM_ex {α β : Type} {l : List α} {f : α → Option β} (h : ∀ x ∈ l, ∃ y, f x = some y) :
    ∃ ys, l.mapM f = some ys ∧ ys.length = l.length ∧ ∀ (k : Nat) x, l[k]? = some x → ∃ y, f x = some y ∧ ys[k]? = some y := by
  induction l with
  | nil => exact ⟨[], rfl, rfl, fun k x h => by simp at h⟩
  | cons a l ih =>
    obtain ⟨y, hy⟩ := h a List.mem_cons_self
    obtain ⟨ys, h1, h2, h3⟩ := ih (fun x hx => h x (List.mem_cons_of_mem _ hx))
    refine ⟨y :: ys, by rw [List.mapM_cons, hy, h1]; rfl, by simp [h2], ?_⟩
    intro k x hk
    cases k with
    | zero => simp only [List.getElem?_cons_zero, Option.some.injEq] at hk; exact ⟨y, by rw [← hk, hy], rfl⟩
    | succ k => simp only [List.getElem?_cons_succ] at hk ⊢; exact h3 k x hk

/-- A loop over the indices of a list which adds a number for each entry. -/
theorem forN_sum {K α : Type} [AddCommMonoid K] {l : List α} {a : α → K} {body : Nat → K → Option K}
    (h : ∀ k x, l[k]? = some x → ∀ s, body k s = some (s + a x)) (s : K) : forN l.length body s = some (s + (l.map a).sum) := by
  induction l using List.reverseRecOn with
  | nil => simp
  | append_singleton l x ih =>
    have h0 : ∀ k y, l[k]? = some y → ∀ s, body k s = some (s + a y) := by
      intro k y hk
      refine h k y ?_
      rw [List.getElem?_append_left (List.getElem?_eq_some_iff.1 hk).1, hk]
    rw [List.length_append, List.length_singleton, forN_succ, ih h0, Option.bind_some, h l.length x (by simp)]
    simp [add_assoc]

/-- A loop over the indices of a list which appends an entry for each entry. -/
theorem forN_app {α β : Type} {l : List α} {a : α → β} {body : Nat → List β → Option (List β)}
    (h : ∀ k x, l[k]? = some x → ∀ s, body k s = some (s ++ [a x])) (s : List β) : forN l.length body s = some (s ++ l.map a) := by
  induction l using List.reverseRecOn with
  | nil => simp
  | append_singleton l x ih =>
    have h0 : ∀ k y, l[k]? = some y → ∀ s, body k s = some (s ++ [a y]) := by
      intro k y hk
      refine h k y ?_
      rw [List.getElem?_append_left (List.getElem?_eq_some_iff.1 hk).1, hk]
    rw [List.length_append, List.length_singleton, forN_succ, ih h0, Option.bind_some, h l.length x (by simp)]
    simp

/-! ### Sparse format of diagonal matrices -/

theorem diag_row {K : Type} [Field K] [LinearOrder K] [IsStrictOrderedRing K] {d : Nat → K} {tol : K} (h0 : 0 ≤ tol) {r : Nat} (hd : tol < d r)
    (n : Nat) : (List.range n).filterMap (fun c => if |if r = c then d r else 0| > tol then some (⟨r, c, if r = c then d r else 0⟩ : Linalg.Entry K)
      else none) = if r < n then [⟨r, r, d r⟩] else [] := by
  induction n with
  | zero => simp
  | succ n ih =>
    rw [List.range_succ, List.filterMap_append, ih]
    by_cases h : r = n
    · subst h
      simp [abs_of_pos (h0.trans_lt hd), hd]
    · by_cases h2 : r < n
      · simp [h, h2, not_lt.2 h0, show r < n + 1 by omega]
      · simp [h, h2, not_lt.2 h0, show ¬ r < n + 1 by omega]

theorem initMass_diag {K : Type} [Field K] [LinearOrder K] [IsStrictOrderedRing K] {n : Nat} {a : List K} {d : Nat → K} {tol : K}
    (h0 : 0 ≤ tol) (hl : a.length = n * n) (hd : ∀ i < n, tol < d i) (ha : ∀ r < n, ∀ c < n, a[r * n + c]? = some (if r = c then d r else 0)) :
    initMassMatrix tol n a = some ⟨(List.range n).map d, List.range n, List.range n⟩ := by
  have h1 : (pairs n n).filterMap (fun p => if |if p.1 = p.2 then d p.1 else 0| > tol then
      some (⟨p.1, p.2, if p.1 = p.2 then d p.1 else 0⟩ : Linalg.Entry K) else none) = (List.range n).map (fun r => ⟨r, r, d r⟩) := by
    rw [pairs, List.filterMap_flatMap, ← List.flatMap_singleton' ((List.range n).map _), List.flatMap_map]
    refine List.flatMap_congr (fun r hr => ?_)
    have hr := List.mem_range.1 hr
    rw [List.filterMap_map]
    have := diag_row h0 (hd r hr) n
    rw [if_pos hr] at this
    exact this
  rw [initMassMatrix, decide_eq_true hl, check_true, Linalg.denseToCrd_eq (fun r c => if r = c then d r else 0) (fun r c hr hc => ha r hr c hc), h1]
  simp [Function.comp_def]

/-! ### Integrals of products -/

/-- Integral over the reference element. -/
noncomputable def refInt (e : Ent) (f : ℝ → ℝ → ℝ → ℝ) : ℝ :=
  match e with
  | .line => ∫ x in (0 : ℝ)..1, f x 0 0
  | .quad => ∫ y in (0 : ℝ)..1, ∫ x in (0 : ℝ)..1, f x y 0
  | .tria => ∫ y in (0 : ℝ)..1, ∫ x in (0 : ℝ)..(1 - y), f x y 0
  | .hex => ∫ z in (0 : ℝ)..1, ∫ y in (0 : ℝ)..1, ∫ x in (0 : ℝ)..1, f x y z
  | .tet => ∫ z in (0 : ℝ)..1, ∫ y in (0 : ℝ)..(1 - z), ∫ x in (0 : ℝ)..(1 - y - z), f x y z

/-- The generated mass matrix: integrals of the products of the code's basis functions, by rows. -/
def MassOk (e : Ent) (o : Nat) (raw : List ℝ) : Prop :=
  raw.length = nModes e o * nModes e o ∧ ∀ r < nModes e o, ∀ c < nModes e o,
    raw[r * nModes e o + c]? = some (refInt e (fun x y z => value r e o x y z * value c e o x y z))

theorem refInt_congr {e : Ent} {f g : ℝ → ℝ → ℝ → ℝ} (h : ∀ x y z, PtOk e x y z → f x y z = g x y z) : refInt e f = refInt e g := by
  cases e
  · exact intervalIntegral.integral_congr (fun x _ => h _ _ _ trivial)
  · exact intervalIntegral.integral_congr (fun y _ => intervalIntegral.integral_congr (fun x _ => h _ _ _ trivial))
  · exact integral_open zero_le_one (fun y _ h1 => intervalIntegral.integral_congr (fun x _ => h _ _ _ h1.ne))
  · exact intervalIntegral.integral_congr (fun z _ => intervalIntegral.integral_congr (fun y _ =>
      intervalIntegral.integral_congr (fun x _ => h _ _ _ trivial)))
  · exact integral_open zero_le_one (fun z _ h1 => integral_open (by linarith) (fun y _ h2 =>
      intervalIntegral.integral_congr (fun x _ => h _ _ _ ⟨h1.ne, by intro h; linarith⟩)))

theorem refInt_orth {e : Ent} {o : Nat} {i j : Idx} (hi : Deg e o i) (hj : Deg e o j) :
    refInt e (fun x y z => phi e i x y z * phi e j x y z) = if i = j then mass e i else 0 := by
  obtain ⟨p, q, r⟩ := i
  obtain ⟨p', q', r'⟩ := j
  cases e
  · obtain ⟨-, rfl, rfl⟩ := hi
    obtain ⟨-, rfl, rfl⟩ := hj
    simp only [refInt, phi, orthLine, mass, Prod.mk.injEq, and_true]
  · obtain ⟨-, -, rfl⟩ := hi
    obtain ⟨-, -, rfl⟩ := hj
    have e : ∀ x y : ℝ, phiLine p x * phiLine q y * (phiLine p' x * phiLine q' y) = (phiLine q y * phiLine q' y) * (phiLine p x * phiLine p' x) := by
      intro x y; ring
    simp only [refInt, phi, e, intervalIntegral.integral_const_mul, intervalIntegral.integral_mul_const, orthLine, mass, Prod.mk.injEq, and_true]
    by_cases h1 : p = p' <;> by_cases h2 : q = q' <;> simp [h1, h2]
  · obtain ⟨-, rfl⟩ := hi
    obtain ⟨-, rfl⟩ := hj
    simp only [refInt, phi, orthTria, mass, Prod.mk.injEq, and_true]
  · have e : ∀ x y z : ℝ, phiLine p x * phiLine q y * phiLine r z * (phiLine p' x * phiLine q' y * phiLine r' z) =
        (phiLine r z * phiLine r' z) * ((phiLine q y * phiLine q' y) * (phiLine p x * phiLine p' x)) := by
      intro x y z; ring
    simp only [refInt, phi, e, intervalIntegral.integral_const_mul, intervalIntegral.integral_mul_const, orthLine, mass, Prod.mk.injEq]
    by_cases h1 : p = p' <;> by_cases h2 : q = q' <;> by_cases h3 : r = r' <;> simp [h1, h2, h3]
  · simp only [refInt, phi, orthTet, mass]

theorem mass_big {e : Ent} {o : Nat} (ho : o + 1 ≤ maxOrder e) {i : Idx} (hi : Deg e o i) : (1 / 8000 : ℝ) ≤ mass e i := by
  obtain ⟨p, q, r⟩ := i
  have key : ∀ a b c : ℕ, a ≤ 19 → b ≤ 20 → c ≤ 21 → 0 < a → 0 < b → 0 < c → (1 / 8000 : ℝ) ≤ 1 / ((a : ℝ) * b * c) := by
    intro a b c ha hb hc ha' hb' hc'
    have h1 : a * b * c ≤ 8000 := (Nat.mul_le_mul (Nat.mul_le_mul ha hb) hc).trans (by norm_num)
    have h2 : ((a : ℝ) * b * c) ≤ 8000 := by exact_mod_cast h1
    have h3 : (0 : ℝ) < (a : ℝ) * b * c := by positivity
    exact one_div_le_one_div_of_le h3 h2
  cases e
  · have h : p < o := hi.1
    have := key (2 * p + 1) 1 1 (by simp [maxOrder] at ho; omega) (by omega) (by omega) (by omega) (by omega) (by omega)
    simpa [mass] using this
  · have h1 : p < o := hi.1
    have h2 : q < o := hi.2.1
    simp [maxOrder] at ho
    have := key (2 * p + 1) (2 * q + 1) 1 (by omega) (by omega) (by omega) (by omega) (by omega) (by omega)
    simpa [mass] using this
  · have h1 : p + q < o := hi.1
    simp [maxOrder] at ho
    have := key (2 * p + 1) (2 * p + 2 * q + 2) 1 (by omega) (by omega) (by omega) (by omega) (by omega) (by omega)
    simpa [mass] using this
  · have h1 : p < o := hi.1
    have h2 : q < o := hi.2.1
    have h3 : r < o := hi.2.2
    simp [maxOrder] at ho
    have := key (2 * p + 1) (2 * q + 1) (2 * r + 1) (by omega) (by omega) (by omega) (by omega) (by omega) (by omega)
    simpa [mass] using this
  · have h1 : p + q + r < o := hi
    simp [maxOrder] at ho
    have := key (2 * p + 1) (2 * p + 2 * q + 2) (2 * p + 2 * q + 2 * r + 3) (by omega) (by omega) (by omega) (by omega) (by omega) (by omega)
    simpa [mass] using this

/-! ### The tables -/

theorem der_some {e : Ent} {o b : Nat} (ho : o ≤ maxOrder e) {i : Idx} (hb : (idx e o)[b]? = some i) {x y z : ℝ} (hp : PtOk e x y z) {di : Nat}
    (hdi : di < e.nDim) : ∃ g, evalBasis b e x y z di o = some g := by
  have hd : Deg e o i := mem_idx.1 (List.mem_of_getElem? hb)
  cases e
  · simp only [idx, List.getElem?_map, Option.map_eq_some_iff] at hb
    obtain ⟨p, h1, rfl⟩ := hb
    obtain ⟨h2, h3⟩ := List.getElem?_eq_some_iff.1 h1
    simp only [List.length_range] at h2
    simp only [Ent.nDim] at hdi
    interval_cases di
    exact ⟨_, C91_line (lt_of_lt_of_le h2 ho) _ _ _ (by decide) _⟩
  · simp only [idx, List.getElem?_map, Option.map_eq_some_iff] at hb
    obtain ⟨p, h1, rfl⟩ := hb
    obtain ⟨h2, h3⟩ := List.getElem?_eq_some_iff.1 h1
    rw [List.getElem_range] at h3
    subst h3
    have := C91_derQuad (o := o) (p := b % o) (q := b / o) ho hd.1 hd.2.1 x y z
    rw [Nat.mod_add_div] at this
    simp only [Ent.nDim] at hdi
    interval_cases di
    · exact ⟨_, this.1.choose_spec.1⟩
    · exact ⟨_, this.2.choose_spec.1⟩
  · simp only [idx, List.getElem?_map, Option.map_eq_some_iff] at hb
    obtain ⟨j, h1, rfl⟩ := hb
    have hj : j.1 + j.2 < 10 := lt_of_lt_of_le hd.1 ho
    have hid : triaId j = b := by
      have h3 : ∀ o ≤ 10, (triaIdx o).map triaId = List.range (triaIdx o).length := by decide +kernel
      have h4 : ((triaIdx o).map triaId)[b]? = some (triaId j) := by rw [List.getElem?_map, h1]; rfl
      rw [h3 o ho] at h4
      obtain ⟨h5, h6⟩ := List.getElem?_eq_some_iff.1 h4
      rw [List.getElem_range] at h6; exact h6.symm
    rw [← hid]
    have := C91_derTria hj x y z hp o
    simp only [Ent.nDim] at hdi
    interval_cases di
    · exact ⟨_, this.1.choose_spec.1⟩
    · exact ⟨_, this.2.choose_spec.1⟩
  · simp only [idx, List.getElem?_map, Option.map_eq_some_iff] at hb
    obtain ⟨p, h1, rfl⟩ := hb
    obtain ⟨h2, h3⟩ := List.getElem?_eq_some_iff.1 h1
    rw [List.getElem_range] at h3
    subst h3
    have := C91_derHex (o := o) (p := b % o) (q := b % (o * o) / o) (r := b / (o * o)) ho hd.1 hd.2.1 hd.2.2 x y z
    have hb' : b % o + o * (b % (o * o) / o + o * (b / (o * o))) = b := by
      rw [Nat.mul_add, ← Nat.add_assoc, ← Nat.mul_assoc]
      have : b % o = b % (o * o) % o := (Nat.mod_mul_right_mod b o o).symm
      rw [this, Nat.mod_add_div, Nat.mod_add_div]
    rw [hb'] at this
    simp only [Ent.nDim] at hdi
    interval_cases di
    · exact ⟨_, this.1.choose_spec.1⟩
    · exact ⟨_, this.2.1.choose_spec.1⟩
    · exact ⟨_, this.2.2.choose_spec.1⟩
  · have hid : tetId i = b := by
      have h3 : ∀ o ≤ 11, (tetIdx o).map tetId = List.range (tetIdx o).length := by decide +kernel
      have h4 : ((tetIdx o).map tetId)[b]? = some (tetId i) := by rw [List.getElem?_map]; simp only [idx] at hb; rw [hb]; rfl
      rw [h3 o ho] at h4
      obtain ⟨h5, h6⟩ := List.getElem?_eq_some_iff.1 h4
      rw [List.getElem_range] at h6; exact h6.symm
    rw [← hid]
    have := C91_derTet (lt_of_lt_of_le hd ho) x y z hp.1 hp.2 o
    simp only [Ent.nDim] at hdi
    interval_cases di
    · exact ⟨_, this.1.choose_spec.1⟩
    · exact ⟨_, this.2.1.choose_spec.1⟩
    · exact ⟨_, this.2.2.choose_spec.1⟩

theorem evalAt_some {e : Ent} {o : Nat} (ho : o ≤ maxOrder e) {q : Qp ℝ} (hp : PtOk e q.x q.y q.z) :
    ∃ v, evalAt e q o = some v ∧ ∀ (md : Nat) i, (idx e o)[md]? = some i → v.val[md]? = some (phi e i q.x q.y q.z) := by
  have hi : ∀ md ∈ List.range (nModes e o), ∃ i, (idx e o)[md]? = some i := fun md hm =>
    ⟨_, List.getElem?_eq_getElem (by rw [idx_length]; exact List.mem_range.1 hm)⟩
  obtain ⟨v, v1, v2, v3⟩ := mapM_ex (l := List.range (nModes e o)) (f := fun md => evalBasis md e q.x q.y q.z (-1) o) (fun md hm => by
    obtain ⟨i, hi⟩ := hi md hm
    exact ⟨_, basis_val ho hi _ _ _ hp⟩)
  obtain ⟨d, d1, -, -⟩ := mapM_ex (l := List.range e.nDim) (f := fun di : Nat => (List.range (nModes e o)).mapM (fun md => evalBasis md e q.x q.y q.z di o))
    (fun di hdi => by
      obtain ⟨w, w1, -, -⟩ := mapM_ex (l := List.range (nModes e o)) (f := fun md => evalBasis md e q.x q.y q.z di o) (fun md hm => by
        obtain ⟨i, hi⟩ := hi md hm
        exact der_some ho hi hp (List.mem_range.1 hdi))
      exact ⟨w, w1⟩)
  refine ⟨⟨v, d⟩, by rw [evalAt, v1, d1]; rfl, fun md i hmd => ?_⟩
  have hlt : md < nModes e o := by rw [← idx_length]; exact (List.getElem?_eq_some_iff.1 hmd).1
  obtain ⟨y, h1, h2⟩ := v3 md md (by rw [List.getElem?_range hlt])
  rw [basis_val ho hmd _ _ _ hp] at h1
  rw [h2]
  exact h1.symm ▸ rfl

/-- What is assumed: order and tolerances, the one-dimensional rules and the generated mass matrix. -/
structure Setup (pair : Nat → Nat → ℝ × ℝ) (e : Ent) (o : Nat) (tol tolM : ℝ) (raw : List ℝ) : Prop where
  pos : 0 < o
  le : o + 1 ≤ maxOrder e
  gauss : ∀ n, 0 < n → n ≤ o + 1 → Gauss pair n
  tol0 : 0 ≤ tol
  tol1 : tol < 1
  tolM0 : 0 ≤ tolM
  tolM1 : tolM ≤ 1 / 10000
  raw : MassOk e o raw

/-- Content of the basis object. -/
structure Good (pair : Nat → Nat → ℝ × ℝ) (e : Ent) (o : Nat) (b : Bas ℝ) : Prop where
  ent : b.ent = e
  order : b.order = o
  nBase : b.nBase = (idx e o).length
  nz : b.mass.nz = (idx e o).map (mass e)
  ro : b.mass.ro = List.range (idx e o).length
  co : b.mass.co = List.range (idx e o).length
  len : b.qpEval.length = o + 1
  tab : ∀ k < o + 1, ∃ r, b.qpEval[k]? = some r ∧ r.pts = refPts pair e (k + 1) ∧
    ∀ (qp : Nat) q (md : Nat) i, (refPts pair e (k + 1))[qp]? = some q → (idx e o)[md]? = some i →
      b.at (k + 1) qp md = some (phi e i q.x q.y q.z)

theorem good_of_setup {pair : Nat → Nat → ℝ × ℝ} {e : Ent} {o : Nat} {tol tolM : ℝ} {raw : List ℝ} (h : Setup pair e o tol tolM raw) :
    ∃ b, mkBasis Real.sqrt tol tolM pair raw e o = some b ∧ Good pair e o b := by
  have hm : initMassMatrix tolM (nModes e o) raw =
      some ⟨(List.range (nModes e o)).map (fun k => mass e ((idx e o)[k]?.getD default)), List.range (nModes e o), List.range (nModes e o)⟩ := by
    have hg : ∀ k < nModes e o, (idx e o)[k]? = some ((idx e o)[k]?.getD default) := by
      intro k hk
      rw [List.getElem?_eq_getElem (by rw [idx_length]; exact hk)]; rfl
    refine initMass_diag h.tolM0 h.raw.1 (fun k hk => ?_) (fun r hr c hc => ?_)
    · refine lt_of_le_of_lt h.tolM1 (lt_of_lt_of_le (by norm_num) (mass_big h.le (mem_idx.1 (List.mem_of_getElem? (hg k hk)))))
    · rw [h.raw.2 r hr c hc, Option.some.injEq]
      have h1 : refInt e (fun x y z => value r e o x y z * value c e o x y z) =
          refInt e (fun x y z => phi e ((idx e o)[r]?.getD default) x y z * phi e ((idx e o)[c]?.getD default) x y z) := by
        refine refInt_congr (fun x y z hp => ?_)
        rw [value, value, basis_val (by have := h.le; omega) (hg r hr) _ _ _ hp, basis_val (by have := h.le; omega) (hg c hc) _ _ _ hp]; rfl
      rw [h1, refInt_orth (mem_idx.1 (List.mem_of_getElem? (hg r hr))) (mem_idx.1 (List.mem_of_getElem? (hg c hc)))]
      by_cases hrc : r = c
      · subst hrc; simp
      · rw [if_neg hrc, if_neg]
        intro he
        have h2 := hg r hr
        have h3 := hg c hc
        rw [he, ← h3] at h2
        exact hrc ((List.getElem?_inj (by rw [idx_length]; exact hr) (idx_nodup e o)).1 h2)
  obtain ⟨t, t1, t2, t3⟩ := mapM_ex (l := List.range (o + 1)) (f := fun pq => (do
    let pts ← qpts Real.sqrt tol pair e (pq + 1) (refVe e)
    let b ← pts.mapM (fun q => (List.range (o + 1)).mapM (fun pb => evalAt e q (pb + 1)))
    some ⟨pts, b⟩ : Option (EvalQp ℝ))) (fun pq hpq => by
      have hpq := List.mem_range.1 hpq
      have hG := h.gauss (pq + 1) (by omega) (by omega)
      rw [qpts_ref (by omega) hG h.tol0 h.tol1]
      obtain ⟨b, b1, -, -⟩ := mapM_ex (l := refPts pair e (pq + 1)) (f := fun q => (List.range (o + 1)).mapM (fun pb => evalAt e q (pb + 1)))
        (fun q hq => by
          obtain ⟨w, w1, -, -⟩ := mapM_ex (l := List.range (o + 1)) (f := fun pb => evalAt e q (pb + 1)) (fun pb hpb => by
            obtain ⟨v, h1, -⟩ := evalAt_some (o := pb + 1) (by have := h.le; have := List.mem_range.1 hpb; omega) (refPts_ok hG hq)
            exact ⟨v, h1⟩)
          exact ⟨w, w1⟩)
      exact ⟨⟨_, b⟩, by rw [Option.bind_eq_bind, Option.bind_some, b1]; rfl⟩)
  have ho := h.pos
  refine ⟨_, by rw [mkBasis, hm, initEvalQpRefEl, t1]; rfl, rfl, rfl, (idx_length e o).symm, ?_, by rw [idx_length], by rw [idx_length], by simpa using t2, ?_⟩
  · rw [← idx_length]
    refine List.ext_getElem (by simp) (fun k h1 h2 => ?_)
    simp only [List.length_map] at h2
    simp [h2]
  · intro k hk
    obtain ⟨r, r1, r2⟩ := t3 k k (by rw [List.getElem?_range hk])
    have hG := h.gauss (k + 1) (by omega) (by omega)
    rw [qpts_ref (by omega) hG h.tol0 h.tol1, Option.bind_eq_bind, Option.bind_some] at r1
    obtain ⟨bs, b1, b2, b3⟩ := mapM_ex (l := refPts pair e (k + 1)) (f := fun q => (List.range (o + 1)).mapM (fun pb => evalAt e q (pb + 1)))
        (fun q hq => by
          obtain ⟨w, w1, -, -⟩ := mapM_ex (l := List.range (o + 1)) (f := fun pb => evalAt e q (pb + 1)) (fun pb hpb => by
            obtain ⟨v, h1, -⟩ := evalAt_some (o := pb + 1) (by have := h.le; have := List.mem_range.1 hpb; omega) (refPts_ok hG hq)
            exact ⟨v, h1⟩)
          exact ⟨w, w1⟩)
    rw [b1, Option.bind_eq_bind, Option.bind_some, Option.some.injEq] at r1
    subst r1
    refine ⟨_, r2, rfl, fun qp q md i hq hi => ?_⟩
    obtain ⟨ps, p1, p2⟩ := b3 qp q hq
    obtain ⟨w, w1, -, w3⟩ := mapM_ex (l := List.range (o + 1)) (f := fun pb => evalAt e q (pb + 1)) (fun pb hpb => by
            obtain ⟨v, h1, -⟩ := evalAt_some (o := pb + 1) (by have := h.le; have := List.mem_range.1 hpb; omega)
              (refPts_ok hG (List.mem_of_getElem? hq))
            exact ⟨v, h1⟩)
    rw [w1, Option.some.injEq] at p1
    subst p1
    obtain ⟨v, v1, v2⟩ := w3 (o - 1) (o - 1) (by rw [List.getElem?_range (by omega)])
    obtain ⟨v', h1, h2⟩ := evalAt_some (o := o) (by have := h.le; omega) (refPts_ok hG (List.mem_of_getElem? hq))
    simp only [show o - 1 + 1 = o by omega] at v1
    rw [h1, Option.some.injEq] at v1
    subst v1
    simp only [Bas.at, rd, Nat.add_sub_cancel, r2, p2, v2, Option.bind_eq_bind, Option.bind_some, h2 md i hi]

end Edge.Proj
