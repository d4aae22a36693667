import Verif.Proj.Points
/-!
Discrete orthogonality and completeness of the basis functions.
-/
namespace Edge.Proj
open Edge Edge.Map Edge.Quad Edge.Basis MvPolynomial

/-! ### Degrees -/

theorem P_totalDegree {e : Ent} {o : Nat} (he : e = .line ∨ e = .tria ∨ e = .tet) {i : Idx} (h : Deg e o i) : (P e i).totalDegree < o := by
  have hx : ∀ d : Fin 3, (X d : MvPolynomial (Fin 3) ℝ).totalDegree ≤ 1 := fun d => by rw [totalDegree_X]
  have h1 : (1 : MvPolynomial (Fin 3) ℝ).totalDegree ≤ 1 := by rw [totalDegree_one]; omega
  have hs : ∀ {t u : MvPolynomial (Fin 3) ℝ}, t.totalDegree ≤ 1 → u.totalDegree ≤ 1 → (t - u).totalDegree ≤ 1 := fun ht hu =>
    (totalDegree_sub _ _).trans (max_le ht hu)
  obtain ⟨p, q, r⟩ := i
  rcases he with rfl | rfl | rfl
  · exact lt_of_le_of_lt (hom_totalDegree _ _ (hx 0) h1) h.1
  · refine lt_of_le_of_lt (totalDegree_mul _ _) (lt_of_le_of_lt (add_le_add (hom_totalDegree _ _ (hx 0) (hs h1 (hx 1)))
      (hom_totalDegree _ _ (hx 1) h1)) h.1)
  · refine lt_of_le_of_lt (totalDegree_mul _ _) (lt_of_le_of_lt (add_le_add ((totalDegree_mul _ _).trans
      (add_le_add (hom_totalDegree _ _ (hx 0) (hs (hs h1 (hx 1)) (hx 2))) (hom_totalDegree _ _ (hx 1) (hs h1 (hx 2)))))
      (hom_totalDegree _ _ (hx 2) h1)) h)

/-- Bounds of the degrees in the single variables. -/
theorem P_degreeOf (e : Ent) (i : Idx) (he : e ≠ .tet) (d : Fin 3) :
    (P e i).degreeOf d ≤ match e, d with
      | .tria, 0 => i.1
      | .tria, 1 => i.1 + i.2.1
      | .line, 0 => i.1
      | .quad, 0 => i.1
      | .quad, 1 => i.2.1
      | .hex, 0 => i.1
      | .hex, 1 => i.2.1
      | .hex, 2 => i.2.2
      | _, _ => 0 := by
  have hx : ∀ c : Fin 3, (X c : MvPolynomial (Fin 3) ℝ).degreeOf d ≤ if d = c then 1 else 0 := fun c => by rw [degreeOf_X]
  have h1 : ∀ k, (1 : MvPolynomial (Fin 3) ℝ).degreeOf d ≤ k := fun k => by rw [← C_1, degreeOf_C]; omega
  have hl : ∀ (n : Nat) (c : Fin 3), (phiLine n (X c : MvPolynomial (Fin 3) ℝ)).degreeOf d ≤ n * (if d = c then 1 else 0) := fun n c =>
    hom_degreeOf _ _ _ (hx c) (h1 _)
  obtain ⟨p, q, r⟩ := i
  cases e
  · refine (hl p 0).trans ?_
    fin_cases d <;> simp
  · refine (degreeOf_mul_le _ _ _).trans ((add_le_add (hl p 0) (hl q 1)).trans ?_)
    fin_cases d <;> simp
  · have hy : (1 - X 1 : MvPolynomial (Fin 3) ℝ).degreeOf d ≤ if d = 1 then 1 else 0 := by
      rw [sub_eq_add_neg]
      refine (degreeOf_add_le _ _ _).trans (max_le (h1 _) ?_)
      rw [degreeOf_neg]; exact hx 1
    have a : (hom p 0 (X 0) (1 - X 1) : MvPolynomial (Fin 3) ℝ).degreeOf d ≤ p * (if d = 2 then 0 else 1) := by
      refine hom_degreeOf _ _ _ ((hx 0).trans ?_) (hy.trans ?_) <;> fin_cases d <;> simp
    refine (degreeOf_mul_le _ _ _).trans ((add_le_add a (hl' q)).trans ?_)
    fin_cases d <;> simp
  · refine (degreeOf_mul_le _ _ _).trans ((add_le_add ((degreeOf_mul_le _ _ _).trans (add_le_add (hl p 0) (hl q 1))) (hl r 2)).trans ?_)
    fin_cases d <;> simp
  · exact absurd rfl he
where
  hl' {p d : _} (q : Nat) : (hom q (2 * p + 1) (X 1) 1 : MvPolynomial (Fin 3) ℝ).degreeOf d ≤ q * (if d = 1 then 1 else 0) := by
    refine hom_degreeOf _ _ _ (by rw [degreeOf_X]) ?_
    rw [← C_1, degreeOf_C]; omega

/-! ### Discrete orthogonality -/

theorem flat_map_rule {r : List (Qp ℝ)} {f g : ℝ → ℝ → ℝ → ℝ} (h : ∀ q ∈ r, f q.x q.y q.z = g q.x q.y q.z) : rule r f = rule r g := by
  simp only [rule]
  congr 1
  exact List.map_congr_left (fun q hq => by rw [h q hq])

/-- The quadrature rule of the reference element with `o + 1` points in each dimension integrates the products of the functions of
a basis of order `o` exactly: they are orthogonal. -/
theorem discrete_orth {pair : Nat → Nat → ℝ × ℝ} {o : Nat} (hg : Gauss pair (o + 1)) {e : Ent} {i j : Idx} (hi : Deg e o i) (hj : Deg e o j) :
    rule (refPts pair e (o + 1)) (fun x y z => phi e i x y z * phi e j x y z) = if i = j then mass e i else 0 := by
  have hf : (fun x y z => phi e i x y z * phi e j x y z) = val (P e i * P e j) := by
    funext x y z
    rw [← val_P, ← val_P, val, val, val, map_mul]
  have hq := qpts_ref (Nat.succ_pos o) hg (tol := 1 / 2) (by norm_num) (by norm_num) e
  cases e
  · have hd := (totalDegree_mul (P .line i) (P .line j))
    have h1 := P_totalDegree (Or.inl rfl) hi
    have h2 := P_totalDegree (Or.inl rfl) hj
    obtain ⟨qs, e1, -, e2⟩ := C90_line (n := o + 1) (by omega) hg (refVe .line) (fun q hq => (gl_inner hg hq).1.le)
    obtain rfl : refPts pair .line (o + 1) = qs := Option.some.inj (hq.symm.trans e1)
    have := e2 (P .line i * P .line j) (by omega)
    rw [hf, this, ← hf]
    have h3 := orthLine i.1 j.1
    obtain ⟨p, q, r⟩ := i
    obtain ⟨p', q', r'⟩ := j
    obtain ⟨-, rfl, rfl⟩ := hi
    obtain ⟨-, rfl, rfl⟩ := hj
    simp only [phi, refVe, tab]
    simp
    simpa [mass, eq_comm] using h3
  · have hb : Bounds (refVe .quad : Nat → Nat → ℝ) (fun _ => 0) (fun d => if d < 2 then 1 else 0) := by
      intro d hd
      refine ⟨fun v hv => ?_, ⟨0, by decide, ?_⟩, ⟨2, by decide, ?_⟩⟩
      · interval_cases d <;> interval_cases v <;> simp [refVe, tab]
      · interval_cases d <;> simp [refVe, tab]
      · interval_cases d <;> simp [refVe, tab]
    obtain ⟨qs, e1, -, e2⟩ := C90_quad (n := o + 1) (by omega) hg (tol := 1 / 2) hb (a := 0) (b := 1) (f := 2) (by simp) (by norm_num)
      (by norm_num) (by norm_num) (by norm_num)
    obtain rfl : refPts pair .quad (o + 1) = qs := Option.some.inj (hq.symm.trans e1)
    have := e2 (P .quad i * P .quad j) (fun d => by
      refine lt_of_le_of_lt (degreeOf_mul_le _ _ _) ?_
      have a := P_degreeOf .quad i (by decide) d
      have b := P_degreeOf .quad j (by decide) d
      obtain ⟨i1, i2, i3⟩ := hi
      obtain ⟨j1, j2, j3⟩ := hj
      fin_cases d <;> simp only at a b <;> simp at a b ⊢ <;> omega)
    rw [hf, this, ← hf]
    have h1 := orthLine i.1 j.1
    have h2 := orthLine i.2.1 j.2.1
    obtain ⟨p, q, r⟩ := i
    obtain ⟨p', q', r'⟩ := j
    obtain ⟨-, -, rfl⟩ := hi
    obtain ⟨-, -, rfl⟩ := hj
    have e : ∀ x y : ℝ, phiLine p x * phiLine q y * (phiLine p' x * phiLine q' y) = (phiLine p x * phiLine p' x) * (phiLine q y * phiLine q' y) := by
      intro x y; ring
    simp only [phi, planePt]
    simp only [if_true, one_ne_zero, if_false, e, show (0 : Nat) < 2 from by decide, show (1 : Nat) < 2 from by decide]
    simp only [intervalIntegral.integral_const_mul, intervalIntegral.integral_mul_const]
    simp only at h1 h2
    rw [h1, h2]
    simp only [mass, Prod.mk.injEq]
    by_cases c1 : p = p' <;> by_cases c2 : q = q' <;> simp [c1, c2, mul_comm]
  · have hd := (totalDegree_mul (P .tria i) (P .tria j))
    have h1 := P_totalDegree (Or.inr (Or.inl rfl)) hi
    have h2 := P_totalDegree (Or.inr (Or.inl rfl)) hj
    obtain ⟨qs, e1, -, e2⟩ := C90_tria (n := o + 1) (by omega) hg (tol := 1 / 2) (ves := refVe .tria) (by rw [ref_jDet]; norm_num)
    obtain rfl : refPts pair .tria (o + 1) = qs := Option.some.inj (hq.symm.trans e1)
    have := e2 (P .tria i * P .tria j) (by omega)
    rw [hf, this, ← hf, ref_jDet]
    have h3 := orthTria (i.1, i.2.1) (j.1, j.2.1)
    obtain ⟨p, q, r⟩ := i
    obtain ⟨p', q', r'⟩ := j
    obtain ⟨-, rfl⟩ := hi
    obtain ⟨-, rfl⟩ := hj
    have m0 : ∀ x y : ℝ, refToPhy .tria (refVe .tria) (fun d => if d = 0 then x else y) 0 = x := by
      intro x y; simp [refToPhy, refVe, tab, sumN_succ, sumN_zero, shTria]
    have m1 : ∀ x y : ℝ, refToPhy .tria (refVe .tria) (fun d => if d = 0 then x else y) 1 = y := by
      intro x y; simp [refToPhy, refVe, tab, sumN_succ, sumN_zero, shTria]
    simp only [phi, m0, m1, one_mul]
    rw [h3]
    simp [mass]
  · have ha : AxisAligned .hex (refVe .hex : Nat → Nat → ℝ) := fun d _ v _ w _ h => h
    obtain ⟨qs, e1, -, e2⟩ := C90_hex (n := o + 1) (by omega) hg (tol := 1 / 2) ha (by norm_num [refVe, tab])
    obtain rfl : refPts pair .hex (o + 1) = qs := Option.some.inj (hq.symm.trans e1)
    have := e2 (P .hex i * P .hex j) (fun d => by
      refine lt_of_le_of_lt (degreeOf_mul_le _ _ _) ?_
      have a := P_degreeOf .hex i (by decide) d
      have b := P_degreeOf .hex j (by decide) d
      obtain ⟨i1, i2, i3⟩ := hi
      obtain ⟨j1, j2, j3⟩ := hj
      fin_cases d <;> simp only at a b <;> simp at a b ⊢ <;> omega)
    rw [hf, this, ← hf]
    have h1 := orthLine i.1 j.1
    have h2 := orthLine i.2.1 j.2.1
    have h3 := orthLine i.2.2 j.2.2
    obtain ⟨p, q, r⟩ := i
    obtain ⟨p', q', r'⟩ := j
    have e : ∀ x y z : ℝ, phiLine p x * phiLine q y * phiLine r z * (phiLine p' x * phiLine q' y * phiLine r' z) =
        (phiLine p x * phiLine p' x) * ((phiLine q y * phiLine q' y) * (phiLine r z * phiLine r' z)) := by
      intro x y z; ring
    have l0 : (refVe .hex 0 0 : ℝ) = 0 ∧ (refVe .hex 1 0 : ℝ) = 0 ∧ (refVe .hex 2 0 : ℝ) = 0 ∧ (refVe .hex 0 1 : ℝ) = 1 ∧
      (refVe .hex 1 3 : ℝ) = 1 ∧ (refVe .hex 2 4 : ℝ) = 1 := by simp [refVe, tab]
    obtain ⟨l1, l2, l3, l4, l5, l6⟩ := l0
    simp only [phi, e, l1, l2, l3, l4, l5, l6]
    simp only [intervalIntegral.integral_const_mul, intervalIntegral.integral_mul_const]
    simp only at h1 h2 h3
    rw [h1, h2, h3]
    simp only [mass, Prod.mk.injEq]
    by_cases c1 : p = p' <;> by_cases c2 : q = q' <;> by_cases c3 : r = r' <;> simp [c1, c2, c3] <;> ring
  · have hd := (totalDegree_mul (P .tet i) (P .tet j))
    have h1 := P_totalDegree (Or.inr (Or.inr rfl)) hi
    have h2 := P_totalDegree (Or.inr (Or.inr rfl)) hj
    obtain ⟨qs, e1, -, e2⟩ := C90_tet (n := o + 1) (by omega) hg (tol := 1 / 2) (ves := refVe .tet) (by rw [ref_jDet]; norm_num)
    obtain rfl : refPts pair .tet (o + 1) = qs := Option.some.inj (hq.symm.trans e1)
    have := e2 (P .tet i * P .tet j) (by omega)
    rw [hf, this, ← hf, ref_jDet]
    have h3 := orthTet i j
    have m0 : ∀ x y z : ℝ, refToPhy .tet (refVe .tet) (fun d => if d = 0 then x else if d = 1 then y else z) 0 = x := by
      intro x y z; simp [refToPhy, refVe, tab, sumN_succ, sumN_zero, shTet]
    have m1 : ∀ x y z : ℝ, refToPhy .tet (refVe .tet) (fun d => if d = 0 then x else if d = 1 then y else z) 1 = y := by
      intro x y z; simp [refToPhy, refVe, tab, sumN_succ, sumN_zero, shTet]
    have m2 : ∀ x y z : ℝ, refToPhy .tet (refVe .tet) (fun d => if d = 0 then x else if d = 1 then y else z) 2 = z := by
      intro x y z; simp [refToPhy, refVe, tab, sumN_succ, sumN_zero, shTet]
    simp only [phi, m0, m1, m2, one_mul]
    refine Eq.trans ?_ h3
    refine intervalIntegral.integral_congr (fun z _ => ?_)
    refine intervalIntegral.integral_congr (fun y _ => ?_)
    show ∫ x in (0 : ℝ)..(1 - z - y), _ = ∫ x in (0 : ℝ)..(1 - y - z), _
    rw [sub_right_comm]

end Edge.Proj
