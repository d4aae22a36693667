import Verif.Proj.Orth
/-!
Completeness of the basis functions: polynomials on the elements are combinations of them.
-/
namespace Edge.Proj
open Edge Edge.Map Edge.Quad Edge.Basis MvPolynomial

/-- The exponents of the monomial with the given degrees. -/
noncomputable def ex (i : Idx) : Fin 3 →₀ ℕ := Finsupp.equivFunOnFinite.symm ![i.1, i.2.1, i.2.2]

theorem ex_inj : Function.Injective ex := by
  rintro ⟨p, q, r⟩ ⟨p', q', r'⟩ h
  have h0 := DFunLike.congr_fun h 0
  have h1 := DFunLike.congr_fun h 1
  have h2 := DFunLike.congr_fun h 2
  simp [ex] at h0 h1 h2
  simp [h0, h1, h2]

theorem ex_surj (m : Fin 3 →₀ ℕ) : ex (m 0, m 1, m 2) = m := by
  ext d; fin_cases d <;> simp [ex]

/-- Degrees of the basis functions. -/
def degs (e : Ent) (o : Nat) : Finset Idx := (idx e o).toFinset

theorem mem_degs {e : Ent} {o : Nat} {i : Idx} : i ∈ degs e o ↔ Deg e o i := by rw [degs, List.mem_toFinset, mem_idx]

theorem sum_three (m : Fin 3 →₀ ℕ) : (m.sum fun _ k => k) = m 0 + m 1 + m 2 := by
  rw [Finsupp.sum_fintype _ _ (fun _ => rfl), Fin.sum_univ_three]

/-- The monomials of a basis function have the degrees of basis functions. -/
theorem P_support {e : Ent} {o : Nat} {i : Idx} (h : Deg e o i) {m : Fin 3 →₀ ℕ} (hm : m ∈ (P e i).support) : Deg e o (m 0, m 1, m 2) := by
  cases e
  · have a := fun d => (monomial_le_degreeOf d hm).trans (P_degreeOf .line i (by decide) d)
    have a0 := a 0; have a1 := a 1; have a2 := a 2
    simp only at a0 a1 a2
    obtain ⟨h1, h2, h3⟩ := h
    exact ⟨by simp only; omega, by simpa using a1, by simpa using a2⟩
  · have a := fun d => (monomial_le_degreeOf d hm).trans (P_degreeOf .quad i (by decide) d)
    have a0 := a 0; have a1 := a 1; have a2 := a 2
    simp only at a0 a1 a2
    obtain ⟨h1, h2, h3⟩ := h
    exact ⟨by simp only; omega, by simp only; omega, by simpa using a2⟩
  · have a2 := (monomial_le_degreeOf 2 hm).trans (P_degreeOf .tria i (by decide) 2)
    simp only at a2
    have b := lt_of_le_of_lt (le_totalDegree hm) (P_totalDegree (Or.inr (Or.inl rfl)) h)
    rw [sum_three] at b
    exact ⟨by simp only; omega, by simpa using a2⟩
  · have a := fun d => (monomial_le_degreeOf d hm).trans (P_degreeOf .hex i (by decide) d)
    have a0 := a 0; have a1 := a 1; have a2 := a 2
    simp only at a0 a1 a2
    obtain ⟨h1, h2, h3⟩ := h
    exact ⟨by simp only; omega, by simp only; omega, by simp only; omega⟩
  · have b := lt_of_le_of_lt (le_totalDegree hm) (P_totalDegree (Or.inr (Or.inr rfl)) h)
    rw [sum_three] at b
    exact b

/-- The basis functions are linearly independent. -/
theorem P_linInd {pair : Nat → Nat → ℝ × ℝ} {o : Nat} (hg : Gauss pair (o + 1)) (e : Ent) :
    LinearIndependent ℝ (fun i : degs e o => P e i.1) := by
  rw [Fintype.linearIndependent_iff]
  intro c hc j
  have h1 : rule (refPts pair e (o + 1)) (fun x y z => ∑ i : degs e o, c i * (phi e i.1 x y z * phi e j.1 x y z)) = 0 := by
    have : ∀ x y z : ℝ, ∑ i : degs e o, c i * (phi e i.1 x y z * phi e j.1 x y z) = 0 := by
      intro x y z
      have := congrArg (fun f => val f x y z * phi e j.1 x y z) hc
      simp only [val, map_sum, smul_eval, map_zero, zero_mul] at this
      rw [← this, Finset.sum_mul]
      refine Finset.sum_congr rfl (fun i _ => ?_)
      have := val_P e i.1 x y z
      rw [val] at this
      rw [this]; ring
    simp only [this, rule, mul_zero, List.map_const', List.sum_replicate, smul_zero]
  rw [rule_sum Finset.univ (refPts pair e (o + 1)) c (fun i x y z => phi e i.1 x y z * phi e j.1 x y z)] at h1
  simp only [discrete_orth hg (mem_degs.1 (Subtype.mem _)) (mem_degs.1 (Subtype.mem _)), mul_ite, mul_zero] at h1
  have h2 : ∀ i : degs e o, (if i.1 = j.1 then c i * mass e i.1 else 0) = if i = j then c j * mass e j.1 else 0 := by
    intro i
    by_cases h : i = j
    · subst h; simp
    · rw [if_neg h, if_neg (fun h' => h (Subtype.ext h'))]
  simp only [h2, Finset.sum_ite_eq', Finset.mem_univ, if_true] at h1
  exact (mul_eq_zero.1 h1).resolve_right (mass_pos _ _).ne'

theorem mono_linInd (e : Ent) (o : Nat) : LinearIndependent ℝ (fun i : degs e o => (monomial (ex i.1) (1 : ℝ) : MvPolynomial (Fin 3) ℝ)) := by
  have := (basisMonomials (Fin 3) ℝ).linearIndependent
  rw [coe_basisMonomials] at this
  exact this.comp (fun i : degs e o => ex i.1) (fun a b h => Subtype.ext (ex_inj h))

/-- The basis functions span the polynomials with their degrees. -/
theorem span_eq {pair : Nat → Nat → ℝ × ℝ} {o : Nat} (hg : Gauss pair (o + 1)) (e : Ent) :
    Submodule.span ℝ (Set.range (fun i : degs e o => P e i.1)) =
      Submodule.span ℝ (Set.range (fun i : degs e o => (monomial (ex i.1) (1 : ℝ) : MvPolynomial (Fin 3) ℝ))) := by
  haveI : FiniteDimensional ℝ (Submodule.span ℝ (Set.range (fun i : degs e o => (monomial (ex i.1) (1 : ℝ) : MvPolynomial (Fin 3) ℝ)))) :=
    FiniteDimensional.span_of_finite ℝ (Set.finite_range _)
  refine Submodule.eq_of_le_of_finrank_eq (Submodule.span_le.2 ?_) ?_
  · rintro _ ⟨i, rfl⟩
    have : P e i.1 = ∑ m ∈ (P e i.1).support, (P e i.1).coeff m • monomial m (1 : ℝ) := by
      conv_lhs => rw [as_sum (P e i.1)]
      exact Finset.sum_congr rfl (fun m _ => by rw [smul_monomial, smul_eq_mul, mul_one])
    simp only [SetLike.mem_coe]
    rw [this]
    refine Submodule.sum_mem _ (fun m hm => Submodule.smul_mem _ _ (Submodule.subset_span ?_))
    exact ⟨⟨(m 0, m 1, m 2), mem_degs.2 (P_support (mem_degs.1 i.2) hm)⟩, by simp only [ex_surj]⟩
  · rw [finrank_span_eq_card (P_linInd hg e), finrank_span_eq_card (mono_linInd e o)]

/-- Polynomials with the degrees of the basis functions are combinations of them. -/
theorem complete {pair : Nat → Nat → ℝ × ℝ} {o : Nat} (hg : Gauss pair (o + 1)) (e : Ent) {f : MvPolynomial (Fin 3) ℝ}
    (hf : ∀ m ∈ f.support, Deg e o (m 0, m 1, m 2)) :
    ∃ c : Idx → ℝ, ∀ x y z, val f x y z = ∑ i ∈ degs e o, c i * phi e i x y z := by
  have h : f ∈ Submodule.span ℝ (Set.range (fun i : degs e o => P e i.1)) := by
    rw [span_eq hg]
    have : f = ∑ m ∈ f.support, f.coeff m • monomial m (1 : ℝ) := by
      conv_lhs => rw [as_sum f]
      exact Finset.sum_congr rfl (fun m _ => by rw [smul_monomial, smul_eq_mul, mul_one])
    rw [this]
    refine Submodule.sum_mem _ (fun m hm => Submodule.smul_mem _ _ (Submodule.subset_span ?_))
    exact ⟨⟨(m 0, m 1, m 2), mem_degs.2 (hf m hm)⟩, by simp only [ex_surj]⟩
  rw [Submodule.mem_span_range_iff_exists_fun] at h
  obtain ⟨c, rfl⟩ := h
  refine ⟨fun i => if h : i ∈ degs e o then c ⟨i, h⟩ else 0, fun x y z => ?_⟩
  rw [val, map_sum, ← Finset.sum_coe_sort (degs e o)]
  refine Finset.sum_congr rfl (fun i _ => ?_)
  have := val_P e i.1 x y z
  rw [val] at this
  rw [smul_eval, this]
  simp only [i.2, dif_pos]

/-! ### Polynomials on the elements -/

/-- Degree of the polynomials which are reproduced: total degree below the order on lines, triangles and tetrahedra, degree below
the order in each of the element's dimensions on rectangles and cuboids. -/
def Fits (e : Ent) (o : Nat) (f : MvPolynomial (Fin 3) ℝ) : Prop :=
  match e with
  | .line | .tria | .tet => f.totalDegree < o
  | .quad => f.degreeOf 0 < o ∧ f.degreeOf 1 < o
  | .hex => f.degreeOf 0 < o ∧ f.degreeOf 1 < o ∧ f.degreeOf 2 < o

/-- Dimensions of an element. -/
def FlatPt (e : Ent) (y z : ℝ) : Prop :=
  match e with
  | .line => y = 0 ∧ z = 0
  | .quad | .tria => z = 0
  | _ => True

/-- Exponents without the additional dimensions. -/
def flatExp (e : Ent) (m : Fin 3 →₀ ℕ) : Bool :=
  match e with
  | .line => m 1 == 0 && m 2 == 0
  | .quad | .tria => m 2 == 0
  | _ => true

theorem complete_fits {pair : Nat → Nat → ℝ × ℝ} {o : Nat} (hg : Gauss pair (o + 1)) (e : Ent) {f : MvPolynomial (Fin 3) ℝ} (hf : Fits e o f) :
    ∃ c : Idx → ℝ, ∀ x y z, FlatPt e y z → val f x y z = ∑ i ∈ degs e o, c i * phi e i x y z := by
  set g : MvPolynomial (Fin 3) ℝ := ∑ m ∈ f.support with flatExp e m, monomial m (f.coeff m) with hgdef
  have hco : ∀ m, g.coeff m = if flatExp e m then f.coeff m else 0 := by
    intro m
    rw [hgdef, coeff_sum]
    simp only [coeff_monomial, Finset.sum_ite_eq', Finset.mem_filter, mem_support_iff]
    by_cases h1 : flatExp e m = true <;> by_cases h2 : coeff m f = 0 <;> simp [h1, h2]
  have hsup : ∀ m ∈ g.support, m ∈ f.support ∧ flatExp e m = true := by
    intro m hm
    rw [mem_support_iff, hco] at hm
    by_cases h1 : flatExp e m = true
    · rw [if_pos h1] at hm; exact ⟨mem_support_iff.2 hm, h1⟩
    · rw [if_neg h1] at hm; exact absurd rfl hm
  obtain ⟨c, hc⟩ := complete hg e (f := g) (fun m hm => by
    obtain ⟨h1, h2⟩ := hsup m hm
    have ht := le_totalDegree h1
    have hd := fun d => monomial_le_degreeOf d h1
    rw [sum_three] at ht
    cases e
    · simp only [flatExp, Bool.and_eq_true, beq_iff_eq] at h2
      exact ⟨by have : f.totalDegree < o := hf; simp only; omega, h2.1, h2.2⟩
    · simp only [flatExp, beq_iff_eq] at h2
      exact ⟨lt_of_le_of_lt (hd 0) hf.1, lt_of_le_of_lt (hd 1) hf.2, h2⟩
    · simp only [flatExp, beq_iff_eq] at h2
      exact ⟨by have : f.totalDegree < o := hf; simp only; omega, h2⟩
    · exact ⟨lt_of_le_of_lt (hd 0) hf.1, lt_of_le_of_lt (hd 1) hf.2.1, lt_of_le_of_lt (hd 2) hf.2.2⟩
    · exact lt_of_le_of_lt ht hf)
  refine ⟨c, fun x y z hp => ?_⟩
  rw [← hc]
  rw [val_eq f]
  have : val g x y z = ∑ m ∈ f.support, (if flatExp e m then f.coeff m * (x ^ m 0 * y ^ m 1 * z ^ m 2) else 0) := by
    rw [hgdef, val, map_sum, Finset.sum_filter]
    refine Finset.sum_congr rfl (fun m _ => ?_)
    by_cases h : flatExp e m = true
    · rw [if_pos h, if_pos h, eval_monomial, Finsupp.prod_fintype _ _ (fun _ => pow_zero _), Fin.prod_univ_three]; rfl
    · rw [if_neg h, if_neg h]
  rw [this]
  refine Finset.sum_congr rfl (fun m _ => ?_)
  by_cases h : flatExp e m = true
  · rw [if_pos h]
  · rw [if_neg h]
    cases e
    · obtain ⟨rfl, rfl⟩ := hp
      simp only [flatExp, Bool.and_eq_true, beq_iff_eq, not_and_or] at h
      rcases h with h | h <;> simp [h]
    · obtain rfl := hp
      simp only [flatExp, beq_iff_eq] at h
      simp [h]
    · obtain rfl := hp
      simp only [flatExp, beq_iff_eq] at h
      simp [h]
    · exact absurd rfl h
    · exact absurd rfl h

/-- Composition of a polynomial with scalings and shifts of the variables. -/
theorem val_diag (f : MvPolynomial (Fin 3) ℝ) (a b : Fin 3 → ℝ) :
    ∃ f' : MvPolynomial (Fin 3) ℝ, (∀ d, f'.degreeOf d ≤ f.degreeOf d) ∧ ∀ x y z, val f' x y z =
      val f (a 0 + b 0 * x) (a 1 + b 1 * y) (a 2 + b 2 * z) := by
  refine ⟨bind₁ (fun i => C (a i) + C (b i) * X i) f, fun d => ?_, ?_⟩
  · have : bind₁ (fun i => C (a i) + C (b i) * X i) f = ∑ m ∈ f.support, C (f.coeff m) * ∏ i, (C (a i) + C (b i) * X i) ^ m i := by
      rw [bind₁, aeval_def, eval₂_eq']; rfl
    rw [this]
    refine (degreeOf_sum_le _ _ _).trans (Finset.sup_le (fun m hm => ?_))
    refine le_trans ?_ (monomial_le_degreeOf d hm)
    refine (degreeOf_mul_le _ _ _).trans ?_
    rw [degreeOf_C, zero_add]
    refine (degreeOf_prod_le _ _ _).trans ?_
    have hl : ∀ i : Fin 3, degreeOf d ((C (a i) + C (b i) * X i : MvPolynomial (Fin 3) ℝ) ^ m i) ≤ if d = i then m i else 0 := by
      intro i
      refine (degreeOf_pow_le _ _ _).trans ?_
      have h1 : degreeOf d (C (a i) + C (b i) * X i : MvPolynomial (Fin 3) ℝ) ≤ if d = i then 1 else 0 := by
        refine (degreeOf_add_le _ _ _).trans (max_le (by rw [degreeOf_C]; omega) ((degreeOf_mul_le _ _ _).trans ?_))
        rw [degreeOf_C, zero_add, degreeOf_X]
      refine (Nat.mul_le_mul_left _ h1).trans ?_
      split <;> simp
    refine (Finset.sum_le_sum (fun i _ => hl i)).trans ?_
    simp
  · intro x y z
    simp only [val]
    rw [← coe_aeval_eq_eval, ← coe_aeval_eq_eval]
    simp only [RingHom.coe_coe, aeval_bind₁]
    congr 2
    funext i
    fin_cases i <;> simp

/-- A polynomial on an element is a polynomial of the same degree on the reference element. -/
theorem pullback {tol : ℝ} {e : Ent} {ves : Nat → Nat → ℝ} (he : ElOk tol e ves) {o : Nat} {f : MvPolynomial (Fin 3) ℝ} (hf : Fits e o f) :
    ∃ f', Fits e o f' ∧ ∀ x y z, FlatPt e y z → val f' x y z =
      val f (refToPhy e ves (vec x y z) 0) (refToPhy e ves (vec x y z) 1) (refToPhy e ves (vec x y z) 2) := by
  cases e
  · obtain ⟨f', h1, h2⟩ := val_affine f (fun i j => if i = 0 then (if j = 0 then ves 0 0 else if j = 1 then ves 0 1 - ves 0 0 else 0) else 0)
    refine ⟨f', lt_of_le_of_lt h1 hf, fun x y z _ => ?_⟩
    rw [h2]
    simp [refToPhy, vec]; congr 1; ring
  · obtain ⟨f', h1, h2⟩ := val_diag f ![ves 0 0, ves 1 0, 0] ![ves 0 1 - ves 0 0, ves 1 3 - ves 1 0, 0]
    refine ⟨f', ⟨lt_of_le_of_lt (h1 0) hf.1, lt_of_le_of_lt (h1 1) hf.2⟩, fun x y z _ => ?_⟩
    obtain ⟨r1, r2⟩ := quad_axis he.1 (vec x y z)
    rw [h2, r1, r2]
    simp [refToPhy, vec]
  · obtain ⟨f', h1, h2⟩ := val_affine f (fun i j => if i = 2 then 0 else if j = 0 then ves i 0 else if j = 1 then ves i 1 - ves i 0
      else if j = 2 then ves i 2 - ves i 0 else 0)
    refine ⟨f', lt_of_le_of_lt h1 hf, fun x y z _ => ?_⟩
    rw [h2]
    simp [refToPhy, vec, sumN_succ, sumN_zero, shTria]
    congr 1 <;> ring
  · obtain ⟨f', h1, h2⟩ := val_diag f ![ves 0 0, ves 1 0, ves 2 0] ![ves 0 1 - ves 0 0, ves 1 3 - ves 1 0, ves 2 4 - ves 2 0]
    refine ⟨f', ⟨lt_of_le_of_lt (h1 0) hf.1, lt_of_le_of_lt (h1 1) hf.2.1, lt_of_le_of_lt (h1 2) hf.2.2⟩, fun x y z _ => ?_⟩
    obtain ⟨r1, r2, r3⟩ := hex_axis he.1 (vec x y z)
    rw [h2, r1, r2, r3]
    simp [vec]
  · obtain ⟨f', h1, h2⟩ := val_affine f (fun i j => if j = 0 then ves i 0 else if j = 1 then ves i 1 - ves i 0
      else if j = 2 then ves i 2 - ves i 0 else ves i 3 - ves i 0)
    refine ⟨f', lt_of_le_of_lt h1 hf, fun x y z _ => ?_⟩
    rw [h2]
    simp [refToPhy, vec, sumN_succ, sumN_zero, shTet]
    congr 1 <;> ring

/-- Polynomials on elements are combinations of the basis functions. -/
theorem expand {pair : Nat → Nat → ℝ × ℝ} {o : Nat} (hg : Gauss pair (o + 1)) {tol : ℝ} {e : Ent} {ves : Nat → Nat → ℝ} (he : ElOk tol e ves)
    {f : MvPolynomial (Fin 3) ℝ} (hf : Fits e o f) :
    ∃ c : Idx → ℝ, ∀ x y z, FlatPt e y z →
      val f (refToPhy e ves (vec x y z) 0) (refToPhy e ves (vec x y z) 1) (refToPhy e ves (vec x y z) 2) =
        ∑ i ∈ degs e o, c i * phi e i x y z := by
  obtain ⟨f', h1, h2⟩ := pullback he hf
  obtain ⟨c, hc⟩ := complete_fits hg e h1
  exact ⟨c, fun x y z hp => by rw [← h2 x y z hp, hc x y z hp]⟩

end Edge.Proj
