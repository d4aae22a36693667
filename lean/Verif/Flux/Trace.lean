import Verif.Flux.Model
import Verif.Gen.Store
/-!
C94: values of the functions of an element at its faces.
-/
namespace Edge.Flux
open Edge Edge.Map Edge.Quad Edge.Basis Edge.Proj Edge.Gen MvPolynomial

/-! ### Degrees -/

theorem totalDegree_prod_le (g : Fin 3 → MvPolynomial (Fin 3) ℝ) (m : Fin 3 →₀ ℕ) (a : ℝ) :
    (C a * ∏ d, g d ^ m d).totalDegree ≤ ∑ d, m d * (g d).totalDegree := by
  refine (totalDegree_mul _ _).trans ?_
  rw [totalDegree_C, zero_add]
  refine (totalDegree_finset_prod _ _).trans (Finset.sum_le_sum fun d _ => ?_)
  exact totalDegree_pow _ _

theorem degreeOf_prod_le' (g : Fin 3 → MvPolynomial (Fin 3) ℝ) (m : Fin 3 →₀ ℕ) (a : ℝ) (j : Fin 3) :
    degreeOf j (C a * ∏ d, g d ^ m d) ≤ ∑ d, m d * degreeOf j (g d) := by
  refine (degreeOf_C_mul_le _ _ _).trans ?_
  refine (degreeOf_prod_le _ _ _).trans (Finset.sum_le_sum fun d _ => ?_)
  exact degreeOf_pow_le _ _ _

/-- Monomials after a replacement of the symbols. -/
theorem subs_support {g : Fin 3 → MvPolynomial (Fin 3) ℝ} {f : MvPolynomial (Fin 3) ℝ} {m' : Fin 3 →₀ ℕ} (h : m' ∈ (subs g f).support) :
    ∃ m ∈ f.support, (∀ j, m' j ≤ ∑ d, m d * degreeOf j (g d)) ∧ m' 0 + m' 1 + m' 2 ≤ ∑ d, m d * (g d).totalDegree := by
  have e : subs g f = ∑ m ∈ f.support, C (coeff m f) * ∏ d, g d ^ m d := by
    rw [subs, bind₁, aeval_def, eval₂_eq']; rfl
  rw [e] at h
  obtain ⟨m, hm, h1⟩ := Finset.mem_biUnion.1 (support_sum h)
  refine ⟨m, hm, fun j => (monomial_le_degreeOf j h1).trans (degreeOf_prod_le' _ _ _ _), ?_⟩
  have := (le_totalDegree h1).trans (totalDegree_prod_le _ _ _)
  rwa [Finsupp.sum_fintype _ _ (by simp), Fin.sum_univ_three] at this

theorem deg_X (j i : Fin 3) : degreeOf j (X i : MvPolynomial (Fin 3) ℝ) = if j = i then 1 else 0 := degreeOf_X _ _

theorem deg_sub1 (j : Fin 3) : degreeOf j (1 - X 0 : MvPolynomial (Fin 3) ℝ) ≤ if j = 0 then 1 else 0 := by
  refine (degreeOf_sub_le _ _ _).trans ?_
  rw [degreeOf_one, deg_X]; simp

theorem deg_sub2 (j : Fin 3) : degreeOf j (1 - X 0 - X 1 : MvPolynomial (Fin 3) ℝ) ≤ if j = 2 then 0 else 1 := by
  refine (degreeOf_sub_le _ _ _).trans ?_
  rw [deg_X]
  refine max_le ((deg_sub1 j).trans ?_) ?_ <;> fin_cases j <;> simp

theorem tdeg_sub1 : (1 - X 0 : MvPolynomial (Fin 3) ℝ).totalDegree ≤ 1 := by
  refine (totalDegree_sub _ _).trans ?_
  simp

theorem tdeg_sub2 : (1 - X 0 - X 1 : MvPolynomial (Fin 3) ℝ).totalDegree ≤ 1 := by
  refine (totalDegree_sub _ _).trans (max_le tdeg_sub1 ?_)
  simp

/-- Values at a face are functions of the basis of the face. -/
theorem trace_deg {e : Ent} {o : Nat} {g : Fin 3 → MvPolynomial (Fin 3) ℝ} (hg : g ∈ faToEl e (X 0) (X 1)) {f : MvPolynomial (Fin 3) ℝ}
    (hf : ∀ m ∈ f.support, Deg e o (m 0, m 1, m 2)) {m : Fin 3 →₀ ℕ} (hm : m ∈ (subs g f).support) : Deg (faTy e) o (m 0, m 1, m 2) := by
  obtain ⟨n, hn, h1, h2⟩ := subs_support hm
  have h := hf n hn
  have a := h1 0; have b := h1 1; have c := h1 2
  have s1 : degreeOf 0 (1 - X 0 : MvPolynomial (Fin 3) ℝ) ≤ 1 := deg_sub1 0
  have s11 : degreeOf 1 (1 - X 0 : MvPolynomial (Fin 3) ℝ) = 0 := Nat.le_zero.1 (deg_sub1 1)
  have s12 : degreeOf 2 (1 - X 0 : MvPolynomial (Fin 3) ℝ) = 0 := Nat.le_zero.1 (deg_sub1 2)
  have s22 : degreeOf 2 (1 - X 0 - X 1 : MvPolynomial (Fin 3) ℝ) = 0 := Nat.le_zero.1 (deg_sub2 2)
  have t1 := tdeg_sub1; have t2 := tdeg_sub2
  rw [Fin.sum_univ_three] at a b c h2
  cases e <;> simp only [faToEl, List.mem_cons, List.not_mem_nil, or_false] at hg
  · rcases hg with rfl | rfl | rfl | rfl <;>
    simp [deg_X, s11, s12, -tsub_le_iff_right] at a b c <;>
    generalize degreeOf 0 (1 - X 0 : MvPolynomial (Fin 3) ℝ) = x at * <;> interval_cases x <;>
    simp only [Deg, faTy] at h ⊢ <;> omega
  · rcases hg with rfl | rfl | rfl <;>
    simp [deg_X, s11, s12, -tsub_le_iff_right] at a b c h2 <;>
    generalize degreeOf 0 (1 - X 0 : MvPolynomial (Fin 3) ℝ) = x at * <;> interval_cases x <;>
    simp only [Deg, faTy] at h ⊢ <;> omega
  · rcases hg with rfl | rfl | rfl | rfl | rfl | rfl <;>
    simp [deg_X] at a b c <;>
    simp only [Deg, faTy] at h ⊢ <;> omega
  · rcases hg with rfl | rfl | rfl | rfl <;>
    simp [deg_X, s22, -tsub_le_iff_right] at c h2 <;>
    generalize (1 - X 0 - X 1 : MvPolynomial (Fin 3) ℝ).totalDegree = x at * <;> interval_cases x <;>
    simp only [Deg, faTy] at h ⊢ <;> omega

/-- The basis of a face does not depend on the orientation. -/
theorem ori_deg {e : Ent} {o : Nat} {g : Fin 3 → MvPolynomial (Fin 3) ℝ} (hg : g ∈ faToFa e (X 0) (X 1)) {f : MvPolynomial (Fin 3) ℝ}
    (hf : ∀ m ∈ f.support, Deg (faTy e) o (m 0, m 1, m 2)) {m : Fin 3 →₀ ℕ} (hm : m ∈ (subs g f).support) : Deg (faTy e) o (m 0, m 1, m 2) := by
  obtain ⟨n, hn, h1, h2⟩ := subs_support hm
  have h := hf n hn
  have a := h1 0; have b := h1 1; have c := h1 2
  have s1 : degreeOf 0 (1 - X 0 : MvPolynomial (Fin 3) ℝ) ≤ 1 := deg_sub1 0
  have s11 : degreeOf 1 (1 - X 0 : MvPolynomial (Fin 3) ℝ) = 0 := Nat.le_zero.1 (deg_sub1 1)
  have s12 : degreeOf 2 (1 - X 0 : MvPolynomial (Fin 3) ℝ) = 0 := Nat.le_zero.1 (deg_sub1 2)
  have s22 : degreeOf 2 (1 - X 0 - X 1 : MvPolynomial (Fin 3) ℝ) = 0 := Nat.le_zero.1 (deg_sub2 2)
  have t1 := tdeg_sub1; have t2 := tdeg_sub2
  rw [Fin.sum_univ_three] at a b c h2
  cases e <;> simp only [faToFa, List.mem_cons, List.not_mem_nil, or_false] at hg
  · rcases hg with rfl <;>
    simp [deg_X, s11, s12, -tsub_le_iff_right] at a b c <;>
    generalize degreeOf 0 (1 - X 0 : MvPolynomial (Fin 3) ℝ) = x at * <;> interval_cases x <;>
    simp only [Deg, faTy] at h ⊢ <;> omega
  · rcases hg with rfl <;>
    simp [deg_X, s11, s12, -tsub_le_iff_right] at a b c h2 <;>
    generalize degreeOf 0 (1 - X 0 : MvPolynomial (Fin 3) ℝ) = x at * <;> interval_cases x <;>
    simp only [Deg, faTy] at h ⊢ <;> omega
  · rcases hg with rfl <;>
    simp [deg_X] at a b c <;>
    simp only [Deg, faTy] at h ⊢ <;> omega
  · rcases hg with rfl | rfl | rfl <;>
    simp [deg_X, s22, -tsub_le_iff_right] at c h2 <;>
    generalize (1 - X 0 - X 1 : MvPolynomial (Fin 3) ℝ).totalDegree = x at * <;> interval_cases x <;>
    simp only [Deg, faTy] at h ⊢ <;> omega

/-! ### Values -/

theorem val_subs (g : Fin 3 → MvPolynomial (Fin 3) ℝ) (f : MvPolynomial (Fin 3) ℝ) (x y z : ℝ) :
    val (subs g f) x y z = eval (fun d => val (g d) x y z) f := by
  rw [val, subs, eval, eval₂Hom_bind₁]; rfl

theorem tup_map {R S : Type} [CommRing R] [CommRing S] (φ : R →+* S) (a b c : R) : (fun d => φ (![a, b, c] d)) = ![φ a, φ b, φ c] := by
  funext d; fin_cases d <;> rfl

theorem faToEl_map {R S : Type} [CommRing R] [CommRing S] (φ : R →+* S) (e : Ent) (c1 c2 : R) :
    (faToEl e c1 c2).map (fun g d => φ (g d)) = faToEl e (φ c1) (φ c2) := by
  cases e <;> simp only [faToEl, List.map_cons, List.map_nil, tup_map, map_zero, map_one, map_sub]

theorem faToFa_map {R S : Type} [CommRing R] [CommRing S] (φ : R →+* S) (e : Ent) (c1 c2 : R) :
    (faToFa e c1 c2).map (fun g d => φ (g d)) = faToFa e (φ c1) (φ c2) := by
  cases e <;> simp only [faToFa, List.map_cons, List.map_nil, tup_map, map_zero, map_one, map_sub]

/-- Point of the element which belongs to a point of a face. -/
def elPt (e : Ent) (fa : Nat) (x y : ℝ) : Fin 3 → ℝ := (faToEl e x y).getD fa 0

/-- Point of the face seen from the adjacent element. -/
def faPt (e : Ent) (ve : Nat) (x y : ℝ) : Fin 3 → ℝ := (faToFa e x y).getD ve 0

theorem val_elPt {e : Ent} {fa : Nat} {g : Fin 3 → MvPolynomial (Fin 3) ℝ} (hg : (faToEl e (X 0) (X 1))[fa]? = some g) (x y z : ℝ) :
    (fun d => val (g d) x y z) = elPt e fa x y := by
  have h := faToEl_map (eval ![x, y, z]) e (X 0) (X 1)
  simp only [eval_X, Matrix.cons_val_zero, Matrix.cons_val_one] at h
  rw [elPt, List.getD_eq_getElem?_getD, ← h, List.getElem?_map, hg]
  rfl

theorem val_faPt {e : Ent} {ve : Nat} {g : Fin 3 → MvPolynomial (Fin 3) ℝ} (hg : (faToFa e (X 0) (X 1))[ve]? = some g) (x y z : ℝ) :
    (fun d => val (g d) x y z) = faPt e ve x y := by
  have h := faToFa_map (eval ![x, y, z]) e (X 0) (X 1)
  simp only [eval_X, Matrix.cons_val_zero, Matrix.cons_val_one] at h
  rw [faPt, List.getD_eq_getElem?_getD, ← h, List.getElem?_map, hg]
  rfl

theorem faToEl_len {R : Type} [CommRing R] {e : Ent} (he : e ≠ .line) (c1 c2 : R) : (faToEl e c1 c2).length = e.nFa := by
  cases e <;> first | exact absurd rfl he | rfl

theorem faToFa_len {R : Type} [CommRing R] {e : Ent} (he : e ≠ .line) (c1 c2 : R) : (faToFa e c1 c2).length = e.nVeOpts := by
  cases e <;> first | exact absurd rfl he | rfl

/-- Replacement for a face. -/
noncomputable def gEl (e : Ent) (fa : Nat) : Fin 3 → MvPolynomial (Fin 3) ℝ := (faToEl e (X 0) (X 1)).getD fa 0

/-- Replacement for an orientation. -/
noncomputable def gFa (e : Ent) (ve : Nat) : Fin 3 → MvPolynomial (Fin 3) ℝ := (faToFa e (X 0) (X 1)).getD ve 0

theorem gEl_get {e : Ent} (he : e ≠ .line) {fa : Nat} (h : fa < e.nFa) : (faToEl e (X 0) (X 1))[fa]? = some (gEl e fa) := by
  rw [gEl, List.getD_eq_getElem?_getD, List.getElem?_eq_getElem (by rwa [faToEl_len he])]; rfl

theorem gFa_get {e : Ent} (he : e ≠ .line) {ve : Nat} (h : ve < e.nVeOpts) : (faToFa e (X 0) (X 1))[ve]? = some (gFa e ve) := by
  rw [gFa, List.getD_eq_getElem?_getD, List.getElem?_eq_getElem (by rwa [faToFa_len he])]; rfl

theorem trace_val {e : Ent} (he : e ≠ .line) {fa : Nat} (h : fa < e.nFa) (f : MvPolynomial (Fin 3) ℝ) (x y z : ℝ) :
    val (subs (gEl e fa) f) x y z = eval (elPt e fa x y) f := by
  rw [val_subs, val_elPt (gEl_get he h)]

theorem ori_val {e : Ent} (he : e ≠ .line) {ve : Nat} (h : ve < e.nVeOpts) (f : MvPolynomial (Fin 3) ℝ) (x y z : ℝ) :
    val (subs (gFa e ve) f) x y z = eval (faPt e ve x y) f := by
  rw [val_subs, val_faPt (gFa_get he h)]

/-- The third coordinate of the points of faces is zero. -/
theorem faPt_tup {e : Ent} {ve : Nat} (x y : ℝ) : faPt e ve x y = ![faPt e ve x y 0, faPt e ve x y 1, 0] := by
  have h : ∀ p ∈ faToFa e x y, p = ![p 0, p 1, 0] := by
    cases e <;> simp only [faToFa, List.mem_cons, List.not_mem_nil, or_false, forall_eq, forall_eq_or_imp, false_imp_iff, implies_true] <;> simp
  rw [faPt, List.getD_eq_getElem?_getD]
  rcases hk : (faToFa e x y)[ve]? with _ | p
  · funext d; fin_cases d <;> rfl
  · exact h p (List.mem_of_getElem? hk)

/-! ### Entries of the matrices -/

/-- Functions of the element at the face in the basis of the face. -/
theorem trace_coeffs {e : Ent} (he : e ≠ .line) {o fa : Nat} (hfa : fa < e.nFa) {f : MvPolynomial (Fin 3) ℝ}
    (hf : ∀ m ∈ f.support, Deg e o (m 0, m 1, m 2)) (x y z : ℝ) :
    eval (elPt e fa x y) f = ∑ j ∈ Finset.range (nModes (faTy e) o),
      refInt (faTy e) (val (bf (faTy e) o j * subs (gEl e fa) f)) / mass (faTy e) (dgr (faTy e) o j) * val (bf (faTy e) o j) x y z := by
  rw [← trace_val he hfa f x y z]
  exact coeffs (fun m hm => trace_deg (List.mem_of_getElem? (gEl_get he hfa)) hf hm) x y z

theorem bf_deg {e : Ent} {o i : Nat} (hi : i < nModes e o) : ∀ m ∈ (bf e o i).support, Deg e o (m 0, m 1, m 2) := by
  rw [bf_eq hi]; exact fun m hm => P_support (dgr_deg hi) hm

/-- Entry of the local flux matrix of face `fa`. -/
noncomputable def entL (e : Ent) (o fa m j : Nat) : ℝ :=
  refInt (faTy e) (fun x y z => val (bf (faTy e) o j) x y z * eval (elPt e fa x y) (bf e o m))

/-- Entry of the neighbours' flux matrix of face `fa` and orientation `ve`. -/
noncomputable def entN (e : Ent) (o ve fa m j : Nat) : ℝ :=
  refInt (faTy e) (fun x y z => val (bf (faTy e) o j) x y z * eval (elPt e fa (faPt e ve x y 0) (faPt e ve x y 1)) (bf e o m))

/-- Entry of the transposed flux matrix. -/
noncomputable def entF (e : Ent) (o fa j md : Nat) : ℝ := entL e o fa md j / mass (faTy e) (dgr (faTy e) o j) / mass e (dgr e o md)

theorem projInt_entL {e : Ent} (he : e ≠ .line) {o fa : Nat} (hfa : fa < e.nFa) (f : MvPolynomial (Fin 3) ℝ) (j : Nat) :
    refInt (faTy e) (val (bf (faTy e) o j * subs (gEl e fa) f)) =
      refInt (faTy e) (fun x y z => val (bf (faTy e) o j) x y z * eval (elPt e fa x y) f) := by
  congr 1; funext x y z
  rw [← trace_val he hfa f x y z]
  simp only [val, map_mul]

theorem trace_expand {e : Ent} (he : e ≠ .line) {o fa m : Nat} (hfa : fa < e.nFa) (hm : m < nModes e o) (x y z : ℝ) :
    eval (elPt e fa x y) (bf e o m) = ∑ j ∈ Finset.range (nModes (faTy e) o),
      entL e o fa m j / mass (faTy e) (dgr (faTy e) o j) * val (bf (faTy e) o j) x y z := by
  rw [trace_coeffs he hfa (bf_deg hm) x y z]
  refine Finset.sum_congr rfl (fun j _ => ?_)
  rw [projInt_entL he hfa]; rfl

/-- The integral over a face of any function times a function of the element, from its modes in the basis of the face. -/
theorem parseval {e : Ent} (he : e ≠ .line) {o fa md : Nat} (hfa : fa < e.nFa) (hmd : md < nModes e o) {w : ℝ → ℝ → ℝ → ℝ} (hw : C3 w) :
    ∑ j ∈ Finset.range (nModes (faTy e) o), refInt (faTy e) (fun x y z => w x y z * val (bf (faTy e) o j) x y z) * entF e o fa j md =
      refInt (faTy e) (fun x y z => w x y z * eval (elPt e fa x y) (bf e o md)) / mass e (dgr e o md) := by
  have h1 : (fun x y z => w x y z * eval (elPt e fa x y) (bf e o md)) = fun x y z => ∑ j ∈ Finset.range (nModes (faTy e) o),
      entL e o fa md j / mass (faTy e) (dgr (faTy e) o j) * (w x y z * val (bf (faTy e) o j) x y z) := by
    funext x y z
    rw [trace_expand he hfa hmd x y z, Finset.mul_sum]
    exact Finset.sum_congr rfl (fun j _ => by ring)
  have hc : ∀ j ∈ Finset.range (nModes (faTy e) o), C3 (fun x y z => w x y z * val (bf (faTy e) o j) x y z) := fun j _ => Continuous.mul hw (C3_val _)
  rw [h1, refInt_sum _ _ hc, Finset.sum_div]
  refine Finset.sum_congr rfl (fun j _ => ?_)
  rw [entF]; ring

theorem fluxL_get {e : Ent} (he : e ≠ .line) {o fa : Nat} (hfa : fa < e.nFa) :
    ∃ M, (fluxL e o)[fa]? = some M ∧ ∀ i j, M i j = entL e o fa i j := by
  refine ⟨projInt e o (gEl e fa) * (massM (faTy e) o)⁻¹ * massM (faTy e) o, by
    rw [fluxL, proj, List.getElem?_map, List.getElem?_map, gEl_get he hfa]; rfl, fun i j => ?_⟩
  rw [massM_inv, massM_eq, Matrix.mul_diagonal, Matrix.mul_diagonal, inv_mul_cancel_right₀ (mass_pos _ _).ne', projInt, Matrix.of_apply, projInt_entL he hfa]
  rfl

theorem fluxT_get {e : Ent} (he : e ≠ .line) {o fa : Nat} (hfa : fa < e.nFa) :
    ∃ M, (fluxT e o)[fa]? = some M ∧ ∀ i j, M i j = entF e o fa i j := by
  refine ⟨(projInt e o (gEl e fa) * (massM (faTy e) o)⁻¹).transpose * (massM e o)⁻¹, by
    rw [fluxT, proj, List.getElem?_map, List.getElem?_map, gEl_get he hfa]; rfl, fun i j => ?_⟩
  rw [massM_inv, massM_inv, Matrix.mul_diagonal, Matrix.transpose_apply, Matrix.mul_diagonal, projInt, Matrix.of_apply, projInt_entL he hfa, entF, div_eq_mul_inv, div_eq_mul_inv]
  rfl

theorem proj_len {e : Ent} (he : e ≠ .line) (o : Nat) : (proj e o).length = e.nFa := by rw [proj, List.length_map, faToEl_len he]

theorem fluxN_get {e : Ent} (he : e ≠ .line) {o fa ve : Nat} (hfa : fa < e.nFa) (hve : ve < e.nVeOpts) :
    ∃ M, (fluxN e o)[ve * e.nFa + fa]? = some M ∧ ∀ i j, M i j = entN e o ve fa i j := by
  have hv : (ori e o)[ve]? = some (Matrix.of fun ro co : Fin (nModes (faTy e) o) => refInt (faTy e) (val (subs (gFa e ve) (bf (faTy e) o ro) * bf (faTy e) o co))) := by
    rw [ori, List.getElem?_map, gFa_get he hve]; rfl
  refine ⟨projInt e o (gEl e fa) * (massM (faTy e) o)⁻¹ *
      Matrix.of fun ro co : Fin (nModes (faTy e) o) => refInt (faTy e) (val (subs (gFa e ve) (bf (faTy e) o ro) * bf (faTy e) o co)), by
    rw [fluxN, flat_get (m := e.nFa) (ori e o) (by intro x _; rw [List.length_map, proj_len he]) hfa hv, List.getElem?_map, proj, List.getElem?_map,
      gEl_get he hfa]; rfl, fun i j => ?_⟩
  rw [massM_inv, Matrix.mul_apply]
  simp only [Matrix.mul_diagonal, projInt, Matrix.of_apply, projInt_entL he hfa]
  have h1 : (fun x y z => val (bf (faTy e) o j) x y z * eval (elPt e fa (faPt e ve x y 0) (faPt e ve x y 1)) (bf e o i)) =
      fun x y z => ∑ k ∈ Finset.range (nModes (faTy e) o), entL e o fa i k / mass (faTy e) (dgr (faTy e) o k) *
        val (subs (gFa e ve) (bf (faTy e) o k) * bf (faTy e) o j) x y z := by
    funext x y z
    rw [trace_expand he hfa i.2 _ _ 0, Finset.mul_sum]
    refine Finset.sum_congr rfl (fun k _ => ?_)
    have e1 : val (subs (gFa e ve) (bf (faTy e) o k) * bf (faTy e) o j) x y z =
        val (subs (gFa e ve) (bf (faTy e) o k)) x y z * val (bf (faTy e) o j) x y z := by simp only [val, map_mul]
    have e2 : eval (faPt e ve x y) (bf (faTy e) o k) = val (bf (faTy e) o k) (faPt e ve x y 0) (faPt e ve x y 1) 0 := by
      rw [val, ← faPt_tup]
    rw [e1, ori_val he hve, e2]
    ring
  rw [entN, h1, refInt_sum _ _ (fun k _ => C3_val _), Finset.sum_range]
  exact Finset.sum_congr rfl (fun k _ => by rw [div_eq_mul_inv]; rfl)

end Edge.Flux
