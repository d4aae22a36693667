import Verif.Basis.Model
import Verif.Basis.Check
import Verif.Basis.CheckDer1
import Verif.Basis.CheckDer2
import Verif.Basis.CheckDer3
import Verif.Basis.Orth
import Mathlib.Tactic.NormNum
/-!
Theorems about the basis functions (C91).

Specification: `phiLine`, `phiTria`, `phiTet` (Spec.lean) are the products of Jacobi polynomials, `triaId` and `tetId` the
numbers of the functions.
-/
namespace Edge.Basis
open Edge Edge.Map

/-- Number of the function of degrees `p` and `q`: by total degree, then by `p`. -/
def triaId (i : Nat × Nat) : Nat := (i.1 + i.2) * (i.1 + i.2 + 1) / 2 + i.1

/-- Number of the function of degrees `p`, `q` and `r`: by total degree, then by `p`, then by `q`. -/
def tetId (i : Nat × Nat × Nat) : Nat :=
  let d := i.1 + i.2.1 + i.2.2
  d * (d + 1) * (d + 2) / 6 + i.1 * (2 * d + 3 - i.1) / 2 + i.2.1

/-! ### Numbers of the functions -/

theorem mem_triaIdx {o : Nat} {i : Nat × Nat} : i ∈ triaIdx o ↔ i.1 + i.2 < o := by
  obtain ⟨p, q⟩ := i
  simp only [triaIdx, List.mem_flatMap, List.mem_map, List.mem_range, Prod.mk.injEq]
  constructor
  · rintro ⟨d, hd, p', hp', rfl, rfl⟩; omega
  · intro h; exact ⟨p + q, h, p, by omega, rfl, by omega⟩

theorem mem_tetIdx {o : Nat} {i : Nat × Nat × Nat} : i ∈ tetIdx o ↔ i.1 + i.2.1 + i.2.2 < o := by
  obtain ⟨p, q, r⟩ := i
  simp only [tetIdx, List.mem_flatMap, List.mem_map, List.mem_range, Prod.mk.injEq]
  constructor
  · rintro ⟨d, hd, p', hp', q', hq', rfl, rfl, rfl⟩; omega
  · intro h; exact ⟨p + q + r, h, p, by omega, q, by omega, rfl, rfl, by omega⟩

theorem triaIdx_id : (triaIdx 10).map triaId = List.range 55 := by decide +kernel
theorem tetIdx_id : (tetIdx 11).map tetId = List.range 286 := by decide +kernel

theorem get_of_id {α : Type} {l : List α} {f : α → Nat} {n : Nat} (h : l.map f = List.range n) {i : α} (hi : i ∈ l) :
    l[f i]? = some i := by
  obtain ⟨b, hb, rfl⟩ := List.mem_iff_getElem.1 hi
  have h1 : (l.map f)[b]? = some (f l[b]) := by simp [hb]
  rw [h] at h1
  obtain ⟨hlt, h2⟩ := List.getElem?_eq_some_iff.1 h1
  rw [List.getElem_range] at h2
  rw [← h2]; simp [hb]

theorem exists_of_id {α : Type} {l : List α} {f : α → Nat} {n : Nat} (h : l.map f = List.range n) {b : Nat} (hb : b < n) :
    ∃ i ∈ l, f i = b := by
  have : b ∈ l.map f := by rw [h]; exact List.mem_range.2 hb
  simpa using this

/-- C91: the functions of triangles are numbered by the pairs of degrees: the first `o (o + 1) / 2` functions are those of total
degree smaller than `o`. -/
theorem C91_indexTria : (∀ b < 55, ∃ i : Nat × Nat, i.1 + i.2 < 10 ∧ triaId i = b) ∧
    (∀ i j : Nat × Nat, i.1 + i.2 < 10 → j.1 + j.2 < 10 → triaId i = triaId j → i = j) ∧
    ∀ o ≤ 10, ∀ i : Nat × Nat, i.1 + i.2 < 10 → (triaId i < (o * o + o) / 2 ↔ i.1 + i.2 < o) := by
  refine ⟨fun b hb => ?_, fun i j hi hj h => ?_, ?_⟩
  · obtain ⟨i, hi, h⟩ := exists_of_id triaIdx_id hb
    exact ⟨i, mem_triaIdx.1 hi, h⟩
  · have h1 := get_of_id triaIdx_id (mem_triaIdx.2 hi)
    have h2 := get_of_id triaIdx_id (mem_triaIdx.2 hj)
    rw [h, h2] at h1
    exact (Option.some.inj h1).symm
  · have h : ∀ o ≤ 10, ∀ i ∈ triaIdx 10, (triaId i < (o * o + o) / 2 ↔ i.1 + i.2 < o) := by decide +kernel
    exact fun o ho i hi => h o ho i (mem_triaIdx.2 hi)

/-- C91: the functions of tetrahedra are numbered by the triples of degrees: the first `o (o + 1) (o + 2) / 6` functions are
those of total degree smaller than `o`. -/
theorem C91_indexTet : (∀ b < 286, ∃ i : Nat × Nat × Nat, i.1 + i.2.1 + i.2.2 < 11 ∧ tetId i = b) ∧
    (∀ i j : Nat × Nat × Nat, i.1 + i.2.1 + i.2.2 < 11 → j.1 + j.2.1 + j.2.2 < 11 → tetId i = tetId j → i = j) ∧
    ∀ o ≤ 11, ∀ i : Nat × Nat × Nat, i.1 + i.2.1 + i.2.2 < 11 → (tetId i < o * (o + 1) * (o + 2) / 6 ↔ i.1 + i.2.1 + i.2.2 < o) := by
  refine ⟨fun b hb => ?_, fun i j hi hj h => ?_, ?_⟩
  · obtain ⟨i, hi, h⟩ := exists_of_id tetIdx_id hb
    exact ⟨i, mem_tetIdx.1 hi, h⟩
  · have h1 := get_of_id tetIdx_id (mem_tetIdx.2 hi)
    have h2 := get_of_id tetIdx_id (mem_tetIdx.2 hj)
    rw [h, h2] at h1
    exact (Option.some.inj h1).symm
  · have h : ∀ o ≤ 11, ∀ i ∈ tetIdx 11, (tetId i < o * (o + 1) * (o + 2) / 6 ↔ i.1 + i.2.1 + i.2.2 < o) := by decide +kernel
    exact fun o ho i hi => h o ho i (mem_tetIdx.2 hi)

/-! ### Values and derivatives -/

section
variable {K : Type} [Field K] [CharZero K] [DecidableEq K]

theorem list_val {l : List Ex} {ps : List Ex} (h : allZip sameP l ps = true) {tet : Bool} (hg : l.all (Ex.good tet) = true) {b : Nat} {p : Ex}
    (hb : ps[b]? = some p) (hp : p.poly = true) (x : K) {y z : K} (ho : Off tet y z) :
    evalList l b x y z = some (p.ev x y z) := by
  obtain ⟨hl, hs⟩ := allZip_get h
  obtain ⟨hlt, -⟩ := List.getElem?_eq_some_iff.1 hb
  have he : l[b]? = some l[b] := List.getElem?_eq_getElem (by omega)
  have hgood := (List.all_eq_true.1 hg) l[b] (List.getElem_mem _)
  obtain ⟨u, hu⟩ := good_sound x ho hgood
  rw [evalList, he]
  simp only [Option.bind_eq_bind, Option.bind_some, hu]
  rw [sameP_sound hp (hs b _ _ he hb) hu, ev_np x y z hp]

theorem list_der (j : Fin 3) {l : List Ex} {ps : List Ex} (h : allZip (sameD j.val) l ps = true) {tet : Bool}
    (hg : l.all (Ex.good tet) = true) {b : Nat} {p : Ex}
    (hb : ps[b]? = some p) (hp : p.poly = true) (x : K) {y z : K} (ho : Off tet y z) :
    evalList l b x y z = some (pv x y z (MvPolynomial.pderiv j p.np.1)) := by
  obtain ⟨hl, hs⟩ := allZip_get h
  obtain ⟨hlt, -⟩ := List.getElem?_eq_some_iff.1 hb
  have he : l[b]? = some l[b] := List.getElem?_eq_getElem (by omega)
  have hgood := (List.all_eq_true.1 hg) l[b] (List.getElem_mem _)
  obtain ⟨u, hu⟩ := good_sound x ho hgood
  rw [evalList, he]
  simp only [Option.bind_eq_bind, Option.bind_some, hu]
  rw [sameD_sound j hp (hs b _ _ he hb) hu]

theorem line_val {b : Nat} (hb : b < 10) (x : K) : evalBasisLine b x = some (phiLine b x) := by
  rw [evalBasisLine, list_val (tet := false) lineVal_same lineVal_good (p := lineEx b) (by simp [hb]) (lineEx_poly b) x
    (by simp [Off]), lineEx_ev]

theorem dim_val {b : Nat} (hb : b < 10) (x : K) {der d : Int} (h : der ≠ d) : evalDim der d b x = some (phiLine b x) := by
  rw [evalDim, if_neg h, line_val hb]

/-- C91: basis of lines, for all numbers below ten and all points. -/
theorem C91_line {b : Nat} (hb : b < 10) (x y z : K) {der : Int} (hd : der ≠ 1) (o : Nat) :
    evalBasis b .line x y z der o = some (phiLine b x) := by
  rw [evalBasis, if_pos hd, line_val hb]

/-- C91: basis of rectangles: products of the functions of lines, for all orders up to ten and all points. -/
theorem C91_quad {o p q : Nat} (ho : o ≤ 10) (hp : p < o) (hq : q < o) (x y z : K) {der : Int} (hd : der ≠ 0 ∧ der ≠ 1) :
    evalBasis (p + o * q) .quad x y z der o = some (phiLine p x * phiLine q y) := by
  have h0 : 0 < o := by omega
  have e1 : (p + o * q) % o = p := by rw [Nat.add_mul_mod_self_left, Nat.mod_eq_of_lt hp]
  have e2 : (p + o * q) / o = q := by rw [Nat.add_mul_div_left _ _ h0, Nat.div_eq_of_lt hp, Nat.zero_add]
  rw [evalBasis, evalBasisQuad, e1, e2, dim_val (by omega) x hd.1, dim_val (by omega) y hd.2, decide_eq_true h0.ne', check_true]
  rfl

/-- C91: basis of triangles: the orthogonal polynomials of total degree below ten, for all points except those of the line
`y = 1`. -/
theorem C91_tria {i : Nat × Nat} (hi : i.1 + i.2 < 10) (x : K) {y : K} (z : K) (hy : y ≠ 1) {der : Int} (hd : der ≠ 0 ∧ der ≠ 1) (o : Nat) :
    evalBasis (triaId i) .tria x y z der o = some (phiTria i x y) := by
  have hg := get_of_id triaIdx_id (mem_triaIdx.2 hi)
  rw [evalBasis, evalBasisTria, if_neg hd.1, if_neg hd.2, list_val (tet := false) triaVal_same triaVal_good (p := triaEx i)
    (by rw [List.getElem?_map, hg]; rfl) (triaEx_poly i) x (by simpa [Off] using hy), triaEx_ev]

theorem hex_id {o p q r : Nat} (hp : p < o) (hq : q < o) :
    (p + o * (q + o * r)) % o = p ∧ (p + o * (q + o * r)) % (o * o) / o = q ∧ (p + o * (q + o * r)) / (o * o) = r := by
  have h0 : 0 < o := by omega
  refine ⟨by rw [Nat.add_mul_mod_self_left, Nat.mod_eq_of_lt hp], ?_, ?_⟩
  · rw [Nat.mod_mul_right_div_self, Nat.add_mul_div_left _ _ h0, Nat.div_eq_of_lt hp, Nat.zero_add, Nat.add_mul_mod_self_left, Nat.mod_eq_of_lt hq]
  · rw [← Nat.div_div_eq_div_mul, Nat.add_mul_div_left _ _ h0, Nat.div_eq_of_lt hp, Nat.zero_add, Nat.add_mul_div_left _ _ h0, Nat.div_eq_of_lt hq,
      Nat.zero_add]

/-- C91: basis of cuboids: products of the functions of lines, for all orders up to ten and all points. -/
theorem C91_hex {o p q r : Nat} (ho : o ≤ 10) (hp : p < o) (hq : q < o) (hr : r < o) (x y z : K) {der : Int}
    (hd : der ≠ 0 ∧ der ≠ 1 ∧ der ≠ 2) :
    evalBasis (p + o * (q + o * r)) .hex x y z der o = some (phiLine p x * phiLine q y * phiLine r z) := by
  have h0 : 0 < o := by omega
  obtain ⟨e1, e2, e3⟩ := hex_id (r := r) hp hq
  rw [evalBasis, evalBasisHex, e1, e2, e3, dim_val (by omega) x hd.1, dim_val (by omega) y hd.2.1, dim_val (by omega) z hd.2.2, decide_eq_true h0.ne', check_true]
  rfl

/-- C91: basis of tetrahedra: the orthogonal polynomials of total degree below eleven, for all points except those of the planes
`z = 1` and `y + z = 1`. -/
theorem C91_tet {i : Nat × Nat × Nat} (hi : i.1 + i.2.1 + i.2.2 < 11) (x : K) {y z : K} (hz : z ≠ 1) (hyz : y + z ≠ 1) {der : Int}
    (hd : der ≠ 0 ∧ der ≠ 1 ∧ der ≠ 2) (o : Nat) :
    evalBasis (tetId i) .tet x y z der o = some (phiTet i x y z) := by
  have hg := get_of_id tetIdx_id (mem_tetIdx.2 hi)
  rw [evalBasis, evalBasisTet, if_neg hd.1, if_neg hd.2.1, if_neg hd.2.2, list_val (tet := true) tetVal_same tetVal_good (p := tetEx i)
    (by rw [List.getElem?_map, hg]; rfl) (tetEx_poly i) x (by simp [Off, hz, hyz]), tetEx_ev]

end

theorem line_der {b : Nat} (hb : b < 10) (x : ℝ) : ∃ g, evalBasisDerLine b x = some g ∧ HasDerivAt (fun s => phiLine b s) g x := by
  refine ⟨_, list_der 0 (tet := false) lineDer_same lineDer_good (p := lineEx b) (by simp [hb]) (lineEx_poly b) x (by simp [Off]), ?_⟩
  have := pv_deriv0 (lineEx b).np.1 x 0 0
  simpa only [← ev_np _ _ _ (lineEx_poly b), lineEx_ev] using this

theorem dim_der {b : Nat} (hb : b < 10) (x : ℝ) (d : Int) : ∃ g, evalDim d d b x = some g ∧ HasDerivAt (fun s => phiLine b s) g x := by
  obtain ⟨g, h1, h2⟩ := line_der hb x
  exact ⟨g, by rw [evalDim, if_pos rfl, h1], h2⟩

/-- C91: derivatives of the basis of lines (requested by `der = 1`, not by `der = 0`). -/
theorem C91_derLine_partial {b : Nat} (hb : b < 10) (x y z : ℝ) (o : Nat) :
    ∃ g, evalBasis b .line x y z 1 o = some g ∧ HasDerivAt (fun s => phiLine b s) g x := by
  obtain ⟨g, h1, h2⟩ := line_der hb x
  exact ⟨g, by rw [evalBasis, if_neg (by simp), h1], h2⟩

/-- C91: derivatives of the basis of rectangles. -/
theorem C91_derQuad {o p q : Nat} (ho : o ≤ 10) (hp : p < o) (hq : q < o) (x y z : ℝ) :
    (∃ g, evalBasis (p + o * q) .quad x y z 0 o = some g ∧ HasDerivAt (fun s => phiLine p s * phiLine q y) g x) ∧
    ∃ g, evalBasis (p + o * q) .quad x y z 1 o = some g ∧ HasDerivAt (fun s => phiLine p x * phiLine q s) g y := by
  have h0 : 0 < o := by omega
  have e1 : (p + o * q) % o = p := by rw [Nat.add_mul_mod_self_left, Nat.mod_eq_of_lt hp]
  have e2 : (p + o * q) / o = q := by rw [Nat.add_mul_div_left _ _ h0, Nat.div_eq_of_lt hp, Nat.zero_add]
  constructor
  · obtain ⟨g, h1, h2⟩ := dim_der (by omega : p < 10) x 0
    refine ⟨g * phiLine q y, ?_, h2.mul_const _⟩
    rw [evalBasis, evalBasisQuad, e1, e2, h1, dim_val (by omega) y (by decide), decide_eq_true h0.ne', check_true]
    rfl
  · obtain ⟨g, h1, h2⟩ := dim_der (by omega : q < 10) y 1
    refine ⟨phiLine p x * g, ?_, h2.const_mul _⟩
    rw [evalBasis, evalBasisQuad, e1, e2, h1, dim_val (by omega) x (by decide), decide_eq_true h0.ne', check_true]
    rfl

/-- C91: derivatives of the basis of triangles. -/
theorem C91_derTria {i : Nat × Nat} (hi : i.1 + i.2 < 10) (x y z : ℝ) (hy : y ≠ 1) (o : Nat) :
    (∃ g, evalBasis (triaId i) .tria x y z 0 o = some g ∧ HasDerivAt (fun s => phiTria i s y) g x) ∧
    ∃ g, evalBasis (triaId i) .tria x y z 1 o = some g ∧ HasDerivAt (fun s => phiTria i x s) g y := by
  have hg := get_of_id triaIdx_id (mem_triaIdx.2 hi)
  constructor
  · refine ⟨_, list_der 0 (tet := false) triaDer1_same triaDer1_good (p := triaEx i) (by rw [List.getElem?_map, hg]; rfl) (triaEx_poly i) x
      (by simpa [Off] using hy), ?_⟩
    have := pv_deriv0 (triaEx i).np.1 x y 0
    simpa only [← ev_np _ _ _ (triaEx_poly i), triaEx_ev] using this
  · refine ⟨_, list_der 1 (tet := false) triaDer2_same triaDer2_good (p := triaEx i) (by rw [List.getElem?_map, hg]; rfl) (triaEx_poly i) x
      (by simpa [Off] using hy), ?_⟩
    have := pv_deriv1 (triaEx i).np.1 x y 0
    simpa only [← ev_np _ _ _ (triaEx_poly i), triaEx_ev] using this

/-- C91: derivatives of the basis of cuboids. -/
theorem C91_derHex {o p q r : Nat} (ho : o ≤ 10) (hp : p < o) (hq : q < o) (hr : r < o) (x y z : ℝ) :
    (∃ g, evalBasis (p + o * (q + o * r)) .hex x y z 0 o = some g ∧ HasDerivAt (fun s => phiLine p s * phiLine q y * phiLine r z) g x) ∧
    (∃ g, evalBasis (p + o * (q + o * r)) .hex x y z 1 o = some g ∧ HasDerivAt (fun s => phiLine p x * phiLine q s * phiLine r z) g y) ∧
    ∃ g, evalBasis (p + o * (q + o * r)) .hex x y z 2 o = some g ∧ HasDerivAt (fun s => phiLine p x * phiLine q y * phiLine r s) g z := by
  have h0 : 0 < o := by omega
  obtain ⟨e1, e2, e3⟩ := hex_id (r := r) hp hq
  refine ⟨?_, ?_, ?_⟩
  · obtain ⟨g, h1, h2⟩ := dim_der (by omega : p < 10) x 0
    refine ⟨g * phiLine q y * phiLine r z, ?_, (h2.mul_const _).mul_const _⟩
    rw [evalBasis, evalBasisHex, e1, e2, e3, h1, dim_val (by omega) y (by decide), dim_val (by omega) z (by decide),
      decide_eq_true h0.ne', check_true]
    rfl
  · obtain ⟨g, h1, h2⟩ := dim_der (by omega : q < 10) y 1
    refine ⟨phiLine p x * g * phiLine r z, ?_, (h2.const_mul _).mul_const _⟩
    rw [evalBasis, evalBasisHex, e1, e2, e3, h1, dim_val (by omega) x (by decide), dim_val (by omega) z (by decide),
      decide_eq_true h0.ne', check_true]
    rfl
  · obtain ⟨g, h1, h2⟩ := dim_der (by omega : r < 10) z 2
    refine ⟨phiLine p x * phiLine q y * g, ?_, h2.const_mul _⟩
    rw [evalBasis, evalBasisHex, e1, e2, e3, h1, dim_val (by omega) x (by decide), dim_val (by omega) y (by decide),
      decide_eq_true h0.ne', check_true]
    rfl

/-- C91: derivatives of the basis of tetrahedra. -/
theorem C91_derTet {i : Nat × Nat × Nat} (hi : i.1 + i.2.1 + i.2.2 < 11) (x y z : ℝ) (hz : z ≠ 1) (hyz : y + z ≠ 1) (o : Nat) :
    (∃ g, evalBasis (tetId i) .tet x y z 0 o = some g ∧ HasDerivAt (fun s => phiTet i s y z) g x) ∧
    (∃ g, evalBasis (tetId i) .tet x y z 1 o = some g ∧ HasDerivAt (fun s => phiTet i x s z) g y) ∧
    ∃ g, evalBasis (tetId i) .tet x y z 2 o = some g ∧ HasDerivAt (fun s => phiTet i x y s) g z := by
  have hg := get_of_id tetIdx_id (mem_tetIdx.2 hi)
  have ho : Off true y z := by simp [Off, hz, hyz]
  refine ⟨?_, ?_, ?_⟩
  · refine ⟨_, list_der 0 tetDer1_same tetDer1_good (p := tetEx i) (by rw [List.getElem?_map, hg]; rfl) (tetEx_poly i) x ho, ?_⟩
    have := pv_deriv0 (tetEx i).np.1 x y z
    simpa only [← ev_np _ _ _ (tetEx_poly i), tetEx_ev] using this
  · refine ⟨_, list_der 1 tetDer2_same tetDer2_good (p := tetEx i) (by rw [List.getElem?_map, hg]; rfl) (tetEx_poly i) x ho, ?_⟩
    have := pv_deriv1 (tetEx i).np.1 x y z
    simpa only [← ev_np _ _ _ (tetEx_poly i), tetEx_ev] using this
  · refine ⟨_, list_der 2 tetDer3_same tetDer3_good (p := tetEx i) (by rw [List.getElem?_map, hg]; rfl) (tetEx_poly i) x ho, ?_⟩
    have := pv_deriv2 (tetEx i).np.1 x y z
    simpa only [← ev_np _ _ _ (tetEx_poly i), tetEx_ev] using this

/-! ### Orthogonality of the code's functions -/

/-- The code's value; zero where it is undefined (for integrals: on sets of measure zero). -/
noncomputable def value (b : Nat) (e : Ent) (o : Nat) (x y z : ℝ) : ℝ := (evalBasis b e x y z (-1) o).getD 0

/-- Integrals over intervals do not depend on the values at the end points. -/
theorem integral_open {u v : ℝ} {f g : ℝ → ℝ} (huv : u ≤ v) (h : ∀ x, u < x → x < v → f x = g x) : ∫ x in u..v, f x = ∫ x in u..v, g x := by
  refine intervalIntegral.integral_congr_ae ?_
  have hv : ∀ᵐ x : ℝ, x ≠ v := MeasureTheory.Measure.ae_ne MeasureTheory.volume v
  filter_upwards [hv] with x hx hm
  rw [Set.uIoc_of_le huv] at hm
  exact h x hm.1 (lt_of_le_of_ne hm.2 hx)

/-- C91: the code's functions are orthogonal on the reference line. -/
theorem C91_orthLine {b c : Nat} (hb : b < 10) (hc : c < 10) (o : Nat) :
    ∫ x in (0 : ℝ)..1, value b .line o x 0 0 * value c .line o x 0 0 = if b = c then 1 / (2 * b + 1 : ℝ) else 0 := by
  rw [← orthLine]
  congr 1
  funext x
  rw [value, value, C91_line hb _ _ _ (by decide), C91_line hc _ _ _ (by decide)]; rfl

/-- C91: the code's functions are orthogonal on the reference square. -/
theorem C91_orthQuad {o p q p' q' : Nat} (ho : o ≤ 10) (hp : p < o) (hq : q < o) (hp' : p' < o) (hq' : q' < o) :
    ∫ y in (0 : ℝ)..1, ∫ x in (0 : ℝ)..1, value (p + o * q) .quad o x y 0 * value (p' + o * q') .quad o x y 0 =
      if p = p' ∧ q = q' then 1 / ((2 * p + 1 : ℝ) * (2 * q + 1)) else 0 := by
  have e : ∀ x y : ℝ, value (p + o * q) .quad o x y 0 * value (p' + o * q') .quad o x y 0 =
      (phiLine q y * phiLine q' y) * (phiLine p x * phiLine p' x) := by
    intro x y
    rw [value, value, C91_quad ho hp hq _ _ _ (by decide), C91_quad ho hp' hq' _ _ _ (by decide)]
    simp only [Option.getD_some]; ring
  simp only [e, intervalIntegral.integral_const_mul, intervalIntegral.integral_mul_const, orthLine]
  by_cases h1 : p = p' <;> by_cases h2 : q = q' <;> simp [h1, h2]

/-- C91: the code's functions are orthogonal on the reference cube. -/
theorem C91_orthHex {o p q r p' q' r' : Nat} (ho : o ≤ 10) (hp : p < o) (hq : q < o) (hr : r < o) (hp' : p' < o) (hq' : q' < o) (hr' : r' < o) :
    ∫ z in (0 : ℝ)..1, ∫ y in (0 : ℝ)..1, ∫ x in (0 : ℝ)..1,
      value (p + o * (q + o * r)) .hex o x y z * value (p' + o * (q' + o * r')) .hex o x y z =
      if p = p' ∧ q = q' ∧ r = r' then 1 / ((2 * p + 1 : ℝ) * (2 * q + 1) * (2 * r + 1)) else 0 := by
  have e : ∀ x y z : ℝ, value (p + o * (q + o * r)) .hex o x y z * value (p' + o * (q' + o * r')) .hex o x y z =
      (phiLine r z * phiLine r' z) * ((phiLine q y * phiLine q' y) * (phiLine p x * phiLine p' x)) := by
    intro x y z
    rw [value, value, C91_hex ho hp hq hr _ _ _ (by decide), C91_hex ho hp' hq' hr' _ _ _ (by decide)]
    simp only [Option.getD_some]; ring
  simp only [e, intervalIntegral.integral_const_mul, intervalIntegral.integral_mul_const, orthLine]
  by_cases h1 : p = p' <;> by_cases h2 : q = q' <;> by_cases h3 : r = r' <;> simp [h1, h2, h3]

/-- C91: the code's functions are orthogonal on the reference triangle. -/
theorem C91_orthTria {i j : Nat × Nat} (hi : i.1 + i.2 < 10) (hj : j.1 + j.2 < 10) (o : Nat) :
    ∫ y in (0 : ℝ)..1, ∫ x in (0 : ℝ)..(1 - y), value (triaId i) .tria o x y 0 * value (triaId j) .tria o x y 0 =
      if i = j then 1 / ((2 * i.1 + 1 : ℝ) * (2 * i.1 + 2 * i.2 + 2)) else 0 := by
  rw [← orthTria]
  refine integral_open zero_le_one (fun y h0 h1 => ?_)
  congr 1
  funext x
  rw [value, value, C91_tria hi _ _ h1.ne (by decide), C91_tria hj _ _ h1.ne (by decide)]; rfl

/-- C91: the code's functions are orthogonal on the reference tetrahedron. -/
theorem C91_orthTet {i j : Nat × Nat × Nat} (hi : i.1 + i.2.1 + i.2.2 < 11) (hj : j.1 + j.2.1 + j.2.2 < 11) (o : Nat) :
    ∫ z in (0 : ℝ)..1, ∫ y in (0 : ℝ)..(1 - z), ∫ x in (0 : ℝ)..(1 - y - z),
      value (tetId i) .tet o x y z * value (tetId j) .tet o x y z =
      if i = j then 1 / ((2 * i.1 + 1 : ℝ) * (2 * i.1 + 2 * i.2.1 + 2) * (2 * i.1 + 2 * i.2.1 + 2 * i.2.2 + 3)) else 0 := by
  rw [← orthTet]
  refine integral_open zero_le_one (fun z h0 h1 => ?_)
  refine integral_open (by linarith) (fun y h2 h3 => ?_)
  congr 1
  funext x
  have hyz : y + z ≠ 1 := by intro h; linarith
  rw [value, value, C91_tet hi _ h1.ne hyz (by decide), C91_tet hj _ h1.ne hyz (by decide)]; rfl

/-! ### Failures -/

/-- C91 (refuted for lines): the documented request of the derivative, `der = 0`, returns the value of the function (src/dg/Basis.cpp:379,431):
for the second function at zero -1 instead of the derivative 2. -/
theorem C91_derLine_refuted (o : Nat) : ¬ ∃ g, evalBasis 1 .line (0 : ℝ) 0 0 0 o = some g ∧ HasDerivAt (fun s => phiLine 1 s) g 0 := by
  rintro ⟨g, h1, h2⟩
  rw [C91_line (by decide) _ _ _ (by decide)] at h1
  obtain ⟨d, h3, h4⟩ := C91_derLine_partial (by decide : 1 < 10) 0 0 0 o
  have hd : d = 2 := by
    have : HasDerivAt (fun s : ℝ => phiLine 1 s) 2 0 := by
      have e : (fun s : ℝ => phiLine 1 s) = fun s => 2 * s - 1 := by
        funext s; simp [phiLine, hom, Finset.sum_range_succ]; ring
      rw [e]
      exact HasDerivAt.congr_deriv (((hasDerivAt_id (0 : ℝ)).const_mul 2).sub_const 1) (by simp)
    exact h4.unique this
  have hg : g = -1 := by
    have := Option.some.inj h1
    rw [← this]; simp [phiLine, hom, Finset.sum_range_succ]
  have := h2.unique h4
  rw [hd, hg] at this
  norm_num at this

/-- C91 (refuted at a vertex): at the vertex (0, 1) of the reference triangle and at the vertex (0, 0, 1) of the reference tetrahedron functions are
undefined (division by zero), although the polynomials are not. -/
theorem C91_vertex_refuted (o : Nat) : evalBasis 9 .tria (0 : ℚ) 1 0 (-1) o = none ∧ evalBasis 12 .tet (0 : ℚ) 0 1 (-1) o = none := by
  have h : evalBasisTria 9 (0 : ℚ) 1 (-1) = none ∧ evalBasisTet 12 (0 : ℚ) 0 1 (-1) = none := by decide +kernel
  exact h

/-! ### Cases which meet the hypotheses -/

/-- Values at points inside the reference elements. -/
example : evalBasis 7 .tria (1 / 4 : ℚ) (1 / 4) 0 (-1) 4 = some (11 / 64) := by
  rw [show 7 = triaId (1, 2) by decide, C91_tria (by decide) _ _ (by norm_num) (by decide)]
  norm_num [phiTria, hom, Finset.sum_range_succ, Nat.choose]

example : evalBasis 15 .tet (1 / 4 : ℚ) (1 / 8) (1 / 2) (-1) 4 = some (3 / 64) := by
  rw [show 15 = tetId (1, 1, 1) by decide, C91_tet (by decide) _ (by norm_num) (by norm_num) (by decide)]
  norm_num [phiTet, hom, Finset.sum_range_succ, Nat.choose]

example : triaId (2, 1) = 8 ∧ tetId (1, 0, 2) = 14 := by decide

/-- A function of a triangle and one of a tetrahedron with their masses. -/
example : ∫ y in (0 : ℝ)..1, ∫ x in (0 : ℝ)..(1 - y), value 8 .tria 4 x y 0 * value 8 .tria 4 x y 0 = 1 / 40 := by
  have := C91_orthTria (i := (2, 1)) (j := (2, 1)) (by decide) (by decide) 4
  rw [if_pos rfl] at this
  refine this.trans ?_
  norm_num

example : ∫ z in (0 : ℝ)..1, ∫ y in (0 : ℝ)..(1 - z), ∫ x in (0 : ℝ)..(1 - y - z), value 14 .tet 4 x y z * value 8 .tet 4 x y z = 0 := by
  have h : ∃ j : Nat × Nat × Nat, j.1 + j.2.1 + j.2.2 < 11 ∧ tetId j = 8 ∧ (1, 0, 2) ≠ j := ⟨(1, 1, 0), by decide⟩
  obtain ⟨j, h1, h2, h3⟩ := h
  have := C91_orthTet (i := (1, 0, 2)) (j := j) (by decide) h1 4
  rw [if_neg h3, h2] at this
  exact this

end Edge.Basis
