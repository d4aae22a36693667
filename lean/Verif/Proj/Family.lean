import Verif.Basis.Props
import Verif.Quad.Volume
import Mathlib.LinearAlgebra.FiniteDimensional.Lemmas
import Mathlib.RingTheory.MvPolynomial.Basic
/-!
The basis functions of all types of elements as one family, their discrete orthogonality and their completeness.
-/
namespace Edge.Proj
open Edge Edge.Map Edge.Quad Edge.Basis MvPolynomial

/-- Degrees of a basis function in the three directions. -/
abbrev Idx := Nat × Nat × Nat

section
variable {K : Type} [CommRing K]

/-- The basis function with the given degrees (the formulas of `Verif/Basis/Spec.lean`). -/
def phi : Ent → Idx → K → K → K → K
  | .line, i, x, _, _ => phiLine i.1 x
  | .quad, i, x, y, _ => phiLine i.1 x * phiLine i.2.1 y
  | .tria, i, x, y, _ => phiTria (i.1, i.2.1) x y
  | .hex, i, x, y, z => phiLine i.1 x * phiLine i.2.1 y * phiLine i.2.2 z
  | .tet, i, x, y, z => phiTet i x y z

end

/-- Degrees of the functions of a basis of order `o`. -/
def Deg : Ent → Nat → Idx → Prop
  | .line, o, i => i.1 < o ∧ i.2.1 = 0 ∧ i.2.2 = 0
  | .quad, o, i => i.1 < o ∧ i.2.1 < o ∧ i.2.2 = 0
  | .tria, o, i => i.1 + i.2.1 < o ∧ i.2.2 = 0
  | .hex, o, i => i.1 < o ∧ i.2.1 < o ∧ i.2.2 < o
  | .tet, o, i => i.1 + i.2.1 + i.2.2 < o

/-- Degrees of the functions of a basis of order `o` in the order of the code. -/
def idx : Ent → Nat → List Idx
  | .line, o => (List.range o).map (fun p => (p, 0, 0))
  | .quad, o => (List.range (o * o)).map (fun b => (b % o, b / o, 0))
  | .tria, o => (triaIdx o).map (fun i => (i.1, i.2, 0))
  | .hex, o => (List.range (o * o * o)).map (fun b => (b % o, b % (o * o) / o, b / (o * o)))
  | .tet, o => tetIdx o

/-- Largest order for which the code has basis functions. -/
def maxOrder : Ent → Nat
  | .tet => 11
  | _ => 10

/-- Integral over the square of a basis function over the reference element. -/
noncomputable def mass : Ent → Idx → ℝ
  | .line, i => 1 / (2 * i.1 + 1)
  | .quad, i => 1 / ((2 * i.1 + 1) * (2 * i.2.1 + 1))
  | .tria, i => 1 / ((2 * i.1 + 1) * (2 * i.1 + 2 * i.2.1 + 2))
  | .hex, i => 1 / ((2 * i.1 + 1) * (2 * i.2.1 + 1) * (2 * i.2.2 + 1))
  | .tet, i => 1 / ((2 * i.1 + 1) * (2 * i.1 + 2 * i.2.1 + 2) * (2 * i.1 + 2 * i.2.1 + 2 * i.2.2 + 3))

theorem mass_pos (e : Ent) (i : Idx) : 0 < mass e i := by
  cases e <;> simp only [mass] <;> positivity

/-- Points at which the code's formulas are defined. -/
def PtOk {K : Type} [CommRing K] : Ent → K → K → K → Prop
  | .tria, _, y, _ => y ≠ 1
  | .tet, _, y, z => z ≠ 1 ∧ y + z ≠ 1
  | _, _, _, _ => True

/-! ### The list of the degrees -/

theorem mem_idx {e : Ent} {o : Nat} {i : Idx} : i ∈ idx e o ↔ Deg e o i := by
  obtain ⟨p, q, r⟩ := i
  cases e
  · simp only [idx, Deg, List.mem_map, List.mem_range, Prod.mk.injEq]
    constructor
    · rintro ⟨a, h, rfl, rfl, rfl⟩; exact ⟨h, rfl, rfl⟩
    · rintro ⟨h, rfl, rfl⟩; exact ⟨p, h, rfl, rfl, rfl⟩
  · simp only [idx, Deg, List.mem_map, List.mem_range, Prod.mk.injEq]
    constructor
    · rintro ⟨b, h, rfl, rfl, rfl⟩
      have h0 : 0 < o := Nat.pos_of_ne_zero (by rintro rfl; simp at h)
      exact ⟨Nat.mod_lt _ h0, Nat.div_lt_of_lt_mul h, rfl⟩
    · rintro ⟨h1, h2, rfl⟩
      have h0 : 0 < o := by omega
      refine ⟨p + o * q, ?_, by rw [Nat.add_mul_mod_self_left, Nat.mod_eq_of_lt h1],
        by rw [Nat.add_mul_div_left _ _ h0, Nat.div_eq_of_lt h1, Nat.zero_add], rfl⟩
      calc p + o * q < o + o * q := by omega
        _ = o * (q + 1) := by rw [Nat.mul_succ, Nat.add_comm]
        _ ≤ o * o := Nat.mul_le_mul_left _ h2
  · simp only [idx, Deg, List.mem_map, mem_triaIdx, Prod.mk.injEq, Prod.exists]
    constructor
    · rintro ⟨a, b, h, rfl, rfl, rfl⟩; exact ⟨h, rfl⟩
    · rintro ⟨h, rfl⟩; exact ⟨p, q, h, rfl, rfl, rfl⟩
  · simp only [idx, Deg, List.mem_map, List.mem_range, Prod.mk.injEq]
    constructor
    · rintro ⟨b, h, rfl, rfl, rfl⟩
      have h0 : 0 < o := Nat.pos_of_ne_zero (by rintro rfl; simp at h)
      exact ⟨Nat.mod_lt _ h0, Nat.div_lt_of_lt_mul (Nat.mod_lt _ (Nat.mul_pos h0 h0)), Nat.div_lt_of_lt_mul h⟩
    · rintro ⟨h1, h2, h3⟩
      obtain ⟨e1, e2, e3⟩ := hex_id (r := r) h1 h2
      refine ⟨p + o * (q + o * r), ?_, e1, e2, e3⟩
      have a1 : q + o * r + 1 ≤ o * o := by
        calc q + o * r + 1 ≤ o + o * r := by omega
          _ = o * (r + 1) := by rw [Nat.mul_succ, Nat.add_comm]
          _ ≤ o * o := Nat.mul_le_mul_left _ h3
      calc p + o * (q + o * r) < o + o * (q + o * r) := by omega
        _ = o * (q + o * r + 1) := by rw [Nat.mul_succ, Nat.add_comm]
        _ ≤ o * (o * o) := Nat.mul_le_mul_left _ a1
        _ = o * o * o := by rw [Nat.mul_assoc]
  · simp only [idx, Deg, mem_tetIdx]

theorem triaIdx_nodup (o : Nat) : (triaIdx o).Nodup := by
  rw [triaIdx, List.nodup_flatMap]
  refine ⟨fun d _ => (List.nodup_range).map (fun a b h => (Prod.mk.inj h).1), ?_⟩
  refine List.Nodup.pairwise_of_forall_ne List.nodup_range (fun a _ b _ hab => ?_)
  simp only [Function.onFun, List.Disjoint, List.mem_map, List.mem_range]
  rintro ⟨p, q⟩ ⟨p1, h1, e1⟩ ⟨p2, h2, e2⟩
  simp only [Prod.mk.injEq] at e1 e2
  omega

theorem tetIdx_nodup (o : Nat) : (tetIdx o).Nodup := by
  rw [tetIdx, List.nodup_flatMap]
  constructor
  · intro d _
    rw [List.nodup_flatMap]
    refine ⟨fun p _ => (List.nodup_range).map (fun a b h => (Prod.mk.inj (Prod.mk.inj h).2).1), ?_⟩
    refine List.Nodup.pairwise_of_forall_ne List.nodup_range (fun a _ b _ hab => ?_)
    simp only [Function.onFun, List.Disjoint, List.mem_map, List.mem_range]
    rintro ⟨p, q, r⟩ ⟨p1, h1, e1⟩ ⟨p2, h2, e2⟩
    simp only [Prod.mk.injEq] at e1 e2
    omega
  · refine List.Nodup.pairwise_of_forall_ne List.nodup_range (fun a _ b _ hab => ?_)
    simp only [Function.onFun, List.Disjoint, List.mem_map, List.mem_flatMap, List.mem_range]
    rintro ⟨p, q, r⟩ ⟨p1, h1, q1, h1', e1⟩ ⟨p2, h2, q2, h2', e2⟩
    simp only [Prod.mk.injEq] at e1 e2
    omega

theorem idx_nodup (e : Ent) (o : Nat) : (idx e o).Nodup := by
  cases e
  · exact List.nodup_range.map (fun a b h => (Prod.mk.inj h).1)
  · refine List.nodup_range.map (fun a b h => ?_)
    simp only [Prod.mk.injEq] at h
    rw [← Nat.mod_add_div a o, ← Nat.mod_add_div b o, h.1, h.2.1]
  · exact (triaIdx_nodup o).map (fun a b h => by simp only [Prod.mk.injEq] at h; exact Prod.ext h.1 h.2.1)
  · refine List.nodup_range.map (fun a b h => ?_)
    simp only [Prod.mk.injEq] at h
    have hm : a % (o * o) = b % (o * o) := by
      rw [← Nat.mod_add_div (a % (o * o)) o, ← Nat.mod_add_div (b % (o * o)) o, Nat.mod_mul_right_mod, Nat.mod_mul_right_mod, h.1, h.2.1]
    rw [← Nat.mod_add_div a (o * o), ← Nat.mod_add_div b (o * o), hm, h.2.2]
  · exact tetIdx_nodup o

/-- Number of the modes (`CE_N_ELEMENT_MODES`, src/constants.hpp:112-125). -/
def nModes : Ent → Nat → Nat
  | .line, o => o
  | .quad, o => o * o
  | .tria, o => (o * o + o) / 2
  | .hex, o => o * o * o
  | .tet, o => o * (o + 1) * (o + 2) / 6

theorem triaIdx_length (o : Nat) : (triaIdx o).length = (o * o + o) / 2 := by
  have : 2 * (triaIdx o).length = o * o + o := by
    induction o with
    | zero => rfl
    | succ o ih =>
      rw [triaIdx] at *
      rw [List.range_succ, List.flatMap_append, List.length_append, Nat.mul_add, ih]
      simp; ring
  omega

theorem tetIdx_length (o : Nat) : (tetIdx o).length = o * (o + 1) * (o + 2) / 6 := by
  have inner : ∀ d m, m ≤ d + 1 → 2 * ((List.range m).flatMap (fun p => (List.range (d - p + 1)).map (fun q => (p, q, d - p - q)))).length + m * m =
      m * (2 * d + 3) := by
    intro d m
    induction m with
    | zero => intro; simp
    | succ m ih =>
      intro hm
      have := ih (by omega)
      rw [List.range_succ, List.flatMap_append, List.length_append]
      have h1 : (List.flatMap (fun p => List.map (fun q => (p, q, d - p - q)) (List.range (d - p + 1))) [m]).length = d - m + 1 := by simp
      rw [h1]
      obtain ⟨k, rfl⟩ := Nat.exists_eq_add_of_le (show m ≤ d by omega)
      rw [show m + k - m = k by omega]
      nlinarith
  have : 6 * (tetIdx o).length = o * (o + 1) * (o + 2) := by
    induction o with
    | zero => rfl
    | succ o ih =>
      rw [tetIdx] at *
      rw [List.range_succ, List.flatMap_append, List.length_append, Nat.mul_add, ih]
      have h1 := inner o (o + 1) (by omega)
      simp only [List.flatMap_cons, List.flatMap_nil, List.append_nil]
      nlinarith
  omega

theorem idx_length (e : Ent) (o : Nat) : (idx e o).length = nModes e o := by
  cases e <;> simp [idx, nModes, triaIdx_length, tetIdx_length]

/-- The code's functions. -/
theorem basis_val {K : Type} [Field K] [CharZero K] [DecidableEq K] {e : Ent} {o b : Nat} (ho : o ≤ maxOrder e) {i : Idx} (hb : (idx e o)[b]? = some i)
    (x y z : K) (hp : PtOk e x y z) : evalBasis b e x y z (-1) o = some (phi e i x y z) := by
  have hd : Deg e o i := mem_idx.1 (List.mem_of_getElem? hb)
  cases e
  · simp only [idx, List.getElem?_map, Option.map_eq_some_iff] at hb
    obtain ⟨p, h1, rfl⟩ := hb
    obtain ⟨h2, h3⟩ := List.getElem?_eq_some_iff.1 h1
    rw [List.getElem_range] at h3
    subst h3
    simp only [List.length_range] at h2
    exact C91_line (lt_of_lt_of_le h2 ho) _ _ _ (by decide) _
  · simp only [idx, List.getElem?_map, Option.map_eq_some_iff] at hb
    obtain ⟨p, h1, rfl⟩ := hb
    obtain ⟨h2, h3⟩ := List.getElem?_eq_some_iff.1 h1
    rw [List.getElem_range] at h3
    subst h3
    have := C91_quad (o := o) (p := b % o) (q := b / o) ho hd.1 hd.2.1 x y z (der := -1) (by decide)
    rwa [Nat.mod_add_div] at this
  · simp only [idx, List.getElem?_map, Option.map_eq_some_iff] at hb
    obtain ⟨j, h1, rfl⟩ := hb
    have hj : j.1 + j.2 < 10 := lt_of_lt_of_le hd.1 ho
    have hid : triaId j = b := by
      have h3 : ∀ o ≤ 10, (triaIdx o).map triaId = List.range (triaIdx o).length := by decide +kernel
      have h4 : ((triaIdx o).map triaId)[b]? = some (triaId j) := by rw [List.getElem?_map, h1]; rfl
      rw [h3 o ho] at h4
      obtain ⟨h5, h6⟩ := List.getElem?_eq_some_iff.1 h4
      rw [List.getElem_range] at h6; exact h6.symm
    rw [← hid]
    exact C91_tria hj x z hp (by decide) o
  · simp only [idx, List.getElem?_map, Option.map_eq_some_iff] at hb
    obtain ⟨p, h1, rfl⟩ := hb
    obtain ⟨h2, h3⟩ := List.getElem?_eq_some_iff.1 h1
    rw [List.getElem_range] at h3
    subst h3
    have := C91_hex (o := o) (p := b % o) (q := b % (o * o) / o) (r := b / (o * o)) ho hd.1 hd.2.1 hd.2.2 x y z (der := -1) (by decide)
    have hb' : b % o + o * (b % (o * o) / o + o * (b / (o * o))) = b := by
      rw [Nat.mul_add, ← Nat.add_assoc, ← Nat.mul_assoc]
      have : b % o = b % (o * o) % o := (Nat.mod_mul_right_mod b o o).symm
      rw [this, Nat.mod_add_div, Nat.mod_add_div]
    rwa [hb'] at this
  · have hid : tetId i = b := by
      have h3 : ∀ o ≤ 11, (tetIdx o).map tetId = List.range (tetIdx o).length := by decide +kernel
      have h4 : ((tetIdx o).map tetId)[b]? = some (tetId i) := by rw [List.getElem?_map]; simp only [idx] at hb; rw [hb]; rfl
      rw [h3 o ho] at h4
      obtain ⟨h5, h6⟩ := List.getElem?_eq_some_iff.1 h4
      rw [List.getElem_range] at h6; exact h6.symm
    rw [← hid]
    exact C91_tet (lt_of_lt_of_le hd ho) x hp.1 hp.2 (by decide) o

/-! ### The functions as polynomials -/

/-- The basis function as a polynomial. -/
noncomputable def P (e : Ent) (i : Idx) : MvPolynomial (Fin 3) ℝ := phi e i (X 0) (X 1) (X 2)

theorem map_hom {A B : Type} [CommRing A] [CommRing B] (f : A →+* B) (n a : Nat) (t h : A) : f (hom n a t h) = hom n a (f t) (f h) := by
  simp only [hom, map_sum, map_mul, map_pow, map_sub, map_natCast]

theorem val_P (e : Ent) (i : Idx) (x y z : ℝ) : val (P e i) x y z = phi e i x y z := by
  cases e <;> simp [val, P, phi, phiLine, phiTria, phiTet, map_hom]

theorem hom_totalDegree (n a : Nat) {t h : MvPolynomial (Fin 3) ℝ} (ht : t.totalDegree ≤ 1) (hh : h.totalDegree ≤ 1) :
    (hom n a t h).totalDegree ≤ n := by
  rw [hom]
  refine totalDegree_finsetSum_le (fun s hs => ?_)
  have hs : s ≤ n := by simpa [Nat.lt_succ_iff] using hs
  have h1 : (t - h).totalDegree ≤ 1 := (totalDegree_sub _ _).trans (max_le ht hh)
  refine (totalDegree_mul _ _).trans ?_
  have h2 : (t ^ (n - s)).totalDegree ≤ n - s := (totalDegree_pow _ _).trans ((Nat.mul_le_mul_left _ ht).trans (by omega))
  have h3 : ((t - h) ^ s).totalDegree ≤ s := (totalDegree_pow _ _).trans ((Nat.mul_le_mul_left _ h1).trans (by omega))
  have h4 := totalDegree_mul ((((n + a).choose (n - s) * n.choose s : Nat) : MvPolynomial (Fin 3) ℝ)) ((t - h) ^ s)
  have h5 : ((((n + a).choose (n - s) * n.choose s : Nat) : MvPolynomial (Fin 3) ℝ)).totalDegree = 0 := by
    rw [← map_natCast (C : ℝ →+* MvPolynomial (Fin 3) ℝ), totalDegree_C]
  omega

theorem hom_degreeOf (n a : Nat) (d : Fin 3) {k : Nat} {t h : MvPolynomial (Fin 3) ℝ} (ht : t.degreeOf d ≤ k) (hh : h.degreeOf d ≤ k) :
    (hom n a t h).degreeOf d ≤ n * k := by
  rw [hom]
  refine (degreeOf_sum_le _ _ _).trans (Finset.sup_le (fun s hs => ?_))
  have hs : s ≤ n := by simpa [Nat.lt_succ_iff] using hs
  have h1 : (t - h).degreeOf d ≤ k := by
    rw [sub_eq_add_neg]
    refine (degreeOf_add_le _ _ _).trans (max_le ht ?_)
    rw [degreeOf_neg]; exact hh
  refine (degreeOf_mul_le _ _ _).trans ?_
  have h2 : (t ^ (n - s)).degreeOf d ≤ (n - s) * k := (degreeOf_pow_le _ _ _).trans (Nat.mul_le_mul_left _ ht)
  have h3 : ((t - h) ^ s).degreeOf d ≤ s * k := (degreeOf_pow_le _ _ _).trans (Nat.mul_le_mul_left _ h1)
  have h4 := degreeOf_mul_le d ((((n + a).choose (n - s) * n.choose s : Nat) : MvPolynomial (Fin 3) ℝ)) ((t - h) ^ s)
  have h5 : ((((n + a).choose (n - s) * n.choose s : Nat) : MvPolynomial (Fin 3) ℝ)).degreeOf d = 0 := by
    rw [← map_natCast (C : ℝ →+* MvPolynomial (Fin 3) ℝ), degreeOf_C]
  have h6 : s * k + (n - s) * k = n * k := by rw [← Nat.add_mul]; congr 1; omega
  omega

end Edge.Proj
