import Verif.Gen.Stiff
import Verif.Dg.Props
/-!
The generated stiffness matrices in the memory of the kernels.
-/
namespace Edge.Gen
open Edge Edge.Map Edge.Quad Edge.Basis Edge.Proj MvPolynomial

/-! ### Written arrays -/

theorem flat_get {α β : Type} {m : Nat} {f : α → List β} (l : List α) (hf : ∀ x ∈ l, (f x).length = m) {i j : Nat} (hj : j < m) {x : α}
    (hi : l[i]? = some x) : (l.flatMap f)[i * m + j]? = (f x)[j]? := by
  induction l generalizing i with
  | nil => simp at hi
  | cons a l ih =>
    rw [List.flatMap_cons]
    have ha := hf a (by simp)
    cases i with
    | zero =>
      simp only [List.getElem?_cons_zero, Option.some.injEq] at hi
      subst hi
      rw [Nat.zero_mul, Nat.zero_add, List.getElem?_append_left (by omega)]
    | succ i =>
      rw [List.getElem?_cons_succ] at hi
      rw [Nat.succ_mul, List.getElem?_append_right (by omega), ha, show i * m + m + j - m = i * m + j by omega]
      exact ih (fun x hx => hf x (by simp [hx])) hi

theorem flat_len {α β : Type} {m : Nat} {f : α → List β} (l : List α) (hf : ∀ x ∈ l, (f x).length = m) : (l.flatMap f).length = l.length * m := by
  induction l with
  | nil => simp
  | cons a l ih =>
    rw [List.flatMap_cons, List.length_append, hf a (by simp), ih (fun x hx => hf x (by simp [hx])), List.length_cons, Nat.succ_mul, Nat.add_comm]

theorem float2d_len {n m : Nat} (M : Matrix (Fin n) (Fin m) ℝ) : (float2d M).length = n * m := by
  rw [float2d, flat_len (m := m) _ (fun x _ => by simp), List.length_finRange]

theorem float2d_get {n m : Nat} (M : Matrix (Fin n) (Fin m) ℝ) (i : Fin n) (j : Fin m) : (float2d M)[i.val * m + j.val]? = some (M i j) := by
  rw [float2d, flat_get _ (fun x _ => by simp) j.2 (x := i)]
  · rw [List.getElem?_map, List.getElem?_eq_getElem (by simp)]; simp
  · rw [List.getElem?_eq_getElem (by simp)]; simp

theorem float3d_len {n m : Nat} (l : List (Matrix (Fin n) (Fin m) ℝ)) : (float3d l).length = l.length * (n * m) :=
  flat_len _ (fun x _ => float2d_len x)

theorem mad_lt2 {n m i j : Nat} (hi : i < n) (hj : j < m) : i * m + j < n * m := by
  calc i * m + j < i * m + m := by omega
    _ = (i + 1) * m := by rw [Nat.succ_mul]
    _ ≤ n * m := Nat.mul_le_mul_right _ hi

theorem float3d_get {n m k : Nat} {l : List (Matrix (Fin n) (Fin m) ℝ)} {M : Matrix (Fin n) (Fin m) ℝ} (h : l[k]? = some M) (i : Fin n) (j : Fin m) :
    (float3d l)[k * (n * m) + (i.val * m + j.val)]? = some (M i j) := by
  rw [float3d, flat_get _ (fun x _ => float2d_len x) (mad_lt2 i.2 j.2) h, float2d_get]

theorem syms_get {e : Ent} {di : Nat} (h : di < e.nDim) : ∃ h3 : di < 3, (syms e)[di]? = some ⟨di, h3⟩ := by
  cases e <;> simp only [Ent.nDim] at h <;> interval_cases di <;> exact ⟨by norm_num, rfl⟩

theorem syms_len (e : Ent) : (syms e).length = e.nDim := by cases e <;> decide

theorem nDim_le (e : Ent) : e.nDim ≤ 3 := by cases e <;> decide

theorem stiffTRaw_len (e : Ent) (o : Nat) : (stiffTRaw e o).length = nModes e o * nModes e o * e.nDim := by
  rw [stiffTRaw, float3d_len, List.length_map, syms_len, Nat.mul_comm]

theorem stiffVRaw_len (e : Ent) (o : Nat) : (stiffVRaw e o).length = nModes e o * nModes e o * e.nDim := by
  rw [stiffVRaw, float3d_len, List.length_map, syms_len, Nat.mul_comm]

theorem stiffTRaw_get {e : Ent} {o di m md : Nat} (h1 : di < e.nDim) (h2 : m < nModes e o) (h3 : md < nModes e o) :
    (stiffTRaw e o)[di * nModes e o * nModes e o + m * nModes e o + md]? = some (entT e o ⟨di, h1.trans_le (nDim_le e)⟩ m md) := by
  obtain ⟨h4, h5⟩ := syms_get h1
  rw [stiffTRaw, Nat.mul_assoc, Nat.add_assoc, float3d_get (M := stiffT e o ⟨di, h4⟩) (by rw [List.getElem?_map, h5]; rfl) ⟨m, h2⟩ ⟨md, h3⟩, stiffT_apply]

theorem stiffVRaw_get {e : Ent} {o di m md : Nat} (h1 : di < e.nDim) (h2 : m < nModes e o) (h3 : md < nModes e o) :
    (stiffVRaw e o)[di * nModes e o * nModes e o + m * nModes e o + md]? = some (entV e o ⟨di, h1.trans_le (nDim_le e)⟩ m md) := by
  obtain ⟨h4, h5⟩ := syms_get h1
  rw [stiffVRaw, Nat.mul_assoc, Nat.add_assoc, float3d_get (M := stiffV e o ⟨di, h4⟩) (by rw [List.getElem?_map, h5]; rfl) ⟨m, h2⟩ ⟨md, h3⟩, stiffV_apply]

theorem massRaw_get {e : Ent} {o m md : Nat} (h2 : m < nModes e o) (h3 : md < nModes e o) :
    (massRaw e o)[m * nModes e o + md]? = some (refInt e (val (bf e o m * bf e o md))) := by
  rw [massRaw, float2d_get _ ⟨m, h2⟩ ⟨md, h3⟩, massM, Matrix.of_apply]

/-! ### Copies -/

section
variable {K : Type} [Field K]

omit [Field K] in
theorem copy_all (raw o : List K) (hl : o.length = raw.length) :
    forN raw.length (fun va o => do
      let v ← rd raw va
      wr o va v) o = some raw := by
  obtain ⟨o', h0, h1, h2⟩ := forN_inv (n := raw.length) (s := o) (body := fun va o => do
      let v ← rd raw va
      wr o va v) (fun i o => o.length = raw.length ∧ ∀ k < i, o[k]? = raw[k]?) ⟨hl, by simp⟩ (by
    intro i o hi ⟨k1, k2⟩
    refine ⟨o.set i raw[i], ?_, by simp [k1], fun k hk => ?_⟩
    · have e1 : rd raw i = some raw[i] := List.getElem?_eq_getElem hi
      simp only [Option.bind_eq_bind]
      rw [e1, Option.bind_some, wr_some (by omega)]
    · by_cases e : i = k
      · subst e; rw [List.getElem?_set_self (by omega), List.getElem?_eq_getElem hi]
      · rw [List.getElem?_set_ne e]; exact k2 k (by omega))
  rw [h0]
  congr 1
  refine List.ext_getElem? (fun k => ?_)
  by_cases hk : k < raw.length
  · exact h2 k hk
  · rw [List.getElem?_eq_none (by omega), List.getElem?_eq_none (by omega)]

theorem getStiff_T {rawV rawT : List K} {e : Ent} {n : Nat} (h : rawT.length = n * n * e.nDim) : getStiffMm1Dense rawV rawT e n true = some rawT := by
  rw [getStiffMm1Dense, if_neg (by decide), decide_eq_true h, check_true]
  exact copy_all _ _ (by simp [h])

theorem getStiff_V {rawV rawT : List K} {e : Ent} {n : Nat} (h : rawV.length = n * n * e.nDim) : getStiffMm1Dense rawV rawT e n false = some rawV := by
  rw [getStiffMm1Dense, if_pos rfl, decide_eq_true h, check_true]
  exact copy_all _ _ (by simp [h])

/-- Consecutive writes by nested loops. -/
theorem store_loop (g : K → K) {st : List K} {nd n : Nat} (h : st.length = n * n * nd) :
    ∃ r : List K × Nat, forN nd (fun di s => forN n (fun m0 s => forN n (fun m1 (s : List K × Nat) => do
      let v ← rd st (di * n * n + m0 * n + m1)
      let r ← wr s.1 s.2 (g v)
      some (r, s.2 + 1)) s) s) (List.replicate (nd * n * n) 0, 0) = some r ∧ r.1 = st.map g := by
  have hl : nd * n * n = st.length := by rw [h]; ring
  let Inv : Nat → List K × Nat → Prop := fun p s => s.2 = p ∧ s.1.length = st.length ∧ ∀ k < p, s.1[k]? = (st[k]?).map g
  obtain ⟨r, h0, h1⟩ := forN_inv (n := nd) (s := (List.replicate (nd * n * n) (0 : K), 0))
    (body := fun di s => forN n (fun m0 s => forN n (fun m1 (s : List K × Nat) => do
      let v ← rd st (di * n * n + m0 * n + m1)
      let r ← wr s.1 s.2 (g v)
      some (r, s.2 + 1)) s) s) (fun di s => Inv (di * n * n) s) ⟨by simp, by simp [hl], by simp⟩ (by
    intro di s hdi hs
    obtain ⟨r, h0, h1⟩ := forN_inv (n := n) (s := s) (body := fun m0 s => forN n (fun m1 (s : List K × Nat) => do
      let v ← rd st (di * n * n + m0 * n + m1)
      let r ← wr s.1 s.2 (g v)
      some (r, s.2 + 1)) s) (fun m0 s => Inv (di * n * n + m0 * n) s) (by simpa using hs) (by
      intro m0 s hm0 hs
      obtain ⟨r, h0, h1⟩ := forN_inv (n := n) (s := s) (body := fun m1 (s : List K × Nat) => do
        let v ← rd st (di * n * n + m0 * n + m1)
        let r ← wr s.1 s.2 (g v)
        some (r, s.2 + 1)) (fun m1 s => Inv (di * n * n + m0 * n + m1) s) hs (by
        rintro m1 ⟨s, p⟩ hm1 ⟨k1, k2, k3⟩
        simp only at k1 k2 k3
        subst k1
        have hp : di * n * n + m0 * n + m1 < st.length := by
          rw [← hl]
          have := mad_lt2 (mad_lt2 hdi hm0) hm1
          rwa [Nat.add_mul] at this
        have e1 : rd st (di * n * n + m0 * n + m1) = some st[di * n * n + m0 * n + m1] := List.getElem?_eq_getElem hp
        refine ⟨(s.set (di * n * n + m0 * n + m1) (g st[di * n * n + m0 * n + m1]), di * n * n + m0 * n + m1 + 1), ?_, rfl, by simp [k2], fun k hk => ?_⟩
        · simp only [Option.bind_eq_bind]
          rw [e1, Option.bind_some, wr_some (by omega), Option.bind_some]
        · by_cases e : di * n * n + m0 * n + m1 = k
          · subst e; rw [List.getElem?_set_self (by omega), List.getElem?_eq_getElem hp]; rfl
          · rw [List.getElem?_set_ne e]; exact k3 k (by omega))
      exact ⟨r, h0, by rwa [Nat.succ_mul, ← Nat.add_assoc]⟩)
    exact ⟨r, h0, by rwa [Nat.succ_mul, Nat.add_mul]⟩)
  refine ⟨r, h0, ?_⟩
  obtain ⟨k1, k2, k3⟩ := h1
  refine List.ext_getElem? (fun k => ?_)
  rw [List.getElem?_map]
  by_cases hk : k < st.length
  · exact k3 k (by omega)
  · rw [List.getElem?_eq_none (by omega), List.getElem?_eq_none (by omega)]; rfl

end

/-- The matrices of the time kernel: negated derivative in the basis, one matrix per dimension. -/
theorem storeT (e : Ent) (o : Nat) : ∃ l, storeStiffTDense (stiffVRaw e o) (stiffTRaw e o) e (nModes e o) = some l ∧
    ∀ G : Nat → Nat → Nat → ℝ, (∀ di m md, ∀ h : di < 3, G di m md = -entT e o ⟨di, h⟩ m md) →
      Dg.Mats e.nDim (nModes e o) (nModes e o) (nModes e o) l G := by
  obtain ⟨r, h0, h1⟩ := store_loop (fun v : ℝ => -v) (stiffTRaw_len e o)
  rw [storeStiffTDense, getStiff_T (stiffTRaw_len e o)]
  simp only [Option.bind_eq_bind, Option.bind_some] at h0 ⊢
  rw [h0]
  refine ⟨_, rfl, fun G hG di hdi => ⟨r.1.drop (di * nModes e o * nModes e o), by simp [rd, hdi], fun i j hi hj => ?_⟩⟩
  rw [List.getElem?_drop, h1, List.getElem?_map, ← Nat.add_assoc, stiffTRaw_get hdi hi hj, hG di i j (hdi.trans_le (nDim_le e))]
  rfl

/-- The matrices of the volume kernel. -/
theorem storeV (e : Ent) (o : Nat) : ∃ l, storeStiffDense (stiffVRaw e o) (stiffTRaw e o) e (nModes e o) = some l ∧
    ∀ G : Nat → Nat → Nat → ℝ, (∀ di m md, ∀ h : di < 3, G di m md = entV e o ⟨di, h⟩ m md) →
      Dg.Mats e.nDim (nModes e o) (nModes e o) (nModes e o) l G := by
  obtain ⟨r, h0, h1⟩ := store_loop (fun v : ℝ => v) (stiffVRaw_len e o)
  rw [storeStiffDense, getStiff_V (stiffVRaw_len e o)]
  simp only [Option.bind_eq_bind, Option.bind_some] at h0 ⊢
  rw [h0]
  refine ⟨_, rfl, fun G hG di hdi => ⟨r.1.drop (di * nModes e o * nModes e o), by simp [rd, hdi], fun i j hi hj => ?_⟩⟩
  rw [List.getElem?_drop, h1, List.getElem?_map, ← Nat.add_assoc, stiffVRaw_get hdi hi hj, hG di i j (hdi.trans_le (nDim_le e))]
  rfl

end Edge.Gen
