import Verif.Quad.Model
/-!
The points and weights which are computed by the functions of `Verif/Quad/Model.lean`, as lists.
-/
namespace Edge.Quad
open Edge Edge.Map

/-! ### Loops which fill arrays -/

/-- A loop whose steps add lists of values to what has been stored so far. -/
theorem forN_acc {α σ : Type _} {n : Nat} {body : Nat → σ → Option σ} {s : σ} {d0 : List α} (P : List α → σ → Prop)
    (l : Nat → List α) (h0 : P d0 s)
    (h : ∀ i < n, ∀ o, P (d0 ++ (List.range i).flatMap l) o →
      ∃ o', body i o = some o' ∧ P (d0 ++ (List.range i).flatMap l ++ l i) o') :
    ∃ o', forN n body s = some o' ∧ P (d0 ++ (List.range n).flatMap l) o' := by
  refine forN_inv (body := body) (fun i o => P (d0 ++ (List.range i).flatMap l) o) (by simpa using h0) ?_
  intro i o hi ho
  obtain ⟨o', h1, h2⟩ := h i hi o ho
  refine ⟨o', h1, ?_⟩
  simpa [List.range_succ, List.flatMap_append, List.append_assoc] using h2

/-- The first entries of the array of size `N` are those of `d`, the others have the initial value. -/
def Filled {α : Type _} (N : Nat) (z : α) (d o : List α) : Prop := d.length ≤ N ∧ o = d ++ List.replicate (N - d.length) z

theorem Filled.start {α : Type _} {N : Nat} {z : α} : Filled N z [] (List.replicate N z) := ⟨by simp, by simp⟩

theorem Filled.wr {α : Type _} {N k : Nat} {z v : α} {d o : List α} (h : Filled N z d o) (hk : k = d.length) (hN : k < N) :
    ∃ o', Edge.wr o k v = some o' ∧ Filled N z (d ++ [v]) o' := by
  obtain ⟨h1, rfl⟩ := h
  subst hk
  have : N - d.length = (N - (d ++ [v]).length) + 1 := by simp; omega
  rw [wr_some (by simp; omega)]
  refine ⟨_, rfl, by simp; omega, ?_⟩
  rw [this, List.replicate_succ]
  simp

theorem Filled.done {α : Type _} {N : Nat} {z : α} {d o : List α} (h : Filled N z d o) (hN : d.length = N) : o = d := by
  obtain ⟨-, rfl⟩ := h
  simp [hN]

theorem length_flatMap {α : Type _} {n m : Nat} {l : Nat → List α} (h : ∀ i < n, (l i).length = m) :
    ((List.range n).flatMap l).length = n * m := by
  induction n with
  | zero => simp
  | succ n ih =>
    rw [List.range_succ, List.flatMap_append, List.length_append, ih (fun i hi => h i (by omega))]
    simp [h n (by omega), Nat.succ_mul]

theorem flatMap_single {α : Type _} {n : Nat} (g : Nat → α) : (List.range n).flatMap (fun i => [g i]) = (List.range n).map g := by
  induction n with
  | zero => rfl
  | succ n ih => rw [List.range_succ, List.flatMap_append, ih, List.map_append]; rfl

/-- A loop which writes entry after entry. -/
theorem forN_fill {α : Type _} {n : Nat} {z : α} {body : Nat → List α → Option (List α)} (g : Nat → α)
    (h : ∀ i < n, ∀ o, body i o = Edge.wr o i (g i)) : forN n body (List.replicate n z) = some ((List.range n).map g) := by
  obtain ⟨o', h1, h2⟩ := forN_acc (body := body) (Filled n z) (fun i => [g i]) Filled.start (by
    intro i hi o ho
    rw [h i hi o]
    refine ho.wr ?_ hi
    simp [flatMap_single])
  rw [h1, h2.done (by simp [flatMap_single]), List.nil_append, flatMap_single]

/-- Two loops which write entry after entry. -/
theorem forN_fill2 {α : Type _} {n m : Nat} {z : α} {body : Nat → Nat → List α → Option (List α)} (g : Nat → Nat → α)
    (h : ∀ i < n, ∀ j < m, ∀ o, body i j o = Edge.wr o (i * m + j) (g i j)) :
    forN n (fun i => forN m (body i)) (List.replicate (n * m) z) =
      some ((List.range n).flatMap (fun i => (List.range m).map (g i))) := by
  obtain ⟨o', h1, h2⟩ := forN_acc (body := fun i => forN m (body i)) (Filled (n * m) z)
    (fun i => (List.range m).map (g i)) Filled.start (by
    intro i hi o ho
    have hlen : ((List.range i).flatMap (fun i => (List.range m).map (g i))).length = i * m :=
      length_flatMap (fun _ _ => by simp)
    have hle : (i + 1) * m ≤ n * m := Nat.mul_le_mul_right m hi
    rw [Nat.succ_mul] at hle
    obtain ⟨o', h1, h2⟩ := forN_acc (body := body i) (Filled (n * m) z) (fun j => [g i j]) ho (by
      intro j hj o ho
      rw [h i hi j hj o]
      refine ho.wr ?_ (by omega)
      simp only [List.nil_append, List.length_append, hlen, flatMap_single, List.length_map, List.length_range])
    refine ⟨o', h1, ?_⟩
    rwa [flatMap_single] at h2)
  rw [h1, h2.done (by rw [List.nil_append]; exact length_flatMap (fun _ _ => by simp)), List.nil_append]

/-- Three loops which write entry after entry. -/
theorem forN_fill3 {α : Type _} {n m r : Nat} {z : α} {body : Nat → Nat → Nat → List α → Option (List α)} (g : Nat → Nat → Nat → α)
    (h : ∀ i < n, ∀ j < m, ∀ k < r, ∀ o, body i j k o = Edge.wr o (i * m * r + j * r + k) (g i j k)) :
    forN n (fun i => forN m (fun j => forN r (body i j))) (List.replicate (n * m * r) z) =
      some ((List.range n).flatMap (fun i => (List.range m).flatMap (fun j => (List.range r).map (g i j)))) := by
  have hl : ∀ i m, ((List.range m).flatMap (fun j => (List.range r).map (g i j))).length = m * r := fun i m =>
    length_flatMap (fun _ _ => by simp)
  obtain ⟨o', h1, h2⟩ := forN_acc (body := fun i => forN m (fun j => forN r (body i j))) (Filled (n * m * r) z)
    (fun i => (List.range m).flatMap (fun j => (List.range r).map (g i j))) Filled.start (by
    intro i hi o ho
    have hlen : ((List.range i).flatMap (fun i => (List.range m).flatMap (fun j => (List.range r).map (g i j)))).length =
        i * (m * r) := length_flatMap (fun i _ => hl i m)
    have hle : (i + 1) * (m * r) ≤ n * (m * r) := Nat.mul_le_mul_right _ hi
    rw [Nat.succ_mul] at hle
    refine forN_acc (body := fun j => forN r (body i j)) (Filled (n * m * r) z) (fun j => (List.range r).map (g i j)) ho (by
      intro j hj o ho
      have hle' : (j + 1) * r ≤ m * r := Nat.mul_le_mul_right _ hj
      rw [Nat.succ_mul] at hle'
      obtain ⟨o', h1, h2⟩ := forN_acc (body := body i j) (Filled (n * m * r) z) (fun k => [g i j k]) ho (by
        intro k hk o ho
        rw [h i hi j hj k hk o]
        refine ho.wr ?_ (by rw [Nat.mul_assoc, Nat.mul_assoc]; omega)
        simp only [List.nil_append, List.length_append, hlen, hl, flatMap_single, List.length_map, List.length_range, Nat.mul_assoc])
      refine ⟨o', h1, ?_⟩
      rwa [flatMap_single] at h2))
  rw [h1, h2.done (by rw [List.nil_append, length_flatMap (fun i _ => hl i m), Nat.mul_assoc]), List.nil_append]

/-- Two loops which append. -/
theorem forN_app2 {α : Type _} {n m : Nat} {body : Nat → Nat → List α → Option (List α)} (g : Nat → Nat → α)
    (h : ∀ i < n, ∀ j < m, ∀ o, body i j o = some (o ++ [g i j])) :
    forN n (fun i => forN m (body i)) [] = some ((List.range n).flatMap (fun i => (List.range m).map (g i))) := by
  obtain ⟨o', h1, h2⟩ := forN_acc (body := fun i => forN m (body i)) (fun d o => o = d) (fun i => (List.range m).map (g i))
    (d0 := []) rfl (by
      rintro i hi o rfl
      obtain ⟨o', h1, h2⟩ := forN_acc (body := body i) (s := [] ++ (List.range i).flatMap (fun i => (List.range m).map (g i)))
        (fun d o => o = d) (fun j => [g i j]) rfl (by
          rintro j hj o rfl
          exact ⟨_, h i hi j hj _, rfl⟩)
      exact ⟨o', h1, by rw [h2, flatMap_single]⟩)
  rw [h1, h2, List.nil_append]

/-- Three loops which append. -/
theorem forN_app3 {α : Type _} {n m r : Nat} {body : Nat → Nat → Nat → List α → Option (List α)} (g : Nat → Nat → Nat → α)
    (h : ∀ i < n, ∀ j < m, ∀ k < r, ∀ o, body i j k o = some (o ++ [g i j k])) :
    forN n (fun i => forN m (fun j => forN r (body i j))) [] =
      some ((List.range n).flatMap (fun i => (List.range m).flatMap (fun j => (List.range r).map (g i j)))) := by
  obtain ⟨o', h1, h2⟩ := forN_acc (body := fun i => forN m (fun j => forN r (body i j))) (fun d o => o = d)
    (fun i => (List.range m).flatMap (fun j => (List.range r).map (g i j))) (d0 := []) rfl (by
      rintro i hi o rfl
      refine forN_acc (body := fun j => forN r (body i j)) (fun d o => o = d) (fun j => (List.range r).map (g i j)) rfl (by
          rintro j hj o rfl
          obtain ⟨o', h1, h2⟩ := forN_acc (body := body i j) (s := _) (fun d o => o = d) (fun k => [g i j k]) rfl (by
              rintro k hk o rfl
              exact ⟨_, h i hi j hj k hk _, rfl⟩)
          exact ⟨o', h1, by rw [h2, flatMap_single]⟩))
  rw [h1, h2, List.nil_append]

/-! ### Points -/

section
variable {K : Type} [Field K] [LinearOrder K]

/-- One-dimensional rule on [0,1]. -/
def gl (pair : Nat → Nat → K × K) (n : Nat) : List (K × K) := (List.range n).map (glStep pair n)

theorem gaussLegendre_eq (pair : Nat → Nat → K × K) {n : Nat} (hn : 0 < n) : gaussLegendre pair n = some (gl pair n) := by
  simp only [gaussLegendre, hn, decide_true, check_true, Option.bind_eq_bind, Option.bind_some]
  exact forN_fill _ (fun _ _ _ => rfl)

theorem rd_gl (pair : Nat → Nat → K × K) {n i : Nat} (hi : i < n) : rd (gl pair n) i = some (glStep pair n i) := by
  simp [rd, gl, hi]

theorem rd_gl' (pair : Nat → Nat → K × K) {β : Type} (f : K × K → β) {n i : Nat} (hi : i < n) :
    rd ((gl pair n).map f) i = some (f (glStep pair n i)) := by
  simp [rd, gl, hi]

theorem qptsLine_eq (sqrt : K → K) (pair : Nat → Nat → K × K) {n : Nat} (hn : 0 < n) (ves : Nat → Nat → K) :
    qptsLine sqrt pair n ves = some ((gl pair n).map (linePt sqrt ves)) := by
  simp only [qptsLine, gaussLegendre_eq pair hn, Option.bind_eq_bind, Option.bind_some]
  rw [forN_fill (fun i => linePt sqrt ves (glStep pair n i))]
  · simp [gl]
  · intro i hi o
    rw [rd_gl pair hi]; rfl

theorem qptsQuad_eq {tol : K} (pair : Nat → Nat → K × K) {n : Nat} (hn : 0 < n) {ves : Nat → Nat → K} {a b f : Nat}
    (hd : quadDims tol ves = some (a, b, f)) {g : K × K → K × K → Qp K}
    (hg : ∀ q1 q2, quadPt tol ves a b f q1 q2 = some (g q1 q2)) :
    qptsQuad tol pair n ves = some ((gl pair n).flatMap (fun q1 => (gl pair n).map (g q1))) := by
  simp only [qptsQuad, gaussLegendre_eq pair hn, hd, Option.bind_eq_bind, Option.bind_some]
  rw [forN_app2 (fun i j => g (glStep pair n i) (glStep pair n j))]
  · simp [gl, List.flatMap_map, Function.comp_def]
  · intro i hi j hj o
    rw [rd_gl pair hi, rd_gl pair hj]
    simp [hg]

theorem qptsTria_eq {tol : K} (pair : Nat → Nat → K × K) {n : Nat} (hn : 0 < n) {ves : Nat → Nat → K}
    {g : K × K × K → Qp K} (hg : ∀ q, triaPt tol ves q = some (g q)) :
    qptsTria tol pair n ves =
      some ((gl pair n).flatMap (fun q1 => (gl pair n).map (fun q2 => g (triaRef (toSym q1) (toSym q2))))) := by
  simp only [qptsTria, gaussLegendre_eq pair hn, Option.bind_eq_bind, Option.bind_some]
  rw [forN_fill2 (fun i j => triaRef (toSym (glStep pair n i)) (toSym (glStep pair n j)))]
  · simp only [Option.bind_some]
    have hlen : ((List.range n).flatMap fun i => (List.range n).map fun j =>
        triaRef (toSym (glStep pair n i)) (toSym (glStep pair n j))).length = n * n := length_flatMap (fun _ _ => by simp)
    generalize hL : ((List.range n).flatMap fun i => (List.range n).map fun j =>
        triaRef (toSym (glStep pair n i)) (toSym (glStep pair n j))) = L at hlen
    rw [forN_fill (fun i => g (L.getD i (0, 0, 0)))]
    · have : (List.range (n * n)).map (fun i => g (L.getD i (0, 0, 0))) = L.map g := by
        apply List.ext_getElem
        · simp [hlen]
        · intro i h1 h2
          simp at h1 h2
          simp [List.getElem?_eq_getElem h2]
      rw [this, ← hL]
      simp [gl, List.flatMap_map, List.map_flatMap, Function.comp_def]
    · intro i hi o
      rw [show rd L i = some (L.getD i (0, 0, 0)) by
        rw [rd_some (by omega)]; simp [List.getElem?_eq_getElem (show i < L.length by omega)]]
      simp [hg]
  · intro i hi j hj o
    rw [rd_gl' pair _ hi, rd_gl' pair _ hj]
    rfl

theorem qptsHex_eq {tol : K} (pair : Nat → Nat → K × K) {n : Nat} (hn : 0 < n) {ves : Nat → Nat → K}
    {g : K × K → K × K → K × K → Qp K} (hg : ∀ q1 q2 q3, hexPt tol ves q1 q2 q3 = some (g q1 q2 q3)) :
    qptsHex tol pair n ves =
      some ((gl pair n).flatMap (fun q1 => (gl pair n).flatMap (fun q2 => (gl pair n).map (g q1 q2)))) := by
  simp only [qptsHex, gaussLegendre_eq pair hn, Option.bind_eq_bind, Option.bind_some]
  rw [forN_app3 (fun i j k => g (glStep pair n i) (glStep pair n j) (glStep pair n k))]
  · simp [gl, List.flatMap_map, Function.comp_def]
  · intro i hi j hj k hk o
    rw [rd_gl pair hi, rd_gl pair hj, rd_gl pair hk]
    simp [hg]

theorem qptsTet_eq {tol : K} (pair : Nat → Nat → K × K) {n : Nat} (hn : 0 < n) {ves : Nat → Nat → K}
    {g : K × K × K × K → Qp K} (hg : ∀ q, tetPt tol ves q = some (g q)) :
    qptsTet tol pair n ves =
      some ((gl pair n).flatMap (fun q1 => (gl pair n).flatMap (fun q2 => (gl pair n).map (fun q3 =>
        g (tetRef (toSym q1) (toSym q2) (toSym q3)))))) := by
  simp only [qptsTet, gaussLegendre_eq pair hn, Option.bind_eq_bind, Option.bind_some]
  rw [forN_fill3 (fun i j k => tetRef (toSym (glStep pair n i)) (toSym (glStep pair n j)) (toSym (glStep pair n k)))]
  · simp only [Option.bind_some]
    have hlen : ((List.range n).flatMap fun i => (List.range n).flatMap fun j => (List.range n).map fun k =>
        tetRef (toSym (glStep pair n i)) (toSym (glStep pair n j)) (toSym (glStep pair n k))).length = n * n * n := by
      rw [Nat.mul_assoc]
      exact length_flatMap (fun _ _ => length_flatMap (fun _ _ => by simp))
    generalize hL : ((List.range n).flatMap fun i => (List.range n).flatMap fun j => (List.range n).map fun k =>
        tetRef (toSym (glStep pair n i)) (toSym (glStep pair n j)) (toSym (glStep pair n k))) = L at hlen
    rw [forN_fill (fun i => g (L.getD i (0, 0, 0, 0)))]
    · have : (List.range (n * n * n)).map (fun i => g (L.getD i (0, 0, 0, 0))) = L.map g := by
        apply List.ext_getElem
        · simp [hlen]
        · intro i h1 h2
          simp at h1 h2
          simp [List.getElem?_eq_getElem h2]
      rw [this, ← hL]
      simp [gl, List.flatMap_map, List.map_flatMap, Function.comp_def]
    · intro i hi o
      rw [show rd L i = some (L.getD i (0, 0, 0, 0)) by
        rw [rd_some (by omega)]; simp [List.getElem?_eq_getElem (show i < L.length by omega)]]
      simp [hg]
  · intro i hi j hj k hk o
    rw [rd_gl' pair _ hi, rd_gl' pair _ hj, rd_gl' pair _ hk]
    rfl

/-- Without points all functions abort. -/
theorem gaussLegendre_zero (pair : Nat → Nat → K × K) : gaussLegendre pair 0 = none := rfl

end
end Edge.Quad
