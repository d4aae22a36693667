import Verif.Cut.Water
/-!
C82: resolution of the sides in depth.
-/
namespace Edge.Cut
open Edge Finset

section
variable {K : Type} [Field K] [LinearOrder K]

/-- The difference is not below the minimum. -/
def Below (o : Option K) (x : K) : Prop := ∃ m, o = some m ∧ m ≤ x

theorem minO_new (o : Option K) (x : K) : Below (minO o x) x := by
  cases o
  · exact ⟨x, rfl, le_refl _⟩
  · exact ⟨_, rfl, min_le_right _ _⟩

theorem minO_old {o : Option K} {x y : K} (h : Below o x) : Below (minO o y) x := by
  obtain ⟨m, rfl, h⟩ := h
  exact ⟨_, rfl, (min_le_left _ _).trans h⟩

theorem rd_ptAt {l : List (Pt K)} {i : Nat} {a : Pt K} (h : rd l i = some a) : a = ptAt l i := by
  have h : l[i]? = some a := h
  simp [ptAt, List.getD_eq_getElem?_getD, h]

theorem dMinY_le {d : Dims} {surf : List (Pt K)} {o : Option K} (h : dMinY d surf = some o) {j : Nat} (hj : j < d.nyC - 1) :
    Below o ((ptAt surf ((j + 1) * d.ref)).2.1 - (ptAt surf j).2.1) := by
  unfold dMinY at h
  refine forN_post (fun k (o : Option K) => ∀ j < k, Below o ((ptAt surf ((j + 1) * d.ref)).2.1 - (ptAt surf j).2.1))
    (fun j hj => by omega) ?_ h j hj
  intro k o o' hk ih hb j hj
  simp only [Option.bind_eq_bind, Option.bind_eq_some_iff, pure, Option.some.injEq] at hb
  obtain ⟨a, ha, b, hb', rfl⟩ := hb
  rw [rd_ptAt ha, rd_ptAt hb']
  rcases Nat.lt_succ_iff_lt_or_eq.1 hj with hj | rfl
  · exact minO_old (ih j hj)
  · exact minO_new _ _

theorem foldMin_le {f g : Nat → Nat} {surf : List (Pt K)} : ∀ (vs : List Nat) {o o' : Option K},
    vs.foldlM (fun o ve => do
      let a ← rd surf (f ve)
      let b ← rd surf (g ve)
      return minO o (a.1 - b.1)) o = some o' →
    (∀ x, Below o x → Below o' x) ∧ ∀ v ∈ vs, Below o' ((ptAt surf (f v)).1 - (ptAt surf (g v)).1)
  | [], o, o', h => by
    simp at h; subst h; simp
  | v :: vs, o, o', h => by
    rw [List.foldlM_cons] at h
    simp only [Option.bind_eq_bind, Option.bind_eq_some_iff, pure, Option.some.injEq] at h
    obtain ⟨o1, ⟨a, ha, b, hb, rfl⟩, h⟩ := h
    obtain ⟨i1, i2⟩ := foldMin_le vs h
    rw [rd_ptAt ha, rd_ptAt hb] at i1
    refine ⟨fun x hx => i1 x (minO_old hx), fun w hw => ?_⟩
    rcases List.mem_cons.1 hw with rfl | hw
    · exact i1 _ (minO_new _ _)
    · exact i2 w hw

theorem dMinX_le {n kx ky : Nat} {d : Dims} {surf : List (Pt K)} {o : Option K} (hd : DimsOk n surf d kx ky)
    (h : dMinX d surf = some o) {i : Nat} (hi : i < kx) :
    Below o ((co surf n d.ny (i + 1) 0).1 - (co surf n d.ny i 0).1) := by
  have hp : 0 < 2 ^ n := Nat.pow_pos (by decide)
  have hny : 0 < d.ny := by rw [hd.ny]; omega
  unfold dMinX at h
  simp only [Option.bind_eq_bind, Option.bind_eq_some_iff] at h
  obtain ⟨m, h1, vs, h2, h3⟩ := h
  obtain ⟨_, i2⟩ := foldMin_le _ h3
  obtain ⟨q, rfl⟩ : ∃ q, kx = q + 1 := ⟨kx - 1, by omega⟩
  have em : m = 1 + q * 2 ^ n := by
    unfold sub at h1
    split at h1
    · injection h1 with h1
      rw [← h1, hd.nx, hd.ref, Nat.add_mul]; omega
    · cases h1
  have hv : vs = (List.range (q + 1)).map (fun i => i * (d.ny * 2 ^ n)) := by
    rw [hd.ref, em, steps_cover (k := q) (Nat.mul_pos hny hp)] at h2
    · injection h2 with h2; exact h2.symm
    · calc q * (d.ny * 2 ^ n) = q * 2 ^ n * d.ny := by ring
        _ < _ := Nat.mul_lt_mul_of_pos_right (by omega) hny
    · calc (1 + q * 2 ^ n) * d.ny ≤ (q * 2 ^ n + 2 ^ n) * d.ny := Nat.mul_le_mul_right _ (by omega)
        _ = (q + 1) * (d.ny * 2 ^ n) := by ring
  have := i2 (i * (d.ny * 2 ^ n)) (by rw [hv]; exact List.mem_map.2 ⟨i, List.mem_range.2 hi, rfl⟩)
  rw [hd.ref] at this
  unfold co
  have e1 : (i + 1) * 2 ^ n * d.ny + 0 * 2 ^ n = i * (d.ny * 2 ^ n) + d.ny * 2 ^ n := by ring
  have e2 : i * 2 ^ n * d.ny + 0 * 2 ^ n = i * (d.ny * 2 ^ n) := by ring
  rw [e1, e2]; exact this

theorem nSteps_lt [FloorSemiring K] [IsStrictOrderedRing K] {zT zM x : K} {dx dy : Option K} {N : Nat}
    (h : nSteps zT zM dx dy = some N) (hx : Below dx x ∨ Below dy x) : (zM - zT) / (N : K) < x := by
  have hN := nSteps_pos h
  have hNK : (0 : K) < N := by exact_mod_cast hN
  have key : ∀ m : K, 0 < m → m ≤ x → N = ⌊(zM - zT) / m⌋₊ + 1 → (zM - zT) / (N : K) < x := by
    intro m hm hmx e
    refine lt_of_lt_of_le ?_ hmx
    have := Nat.lt_floor_add_one ((zM - zT) / m)
    rw [div_lt_iff₀ hm] at this
    rw [div_lt_iff₀ hNK, e]
    push_cast
    linarith
  unfold nSteps at h
  cases dx with
  | none =>
    cases dy with
    | none => rcases hx with ⟨_, h, _⟩ | ⟨_, h, _⟩ <;> cases h
    | some b =>
      simp only [Option.bind_eq_bind, Option.bind_eq_some_iff, check_some, decide_eq_true_eq, pure, Option.some.injEq] at h
      obtain ⟨_, _, _, hb, h⟩ := h
      rcases hx with ⟨_, h', _⟩ | ⟨_, h', hx⟩
      · cases h'
      · injection h' with h'; subst h'
        exact key _ hb hx h.symm
  | some a =>
    cases dy with
    | none =>
      simp only [Option.bind_eq_bind, Option.bind_eq_some_iff, check_some, decide_eq_true_eq, pure, Option.some.injEq] at h
      obtain ⟨_, _, _, hb, h⟩ := h
      rcases hx with ⟨_, h', hx⟩ | ⟨_, h', hx⟩
      · injection h' with h'; subst h'
        exact key _ hb hx h.symm
      · cases h'
    | some b =>
      simp only [Option.bind_eq_bind, Option.bind_eq_some_iff, check_some, decide_eq_true_eq, pure, Option.some.injEq] at h
      obtain ⟨_, _, _, hb, h⟩ := h
      refine key _ hb ?_ h.symm
      rcases hx with ⟨_, h', hx⟩ | ⟨_, h', hx⟩
      · injection h' with h'; subst h'
        exact (min_le_left _ _).trans hx
      · injection h' with h'; subst h'
        exact (min_le_right _ _).trans hx

theorem zMax_ge {surf : List (Pt K)} {zM : K} (h : zMax surf = some zM) : ∀ p ∈ surf, p.2.2 ≤ zM := by
  unfold zMax at h
  have key : ∀ (l : List (Pt K)) (o : Option K) (z : K),
      l.foldl (fun o p => some (match o with | none => p.2.2 | some m => max m p.2.2)) o = some z →
      (∀ m, o = some m → m ≤ z) ∧ ∀ p ∈ l, p.2.2 ≤ z := by
    intro l
    induction l with
    | nil => intro o z h; simp at h; subst h; simp
    | cons p l ih =>
      intro o z h
      rw [List.foldl_cons] at h
      obtain ⟨i1, i2⟩ := ih _ _ h
      have i1 := i1 _ rfl
      cases o with
      | none => exact ⟨by simp, fun q hq => by rcases List.mem_cons.1 hq with rfl | hq; exacts [i1, i2 q hq]⟩
      | some m =>
        refine ⟨fun m' hm' => ?_, fun q hq => ?_⟩
        · injection hm' with hm'; subst hm'; exact (le_max_left _ _).trans i1
        · rcases List.mem_cons.1 hq with rfl | hq
          · exact (le_max_right _ _).trans i1
          · exact i2 q hq
  exact (key surf none zM h).2

/-- Distance in depth between consecutive points below `p` with `N` steps. -/
def gap (N : Nat) (zT : K) (p : Pt K) : K := (p.2.2 - zT) / (N : K)

theorem low_gap (N : Nat) (zT : K) (st : Nat) (p : Pt K) :
    (low N zT st p).2.2 - (low N zT (st + 1) p).2.2 = gap N zT p := by
  unfold low gap; push_cast; ring

/-- **C82 (partial).** The written sides have `N` steps in depth, and consecutive points below any point of the surface are closer
than any two neighbouring coarse points of the first row of the grid in the x-direction; without refinement also those in the
y-direction. Missing: y-direction with refinement (`C82_refuted`). -/
theorem C82_depth_partial [FloorSemiring K] [IsStrictOrderedRing K] {n : Nat} {eps zT : K} {pts : List (Pt K)} {d : Dims} {F : Files K}
    (h : extrude pts zT n eps = some F) (hd : dims eps n (pts.insertionSort ptLe) = some d) :
    ∃ N, 0 < N ∧ F.left.pts.length = (N + 1) * d.nyC ∧ F.front.pts.length = (N + 1) * d.nxC ∧ ∀ p ∈ pts,
      (∀ i, i + 1 < d.nxC → gap N zT p <
        (ptAt (pts.insertionSort ptLe) ((i + 1) * 2 ^ n * d.ny)).1 - (ptAt (pts.insertionSort ptLe) (i * 2 ^ n * d.ny)).1) ∧
      (n = 0 → ∀ j, j + 1 < d.nyC → gap N zT p <
        (ptAt (pts.insertionSort ptLe) (j + 1)).2.1 - (ptAt (pts.insertionSort ptLe) j).2.1) := by
  unfold extrude at h
  simp only [Option.bind_eq_bind, Option.bind_eq_some_iff] at h
  obtain ⟨d', hd', dy, hdy, dx, hdx, zM, hz, N, hN, hw⟩ := h
  rw [hd] at hd'; injection hd' with hd'; subst hd'
  obtain ⟨kx, ky, hk⟩ := dims_ok hd
  have hNp := nSteps_pos hN
  have hNK : (0 : K) < N := by exact_mod_cast hNp
  obtain ⟨b, hb, lf, lb, ll, lr, _⟩ := bounds_eq hk
  have hF : F.left.pts.length = (N + 1) * d.nyC ∧ F.front.pts.length = (N + 1) * d.nxC := by
    unfold writeOff sideFile at hw
    simp only [hb, Option.bind_eq_bind, Option.bind_eq_some_iff, pure, Option.some.injEq] at hw
    obtain ⟨_, rfl, L, ⟨_, _, rfl⟩, R, _, Fr, ⟨_, _, rfl⟩, _, _, _, _, _, _, _, _, rfl⟩ := hw
    simp only [addSide_length, ll, lf, hk.nxC, hk.nyC, and_self]
  refine ⟨N, hNp, hF.1, hF.2, fun p hp => ?_⟩
  have hle : gap N zT p ≤ (zM - zT) / (N : K) := by
    unfold gap
    have := zMax_ge hz p ((List.mem_insertionSort ptLe).2 hp)
    exact div_le_div_of_nonneg_right (by linarith) hNK.le
  refine ⟨fun i hi => ?_, fun h0 j hj => ?_⟩
  · have := nSteps_lt hN (Or.inl (dMinX_le hk hdx (i := i) (by rw [hk.nxC] at hi; omega)))
    unfold co at this
    simp only [Nat.zero_mul, Nat.add_zero] at this
    exact lt_of_le_of_lt hle this
  · subst h0
    have := nSteps_lt hN (Or.inr (dMinY_le hdy (j := j) (by omega)))
    rw [hk.ref] at this
    simp only [Nat.pow_zero, Nat.mul_one] at this
    exact lt_of_le_of_lt hle this

end

/-! ### Refinement -/

/-- Flat surface whose points are not equidistant in y-direction. -/
def exUneven : List (Pt ℚ) :=
  (List.range 5).flatMap (fun (i : Nat) => [0, 40, 80, 81, 82].map (fun (y : ℚ) => ((100 * (i : ℚ)), y, (0 : ℚ))))

/-- **C82 (refuted with refinement).** With one level of refinement the depth of 84 is covered by three steps of 28
although the coarse grid has points with a distance of 2 in the y-direction. -/
theorem C82_refuted : ∃ F, extrude exUneven (-84) 1 (1 / 10) = some F ∧ F.left.pts.map (fun p => (p.2.1, p.2.2)) =
    [(82, 0), (80, 0), (0, 0), (82, -28), (80, -28), (0, -28), (82, -56), (80, -56), (0, -56), (82, -84), (80, -84), (0, -84)] := by
  refine ⟨(extrude exUneven (-84) 1 (1 / 10)).get (by decide +kernel), by simp, by decide +kernel⟩

example : (extrude (exPts 5 7) (-3) 0 (1 / 10)).map (fun F => (F.left.pts.length, F.front.pts.length)) = some (49, 35) := by
  decide +kernel

end Edge.Cut
