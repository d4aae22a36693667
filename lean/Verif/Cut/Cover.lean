import Verif.Cut.Tiling
import Mathlib.Algebra.Order.Field.Rat
import Mathlib.Tactic.NormNum
/-!
C41: the surfaces are triangulations of the grid.
-/
namespace Edge.Cut
open Edge

section
variable {K : Type} [Field K] [LinearOrder K] [IsStrictOrderedRing K]

theorem tiles_level {mx my b h : Nat} (hh : 0 < h) {inner : List GTri}
    (hi : Tiles K inner ⟨b + 2 * h, b + (mx + 1) * (2 * h), b + 2 * h, b + (my + 1) * (2 * h)⟩) :
    Tiles K (cLevel mx my b h ++ inner) ⟨b, b + (mx + 2) * (2 * h), b, b + (my + 2) * (2 * h)⟩ := by
  have h2 : 0 < 2 * h := by omega
  have ex1 : b + (mx + 1) * (2 * h) = b + 2 * h + mx * (2 * h) := by ring
  have ex2 : b + (mx + 2) * (2 * h) = b + (mx + 1) * (2 * h) + 2 * h := by ring
  have ey1 : b + (my + 1) * (2 * h) = b + 2 * h + my * (2 * h) := by ring
  have ey2 : b + (my + 2) * (2 * h) = b + (my + 1) * (2 * h) + 2 * h := by ring
  -- left column
  have l1 : Tiles K ((List.range my).flatMap (fun i => cCr b (b + (i + 1) * (2 * h)) h))
      ⟨b, b + 2 * h, b + 2 * h, b + (my + 1) * (2 * h)⟩ := by
    rw [ey1]
    refine Tiles.strip_y my fun i _ => ?_
    have := tiles_Cr (K := K) (x := b) (y := b + 2 * h + i * (2 * h)) hh
    convert this using 2 <;> ring
  have l2 := ((tiles_BlTr (K := K) (x := b) (y := b) h2).append_y l1 (by omega) (by omega)).append_y
    (tiles_BrTl (K := K) (x := b) (y := b + (my + 1) * (2 * h)) h2) (by omega) (by omega)
  -- right column
  have r1 : Tiles K ((List.range my).flatMap (fun i => cCl (b + (mx + 1) * (2 * h)) (b + (i + 1) * (2 * h)) h))
      ⟨b + (mx + 1) * (2 * h), b + (mx + 1) * (2 * h) + 2 * h, b + 2 * h, b + (my + 1) * (2 * h)⟩ := by
    rw [ey1]
    refine Tiles.strip_y my fun i _ => ?_
    have := tiles_Cl (K := K) (x := b + (mx + 1) * (2 * h)) (y := b + 2 * h + i * (2 * h)) hh
    convert this using 2 <;> ring
  have r2 := ((tiles_BrTl (K := K) (x := b + (mx + 1) * (2 * h)) (y := b) h2).append_y r1 (by omega) (by omega)).append_y
    (tiles_BlTr (K := K) (x := b + (mx + 1) * (2 * h)) (y := b + (my + 1) * (2 * h)) h2) (by omega) (by omega)
  -- middle column
  have m1 : Tiles K ((List.range mx).flatMap (fun i => cCt (b + (i + 1) * (2 * h)) b h))
      ⟨b + 2 * h, b + (mx + 1) * (2 * h), b, b + 2 * h⟩ := by
    rw [ex1]
    refine Tiles.strip_x mx fun i _ => ?_
    have := tiles_Ct (K := K) (x := b + 2 * h + i * (2 * h)) (y := b) hh
    convert this using 2 <;> ring
  have m2 : Tiles K ((List.range mx).flatMap (fun i => cCb (b + (i + 1) * (2 * h)) (b + (my + 1) * (2 * h)) h))
      ⟨b + 2 * h, b + (mx + 1) * (2 * h), b + (my + 1) * (2 * h), b + (my + 1) * (2 * h) + 2 * h⟩ := by
    rw [ex1]
    refine Tiles.strip_x mx fun i _ => ?_
    have := tiles_Cb (K := K) (x := b + 2 * h + i * (2 * h)) (y := b + (my + 1) * (2 * h)) hh
    convert this using 2 <;> ring
  have m3 := (m1.append_y hi (by omega) (by omega)).append_y m2 (by omega) (by omega)
  have all := (l2.append_x m3 (by omega) (by omega)).append_x r2 (by omega) (by omega)
  rw [ex2, ey2]
  refine all.perm ?_
  unfold cLevel
  rw [List.perm_iff_count]
  intro t
  simp only [List.count_append]
  omega

theorem tiles_inner {kx ky b : Nat} : Tiles K (cInner kx ky b) ⟨b, b + kx, b, b + ky⟩ := by
  unfold cInner
  have := Tiles.strip_x (K := K) (x := b) (y0 := b) (y1 := b + ky) (s := 1)
    (f := fun i => (List.range ky).flatMap (fun j => cBlTr (b + i) (b + j) 1)) kx (fun i _ => by
      have := Tiles.strip_y (K := K) (x0 := b + i * 1) (x1 := b + (i + 1) * 1) (y := b) (s := 1)
        (f := fun j => cBlTr (b + i) (b + j) 1) ky (fun j _ => by
          have := tiles_BlTr (K := K) (x := b + i) (y := b + j) (s := 1) (by decide)
          convert this using 2 <;> ring)
      simpa using this)
  simpa using this

theorem tiles_levels : ∀ {n kx ky b : Nat}, Fits n kx → Fits n ky →
    Tiles K (cLevels n kx ky b) ⟨b, b + kx * 2 ^ n, b, b + ky * 2 ^ n⟩
  | 0, kx, ky, b, _, _ => by simpa [cLevels] using tiles_inner (K := K)
  | n + 1, kx, ky, b, fx, fy => by
    obtain ⟨mx, rfl⟩ := Nat.exists_eq_add_of_le' fx.two
    obtain ⟨my, rfl⟩ := Nat.exists_eq_add_of_le' fy.two
    have ex : mx + 2 - 2 = mx := by omega
    have ey : my + 2 - 2 = my := by omega
    have ih := tiles_levels (n := n) (b := b + 2 ^ (n + 1)) fx.next fy.next
    simp only [ex, ey] at ih
    have := tiles_level (K := K) (mx := mx) (my := my) (b := b) (h := 2 ^ n) (Nat.pow_pos (by decide))
      (inner := cLevels n (2 * mx) (2 * my) (b + 2 ^ (n + 1))) (by convert ih using 2 <;> ring)
    show Tiles K (cLevel (mx + 2 - 2) (my + 2 - 2) b (2 ^ n) ++
      cLevels n (2 * (mx + 2 - 2)) (2 * (my + 2 - 2)) (b + 2 ^ (n + 1))) _
    rw [ex, ey]
    convert this using 2 <;> ring

end

/-! ### Vertices -/

/-- All corners are in the rectangle, the corners are counter-clockwise. -/
def GTri.ok (x0 x1 y0 y1 : Nat) (t : GTri) : Prop :=
  (∀ g ∈ [t.1, t.2.1, t.2.2], x0 ≤ g.1 ∧ g.1 ≤ x1 ∧ y0 ≤ g.2 ∧ g.2 ≤ y1) ∧
    0 < orient (gp ℚ t.1) (gp ℚ t.2.1) (gp ℚ t.2.2)

theorem GTri.ok.mono {x0 x1 y0 y1 u0 u1 v0 v1 : Nat} {t : GTri} (h : GTri.ok x0 x1 y0 y1 t) (hx0 : u0 ≤ x0) (hx1 : x1 ≤ u1)
    (hy0 : v0 ≤ y0) (hy1 : y1 ≤ v1) : GTri.ok u0 u1 v0 v1 t :=
  ⟨fun g hg => by obtain ⟨a, b, c, d⟩ := h.1 g hg; exact ⟨by omega, by omega, by omega, by omega⟩, h.2⟩

theorem ok_BlTr {x y s : Nat} (hs : 0 < s) : ∀ t ∈ cBlTr x y s, GTri.ok x (x + s) y (y + s) t := by
  have hk : (0 : ℚ) < s := by exact_mod_cast hs
  simp only [cBlTr, List.mem_cons, List.not_mem_nil, or_false]
  rintro t (rfl | rfl) <;> refine ⟨?_, ?_⟩ <;> simp [orient, gp] <;> nlinarith

theorem ok_BrTl {x y s : Nat} (hs : 0 < s) : ∀ t ∈ cBrTl x y s, GTri.ok x (x + s) y (y + s) t := by
  have hk : (0 : ℚ) < s := by exact_mod_cast hs
  simp only [cBrTl, List.mem_cons, List.not_mem_nil, or_false]
  rintro t (rfl | rfl) <;> refine ⟨?_, ?_⟩ <;> simp [orient, gp] <;> nlinarith

theorem ok_cells {x y h : Nat} (hs : 0 < h) : ∀ t ∈ cCr x y h ++ cCl x y h ++ cCt x y h ++ cCb x y h,
    GTri.ok x (x + 2 * h) y (y + 2 * h) t := by
  have hk : (0 : ℚ) < h := by exact_mod_cast hs
  intro t ht
  simp only [cCr, cCl, cCt, cCb, List.mem_append, List.mem_cons, List.not_mem_nil, or_false] at ht
  rcases ht with (((rfl | rfl | rfl) | (rfl | rfl | rfl)) | (rfl | rfl | rfl)) | (rfl | rfl | rfl) <;> refine ⟨?_, ?_⟩ <;>
    first
    | (simp only [List.mem_cons, List.not_mem_nil, or_false]; rintro g (rfl | rfl | rfl) <;> refine ⟨?_, ?_, ?_, ?_⟩ <;> simp <;> omega)
    | (simp only [orient, gp]; push_cast; nlinarith)

theorem ok_level {mx my b h : Nat} (hh : 0 < h) :
    ∀ t ∈ cLevel mx my b h, GTri.ok b (b + (mx + 2) * (2 * h)) b (b + (my + 2) * (2 * h)) t := by
  have h2 : 0 < 2 * h := by omega
  have ex1 : b + (mx + 1) * (2 * h) = b + 2 * h + mx * (2 * h) := by ring
  have ex2 : b + (mx + 2) * (2 * h) = b + (mx + 1) * (2 * h) + 2 * h := by ring
  have ey1 : b + (my + 1) * (2 * h) = b + 2 * h + my * (2 * h) := by ring
  have ey2 : b + (my + 2) * (2 * h) = b + (my + 1) * (2 * h) + 2 * h := by ring
  have hle : ∀ {i m : Nat}, i < m → (i + 1) * (2 * h) ≤ m * (2 * h) := fun hi => Nat.mul_le_mul_right _ (by omega)
  have cs := fun {x y : Nat} (t : GTri) (H : t ∈ cCr x y h ++ cCl x y h ++ cCt x y h ++ cCb x y h) => ok_cells hh t H
  intro t ht
  unfold cLevel at ht
  simp only [List.mem_append, List.mem_flatMap, List.mem_range] at ht
  rcases ht with ht | ht | ht | ht | ⟨i, hi, ht⟩ | ⟨i, hi, ht⟩ | ⟨i, hi, ht⟩ | ⟨i, hi, ht⟩
  · exact (ok_BlTr h2 t ht).mono (by omega) (by omega) (by omega) (by omega)
  · exact (ok_BrTl h2 t ht).mono (by omega) (by omega) (by omega) (by omega)
  · exact (ok_BrTl h2 t ht).mono (by omega) (by omega) (by omega) (by omega)
  · exact (ok_BlTr h2 t ht).mono (by omega) (by omega) (by omega) (by omega)
  · have := hle hi
    exact (cs (x := b) (y := b + (i + 1) * (2 * h)) t (by simp [ht])).mono (by omega) (by omega) (by omega) (by omega)
  · have := hle hi
    exact (cs (x := b + (mx + 1) * (2 * h)) (y := b + (i + 1) * (2 * h)) t (by simp [ht])).mono (by omega) (by omega) (by omega)
      (by omega)
  · have := hle hi
    exact (cs (x := b + (i + 1) * (2 * h)) (y := b) t (by simp [ht])).mono (by omega) (by omega) (by omega) (by omega)
  · have := hle hi
    exact (cs (x := b + (i + 1) * (2 * h)) (y := b + (my + 1) * (2 * h)) t (by simp [ht])).mono (by omega) (by omega) (by omega)
      (by omega)

theorem ok_levels : ∀ {n kx ky b : Nat}, Fits n kx → Fits n ky →
    ∀ t ∈ cLevels n kx ky b, GTri.ok b (b + kx * 2 ^ n) b (b + ky * 2 ^ n) t
  | 0, kx, ky, b, _, _ => by
    intro t ht
    simp only [cLevels, cInner, List.mem_flatMap, List.mem_range] at ht
    obtain ⟨i, hi, j, hj, ht⟩ := ht
    exact (ok_BlTr (by decide) t ht).mono (by omega) (by omega) (by omega) (by omega)
  | n + 1, kx, ky, b, fx, fy => by
    obtain ⟨mx, rfl⟩ := Nat.exists_eq_add_of_le' fx.two
    obtain ⟨my, rfl⟩ := Nat.exists_eq_add_of_le' fy.two
    have ex : mx + 2 - 2 = mx := by omega
    have ey : my + 2 - 2 = my := by omega
    have ih := ok_levels (n := n) (b := b + 2 ^ (n + 1)) fx.next fy.next
    simp only [ex, ey] at ih
    have e : ∀ m, (m + 2) * 2 ^ (n + 1) = (m + 2) * (2 * 2 ^ n) := fun m => by ring
    have e' : ∀ m, (m + 2) * (2 * 2 ^ n) = 2 * 2 ^ (n + 1) + 2 * m * 2 ^ n := fun m => by ring
    intro t ht
    unfold cLevels at ht
    rw [ex, ey, List.mem_append] at ht
    rcases ht with ht | ht
    · have := ok_level (Nat.pow_pos (by decide)) t ht
      rw [e, e]; exact this
    · have a := e' mx
      have b' := e' my
      exact (ih t ht).mono (by omega) (by rw [e]; omega) (by omega) (by rw [e]; omega)

/-! ### Properties -/

/-- Position of a vertex in the grid: the vertices are numbered column by column. -/
def pos (K : Type) [Field K] (ny v : Nat) : K × K := (((v / ny : Nat) : K), ((v % ny : Nat) : K))

theorem fits_of {n nx : Nat} (hx : (nx - 1) % 2 ^ n = 0) (hs : 4 * 2 ^ n ≤ nx + 3) (h0 : 0 < nx) :
    nx = 1 + (nx - 1) / 2 ^ n * 2 ^ n ∧ Fits n ((nx - 1) / 2 ^ n) := by
  have := Nat.div_add_mod (nx - 1) (2 ^ n)
  rw [hx, Nat.mul_comm] at this
  refine ⟨by omega, ?_⟩
  unfold Fits
  rw [Nat.mul_comm (2 ^ n)]
  omega

section
variable {K : Type} [Field K] [LinearOrder K] [IsStrictOrderedRing K]

theorem pos_enc {ny : Nat} {g : G} (h : g.2 < ny) : pos K ny (enc ny g) = gp K g := by
  unfold pos enc gp
  have hn : 0 < ny := by omega
  rw [Nat.add_comm, Nat.add_mul_div_right _ _ hn, Nat.div_eq_of_lt h, Nat.add_mul_mod_self_right, Nat.mod_eq_of_lt h, Nat.zero_add]

/-- C41: the surface of a grid with `n` coarsening levels. The number of cells in each dimension has to be a multiple of `2 ^ n` and
at least `4 * (2 ^ n - 1)`. Then all vertices exist, the reported number of triangles is the number of written ones, all triangles are
counter-clockwise, every point of the grid's area is in a triangle, and no point is inside of two triangles. -/
theorem C41_triangulation {n nx ny : Nat} (hx0 : 0 < nx) (hy0 : 0 < ny) (hx : (nx - 1) % 2 ^ n = 0) (hy : (ny - 1) % 2 ^ n = 0)
    (hsx : 4 * 2 ^ n ≤ nx + 3) (hsy : 4 * 2 ^ n ≤ ny + 3) :
    ∃ o, writeTria nx ny n = some o ∧ o.n = o.ts.length ∧
      (∀ t ∈ o.ts, t.1 < nx * ny ∧ t.2.1 < nx * ny ∧ t.2.2 < nx * ny ∧
        0 < orient (pos ℚ ny t.1) (pos ℚ ny t.2.1) (pos ℚ ny t.2.2)) ∧
      (∀ p : K × K, 1 < nx → 1 < ny → 0 ≤ p.1 → p.1 ≤ ((nx - 1 : Nat) : K) → 0 ≤ p.2 → p.2 ≤ ((ny - 1 : Nat) : K) →
        ∃ t ∈ o.ts, InTri (pos K ny t.1) (pos K ny t.2.1) (pos K ny t.2.2) p) ∧
      o.ts.Pairwise (fun t u => ∀ p : K × K, ¬ (Inside (pos K ny t.1) (pos K ny t.2.1) (pos K ny t.2.2) p ∧
        Inside (pos K ny u.1) (pos K ny u.2.1) (pos K ny u.2.2) p)) := by
  obtain ⟨ex, fx⟩ := fits_of hx hsx hx0
  obtain ⟨ey, fy⟩ := fits_of hy hsy hy0
  obtain ⟨o, h1, h2, h3⟩ := writeTria_eq ex ey fx fy
  have ok := ok_levels (b := 0) fx fy
  have tl := tiles_levels (K := K) (b := 0) fx fy
  rw [Nat.zero_add, Nat.zero_add] at tl
  have wx : (nx - 1) / 2 ^ n * 2 ^ n = nx - 1 := by omega
  have wy : (ny - 1) / 2 ^ n * 2 ^ n = ny - 1 := by omega
  rw [wx, wy] at tl
  have ok' : ∀ t ∈ cLevels n ((nx - 1) / 2 ^ n) ((ny - 1) / 2 ^ n) 0, ∀ g ∈ [t.1, t.2.1, t.2.2], g.1 < nx ∧ g.2 < ny := by
    intro t ht g hg
    obtain ⟨_, b, _, d⟩ := (ok t ht).1 g hg
    omega
  have po : ∀ (L : Type) [Field L] [LinearOrder L] [IsStrictOrderedRing L],
      ∀ t ∈ cLevels n ((nx - 1) / 2 ^ n) ((ny - 1) / 2 ^ n) 0,
      pos L ny (encT ny t).1 = gp L t.1 ∧ pos L ny (encT ny t).2.1 = gp L t.2.1 ∧ pos L ny (encT ny t).2.2 = gp L t.2.2 := by
    intro L _ _ _ t ht
    exact ⟨pos_enc (ok' t ht _ (by simp)).2, pos_enc (ok' t ht _ (by simp)).2, pos_enc (ok' t ht _ (by simp)).2⟩
  have el : ∀ {g : G}, g.1 < nx → g.2 < ny → enc ny g < nx * ny := by
    intro g a b
    calc g.1 * ny + g.2 < g.1 * ny + ny := by omega
      _ = (g.1 + 1) * ny := by ring
      _ ≤ nx * ny := Nat.mul_le_mul_right _ a
  refine ⟨o, h1, by rw [h3, h2, List.length_map], ?_, ?_, ?_⟩
  · rw [h2]
    intro t ht
    obtain ⟨u, hu, rfl⟩ := List.mem_map.1 ht
    obtain ⟨p1, p2, p3⟩ := po ℚ u hu
    rw [p1, p2, p3]
    have b := ok' u hu
    exact ⟨el (b _ (by simp)).1 (b _ (by simp)).2, el (b _ (by simp)).1 (b _ (by simp)).2,
      el (b _ (by simp)).1 (b _ (by simp)).2, (ok u hu).2⟩
  · intro p n1 n2 c1 c2 c3 c4
    obtain ⟨t, ht, hp⟩ := tl.cover p ⟨by show 0 < nx - 1; omega, by show 0 < ny - 1; omega, by simpa using c1, c2, by simpa using c3, c4⟩
    obtain ⟨p1, p2, p3⟩ := po K t ht
    refine ⟨encT ny t, by rw [h2]; exact List.mem_map_of_mem ht, ?_⟩
    rw [p1, p2, p3]; exact hp
  · rw [h2, List.pairwise_map]
    refine tl.disj.imp_of_mem ?_
    intro t u ht hu hd p
    obtain ⟨p1, p2, p3⟩ := po K t ht
    obtain ⟨q1, q2, q3⟩ := po K u hu
    rw [p1, p2, p3, q1, q2, q3]
    exact hd p

end

/-- The hypotheses are met by a grid with 17 x 21 vertices and two levels. -/
example : ∃ o, writeTria 17 21 2 = some o ∧ o.n = 146 ∧ o.ts.length = 146 := by
  obtain ⟨o, h, _⟩ := C41_triangulation (K := ℚ) (n := 2) (nx := 17) (ny := 21) (by decide) (by decide) (by decide) (by decide)
    (by decide) (by decide)
  refine ⟨o, h, ?_⟩
  have : (writeTria 17 21 2).map (fun o => (o.n, o.ts.length)) = some (146, 146) := by decide +kernel
  rw [h] at this
  simpa using this

/-- C41: the constructor accepts grids which are too small for the number of levels; their triangles overlap. With 3 x 3 vertices
and one level the sizes are accepted, and a point is inside of two of the written triangles. -/
theorem C41_small_refuted :
    ∃ (surf : List (Pt ℚ)) (o : Out), surf.Pairwise ptLe ∧
      dims (1 / 1000) 1 surf = some { nx := 3, ny := 3, nxC := 2, nyC := 2, ref := 2 } ∧
      writeTria 3 3 1 = some o ∧
      ¬ o.ts.Pairwise (fun t u => ∀ p : ℚ × ℚ, ¬ (Inside (pos ℚ 3 t.1) (pos ℚ 3 t.2.1) (pos ℚ 3 t.2.2) p ∧
        Inside (pos ℚ 3 u.1) (pos ℚ 3 u.2.1) (pos ℚ 3 u.2.2) p)) := by
  refine ⟨[(0, 0, 0), (0, 1, 0), (0, 2, 0), (1, 0, 0), (1, 1, 0), (1, 2, 0), (2, 0, 0), (2, 1, 0), (2, 2, 0)],
    { ts := [(0, 6, 8), (0, 8, 2), (0, 6, 2), (6, 8, 2), (0, 6, 2), (6, 8, 2), (0, 6, 8), (0, 8, 2)], n := 8 },
    by decide +kernel, by decide +kernel, by decide +kernel, fun h => ?_⟩
  rw [List.pairwise_cons] at h
  have := h.1 (0, 6, 2) (by simp) (1, 1 / 2)
  refine this ⟨?_, ?_⟩ <;> unfold Inside orient pos <;> norm_num

end Edge.Cut
