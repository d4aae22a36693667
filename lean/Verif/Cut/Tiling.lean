import Verif.Cut.Cells
import Mathlib.Tactic.Positivity
import Mathlib.Algebra.Order.Ring.Cast
/-!
The triangles cover the grid area exactly once.
-/
namespace Edge.Cut
open Edge

section
variable {K : Type} [Field K] [LinearOrder K]

/-! ### Specification -/

/-- Twice the signed area of the triangle with the given corners; positive if they are ordered counter-clockwise. -/
def orient (a b c : K × K) : K := (b.1 - a.1) * (c.2 - a.2) - (b.2 - a.2) * (c.1 - a.1)

/-- Points of a triangle, with its boundary. -/
def InTri (a b c p : K × K) : Prop := 0 ≤ orient a b p ∧ 0 ≤ orient b c p ∧ 0 ≤ orient c a p

/-- Points of a triangle, without its boundary. -/
def Inside (a b c p : K × K) : Prop := 0 < orient a b p ∧ 0 < orient b c p ∧ 0 < orient c a p

/-! ### Tilings -/

variable (K) in
/-- Grid point as point of the plane. -/
def gp (g : G) : K × K := ((g.1 : K), (g.2 : K))

def GTri.mem (t : GTri) (p : K × K) : Prop := InTri (gp K t.1) (gp K t.2.1) (gp K t.2.2) p
def GTri.int (t : GTri) (p : K × K) : Prop := Inside (gp K t.1) (gp K t.2.1) (gp K t.2.2) p

/-- Rectangle `[x0, x1] x [y0, y1]`; without an extent it has no points. -/
structure Box where
  x0 : Nat
  x1 : Nat
  y0 : Nat
  y1 : Nat

def Box.mem (B : Box) (p : K × K) : Prop :=
  B.x0 < B.x1 ∧ B.y0 < B.y1 ∧ (B.x0 : K) ≤ p.1 ∧ p.1 ≤ (B.x1 : K) ∧ (B.y0 : K) ≤ p.2 ∧ p.2 ≤ (B.y1 : K)
def Box.int (B : Box) (p : K × K) : Prop :=
  (B.x0 : K) < p.1 ∧ p.1 < (B.x1 : K) ∧ (B.y0 : K) < p.2 ∧ p.2 < (B.y1 : K)

variable (K) in
/-- The triangles cover the rectangle, are inside of it and do not overlap. -/
structure Tiles (ts : List GTri) (B : Box) : Prop where
  cover : ∀ p : K × K, B.mem p → ∃ t ∈ ts, GTri.mem t p
  inside : ∀ t ∈ ts, ∀ p : K × K, GTri.int t p → B.int p
  disj : ts.Pairwise (fun t u => ∀ p : K × K, ¬ (GTri.int t p ∧ GTri.int u p))

theorem Tiles.perm {ts us : List GTri} {B : Box} (h : Tiles K ts B) (hp : ts.Perm us) : Tiles K us B := by
  refine ⟨fun p hb => ?_, fun t ht => h.inside t (hp.mem_iff.2 ht), ?_⟩
  · obtain ⟨t, ht, h1⟩ := h.cover p hb
    exact ⟨t, hp.mem_iff.1 ht, h1⟩
  · exact (hp.pairwise_iff (fun h p hh => h p hh.symm)).1 h.disj

theorem Tiles.nil_x {B : Box} (h : B.x1 ≤ B.x0) : Tiles K [] B :=
  ⟨fun p hb => by have := hb.1; omega, by simp, by simp⟩

theorem Tiles.nil_y {B : Box} (h : B.y1 ≤ B.y0) : Tiles K [] B :=
  ⟨fun p hb => by have := hb.2.1; omega, by simp, by simp⟩

section
variable [IsStrictOrderedRing K]

theorem Tiles.append_x {ts us : List GTri} {x0 x1 x2 y0 y1 : Nat} (h : Tiles K ts ⟨x0, x1, y0, y1⟩)
    (h' : Tiles K us ⟨x1, x2, y0, y1⟩) (h01 : x0 ≤ x1) (h12 : x1 ≤ x2) : Tiles K (ts ++ us) ⟨x0, x2, y0, y1⟩ := by
  have c01 : (x0 : K) ≤ x1 := by exact_mod_cast h01
  have c12 : (x1 : K) ≤ x2 := by exact_mod_cast h12
  refine ⟨?_, ?_, ?_⟩
  · rintro p ⟨b1, b2, b3, b4, b5, b6⟩
    simp only at b1 b2 b3 b4 b5 b6
    have key : (x0 < x1 ∧ p.1 ≤ x1) ∨ (x1 < x2 ∧ (x1 : K) ≤ p.1) := by
      rcases Nat.lt_or_ge x0 x1 with g | g
      · rcases Nat.lt_or_ge x1 x2 with g' | g'
        · rcases le_total p.1 (x1 : K) with g'' | g''
          · exact Or.inl ⟨g, g''⟩
          · exact Or.inr ⟨g', g''⟩
        · have : x1 = x2 := by omega
          subst this; exact Or.inl ⟨g, b4⟩
      · have : x1 = x0 := by omega
        subst this; exact Or.inr ⟨b1, b3⟩
    rcases key with ⟨g, g'⟩ | ⟨g, g'⟩
    · obtain ⟨t, ht, e⟩ := h.cover p ⟨g, b2, b3, g', b5, b6⟩
      exact ⟨t, List.mem_append_left _ ht, e⟩
    · obtain ⟨t, ht, e⟩ := h'.cover p ⟨g, b2, g', b4, b5, b6⟩
      exact ⟨t, List.mem_append_right _ ht, e⟩
  · intro t ht p hi
    rcases List.mem_append.1 ht with ht | ht
    · obtain ⟨a1, a2, a3, a4⟩ := h.inside t ht p hi
      exact ⟨a1, lt_of_lt_of_le a2 c12, a3, a4⟩
    · obtain ⟨a1, a2, a3, a4⟩ := h'.inside t ht p hi
      exact ⟨lt_of_le_of_lt c01 a1, a2, a3, a4⟩
  · rw [List.pairwise_append]
    refine ⟨h.disj, h'.disj, fun t ht u hu p hh => ?_⟩
    have a := (h.inside t ht p hh.1).2.1
    have b := (h'.inside u hu p hh.2).1
    exact absurd (lt_trans a b) (lt_irrefl _)

theorem Tiles.append_y {ts us : List GTri} {x0 x1 y0 y1 y2 : Nat} (h : Tiles K ts ⟨x0, x1, y0, y1⟩)
    (h' : Tiles K us ⟨x0, x1, y1, y2⟩) (h01 : y0 ≤ y1) (h12 : y1 ≤ y2) : Tiles K (ts ++ us) ⟨x0, x1, y0, y2⟩ := by
  have c01 : (y0 : K) ≤ y1 := by exact_mod_cast h01
  have c12 : (y1 : K) ≤ y2 := by exact_mod_cast h12
  refine ⟨?_, ?_, ?_⟩
  · rintro p ⟨b1, b2, b3, b4, b5, b6⟩
    simp only at b1 b2 b3 b4 b5 b6
    have key : (y0 < y1 ∧ p.2 ≤ y1) ∨ (y1 < y2 ∧ (y1 : K) ≤ p.2) := by
      rcases Nat.lt_or_ge y0 y1 with g | g
      · rcases Nat.lt_or_ge y1 y2 with g' | g'
        · rcases le_total p.2 (y1 : K) with g'' | g''
          · exact Or.inl ⟨g, g''⟩
          · exact Or.inr ⟨g', g''⟩
        · have : y1 = y2 := by omega
          subst this; exact Or.inl ⟨g, b6⟩
      · have : y1 = y0 := by omega
        subst this; exact Or.inr ⟨b2, b5⟩
    rcases key with ⟨g, g'⟩ | ⟨g, g'⟩
    · obtain ⟨t, ht, e⟩ := h.cover p ⟨b1, g, b3, b4, b5, g'⟩
      exact ⟨t, List.mem_append_left _ ht, e⟩
    · obtain ⟨t, ht, e⟩ := h'.cover p ⟨b1, g, b3, b4, g', b6⟩
      exact ⟨t, List.mem_append_right _ ht, e⟩
  · intro t ht p hi
    rcases List.mem_append.1 ht with ht | ht
    · obtain ⟨a1, a2, a3, a4⟩ := h.inside t ht p hi
      exact ⟨a1, a2, a3, lt_of_lt_of_le a4 c12⟩
    · obtain ⟨a1, a2, a3, a4⟩ := h'.inside t ht p hi
      exact ⟨a1, a2, lt_of_le_of_lt c01 a3, a4⟩
  · rw [List.pairwise_append]
    refine ⟨h.disj, h'.disj, fun t ht u hu p hh => ?_⟩
    have a := (h.inside t ht p hh.1).2.2.2
    have b := (h'.inside u hu p hh.2).2.2.1
    exact absurd (lt_trans a b) (lt_irrefl _)

theorem Tiles.strip_y {x0 x1 y s : Nat} {f : Nat → List GTri} :
    ∀ k, (∀ i < k, Tiles K (f i) ⟨x0, x1, y + i * s, y + (i + 1) * s⟩) →
      Tiles K ((List.range k).flatMap f) ⟨x0, x1, y, y + k * s⟩
  | 0, _ => Tiles.nil_y (by simp)
  | k + 1, h => by
    rw [List.range_succ, List.flatMap_append]
    refine (Tiles.strip_y k (fun i hi => h i (by omega))).append_y ?_ (by omega)
      (Nat.add_le_add_left (Nat.mul_le_mul_right _ (by omega)) _)
    simpa using h k (by omega)

theorem Tiles.strip_x {x y0 y1 s : Nat} {f : Nat → List GTri} :
    ∀ k, (∀ i < k, Tiles K (f i) ⟨x + i * s, x + (i + 1) * s, y0, y1⟩) →
      Tiles K ((List.range k).flatMap f) ⟨x, x + k * s, y0, y1⟩
  | 0, _ => Tiles.nil_x (by simp)
  | k + 1, h => by
    rw [List.range_succ, List.flatMap_append]
    refine (Tiles.strip_x k (fun i hi => h i (by omega))).append_x ?_ (by omega)
      (Nat.add_le_add_left (Nat.mul_le_mul_right _ (by omega)) _)
    simpa using h k (by omega)

/-! ### Cells -/

theorem tiles_two {A B : GTri} {R : Box} (hc : ∀ p : K × K, R.mem p → GTri.mem A p ∨ GTri.mem B p)
    (ia : ∀ p : K × K, GTri.int A p → R.int p) (ib : ∀ p : K × K, GTri.int B p → R.int p)
    (d : ∀ p : K × K, ¬ (GTri.int A p ∧ GTri.int B p)) : Tiles K [A, B] R := by
  refine ⟨fun p hp => ?_, ?_, ?_⟩
  · rcases hc p hp with h | h
    · exact ⟨A, by simp, h⟩
    · exact ⟨B, by simp, h⟩
  · simp only [List.mem_cons, List.not_mem_nil, or_false]
    rintro t (rfl | rfl)
    · exact ia
    · exact ib
  · simpa using d

theorem tiles_three {A B C : GTri} {R : Box} (hc : ∀ p : K × K, R.mem p → GTri.mem A p ∨ GTri.mem B p ∨ GTri.mem C p)
    (ia : ∀ p : K × K, GTri.int A p → R.int p) (ib : ∀ p : K × K, GTri.int B p → R.int p)
    (ic : ∀ p : K × K, GTri.int C p → R.int p)
    (dab : ∀ p : K × K, ¬ (GTri.int A p ∧ GTri.int B p)) (dac : ∀ p : K × K, ¬ (GTri.int A p ∧ GTri.int C p))
    (dbc : ∀ p : K × K, ¬ (GTri.int B p ∧ GTri.int C p)) : Tiles K [A, B, C] R := by
  refine ⟨fun p hp => ?_, ?_, ?_⟩
  · rcases hc p hp with h | h | h
    · exact ⟨A, by simp, h⟩
    · exact ⟨B, by simp, h⟩
    · exact ⟨C, by simp, h⟩
  · simp only [List.mem_cons, List.not_mem_nil, or_false]
    rintro t (rfl | rfl | rfl)
    · exact ia
    · exact ib
    · exact ic
  · simp only [List.pairwise_cons, List.mem_cons, List.not_mem_nil, or_false]
    refine ⟨?_, ?_, by simp, by simp⟩
    · rintro t (rfl | rfl)
      · exact dab
      · exact dac
    · rintro t rfl; exact dbc

theorem tiles_BlTr {x y s : Nat} (hs : 0 < s) : Tiles K (cBlTr x y s) ⟨x, x + s, y, y + s⟩ := by
  have hk : (0 : K) < s := by exact_mod_cast hs
  unfold cBlTr
  apply tiles_two
  · rintro ⟨u, v⟩ ⟨_, _, b3, b4, b5, b6⟩
    simp only [GTri.mem, InTri, orient, gp] at *
    push_cast at *
    rcases le_total (v - y) (u - x) with g | g
    · left; refine ⟨?_, ?_, ?_⟩ <;> nlinarith
    · right; refine ⟨?_, ?_, ?_⟩ <;> nlinarith
  · rintro ⟨u, v⟩ ⟨b1, b2, b3⟩
    simp only [Box.int, orient, gp] at *
    push_cast at *
    refine ⟨?_, ?_, ?_, ?_⟩ <;> nlinarith
  · rintro ⟨u, v⟩ ⟨b1, b2, b3⟩
    simp only [Box.int, orient, gp] at *
    push_cast at *
    refine ⟨?_, ?_, ?_, ?_⟩ <;> nlinarith
  · rintro ⟨u, v⟩ ⟨⟨b1, b2, b3⟩, c1, c2, c3⟩
    simp only [orient, gp] at *
    push_cast at *
    linarith

theorem tiles_BrTl {x y s : Nat} (hs : 0 < s) : Tiles K (cBrTl x y s) ⟨x, x + s, y, y + s⟩ := by
  have hk : (0 : K) < s := by exact_mod_cast hs
  unfold cBrTl
  apply tiles_two
  · rintro ⟨u, v⟩ ⟨_, _, b3, b4, b5, b6⟩
    simp only [GTri.mem, InTri, orient, gp] at *
    push_cast at *
    rcases le_total ((u - x) + (v - y)) s with g | g
    · left; refine ⟨?_, ?_, ?_⟩ <;> nlinarith
    · right; refine ⟨?_, ?_, ?_⟩ <;> nlinarith
  · rintro ⟨u, v⟩ ⟨b1, b2, b3⟩
    simp only [Box.int, orient, gp] at *
    push_cast at *
    refine ⟨?_, ?_, ?_, ?_⟩ <;> nlinarith
  · rintro ⟨u, v⟩ ⟨b1, b2, b3⟩
    simp only [Box.int, orient, gp] at *
    push_cast at *
    refine ⟨?_, ?_, ?_, ?_⟩ <;> nlinarith
  · rintro ⟨u, v⟩ ⟨⟨b1, b2, b3⟩, c1, c2, c3⟩
    simp only [orient, gp] at *
    push_cast at *
    linarith

theorem tiles_Cr {x y h : Nat} (hs : 0 < h) : Tiles K (cCr x y h) ⟨x, x + 2 * h, y, y + 2 * h⟩ := by
  have hk : (0 : K) < h := by exact_mod_cast hs
  unfold cCr
  apply tiles_three
  · rintro ⟨u, v⟩ ⟨_, _, b3, b4, b5, b6⟩
    simp only [GTri.mem, InTri, orient, gp] at *
    push_cast at *
    rcases le_total (2 * (v - y)) (u - x) with g | g
    · left; refine ⟨?_, ?_, ?_⟩ <;> nlinarith
    · rcases le_total (4 * (h : K)) ((u - x) + 2 * (v - y)) with g' | g'
      · right; right; refine ⟨?_, ?_, ?_⟩ <;> nlinarith
      · right; left; refine ⟨?_, ?_, ?_⟩ <;> nlinarith
  · rintro ⟨u, v⟩ ⟨b1, b2, b3⟩
    simp only [Box.int, orient, gp] at *
    push_cast at *
    refine ⟨?_, ?_, ?_, ?_⟩ <;> nlinarith
  · rintro ⟨u, v⟩ ⟨b1, b2, b3⟩
    simp only [Box.int, orient, gp] at *
    push_cast at *
    refine ⟨?_, ?_, ?_, ?_⟩ <;> nlinarith
  · rintro ⟨u, v⟩ ⟨b1, b2, b3⟩
    simp only [Box.int, orient, gp] at *
    push_cast at *
    refine ⟨?_, ?_, ?_, ?_⟩ <;> nlinarith
  · rintro ⟨u, v⟩ ⟨⟨b1, b2, b3⟩, c1, c2, c3⟩
    simp only [orient, gp] at *
    push_cast at *
    linarith
  · rintro ⟨u, v⟩ ⟨⟨b1, b2, b3⟩, c1, c2, c3⟩
    simp only [orient, gp] at *
    push_cast at *
    linarith
  · rintro ⟨u, v⟩ ⟨⟨b1, b2, b3⟩, c1, c2, c3⟩
    simp only [orient, gp] at *
    push_cast at *
    linarith

theorem tiles_Cl {x y h : Nat} (hs : 0 < h) : Tiles K (cCl x y h) ⟨x, x + 2 * h, y, y + 2 * h⟩ := by
  have hk : (0 : K) < h := by exact_mod_cast hs
  unfold cCl
  apply tiles_three
  · rintro ⟨u, v⟩ ⟨_, _, b3, b4, b5, b6⟩
    simp only [GTri.mem, InTri, orient, gp] at *
    push_cast at *
    rcases le_total ((u - x) + 2 * (v - y)) (2 * (h : K)) with g | g
    · left; refine ⟨?_, ?_, ?_⟩ <;> nlinarith
    · rcases le_total ((u - x) + 2 * (h : K)) (2 * (v - y)) with g' | g'
      · right; right; refine ⟨?_, ?_, ?_⟩ <;> nlinarith
      · right; left; refine ⟨?_, ?_, ?_⟩ <;> nlinarith
  · rintro ⟨u, v⟩ ⟨b1, b2, b3⟩
    simp only [Box.int, orient, gp] at *
    push_cast at *
    refine ⟨?_, ?_, ?_, ?_⟩ <;> nlinarith
  · rintro ⟨u, v⟩ ⟨b1, b2, b3⟩
    simp only [Box.int, orient, gp] at *
    push_cast at *
    refine ⟨?_, ?_, ?_, ?_⟩ <;> nlinarith
  · rintro ⟨u, v⟩ ⟨b1, b2, b3⟩
    simp only [Box.int, orient, gp] at *
    push_cast at *
    refine ⟨?_, ?_, ?_, ?_⟩ <;> nlinarith
  · rintro ⟨u, v⟩ ⟨⟨b1, b2, b3⟩, c1, c2, c3⟩
    simp only [orient, gp] at *
    push_cast at *
    linarith
  · rintro ⟨u, v⟩ ⟨⟨b1, b2, b3⟩, c1, c2, c3⟩
    simp only [orient, gp] at *
    push_cast at *
    linarith
  · rintro ⟨u, v⟩ ⟨⟨b1, b2, b3⟩, c1, c2, c3⟩
    simp only [orient, gp] at *
    push_cast at *
    linarith

theorem tiles_Ct {x y h : Nat} (hs : 0 < h) : Tiles K (cCt x y h) ⟨x, x + 2 * h, y, y + 2 * h⟩ := by
  have hk : (0 : K) < h := by exact_mod_cast hs
  unfold cCt
  apply tiles_three
  · rintro ⟨u, v⟩ ⟨_, _, b3, b4, b5, b6⟩
    simp only [GTri.mem, InTri, orient, gp] at *
    push_cast at *
    rcases le_total (2 * (u - x)) (v - y) with g | g
    · left; refine ⟨?_, ?_, ?_⟩ <;> nlinarith
    · rcases le_total (4 * (h : K)) (2 * (u - x) + (v - y)) with g' | g'
      · right; right; refine ⟨?_, ?_, ?_⟩ <;> nlinarith
      · right; left; refine ⟨?_, ?_, ?_⟩ <;> nlinarith
  · rintro ⟨u, v⟩ ⟨b1, b2, b3⟩
    simp only [Box.int, orient, gp] at *
    push_cast at *
    refine ⟨?_, ?_, ?_, ?_⟩ <;> nlinarith
  · rintro ⟨u, v⟩ ⟨b1, b2, b3⟩
    simp only [Box.int, orient, gp] at *
    push_cast at *
    refine ⟨?_, ?_, ?_, ?_⟩ <;> nlinarith
  · rintro ⟨u, v⟩ ⟨b1, b2, b3⟩
    simp only [Box.int, orient, gp] at *
    push_cast at *
    refine ⟨?_, ?_, ?_, ?_⟩ <;> nlinarith
  · rintro ⟨u, v⟩ ⟨⟨b1, b2, b3⟩, c1, c2, c3⟩
    simp only [orient, gp] at *
    push_cast at *
    linarith
  · rintro ⟨u, v⟩ ⟨⟨b1, b2, b3⟩, c1, c2, c3⟩
    simp only [orient, gp] at *
    push_cast at *
    linarith
  · rintro ⟨u, v⟩ ⟨⟨b1, b2, b3⟩, c1, c2, c3⟩
    simp only [orient, gp] at *
    push_cast at *
    linarith

theorem tiles_Cb {x y h : Nat} (hs : 0 < h) : Tiles K (cCb x y h) ⟨x, x + 2 * h, y, y + 2 * h⟩ := by
  have hk : (0 : K) < h := by exact_mod_cast hs
  unfold cCb
  apply tiles_three
  · rintro ⟨u, v⟩ ⟨_, _, b3, b4, b5, b6⟩
    simp only [GTri.mem, InTri, orient, gp] at *
    push_cast at *
    rcases le_total (2 * (u - x) + (v - y)) (2 * (h : K)) with g | g
    · left; refine ⟨?_, ?_, ?_⟩ <;> nlinarith
    · rcases le_total ((v - y) + 2 * (h : K)) (2 * (u - x)) with g' | g'
      · right; right; refine ⟨?_, ?_, ?_⟩ <;> nlinarith
      · right; left; refine ⟨?_, ?_, ?_⟩ <;> nlinarith
  · rintro ⟨u, v⟩ ⟨b1, b2, b3⟩
    simp only [Box.int, orient, gp] at *
    push_cast at *
    refine ⟨?_, ?_, ?_, ?_⟩ <;> nlinarith
  · rintro ⟨u, v⟩ ⟨b1, b2, b3⟩
    simp only [Box.int, orient, gp] at *
    push_cast at *
    refine ⟨?_, ?_, ?_, ?_⟩ <;> nlinarith
  · rintro ⟨u, v⟩ ⟨b1, b2, b3⟩
    simp only [Box.int, orient, gp] at *
    push_cast at *
    refine ⟨?_, ?_, ?_, ?_⟩ <;> nlinarith
  · rintro ⟨u, v⟩ ⟨⟨b1, b2, b3⟩, c1, c2, c3⟩
    simp only [orient, gp] at *
    push_cast at *
    linarith
  · rintro ⟨u, v⟩ ⟨⟨b1, b2, b3⟩, c1, c2, c3⟩
    simp only [orient, gp] at *
    push_cast at *
    linarith
  · rintro ⟨u, v⟩ ⟨⟨b1, b2, b3⟩, c1, c2, c3⟩
    simp only [orient, gp] at *
    push_cast at *
    linarith

end
end
end Edge.Cut
