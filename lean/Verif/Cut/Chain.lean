import Verif.Cut.Cells
import Mathlib.Tactic.LinearCombination
/-!
Boundary of the surfaces: all edges but those of the outer boundary are shared by triangles on both of their sides.

An antisymmetric function `f` of pairs of vertices is summed over the edges of all triangles. Edges shared by two triangles
in opposite directions do not contribute.
-/
namespace Edge.Cut
open Edge

/-- Sum over the edges of triangles. -/
def bd {V A : Type} [Add A] [Zero A] (f : V → V → A) (ts : List (V × V × V)) : A :=
  (ts.map (fun t => f t.1 t.2.1 + f t.2.1 t.2.2 + f t.2.2 t.1)).sum

/-- Antisymmetric function of edges. -/
def Anti {V A : Type} [Neg A] (f : V → V → A) : Prop := ∀ a b, f b a = - f a b

section
variable {A : Type} [CommRing A] {V : Type} {f : V → V → A}

theorem bd_append (ts us : List (V × V × V)) : bd f (ts ++ us) = bd f ts + bd f us := by
  simp [bd]

theorem bd_nil : bd f [] = 0 := by simp [bd]

theorem bd_cons (t : V × V × V) (ts : List (V × V × V)) :
    bd f (t :: ts) = f t.1 t.2.1 + f t.2.1 t.2.2 + f t.2.2 t.1 + bd f ts := by
  simp [bd]

theorem bd_map {W : Type} (e : W → V) (ts : List (W × W × W)) :
    bd f (ts.map (fun t => (e t.1, e t.2.1, e t.2.2))) = bd (fun a b => f (e a) (e b)) ts := by
  simp [bd, Function.comp_def]

end

section
variable {A : Type} [CommRing A] (f : G → G → A)

/-- Edges to the right, from `(x, y)`. -/
def hs (x y s : Nat) : Nat → A
  | 0 => 0
  | k + 1 => hs x y s k + f (x + k * s, y) (x + (k + 1) * s, y)

/-- Edges upwards, from `(x, y)`. -/
def vs (x y s : Nat) : Nat → A
  | 0 => 0
  | k + 1 => vs x y s k + f (x, y + k * s) (x, y + (k + 1) * s)

/-- Boundary of a rectangle with `kx` times `ky` cells of length `s`, counter-clockwise. -/
def per (x y s kx ky : Nat) : A :=
  hs f x y s kx + vs f (x + kx * s) y s ky - hs f x (y + ky * s) s kx - vs f x y s ky

variable {f}

theorem hs_first (x y s : Nat) : ∀ k, hs f x y s (k + 1) = f (x, y) (x + s, y) + hs f (x + s) y s k
  | 0 => by simp [hs]
  | k + 1 => by
    rw [hs, hs_first x y s k, hs]
    have e1 : x + (k + 1) * s = x + s + k * s := by ring
    have e2 : x + (k + 1 + 1) * s = x + s + (k + 1) * s := by ring
    rw [e1, e2]; ring

theorem vs_first (x y s : Nat) : ∀ k, vs f x y s (k + 1) = f (x, y) (x, y + s) + vs f x (y + s) s k
  | 0 => by simp [vs]
  | k + 1 => by
    rw [vs, vs_first x y s k, vs]
    have e1 : y + (k + 1) * s = y + s + k * s := by ring
    have e2 : y + (k + 1 + 1) * s = y + s + (k + 1) * s := by ring
    rw [e1, e2]; ring

theorem bd_BlTr (hf : Anti f) (x y s : Nat) : bd f (cBlTr x y s) =
    f (x, y) (x + s, y) + f (x + s, y) (x + s, y + s) - f (x, y + s) (x + s, y + s) - f (x, y) (x, y + s) := by
  simp only [cBlTr, bd_cons, bd_nil]
  linear_combination hf (x, y) (x + s, y + s) + hf (x, y + s) (x + s, y + s) + hf (x, y) (x, y + s)

theorem bd_BrTl (hf : Anti f) (x y s : Nat) : bd f (cBrTl x y s) =
    f (x, y) (x + s, y) + f (x + s, y) (x + s, y + s) - f (x, y + s) (x + s, y + s) - f (x, y) (x, y + s) := by
  simp only [cBrTl, bd_cons, bd_nil]
  linear_combination hf (x + s, y) (x, y + s) + hf (x, y + s) (x + s, y + s) + hf (x, y) (x, y + s)

theorem bd_Cr (hf : Anti f) (x y h : Nat) : bd f (cCr x y h) =
    f (x, y) (x + 2 * h, y) + (f (x + 2 * h, y) (x + 2 * h, y + h) + f (x + 2 * h, y + h) (x + 2 * h, y + 2 * h)) -
      f (x, y + 2 * h) (x + 2 * h, y + 2 * h) - f (x, y) (x, y + 2 * h) := by
  simp only [cCr, bd_cons, bd_nil]
  linear_combination hf (x, y) (x + 2 * h, y + h) + hf (x + 2 * h, y + h) (x, y + 2 * h) +
    hf (x, y + 2 * h) (x + 2 * h, y + 2 * h) + hf (x, y) (x, y + 2 * h)

theorem bd_Cl (hf : Anti f) (x y h : Nat) : bd f (cCl x y h) =
    f (x, y) (x + 2 * h, y) + f (x + 2 * h, y) (x + 2 * h, y + 2 * h) -
      f (x, y + 2 * h) (x + 2 * h, y + 2 * h) - (f (x, y) (x, y + h) + f (x, y + h) (x, y + 2 * h)) := by
  simp only [cCl, bd_cons, bd_nil]
  linear_combination hf (x + 2 * h, y) (x, y + h) + hf (x, y + h) (x + 2 * h, y + 2 * h) +
    hf (x, y + 2 * h) (x + 2 * h, y + 2 * h) + hf (x, y) (x, y + h) + hf (x, y + h) (x, y + 2 * h)

theorem bd_Ct (hf : Anti f) (x y h : Nat) : bd f (cCt x y h) =
    f (x, y) (x + 2 * h, y) + f (x + 2 * h, y) (x + 2 * h, y + 2 * h) -
      (f (x, y + 2 * h) (x + h, y + 2 * h) + f (x + h, y + 2 * h) (x + 2 * h, y + 2 * h)) - f (x, y) (x, y + 2 * h) := by
  simp only [cCt, bd_cons, bd_nil]
  linear_combination hf (x, y) (x + h, y + 2 * h) + hf (x + 2 * h, y) (x + h, y + 2 * h) +
    hf (x, y + 2 * h) (x + h, y + 2 * h) + hf (x + h, y + 2 * h) (x + 2 * h, y + 2 * h) + hf (x, y) (x, y + 2 * h)

theorem bd_Cb (hf : Anti f) (x y h : Nat) : bd f (cCb x y h) =
    (f (x, y) (x + h, y) + f (x + h, y) (x + 2 * h, y)) + f (x + 2 * h, y) (x + 2 * h, y + 2 * h) -
      f (x, y + 2 * h) (x + 2 * h, y + 2 * h) - f (x, y) (x, y + 2 * h) := by
  simp only [cCb, bd_cons, bd_nil]
  linear_combination hf (x + h, y) (x, y + 2 * h) + hf (x + h, y) (x + 2 * h, y + 2 * h) +
    hf (x, y + 2 * h) (x + 2 * h, y + 2 * h) + hf (x, y) (x, y + 2 * h)

/-! ### Strips -/

theorem bd_range {g : Nat → List GTri} (k : Nat) :
    bd f ((List.range (k + 1)).flatMap g) = bd f ((List.range k).flatMap g) + bd f (g k) := by
  rw [List.range_succ, List.flatMap_append, bd_append]; simp

theorem vs_half (x y h k : Nat) : vs f x y h (2 * (k + 1)) =
    vs f x y h (2 * k) + (f (x, y + k * (2 * h)) (x, y + k * (2 * h) + h) +
      f (x, y + k * (2 * h) + h) (x, y + k * (2 * h) + 2 * h)) := by
  have e : 2 * (k + 1) = 2 * k + 1 + 1 := by ring
  rw [e, vs, vs]
  have e1 : y + 2 * k * h = y + k * (2 * h) := by ring
  have e2 : y + (2 * k + 1) * h = y + k * (2 * h) + h := by ring
  have e3 : y + (2 * k + 1 + 1) * h = y + k * (2 * h) + 2 * h := by ring
  rw [e1, e2, e3]; ring

theorem hs_half (x y h k : Nat) : hs f x y h (2 * (k + 1)) =
    hs f x y h (2 * k) + (f (x + k * (2 * h), y) (x + k * (2 * h) + h, y) +
      f (x + k * (2 * h) + h, y) (x + k * (2 * h) + 2 * h, y)) := by
  have e : 2 * (k + 1) = 2 * k + 1 + 1 := by ring
  rw [e, hs, hs]
  have e1 : x + 2 * k * h = x + k * (2 * h) := by ring
  have e2 : x + (2 * k + 1) * h = x + k * (2 * h) + h := by ring
  have e3 : x + (2 * k + 1 + 1) * h = x + k * (2 * h) + 2 * h := by ring
  rw [e1, e2, e3]; ring

theorem bd_left (hf : Anti f) (x y h : Nat) : ∀ k, bd f ((List.range k).flatMap (fun i => cCr x (y + i * (2 * h)) h)) =
    f (x, y) (x + 2 * h, y) + vs f (x + 2 * h) y h (2 * k) - f (x, y + k * (2 * h)) (x + 2 * h, y + k * (2 * h)) -
      vs f x y (2 * h) k
  | 0 => by simp [vs, bd_nil]
  | k + 1 => by
    rw [bd_range, bd_left hf x y h k, bd_Cr hf, vs_half, vs]
    have e : y + (k + 1) * (2 * h) = y + k * (2 * h) + 2 * h := by ring
    rw [e]; ring

theorem bd_right (hf : Anti f) (x y h : Nat) : ∀ k, bd f ((List.range k).flatMap (fun i => cCl x (y + i * (2 * h)) h)) =
    f (x, y) (x + 2 * h, y) + vs f (x + 2 * h) y (2 * h) k - f (x, y + k * (2 * h)) (x + 2 * h, y + k * (2 * h)) -
      vs f x y h (2 * k)
  | 0 => by simp [vs, bd_nil]
  | k + 1 => by
    rw [bd_range, bd_right hf x y h k, bd_Cl hf, vs_half, vs]
    have e : y + (k + 1) * (2 * h) = y + k * (2 * h) + 2 * h := by ring
    rw [e]; ring

theorem bd_bottom (hf : Anti f) (x y h : Nat) : ∀ k, bd f ((List.range k).flatMap (fun i => cCt (x + i * (2 * h)) y h)) =
    hs f x y (2 * h) k + f (x + k * (2 * h), y) (x + k * (2 * h), y + 2 * h) - hs f x (y + 2 * h) h (2 * k) -
      f (x, y) (x, y + 2 * h)
  | 0 => by simp [hs, bd_nil]
  | k + 1 => by
    rw [bd_range, bd_bottom hf x y h k, bd_Ct hf, hs_half, hs]
    have e : x + (k + 1) * (2 * h) = x + k * (2 * h) + 2 * h := by ring
    rw [e]; ring

theorem bd_top (hf : Anti f) (x y h : Nat) : ∀ k, bd f ((List.range k).flatMap (fun i => cCb (x + i * (2 * h)) y h)) =
    hs f x y h (2 * k) + f (x + k * (2 * h), y) (x + k * (2 * h), y + 2 * h) - hs f x (y + 2 * h) (2 * h) k -
      f (x, y) (x, y + 2 * h)
  | 0 => by simp [hs, bd_nil]
  | k + 1 => by
    rw [bd_range, bd_top hf x y h k, bd_Cb hf, hs_half, hs]
    have e : x + (k + 1) * (2 * h) = x + k * (2 * h) + 2 * h := by ring
    rw [e]; ring

theorem bd_level (hf : Anti f) (mx my b h : Nat) :
    bd f (cLevel mx my b h) = per f b b (2 * h) (mx + 2) (my + 2) - per f (b + 2 * h) (b + 2 * h) h (2 * mx) (2 * my) := by
  have ef : ∀ i, b + (i + 1) * (2 * h) = b + 2 * h + i * (2 * h) := fun i => by ring
  have ex2 : b + (mx + 2) * (2 * h) = b + 2 * h + mx * (2 * h) + 2 * h := by ring
  have ey2 : b + (my + 2) * (2 * h) = b + 2 * h + my * (2 * h) + 2 * h := by ring
  have ex3 : b + 2 * h + 2 * mx * h = b + 2 * h + mx * (2 * h) := by ring
  have ey3 : b + 2 * h + 2 * my * h = b + 2 * h + my * (2 * h) := by ring
  unfold cLevel
  simp only [bd_append, ef]
  rw [bd_left hf, bd_right hf, bd_bottom hf, bd_top hf, bd_BlTr hf, bd_BrTl hf, bd_BrTl hf, bd_BlTr hf]
  unfold per
  rw [hs_first b b, hs_first b (b + (my + 2) * (2 * h)), vs_first b b, vs_first (b + (mx + 2) * (2 * h)) b]
  rw [hs, hs, vs, vs, ex2, ey2, ex3, ey3]
  have e1 : b + 2 * h + (mx + 1) * (2 * h) = b + 2 * h + mx * (2 * h) + 2 * h := by ring
  have e2 : b + 2 * h + (my + 1) * (2 * h) = b + 2 * h + my * (2 * h) + 2 * h := by ring
  rw [e1, e2]
  ring

theorem bd_inner (hf : Anti f) (ky b : Nat) : ∀ kx, bd f (cInner kx ky b) = per f b b 1 kx ky
  | 0 => by simp [cInner, bd_nil, per, hs]
  | kx + 1 => by
    have col : ∀ x k, bd f ((List.range k).flatMap (fun j => cBlTr x (b + j) 1)) =
        f (x, b) (x + 1, b) + vs f (x + 1) b 1 k - f (x, b + k) (x + 1, b + k) - vs f x b 1 k := by
      intro x k
      induction k with
      | zero => simp [vs, bd_nil]
      | succ k ih =>
        rw [bd_range, ih, bd_BlTr hf, vs, vs]
        simp only [Nat.mul_one, Nat.add_assoc]
        ring
    have ih := bd_inner hf ky b kx
    unfold cInner at ih ⊢
    rw [bd_range, ih, col]
    unfold per
    rw [hs, hs]
    simp only [Nat.mul_one, Nat.add_assoc]
    ring

theorem bd_levels (hf : Anti f) : ∀ {n kx ky b : Nat}, Fits n kx → Fits n ky →
    bd f (cLevels n kx ky b) = per f b b (2 ^ n) kx ky
  | 0, kx, ky, b, _, _ => bd_inner hf ky b kx
  | n + 1, kx, ky, b, fx, fy => by
    obtain ⟨mx, rfl⟩ := Nat.exists_eq_add_of_le' fx.two
    obtain ⟨my, rfl⟩ := Nat.exists_eq_add_of_le' fy.two
    have ex : mx + 2 - 2 = mx := by omega
    have ey : my + 2 - 2 = my := by omega
    have ih := bd_levels hf (n := n) (b := b + 2 ^ (n + 1)) fx.next fy.next
    unfold cLevels
    rw [bd_append, ih, ex, ey, bd_level hf]
    have e : 2 ^ (n + 1) = 2 * 2 ^ n := by ring
    rw [e]; ring

end

end Edge.Cut
