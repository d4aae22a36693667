import Verif.Cut.Model
import Mathlib.Tactic.Linarith
import Mathlib.Tactic.Ring
/-!
Triangles in the index plane: the triangles of `writeTria` in terms of grid coordinates.
-/
namespace Edge.Cut
open Edge

/-- Grid coordinates. -/
abbrev G := Nat × Nat

/-- Triangle in grid coordinates. -/
abbrev GTri := G × G × G

/-- Id of the vertex with given grid coordinates. -/
def enc (ny : Nat) (p : G) : Nat := p.1 * ny + p.2

/-- Ids of a triangle. -/
def encT (ny : Nat) (t : GTri) : Tri := (enc ny t.1, enc ny t.2.1, enc ny t.2.2)

def cBlTr (x y s : Nat) : List GTri :=
  [((x, y), (x + s, y), (x + s, y + s)), ((x, y), (x + s, y + s), (x, y + s))]

def cBrTl (x y s : Nat) : List GTri :=
  [((x, y), (x + s, y), (x, y + s)), ((x + s, y), (x + s, y + s), (x, y + s))]

def cCr (x y h : Nat) : List GTri :=
  [((x, y), (x + 2 * h, y), (x + 2 * h, y + h)), ((x, y), (x + 2 * h, y + h), (x, y + 2 * h)),
    ((x + 2 * h, y + h), (x + 2 * h, y + 2 * h), (x, y + 2 * h))]

def cCl (x y h : Nat) : List GTri :=
  [((x, y), (x + 2 * h, y), (x, y + h)), ((x + 2 * h, y), (x + 2 * h, y + 2 * h), (x, y + h)),
    ((x, y + h), (x + 2 * h, y + 2 * h), (x, y + 2 * h))]

def cCt (x y h : Nat) : List GTri :=
  [((x, y), (x + h, y + 2 * h), (x, y + 2 * h)), ((x, y), (x + 2 * h, y), (x + h, y + 2 * h)),
    ((x + 2 * h, y), (x + 2 * h, y + 2 * h), (x + h, y + 2 * h))]

def cCb (x y h : Nat) : List GTri :=
  [((x, y), (x + h, y), (x, y + 2 * h)), ((x + h, y), (x + 2 * h, y + 2 * h), (x, y + 2 * h)),
    ((x + h, y), (x + 2 * h, y), (x + 2 * h, y + 2 * h))]

/-- Triangles of one level: `mx + 2` and `my + 2` cells with edge length `2 * h` starting at `b`. -/
def cLevel (mx my b h : Nat) : List GTri :=
  cBlTr b b (2 * h) ++ (cBrTl (b + (mx + 1) * (2 * h)) b (2 * h) ++ (cBrTl b (b + (my + 1) * (2 * h)) (2 * h) ++
    (cBlTr (b + (mx + 1) * (2 * h)) (b + (my + 1) * (2 * h)) (2 * h) ++
    ((List.range my).flatMap (fun i => cCr b (b + (i + 1) * (2 * h)) h) ++
    ((List.range my).flatMap (fun i => cCl (b + (mx + 1) * (2 * h)) (b + (i + 1) * (2 * h)) h) ++
    ((List.range mx).flatMap (fun i => cCt (b + (i + 1) * (2 * h)) b h) ++
    (List.range mx).flatMap (fun i => cCb (b + (i + 1) * (2 * h)) (b + (my + 1) * (2 * h)) h)))))))

/-- Triangles of the inner part: `kx` times `ky` cells starting at `b`. -/
def cInner (kx ky b : Nat) : List GTri :=
  (List.range kx).flatMap (fun i => (List.range ky).flatMap (fun j => cBlTr (b + i) (b + j) 1))

theorem Out.all_map {α β : Type} (f : β → Out) (g : α → β) (l : List α) : Out.all f (l.map g) = Out.all (fun a => f (g a)) l := by
  induction l with
  | nil => rfl
  | cons a l ih => simp [Out.all, ih]

/-- Outputs which are the given triangles, correctly counted. -/
def IsOut (ny : Nat) (o : Out) (ts : List GTri) : Prop := o.ts = ts.map (encT ny) ∧ o.n = ts.length

theorem IsOut.cat {ny : Nat} {o o' : Out} {ts ts' : List GTri} (h : IsOut ny o ts) (h' : IsOut ny o' ts') :
    IsOut ny (o.cat o') (ts ++ ts') := by
  refine ⟨?_, ?_⟩ <;> simp [Out.cat, h.1, h.2, h'.1, h'.2]

theorem IsOut.all {ny : Nat} {α : Type} {f : α → Out} {g : α → List GTri} {l : List α} (h : ∀ a ∈ l, IsOut ny (f a) (g a)) :
    IsOut ny (Out.all f l) (l.flatMap g) := by
  induction l with
  | nil => exact ⟨rfl, rfl⟩
  | cons a l ih => exact (h a (by simp)).cat (ih (fun b hb => h b (by simp [hb])))

section
variable {ny : Nat}

theorem isOut_BlTr {off x y s sx : Nat} (h : off = x * ny + y) (hs : sx = s * ny) : IsOut ny (triasBlTr off sx s) (cBlTr x y s) := by
  subst h hs
  refine ⟨?_, rfl⟩
  simp only [triasBlTr, cBlTr, List.map_cons, List.map_nil, encT, enc, List.cons.injEq, Prod.mk.injEq, and_true]
  refine ⟨⟨?_, ?_, ?_⟩, ?_, ?_, ?_⟩ <;> first | trivial | ring

theorem isOut_BrTl {off x y s sx : Nat} (h : off = x * ny + y) (hs : sx = s * ny) : IsOut ny (triasBrTl off sx s) (cBrTl x y s) := by
  subst h hs
  refine ⟨?_, rfl⟩
  simp only [triasBrTl, cBrTl, List.map_cons, List.map_nil, encT, enc, List.cons.injEq, Prod.mk.injEq, and_true]
  refine ⟨⟨?_, ?_, ?_⟩, ?_, ?_, ?_⟩ <;> first | trivial | ring

theorem isOut_Cr {off x y s sx : Nat} (h : off = x * ny + y) (hs : sx = s * ny) : IsOut ny (triasCr off sx s) (cCr x y s) := by
  subst h hs
  refine ⟨?_, rfl⟩
  simp only [triasCr, cCr, List.map_cons, List.map_nil, encT, enc, List.cons.injEq, Prod.mk.injEq, and_true]
  refine ⟨⟨?_, ?_, ?_⟩, ⟨?_, ?_, ?_⟩, ?_, ?_, ?_⟩ <;> first | trivial | ring

theorem isOut_Cl {off x y s sx : Nat} (h : off = x * ny + y) (hs : sx = s * ny) : IsOut ny (triasCl off sx s) (cCl x y s) := by
  subst h hs
  refine ⟨?_, rfl⟩
  simp only [triasCl, cCl, List.map_cons, List.map_nil, encT, enc, List.cons.injEq, Prod.mk.injEq, and_true]
  refine ⟨⟨?_, ?_, ?_⟩, ⟨?_, ?_, ?_⟩, ?_, ?_, ?_⟩ <;> first | trivial | ring

theorem isOut_Ct {off x y s sx : Nat} (h : off = x * ny + y) (hs : sx = s * ny) : IsOut ny (triasCt off sx s) (cCt x y s) := by
  subst h hs
  refine ⟨?_, rfl⟩
  simp only [triasCt, cCt, List.map_cons, List.map_nil, encT, enc, List.cons.injEq, Prod.mk.injEq, and_true]
  refine ⟨⟨?_, ?_, ?_⟩, ⟨?_, ?_, ?_⟩, ?_, ?_, ?_⟩ <;> first | trivial | ring

theorem isOut_Cb {off x y s sx : Nat} (h : off = x * ny + y) (hs : sx = s * ny) : IsOut ny (triasCb off sx s) (cCb x y s) := by
  subst h hs
  refine ⟨?_, rfl⟩
  simp only [triasCb, cCb, List.map_cons, List.map_nil, encT, enc, List.cons.injEq, Prod.mk.injEq, and_true]
  refine ⟨⟨?_, ?_, ?_⟩, ⟨?_, ?_, ?_⟩, ?_, ?_, ?_⟩ <;> first | trivial | ring

end

theorem steps_eq {start step k : Nat} (hs : 0 < step) :
    steps start (start + k * step) step = some ((List.range k).map (fun i => start + i * step)) := by
  unfold steps
  rcases Nat.eq_zero_or_pos k with rfl | hk
  · simp
  · have h1 : 0 < k * step := Nat.mul_pos hk hs
    rw [if_neg (by omega), if_neg (by omega)]
    have : (start + k * step - start + step - 1) / step = k := by
      rw [Nat.add_sub_cancel_left]
      have : k * step + step - 1 = step - 1 + step * k := by rw [Nat.mul_comm step k]; omega
      rw [this, Nat.add_mul_div_left _ _ hs, Nat.div_eq_of_lt (by omega), Nat.zero_add]
    rw [this]

theorem steps_eq' {start stop step k : Nat} (hs : 0 < step) (h : stop = start + k * step) :
    steps start stop step = some ((List.range k).map (fun i => start + i * step)) := by
  subst h; exact steps_eq hs

theorem level_eq {nx ny b h mx my : Nat} (hh : 0 < h) (hx : nx = 1 + 2 * b + (mx + 2) * (2 * h))
    (hy : ny = 1 + 2 * b + (my + 2) * (2 * h)) : ∃ o, level nx ny b (2 * h) = some o ∧ IsOut ny o (cLevel mx my b h) := by
  have h1 : sub nx (1 + b + 2 * h) = some (b + (mx + 1) * (2 * h)) := by
    have : nx = (1 + b + 2 * h) + (b + (mx + 1) * (2 * h)) := by rw [hx]; ring
    unfold sub; rw [if_pos (by omega)]; congr 1; omega
  have h2 : sub ny (1 + b + 2 * h) = some (b + (my + 1) * (2 * h)) := by
    have : ny = (1 + b + 2 * h) + (b + (my + 1) * (2 * h)) := by rw [hy]; ring
    unfold sub; rw [if_pos (by omega)]; congr 1; omega
  have hn : 0 < ny := by omega
  have h3 := steps_eq' (start := b + 2 * h) (stop := b + (my + 1) * (2 * h)) (step := 2 * h) (k := my) (by omega) (by ring)
  have h4 := steps_eq' (start := (b + 2 * h) * ny) (stop := (b + (mx + 1) * (2 * h)) * ny) (step := 2 * h * ny) (k := mx)
    (Nat.mul_pos (by omega) hn) (by ring)
  have hd : 2 * h / 2 = h := by omega
  refine ⟨_, by unfold level; simp only [h1, h2, h3, h4, Option.bind_eq_bind, Option.bind_some]; rfl, ?_⟩
  simp only [Out.all_map, hd]
  unfold cLevel
  refine (isOut_BlTr (by ring) (by ring)).cat ?_
  refine (isOut_BrTl (by ring) (by ring)).cat ?_
  refine (isOut_BrTl (by ring) (by ring)).cat ?_
  refine (isOut_BlTr (by ring) (by ring)).cat ?_
  refine (IsOut.all fun i _ => isOut_Cr (by ring) (by ring)).cat ?_
  refine (IsOut.all fun i _ => isOut_Cl (by ring) (by ring)).cat ?_
  refine (IsOut.all fun i _ => isOut_Ct (by ring) (by ring)).cat ?_
  exact IsOut.all fun i _ => isOut_Cb (by ring) (by ring)

theorem inner_eq {nx ny b kx ky : Nat} (s : Nat) (hx : nx = 1 + 2 * b + kx) (hy : ny = 1 + 2 * b + ky) :
    ∃ o, levels nx ny 0 b s = some o ∧ IsOut ny o (cInner kx ky b) := by
  have h1 : sub nx (1 + b) = some (b + kx) := by unfold sub; rw [if_pos (by omega)]; congr 1; omega
  have h2 : sub ny (1 + b) = some (b + ky) := by unfold sub; rw [if_pos (by omega)]; congr 1; omega
  have h3 := steps_eq' (start := b) (stop := b + kx) (step := 1) (k := kx) (by omega) (by ring)
  have h4 := steps_eq' (start := b) (stop := b + ky) (step := 1) (k := ky) (by omega) (by ring)
  refine ⟨_, by unfold levels; simp only [h1, h2, h3, h4, Option.bind_eq_bind, Option.bind_some]; rfl, ?_⟩
  simp only [Out.all_map]
  unfold cInner
  exact IsOut.all fun i _ => IsOut.all fun j _ => isOut_BlTr (by ring) (by ring)

/-- All levels in grid coordinates: `kx` times `ky` cells with edge length `2 ^ n`. -/
def cLevels : Nat → Nat → Nat → Nat → List GTri
  | 0, kx, ky, b => cInner kx ky b
  | n + 1, kx, ky, b => cLevel (kx - 2) (ky - 2) b (2 ^ n) ++ cLevels n (2 * (kx - 2)) (2 * (ky - 2)) (b + 2 ^ (n + 1))

/-- Large enough number of coarse cells for `n` levels. -/
def Fits (n k : Nat) : Prop := 4 * 2 ^ n ≤ 2 ^ n * k + 4

theorem Fits.two {n k : Nat} (h : Fits (n + 1) k) : 2 ≤ k := by
  unfold Fits at h
  by_contra hc
  have hk : k ≤ 1 := by omega
  have hp : 0 < 2 ^ n := Nat.pow_pos (by decide)
  rw [Nat.pow_succ] at h
  have : 2 ^ n * 2 * k ≤ 2 ^ n * 2 * 1 := Nat.mul_le_mul_left _ hk
  omega

theorem Fits.next {n k : Nat} (h : Fits (n + 1) k) : Fits n (2 * (k - 2)) := by
  have h2 := h.two
  obtain ⟨m, rfl⟩ := Nat.exists_eq_add_of_le h2
  unfold Fits at h ⊢
  rw [Nat.pow_succ] at h
  have e : 2 + m - 2 = m := by omega
  rw [e]
  have : 2 ^ n * 2 * (2 + m) = 4 * 2 ^ n + 2 ^ n * (2 * m) := by ring
  omega

theorem levels_eq : ∀ {n nx ny b kx ky : Nat}, nx = 1 + 2 * b + kx * 2 ^ n → ny = 1 + 2 * b + ky * 2 ^ n → Fits n kx → Fits n ky →
    ∃ o, levels nx ny n b (2 ^ n) = some o ∧ IsOut ny o (cLevels n kx ky b)
  | 0, nx, ny, b, kx, ky, hx, hy, _, _ => inner_eq _ (by simpa using hx) (by simpa using hy)
  | n + 1, nx, ny, b, kx, ky, hx, hy, fx, fy => by
    obtain ⟨mx, rfl⟩ := Nat.exists_eq_add_of_le' fx.two
    obtain ⟨my, rfl⟩ := Nat.exists_eq_add_of_le' fy.two
    have e : 2 ^ (n + 1) = 2 * 2 ^ n := by ring
    have ex : mx + 2 - 2 = mx := by omega
    have ey : my + 2 - 2 = my := by omega
    rw [e] at hx hy
    obtain ⟨o, h1, h2⟩ := level_eq (nx := nx) (ny := ny) (b := b) (h := 2 ^ n) (mx := mx) (my := my) (Nat.pow_pos (by decide))
      hx hy
    obtain ⟨r, h3, h4⟩ := levels_eq (n := n) (nx := nx) (ny := ny) (b := b + 2 ^ (n + 1)) (kx := 2 * mx) (ky := 2 * my)
      (by rw [hx, e]; ring) (by rw [hy, e]; ring) (ex ▸ fx.next) (ey ▸ fy.next)
    refine ⟨o.cat r, ?_, ?_⟩
    · have ed : 2 ^ (n + 1) / 2 = 2 ^ n := by rw [e]; omega
      show (do let a ← level nx ny b (2 ^ (n + 1)); let r ← levels nx ny n (b + 2 ^ (n + 1)) (2 ^ (n + 1) / 2); pure (a.cat r)) = _
      rw [ed, h3, e, h1]; rfl
    · show IsOut ny _ (cLevel (mx + 2 - 2) (my + 2 - 2) b (2 ^ n) ++ cLevels n (2 * (mx + 2 - 2)) (2 * (my + 2 - 2)) (b + 2 ^ (n + 1)))
      rw [ex, ey]
      exact h2.cat h4

theorem stride_eq : ∀ n, stride n = 2 ^ n
  | 0 => rfl
  | n + 1 => by rw [stride, stride_eq n, Nat.pow_succ]

theorem writeTria_eq {n nx ny kx ky : Nat} (hx : nx = 1 + kx * 2 ^ n) (hy : ny = 1 + ky * 2 ^ n) (fx : Fits n kx)
    (fy : Fits n ky) : ∃ o, writeTria nx ny n = some o ∧ IsOut ny o (cLevels n kx ky 0) := by
  unfold writeTria
  rw [stride_eq]
  exact levels_eq (by simpa using hx) (by simpa using hy) fx fy

end Edge.Cut
