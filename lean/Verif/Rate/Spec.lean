import Verif.Rate.Event
/-!
Specification: which sequences of updates are executed, and the data of the mesh.
-/
namespace Edge.Rate
open Edge Edge.Map Edge.Quad Edge.Basis Edge.Proj Edge.Gen Edge.Flux Edge.Step

/-- Update `ev` may be executed after the updates `pre` since the synchronization. A local update of an element follows its neighboring one. The `k`-th neighboring update (from zero) of an element
follows exactly `k + 1` local updates of the element and of adjacent ones with the same time step, `2 (k + 1)` ones of adjacent elements with half the time step, `⌊k/2⌋ + 1` ones of adjacent
elements with twice the time step: the rhythm of the scheduler (claims C05 and C06). -/
def Allowed {K : Type} (e : Ent) (tg : Nat → Nat) (F : Nat → Nat → MFace K) (pre : List Ev) : Ev → Prop
  | .loc el => pre.count (.nei el) = pre.count (.loc el)
  | .nei el => pre.count (.loc el) = pre.count (.nei el) + 1 ∧ ∀ fa < e.nFa, (F el fa).outflow = false →
      (tg ((F el fa).nb el) = tg el → pre.count (.loc ((F el fa).nb el)) = pre.count (.nei el) + 1) ∧
      (tg el = tg ((F el fa).nb el) + 1 → pre.count (.loc ((F el fa).nb el)) = 2 * (pre.count (.nei el) + 1)) ∧
      (tg ((F el fa).nb el) = tg el + 1 → pre.count (.loc ((F el fa).nb el)) = pre.count (.nei el) / 2 + 1)

/-- Element of an update. -/
def Ev.el : Ev → Nat
  | .loc el => el
  | .nei el => el

/-- Sequence of updates of `N` elements. -/
def Ordered {K : Type} (e : Ent) (tg : Nat → Nat) (F : Nat → Nat → MFace K) (N : Nat) (evs : List Ev) : Prop :=
  ∀ pre ev post, evs = pre ++ ev :: post → ev.el < N ∧ Allowed e tg F pre ev

/-- At the end of the sequence all elements have reached the same point in time: `M` steps of the smallest time step. -/
def Complete (tg : Nat → Nat) (N : Nat) (evs : List Ev) (M : Nat) : Prop :=
  ∀ el < N, evs.count (.nei el) = evs.count (.loc el) ∧ evs.count (.loc el) * 2 ^ tg el = M

/-- Bits of the time relations: those of the faces tell which of two adjacent elements has the larger time step; time steps of adjacent elements differ by a factor of two at most. An element which is
adjacent to one with a larger time step keeps sums, an element which is adjacent to one with a smaller time step keeps halves. -/
def BitsOk (e : Ent) (tg : Nat → Nat) (F : Nat → Nat → MFace ℝ) (els : List (REl ℝ)) : Prop :=
  ∀ el E, els[el]? = some E → E.tg = tg el ∧ ∀ fa < e.nFa, ∃ a, E.ad[fa]? = some a ∧ ((F el fa).outflow = false → ∀ E', els[(F el fa).nb el]? = some E' →
    (a.eq = true ↔ tg ((F el fa).nb el) = tg el) ∧ (a.gt = true ↔ tg el = tg ((F el fa).nb el) + 1) ∧
    (tg ((F el fa).nb el) = tg el ∨ tg el = tg ((F el fa).nb el) + 1 ∨ tg ((F el fa).nb el) = tg el + 1) ∧
    (tg el = tg ((F el fa).nb el) + 1 → E'.isLt = true) ∧ (tg ((F el fa).nb el) = tg el + 1 → E'.isGt = true))

/-- State of the elements at a synchronization: modes `u`; the memory is allocated. -/
def Ready (c : Dg.Cfg) (els : List (REl ℝ)) (st : List (RSt ℝ)) (u : Nat → Modes) : Prop :=
  st.length = els.length ∧ ∀ el E, els[el]? = some E → ∃ x, st[el]? = some x ∧ Dg.Rep c.nQtsE c.nMds c.nCrs x.dofs (u el) ∧ Dg.CkOut c x.mem ∧
    (E.isLt = true → ∃ b, x.lt = some b ∧ b.length = c.nQtsE * c.nMds * c.nCrs) ∧ (E.isGt = true → ∃ b, x.gt = some b ∧ b.length = c.nQtsE * c.nMds * c.nCrs)

/-- Data of the elements. -/
structure ElsOk (c : Dg.Cfg) (e : Ent) (tg : Nat → Nat) (els : List (REl ℝ)) (F : Nat → Nat → MFace ℝ) (S FL FN : Nat → Nat → Nat → Nat → ℝ) : Prop where
  star : ∀ el E, els[el]? = some E → Dg.Mats c.nDis c.nQtsE c.nQtsE c.nQtsE E.starE (S el)
  fluxL : ∀ el E, els[el]? = some E → Dg.Mats c.nFas c.nQtsE c.nQtsE c.nQtsE E.fsL (FL el)
  faces : ∀ el E, els[el]? = some E → FacesOk e els.length E.faces (F el)
  fluxN : ∀ el E, els[el]? = some E → ∀ fa < c.nFas, (F el fa).outflow = false → Dg.Mat c.nQtsE c.nQtsE c.nQtsE (F el fa).fsE (FN el fa)
  bits : BitsOk e tg F els

/-- Time integral of element `ne` which the `k`-th neighboring update of element `el` takes; `V el k` are the modes of an element before its `k`-th step. -/
noncomputable def src (c : Dg.Cfg) (e : Ent) (o : Nat) (dt : Nat → Nat → ℝ) (tg : Nat → Nat) (S : Nat → Nat → Nat → Nat → ℝ) (V : Nat → Nat → Modes) (el ne k : Nat) : Modes :=
  if tg ne = tg el then tInt c e o (S ne) (V ne k) (dt (tg ne) k)
  else if tg el = tg ne + 1 then tInt c e o (S ne) (V ne (2 * k)) (dt (tg ne) (2 * k)) + tInt c e o (S ne) (V ne (2 * k + 1)) (dt (tg ne) (2 * k + 1))
  else if k % 2 = 0 then tInt c e o (S ne) (V ne (k / 2)) (1 / 2 * dt (tg ne) (k / 2))
  else tInt c e o (S ne) (V ne (k / 2)) (dt (tg ne) (k / 2)) - tInt c e o (S ne) (V ne (k / 2)) (1 / 2 * dt (tg ne) (k / 2))

/-- Modes after a step, given the modes before the steps. -/
noncomputable def next (c : Dg.Cfg) (e : Ent) (o : Nat) (dt : Nat → Nat → ℝ) (tg : Nat → Nat) (F : Nat → Nat → MFace ℝ) (S FL FN : Nat → Nat → Nat → Nat → ℝ) (V : Nat → Nat → Modes) (el k : Nat) : Modes :=
  V el k + locTerm c e o (S el) (FL el) (tInt c e o (S el) (V el k) (dt (tg el) k)) + neiTerm c e o (F el) (FN el) (fun fa => src c e o dt tg S V el ((F el fa).nb el) k)

end Edge.Rate
