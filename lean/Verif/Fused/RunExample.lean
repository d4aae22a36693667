import Verif.Fused.Run
import Verif.Fused.Example
/-!
C106: the hypotheses hold for two triangles with different time steps and two fused simulations, and the run with the vanilla kernels succeeds.
-/
namespace Edge.Fused.Ex
open Edge Edge.Linalg Edge.Dg Edge.Step
open Edge.Rate (REl RSt Ev)

def c0 : Cfg := exCfg 0

theorem simplex0 : Simplex c0 := ⟨Or.inl ⟨rfl, rfl, rfl, rfl, rfl, rfl⟩, by decide, by decide⟩

theorem dense0 (q : Bool) : Dense c0 (ev q) dT dV fL fN fT stT dV (fL ++ fN) fT := by
  obtain ⟨a1, a2, a3, a4, a5, a6, a7, a8, a9⟩ := dense q
  exact ⟨a1, a2, a3, a4, a5, a6, a7, a8, a9⟩

theorem setUp0 (q : Bool) : ∃ ks, SetUp c0 (ev q) dT dV fL fN fT ks := by
  have h0 : (fakeMats c0.nDis c0.nQtsE c0.nQtsM 1 2 3).isSome := by decide +kernel
  obtain ⟨pt, h⟩ := Option.isSome_iff_exists.1 h0
  have h1 : ((fakeMats c0.nDis c0.nQtsE c0.nQtsM 1 2 3).bind fun pt => initTimePred c0 (ev q) pt dT).isSome := by cases q <;> decide +kernel
  have h2 : ((fakeMats c0.nDis c0.nQtsE c0.nQtsM 1 2 3).bind fun pt => initVolInt c0 (ev q) pt dV).isSome := by cases q <;> decide +kernel
  have h3 : ((fakeMats c0.nDis c0.nQtsE c0.nQtsM 1 2 3).bind fun pt => initSurfInt c0 (ev q) pt fL fN fT).isSome := by cases q <;> decide +kernel
  rw [h] at h1 h2 h3
  obtain ⟨tp, k1⟩ := Option.isSome_iff_exists.1 h1
  obtain ⟨vp, k2⟩ := Option.isSome_iff_exists.1 h2
  obtain ⟨sp, k3⟩ := Option.isSome_iff_exists.1 h3
  exact ⟨⟨tp, vp, sp, fN.length⟩, 1, 2, 3, pt, h, k1, k2, k3, rfl⟩

/-- The triangles share their first faces, the other faces are a free surface and an outflow boundary. -/
def faces (ne : Nat) : List (MFace ℚ) :=
  [⟨false, false, some 0, 0, mkMat 5 5 fun i j => i + j, ne⟩, ⟨false, true, none, 0, mkMat 5 5 fun i j => i + 2 * j, 0⟩, ⟨true, false, none, 0, mkMat 5 5 fun i _ => i, 0⟩]

/-- Triangle 0 has the small time step, triangle 1 the large one. -/
def els (s : List (List ℚ)) : List (REl ℚ) :=
  [⟨⟨s, fsE, faces 1⟩, 0, true, false, [⟨false, true, false⟩, ⟨true, false, false⟩, ⟨true, false, false⟩]⟩,
   ⟨⟨s, fsE, faces 0⟩, 1, false, true, [⟨false, false, true⟩, ⟨true, false, false⟩, ⟨true, false, false⟩]⟩]

def st : List (RSt ℚ) :=
  [⟨dofsE, ckMem0 c0, some (List.replicate 30 0), none, 0, 0⟩, ⟨dofsE, ckMem0 c0, none, some (List.replicate 30 0), 0, 0⟩]

/-- An interval with two steps of triangle 0 and one of triangle 1. -/
def ivs : List ((Nat → Nat → ℚ) × List Ev) :=
  [(fun g _ => if g = 0 then 1 / 10 else 1 / 5, [.loc 1, .loc 0, .nei 0, .loc 0, .nei 1, .nei 0])]

def run : Option (List (RSt ℚ)) := Rate.runSync c0 stT dV (fL ++ fN) fT (els starE) sc sc ivs st

theorem run_some : (run.map fun r => r.map (fun x => (x.dofs != dofsE, x.nl, x.nn))) = some [(true, 2, 2), (true, 1, 1)] := by decide +kernel

theorem rateSet : RateSet c0 (els starE) (els sE) := by
  refine ⟨rfl, fun el E h => ⟨sE, ?_⟩⟩
  have hs : SparseAll (starEPos c0.nDis) c0.nDis c0.nQtsE c0.nQtsE starE sE := C99_starE2 1 2 3 J
  have h1 : ∀ f ∈ fsE, c0.nQtsE * c0.nQtsE ≤ f.length := by decide +kernel
  have h2 : ∀ n, ∀ f ∈ faces n, c0.nQtsE * c0.nQtsE ≤ f.fsE.length := by
    intro n f hf
    simp only [faces, List.mem_cons, List.not_mem_nil, or_false] at hf
    rcases hf with rfl | rfl | rfl <;> simp [mkMat, c0, exCfg]
  match el, h with
  | 0, h => cases h; exact ⟨rfl, hs, h1, h2 1⟩
  | 1, h => cases h; exact ⟨rfl, hs, h1, h2 0⟩
  | n + 2, h => simp [els, rd] at h

/-- Every hypothesis of `C106_run` is met; the scratch memory of the fused kernels has other contents. -/
example (q : Bool) : ∃ ks r st' r', SetUp c0 (ev q) dT dV fL fN fT ks ∧ run = some r ∧ st' ≠ st ∧ runSyncF c0 ks (els sE) sc sc ivs st' = some r' ∧ List.Forall₂ SameEl r r' := by
  obtain ⟨ks, hk⟩ := setUp0 q
  obtain ⟨r, h, -⟩ := Option.map_eq_some_iff.1 run_some
  obtain ⟨r', k1, k2⟩ := C106_run simplex0 (dense0 q) hk rfl rateSet
    (st' := st.map (fun x => { x with mem := { x.mem with scratch := List.replicate 30 7 } })) (.cons ⟨_, rfl, by decide +kernel⟩ (.cons ⟨_, rfl, by decide +kernel⟩ .nil)) h
  refine ⟨ks, r, _, r', hk, h, fun e => ?_, k1, k2⟩
  have := congrArg (fun s : List (RSt ℚ) => s.map (fun x => x.mem.scratch)) e
  exact absurd this (by decide +kernel)

end Edge.Fused.Ex
