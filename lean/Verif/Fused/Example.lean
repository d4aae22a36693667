import Verif.Fused.Props
/-!
C99: the hypotheses hold for triangles of order 2 with a relaxation mechanism and two fused simulations, and a time step of the vanilla kernels succeeds.
-/
namespace Edge.Fused
open Edge Edge.Linalg Edge.Dg Edge.Step

namespace Ex

def c : Cfg := exCfg 1
def ev (q : Bool) : Env ℚ := ⟨1 / 10 ^ 9, 10 ^ 300, q⟩
/-- Transposed stiffness matrices: the derivatives of the two linear modes are constants. -/
def dT : List (List ℚ) := [[0, 0, 0, 2, 0, 0, 1, 0, 0], [0, 0, 0, 0, 0, 0, 3, 0, 0]]
def dV : List (List ℚ) := [[0, 1 / 2, 1 / 3, 0, 0, 0, 0, 0, 0], [0, 0, 1, 0, 0, 0, 0, 0, 0]]
def fL : List (List ℚ) := [[1, 2, 0, 1, 3, 0], [1, 0, 0, 1, 0, 5], [1, 1, 1, 1, 1, 1]]
def fN : List (List ℚ) := [[2, 1, 0, 1, 3, 0], [1, 0, 0, -1, 0, 5], [1, 1, 1, 0, 1, 1]]
def fT : List (List ℚ) := [[1, 2, 0, 1, 3, 0], [1, 0, 0, 1, 0, 5], [1, 1, 1, 1, 1, 1]]
def stT : List (List ℚ) := [[0, 0, 0, -2, 0, 0, -1, 0, 0], [0, 0, 0, 0, 0, 0, -3, 0, 0]]

def J : Fin 2 → Fin 2 → ℚ := ![![1, 2], ![3, 5]]
def JN (i j : Nat) : ℚ := i + 2 * j + 1
def starE : List (List ℚ) := List.ofFn fun di => Seismic.flat (Seismic.star2 1 2 3 J di)
def sE : List (List ℚ) := List.ofFn fun di => Seismic.starSparse2 1 2 3 J di
def starA : List (List ℚ) := (List.range 2).map fun di => tab 3 2 (starA2 JN di)
def sA : List (List ℚ) := (List.range 2).map fun di => (starAPos 2).map (fun p => starA2 JN di p.1 p.2)
def srcA : List (List ℚ) := [(1, 2, 3)].map fun y => tab 3 3 (srcOf 2 y.1 y.2.1 y.2.2)
def sS : List (List ℚ) := [(1, 2, 3)].map fun y => (srcPos 2).map (fun p => srcOf 2 y.1 y.2.1 y.2.2 p.1 p.2)
def fsE : List (List ℚ) := List.replicate 3 (mkMat 5 5 fun i j => i + j)
def fsA : List (List ℚ) := List.replicate 3 (mkMat 3 5 fun i j => i + 2 * j)
def dofsE : List ℚ := mk3 5 3 2 fun q m r => q + 2 * m + r
def dofsA : List (List ℚ) := [mk3 3 3 2 fun q m r => q + m + 3 * r]
def face (o f : Bool) : FaceIn ℚ := ⟨o, f, some 0, 1, ⟨true, false, false⟩, mkMat 5 5 fun i j => i + j, mkMat 3 5 fun i j => i + 2 * j,
  ⟨mk3 5 3 2 fun q m r => q + 2 * m + r, none, none⟩, none⟩
def sc : List ℚ := List.replicate 20 0

theorem simplex : Simplex c := ⟨Or.inl ⟨rfl, rfl, rfl, rfl, rfl, rfl⟩, by decide, by decide⟩

theorem exact_of {ev : Env ℚ} {n sz : Nat} {l : List (List ℚ)} (h : l.length = n ∧ ∀ a ∈ l, a.length = sz ∧ ∀ x ∈ a, x ≠ ev.big ∧ (|x| ≤ ev.tol → x = 0)) : Exact ev n sz l :=
  ⟨h.1, h.2⟩

theorem copies_self {sz : Nat} {l : List (List ℚ)} : Copies (fun x => x) sz l l :=
  ⟨rfl, fun i a v h1 h2 p _ => by rw [h1] at h2; cases h2; simp⟩

theorem dense (q : Bool) : Dense c (ev q) dT dV fL fN fT stT dV (fL ++ fN) fT := by
  refine ⟨exact_of ?_, exact_of ?_, exact_of ?_, exact_of ?_, exact_of ?_, ⟨by decide, ?_⟩, copies_self, copies_self, copies_self⟩
  · cases q <;> decide +kernel
  · cases q <;> decide +kernel
  · cases q <;> decide +kernel
  · cases q <;> decide +kernel
  · cases q <;> decide +kernel
  · have h : ∀ i < 2, ∀ p < 9, ((stT[i]?).getD [])[p]? = (((dT[i]?).getD [])[p]?).map (fun x : ℚ => -x) := by decide +kernel
    intro i a v h1 h2 p hp
    have hi : i < 2 := (List.getElem?_eq_some_iff.1 h1).1
    have := h i hi p hp
    rwa [h1, h2] at this

/-- The constructors of the fused kernels succeed, without and with the fill-in. -/
theorem setUp (q : Bool) : ∃ ks, SetUp c (ev q) dT dV fL fN fT ks := by
  have h0 : (fakeMats c.nDis c.nQtsE c.nQtsM 1 2 3).isSome := by decide +kernel
  obtain ⟨pt, h⟩ := Option.isSome_iff_exists.1 h0
  have h1 : ((fakeMats c.nDis c.nQtsE c.nQtsM 1 2 3).bind fun pt => initTimePred c (ev q) pt dT).isSome := by cases q <;> decide +kernel
  have h2 : ((fakeMats c.nDis c.nQtsE c.nQtsM 1 2 3).bind fun pt => initVolInt c (ev q) pt dV).isSome := by cases q <;> decide +kernel
  have h3 : ((fakeMats c.nDis c.nQtsE c.nQtsM 1 2 3).bind fun pt => initSurfInt c (ev q) pt fL fN fT).isSome := by cases q <;> decide +kernel
  rw [h] at h1 h2 h3
  obtain ⟨tp, k1⟩ := Option.isSome_iff_exists.1 h1
  obtain ⟨vp, k2⟩ := Option.isSome_iff_exists.1 h2
  obtain ⟨sp, k3⟩ := Option.isSome_iff_exists.1 h3
  exact ⟨⟨tp, vp, sp, fN.length⟩, 1, 2, 3, pt, h, k1, k2, k3, rfl⟩

/-- The time step of the vanilla kernels, with interior, free surface and outflow face. -/
def van : Option (List ℚ × List (List ℚ) × CkMem ℚ) :=
  stepEl c (1 / 10) stT dV (fL ++ fN) fT starE starA srcA fsE fsA [2] true [face false false, face false true, face true false] dofsE dofsA (ckMem0 c) sc sc

theorem van_some : (van.map fun r => r.1 != dofsE && r.2.1 != dofsA) = some true := by decide +kernel

theorem solvers : Solvers c fsE fsA := by
  have h1 : ∀ f ∈ fsE, c.nQtsE * c.nQtsE ≤ f.length := by decide +kernel
  have h2 : ∀ f ∈ fsA, c.nQtsM * c.nQtsE ≤ f.length := by decide +kernel
  exact ⟨fun _ _ f hf => h1 f (List.mem_of_getElem? hf), fun _ _ f hf => h2 f (List.mem_of_getElem? hf)⟩

end Ex

open Ex in
/-- Every hypothesis of `C99_step` (and with it of `C99_timePred`, `C99_volInt` and the surface kernels) is met. -/
example (q : Bool) : ∃ ks r s, SetUp c (ev q) dT dV fL fN fT ks ∧ van = some r ∧
    stepElF c ks (1 / 10) sE sA sS fsE fsA [2] true [face false false, face false true, face true false] dofsE dofsA (ckMem0 c) sc sc = some (r.1, r.2.1, { r.2.2 with scratch := s }) := by
  obtain ⟨ks, hk⟩ := setUp q
  have hv := van_some
  obtain ⟨⟨e, a, m⟩, h, -⟩ := Option.map_eq_some_iff.1 hv
  obtain ⟨s, hs⟩ := C99_step simplex (dense q) hk (C99_starE2 1 2 3 J) (fun _ => C99_starA2 JN) (C99_src2 [(1, 2, 3)]) solvers
    (by
      intro f hf ho
      have : ∀ f ∈ [face false false, face false true, face true false], c.nQtsE * c.nQtsE ≤ f.fsE.length ∧ c.nQtsM * c.nQtsE ≤ f.fsA.length := by decide +kernel
      exact ⟨(this f hf).1, fun _ => (this f hf).2⟩)
    (s0 := (ckMem0 c : CkMem ℚ).scratch) rfl (fun _ => by decide +kernel) h
  exact ⟨ks, _, s, hk, h, hs⟩

end Edge.Fused
