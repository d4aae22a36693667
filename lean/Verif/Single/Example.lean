import Verif.Single.Props
import Verif.Fused.Example
import Verif.Work.SimExample
/-!
C105: the hypotheses hold for a time step of triangles of order 2 with a relaxation mechanism, and for the simulations of C104.
-/
namespace Edge.Single
open Edge Edge.Linalg Edge.Dg Edge.Step

def exC : Cfg := { exCfg 1 with nCrs := 1 }

theorem exC_one : One exC := ⟨rfl, by decide⟩

def exFace (o f : Bool) : FaceIn ℚ := ⟨o, f, some 0, 1, ⟨true, false, false⟩, mkMat 5 5 fun i j => i + j, mkMat 3 5 fun i j => i + 2 * j,
  ⟨mk3 5 3 1 fun q m r => q + 2 * m + r, none, none⟩, none⟩
def exE : List ℚ := mk3 5 3 1 fun q m r => q + 2 * m + r
def exA : List (List ℚ) := [mk3 3 3 1 fun q m r => q + m + 3 * r]

/-- The time step of the vanilla kernels, with interior, free surface and outflow face. -/
def exVan : Option (List ℚ × List (List ℚ) × CkMem ℚ) :=
  stepEl exC (1 / 10) Fused.Ex.stT Fused.Ex.dV (Fused.Ex.fL ++ Fused.Ex.fN) Fused.Ex.fT Fused.Ex.starE Fused.Ex.starA Fused.Ex.srcA Fused.Ex.fsE Fused.Ex.fsA [2] true
    [exFace false false, exFace false true, exFace true false] exE exA (ckMem0 exC) (List.replicate 10 0) (List.replicate 10 0)

theorem exVan_some : (exVan.map fun r => r.1 != exE && r.2.1 != exA) = some true := by decide +kernel

/-- Every hypothesis of `C105_step` (and with it of the theorems for the kernels) is met. -/
example : ∃ ks r, mkKerns exC = some ks ∧ exVan = some r ∧
    stepElS exC ks (1 / 10) Fused.Ex.stT Fused.Ex.dV (Fused.Ex.fL ++ Fused.Ex.fN) Fused.Ex.fT Fused.Ex.starE Fused.Ex.starA Fused.Ex.srcA Fused.Ex.fsE Fused.Ex.fsA [2] true
      [exFace false false, exFace false true, exFace true false] exE exA (ckMem0 exC) (List.replicate 10 0) (List.replicate 10 0) = some r := by
  obtain ⟨ks, hk⟩ := C105_setUp (K := ℚ) exC
  obtain ⟨r, h, -⟩ := Option.map_eq_some_iff.1 exVan_some
  exact ⟨ks, r, hk, h, C105_step exC_one hk h⟩

open Edge.Map Edge.Quad Edge.Basis Edge.Proj Edge.Gen Edge.Flux Edge.Cons Edge.Seismic Edge.Rate Edge.Lts Edge.Work in
/-- C105_sim: two tetrahedra rotate, in a simulation of two intervals with the kernels for single simulations. -/
example : ∃ (ks : Kerns ℝ) (lT lV LN FT : List (List ℝ)) (els : List (REl ℝ)) (st st' : List (RSt ℝ)) (u' : Nat → Modes), mkKerns exC3 = some ks ∧ els.length = 2 ∧
    runSyncS exC3 ks lT lV LN FT els (List.replicate 54 0) (List.replicate 54 0) ([exItv, exItv].map (fun i => (i.dt, i.x.out))) st = some st' ∧ Ready exC3 els st' u' ∧
    ∀ el < 2, ∀ x, physEval (1/100) .tet 3 (exTets el) (fun md => u' el 6 md 0) x = -x 1 := by
  obtain ⟨ks, hk⟩ := C105_setUp (K := ℝ) exC3
  obtain ⟨lT, lV, LN, FT, els, st, st', u', h1, h2, h3, h4⟩ := exTets_sim
  exact ⟨ks, lT, lV, LN, FT, els, st, st', u', hk, h1, C105_sim ⟨rfl, by decide⟩ hk h2, h3, h4⟩

end Edge.Single
