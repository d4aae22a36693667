import Verif.Fs.Godunov
import Verif.Mesh.Ex
/-!
Concrete meshes meeting the hypotheses of the theorems on the set-up of flux solvers: C96.
-/
namespace Edge.Fs
open Edge Edge.Seismic Matrix

/-- A face; the free surface is given by `fs`. -/
noncomputable def exCh (fs out : Bool) : FaChars := ⟨![1, 0, 0], ![0, 1, 0], ![0, 0, 1], 1 / 2, false, out, fs⟩

/-- Two tetrahedrons: face 3 is between them, face 0 is at the free surface, face 6 is the boundary to another partition; the other faces have outflow boundary conditions. -/
noncomputable def exI : In where
  ty := .tet
  nElsIn := 1
  nElsSe := 1
  nFas := 7
  recv := [(1, 3)]
  faEl := [(some 0, none), (some 0, none), (some 0, none), (some 0, some 1), (some 1, none), (some 1, none), (some 1, none)]
  elVe := [0, 1, 3, 2, 1, 2, 4, 3]
  elFa := Mesh.tetConn.elFa
  veCrds := [![0, 0, 0], ![0, 1, 0], ![1, 0, 0], ![0, 0, 1], ![1, 1, 1]]
  faChars := [exCh true false, exCh false true, exCh false true, exCh false false, exCh false true, exCh false true, exCh false false]
  bgPars := [⟨1, 1, 1⟩, ⟨2, 3, 1⟩]
  bgParsRe := [⟨1, 2, 2⟩]

theorem exI_mesh : FromMesh exI (Mesh.ParO (Mesh.faMatch (1 / 100) 3 3 Mesh.tetCrds Mesh.tetConn.faVe) none [13, 0, 0, 0, 9, 0, 0] 7) Mesh.tetConn where
  nFas := rfl
  elFa := rfl
  faEl := by
    intro f hf
    change f < 7 at hf
    interval_cases f <;> exact ⟨_, _, rfl, rfl, rfl⟩
  periodic := by
    intro f _ g h
    obtain ⟨_, h, -⟩ := h
    cases h

theorem exI_ok : Ok exI := by
  obtain ⟨c1, c2, c3, c4, c5⟩ := C96_connectivity (I := exI) Mesh.tet_spec exI_mesh (by
    intro el hel i hi
    change el < 2 at hel
    change i < 4 at hi
    interval_cases el <;> interval_cases i <;> simp [exI, Map.Ent.nFa, Mesh.tetConn])
  have hfr : ∀ (f : Nat) l r ch, exI.faEl[f]? = some (l, r) → exI.faChars[f]? = some ch →
      (ch.freeSurface = true → r = none) ∧ (r = none → ch.outflow = false → ch.freeSurface = false → f = 6 ∧ l = some 1) := by
    intro f l r ch h1 h2
    have hf : f < 7 := (List.getElem?_eq_some_iff.1 h1).1
    interval_cases f <;> simp [exI] at h1 h2 <;> obtain ⟨rfl, rfl⟩ := h1 <;> subst h2 <;> simp [exCh]
  refine ⟨rfl, rfl, rfl, rfl, c1, c2, c3, c4, c5, fun f l r ch h1 h2 h3 => (hfr f l r ch h1 h2).1 h3, ?_, ?_, ?_⟩
  · intro f l ch h1 h2 h3 h4
    obtain ⟨rfl, h5⟩ := (hfr f _ _ ch h1 h2).2 rfl h3 h4
    obtain rfl : l = 1 := by simpa using h5
    refine ⟨le_refl 1, fun i hi he => ?_⟩
    change i < 4 at hi
    interval_cases i <;> simp [exI, Map.Ent.nFa, Mesh.tetConn] at he ⊢
  · intro el hel
    change el < 2 at hel
    interval_cases el <;> refine ⟨_, rfl, ?_⟩ <;>
      simp [exI, Map.jDet, Map.C88_detTet, Mesh.det3, Map.pt3]
  · intro ch hc
    simp [exI] at hc
    rcases hc with rfl | rfl | rfl | rfl | rfl <;> norm_num [exCh]

/-- The hypotheses of C96_godunov3 are met, with the faces in descending order. -/
example : ∃ fs, initFs exI (setUp3 true (List.replicate 81 7) (List.replicate 54 7)) [6, 5, 4, 3, 2, 1, 0] = some fs ∧ fs.length = 8 := by
  obtain ⟨fs, h1, h2, -⟩ := C96_godunov3 exI_ok (by
      intro m hm
      simp [exI] at hm
      rcases hm with (rfl | rfl) | rfl <;> norm_num [Material.Elastic])
    (by
      intro ch hc
      simp [exI] at hc
      rcases hc with rfl | rfl | rfl | rfl | rfl <;> constructor <;> simp [exCh])
    (visco := true) (jE := List.replicate 81 7) (jA := List.replicate 54 7) (by simp) (by simp) (ord := [6, 5, 4, 3, 2, 1, 0]) (by decide)
  exact ⟨fs, h1, h2⟩

/-- A single square between periodic boundaries: the solver of its left face is wrong (C96_self_refuted). -/
def exQ : In where
  ty := .quad
  nElsIn := 1
  nElsSe := 0
  nFas := 4
  recv := []
  faEl := [(some 0, none), (some 0, some 0), (some 0, none), (some 0, some 0)]
  elVe := [0, 1, 2, 3]
  elFa := [0, 1, 2, 3]
  veCrds := [![0, 0, 0], ![1, 0, 0], ![1, 1, 0], ![0, 1, 0]]
  faChars := [⟨![0, -1, 0], ![1, 0, 0], 0, 1, false, true, false⟩, ⟨![1, 0, 0], ![0, 1, 0], 0, 1, true, false, false⟩,
    ⟨![0, 1, 0], ![-1, 0, 0], 0, 1, false, true, false⟩, ⟨![-1, 0, 0], ![0, -1, 0], 0, 1, true, false, false⟩]
  bgPars := [⟨1, 1, 1⟩]
  bgParsRe := []

example (fs : List (Option FaceFs)) (hl : fs.length = 4) : ∃ d G fs', elDet exQ 0 = some d ∧
    setUp2 false (List.replicate 25 0) (List.replicate 15 0) ⟨1, 1, 1⟩ ⟨1, 1, 1⟩ (-![1, 0, 0]) ![0, 1, 0] 0 false = some G ∧
    initFace exQ (setUp2 false (List.replicate 25 0) (List.replicate 15 0)) 1 fs = some fs' ∧ fs'[1]? = some (some (scale (fac .quad 1 d) (scale (fac .quad 1 d) G))) := by
  have hE : (Material.mk 1 1 1).Elastic := by norm_num [Material.Elastic]
  obtain ⟨a, b, al, ar, h1, -⟩ := face2 hE hE (n := to2 ![1, 0, 0]) (by simp [to2]) (jE := List.replicate 25 0) (jA := List.replicate 15 0) (by simp) (by simp) false false
  obtain ⟨a', b', al', ar', h2, -⟩ := face2 hE hE (n := to2 (-![1, 0, 0])) (by simp [to2]) (jE := List.replicate 25 0) (jA := List.replicate 15 0) (by simp) (by simp) false false
  have hd : ∃ d, elDet exQ 0 = some d ∧ 0 < d := by
    refine ⟨_, rfl, ?_⟩
    simp [exQ, Map.jDet, Linalg.det2, Map.evalJac, Map.derShape, Map.derQuad, Map.sumN_succ, Map.sumN_zero, Map.Ent.nVe]
  obtain ⟨d, hd, h0⟩ := hd
  obtain ⟨fs', k1, k2⟩ := C96_self_refuted (I := exQ) (setUp := setUp2 false (List.replicate 25 0) (List.replicate 15 0)) (f := 1) (el := 0) (i := 1) hl rfl rfl (by decide) (by decide)
    (by decide) rfl rfl hd h0 (by simp) h1 h2
  exact ⟨d, _, fs', hd, h2, k1, k2⟩

end Edge.Fs
