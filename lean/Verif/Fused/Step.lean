import Verif.Fused.EqSurf
import Verif.Step.Model
/-!
Time steps with the fused kernels.
-/
namespace Edge.Fused
open Edge Edge.Linalg Edge.Dg Edge.Step

variable {K : Type} [Field K] [LinearOrder K]

/-- The kernels of `AderDg` (src/impl/seismic/solvers/AderDg.hpp:259-264) for fused simulations (src/impl/seismic/kernels/Kernels.hpp:111-128, 138-141): time
prediction, volume and surface integration, and the number of neighboring flux matrices. -/
structure Kerns (K : Type) where
  tp : Prep K
  vp : Prep K
  sp : Prep K
  nN : Nat

/-- An element in `AderDg::local` (src/impl/seismic/solvers/AderDg.hpp:363-520), see `Step.localEl`. -/
def localElF (c : Cfg) (ks : Kerns K) (dT : K) (starE starA srcA fsE fsA : List (List K)) (rfs dofsE : List K) (dofsA : List (List K)) (m : CkMem K)
    (sc0 sc1 : List K) : Option (List K × List (List K) × CkMem K) := do
  let m ← ckF c ks.tp dT starE starA srcA rfs dofsE dofsA m
  let (dofsE, dofsA, _) ← volIntF c ks.vp starE starA srcA rfs m.tIntE m.tIntA dofsE dofsA m.scratch
  let (dofsE, dofsA, _, _) ← surfLocalF c ks.sp ks.nN fsE fsA rfs m.tIntE dofsE dofsA sc0 sc1
  some (dofsE, dofsA, m)

/-- A face in `AderDg::neigh` (src/impl/seismic/solvers/AderDg.hpp:586-707), see `Dg.neighFace`. -/
def neighFaceF (c : Cfg) (ks : Kerns K) (firstTs : Bool) (fa : Nat) (f : FaceIn K)
    (s : List K × List K × List K × List K) : Option (List K × List K × List K × List K) :=
  if f.outflow then some s
  else do
    let (tD, tFi) ← faceSource c firstTs f
    let vId := if f.freeSurface then none else f.vId
    let fId := if f.freeSurface then 65535 else f.fId
    surfNeighF c ks.sp ks.nN fa vId fId f.fsE f.fsA tD tFi s.1 s.2.1 s.2.2.1 s.2.2.2

/-- An element in `AderDg::neigh` (src/impl/seismic/solvers/AderDg.hpp:572-719), see `Dg.neighEl`. -/
def neighElF (c : Cfg) (ks : Kerns K) (rfs : List K) (firstTs : Bool) (fs : List (FaceIn K)) (dofsE : List K)
    (dofsA : List (List K)) (sc0 sc1 : List K) : Option (List K × List (List K)) := do
  let upA : List K := List.replicate (c.nQtsM * c.nMds * c.nCrs) 0
  let (dofsE, upA, _, _) ← forN c.nFas (fun fa s => do
    let f ← rd fs fa
    neighFaceF c ks firstTs fa f s) (dofsE, upA, sc0, sc1)
  let dofsA ← if c.nRms > 0 then scatterUpdateA c rfs upA dofsA else some dofsA
  some (dofsE, dofsA)

/-- A time step of an element, see `Step.stepEl`. -/
def stepElF (c : Cfg) (ks : Kerns K) (dT : K) (starE starA srcA fsE fsA : List (List K)) (rfs : List K) (firstTs : Bool) (fs : List (FaceIn K))
    (dofsE : List K) (dofsA : List (List K)) (m : CkMem K) (sc0 sc1 : List K) : Option (List K × List (List K) × CkMem K) := do
  let (dofsE, dofsA, m) ← localElF c ks dT starE starA srcA fsE fsA rfs dofsE dofsA m sc0 sc1
  let (dofsE, dofsA) ← neighElF c ks rfs firstTs fs dofsE dofsA sc0 sc1
  some (dofsE, dofsA, m)

/-- `AderDg::local` for element `el` of a partition, see `Step.localOf`; the star matrices of the elements are sparse. -/
def localOfF (c : Cfg) (ks : Kerns K) (dT : K) (els : List (MEl K)) (sc0 sc1 : List K) (st : List (List K × CkMem K)) (el : Nat) : Option (List K × CkMem K) := do
  let E ← rd els el
  let x ← rd st el
  let y ← localElF c ks dT E.starE [] [] E.fsL [] [] x.1 [] x.2 sc0 sc1
  some (y.1, y.2.2)

/-- `AderDg::neigh` for element `el`, see `Step.neighOf`. -/
def neighOfF (c : Cfg) (ks : Kerns K) (els : List (MEl K)) (sc0 sc1 : List K) (st : List (List K × CkMem K)) (el : Nat) : Option (List K × CkMem K) := do
  let E ← rd els el
  let x ← rd st el
  let fs ← facesIn (st.map (·.2.tIntE)) el E.faces
  let y ← neighElF c ks [] false fs x.1 [] sc0 sc1
  some (y.1, x.2)

/-- A global time step, see `Step.stepMesh`. -/
def stepMeshF (c : Cfg) (ks : Kerns K) (els : List (MEl K)) (sc0 sc1 : List K) (st : List (List K × CkMem K)) (dT : K) : Option (List (List K × CkMem K)) := do
  let st ← (List.range els.length).mapM (localOfF c ks dT els sc0 sc1 st)
  (List.range els.length).mapM (neighOfF c ks els sc0 sc1 st)

/-- Time steps of sizes `dts`, see `Step.runMesh`. -/
def runMeshF (c : Cfg) (ks : Kerns K) (els : List (MEl K)) (sc0 sc1 : List K) (dts : List K) (st : List (List K × CkMem K)) : Option (List (List K × CkMem K)) :=
  dts.foldlM (stepMeshF c ks els sc0 sc1) st

/-! ### Sizes -/

/-- The prediction does not change the size of the time integrated degrees of freedom. -/
theorem ck_len {c : Cfg} {dT : K} {stT starE starA srcA : List (List K)} {rfs dofsE : List K} {dofsA : List (List K)} {m m' : CkMem K}
    (h : ck c dT stT starE starA srcA rfs dofsE dofsA m = some m') : m'.tIntE.length = m.tIntE.length := by
  simp only [ck, Option.bind_eq_bind, Option.bind_eq_some_iff] at h
  obtain ⟨m0, h0, ⟨m1, s1⟩, h1, h2⟩ := h
  cases h2
  have e0 : m0.tIntE.length = m.tIntE.length := by
    simp only [ckInit, Option.bind_eq_bind, Option.bind_eq_some_iff] at h0
    obtain ⟨d0, -, ⟨d1, t1⟩, a1, derE, -, ⟨derA, tA⟩, -, a2⟩ := h0
    cases a2
    refine (loop3_each (σ := List K × List K) (fun u => u.2.length = m.tIntE.length) rfl ?_ a1).1
    intro i j q u u' hu he
    simp only [Option.bind_eq_some_iff] at he
    obtain ⟨x, -, d, -, t, b1, b2⟩ := he
    cases b2
    exact (wr_len b1).trans hu
  refine (forN_each (fun u : CkMem K × K => u.1.tIntE.length = m.tIntE.length) e0 ?_ h1).1
  rintro i ⟨u, us⟩ ⟨u', us'⟩ _ hu hb
  simp only [Option.bind_eq_some_iff] at hb
  obtain ⟨dE0, b1, dE1, b2, prev, b3, ⟨sc, dE2, ls⟩, b4, ⟨dE3, derA, tIntA⟩, b5, derE, b6, tIntE, b7, b8⟩ := hb
  cases b8
  refine (loop3_each (σ := List K) (fun u => u.length = m.tIntE.length) hu ?_ b7).1
  intro i j q u u' hu he
  simp only [Option.bind_eq_some_iff] at he
  obtain ⟨x, -, y, -, b1⟩ := he
  exact (wr_len b1).trans hu

/-! ### Steps -/

variable [IsStrictOrderedRing K]

/-- Setting of a step: the matrices of the vanilla kernels `stT`, `stV`, `LN`, `FT` and of the fused kernels. -/
structure StepSet (c : Cfg) (ev : Env K) (pt : Pats) (dT dV fL fN fT stT stV LN FT starE starA srcA sE sA sS : List (List K)) (GT GV A B : Nat → Nat → Nat → K)
    (ks : Kerns K) : Prop where
  tp : TpSet c ev pt dT stT starE starA srcA sE sA sS GT ks.tp
  vp : VolSet c ev pt dV stV starE starA srcA sE sA sS GV ks.vp
  sp : SurfSet c ev pt fL fN fT LN FT A B ks.sp
  nN : ks.nN = fN.length

section
variable {c : Cfg} {ev : Env K} {pt : Pats} {dT dV fL fN fT stT stV LN FT starE starA srcA sE sA sS : List (List K)} {GT GV A B : Nat → Nat → Nat → K} {ks : Kerns K}

theorem localEl_eq (hS : StepSet c ev pt dT dV fL fN fT stT stV LN FT starE starA srcA sE sA sS GT GV A B ks) {fsE fsA : List (List K)} (hF : Solvers c fsE fsA) {dt : K}
    {rfs dofsE : List K} {dofsA : List (List K)} {m : CkMem K} {s0 : List K} (hs0 : s0.length = m.scratch.length)
    (hl : 0 < c.nRms → m.tIntE.length = c.nQtsE * c.nMds * c.nCrs) {sc0 sc1 e' : List K} {a' : List (List K)} {m' : CkMem K}
    (h : localEl c dt stT stV LN FT starE starA srcA fsE fsA rfs dofsE dofsA m sc0 sc1 = some (e', a', m')) :
    ∃ sc, localElF c ks dt sE sA sS fsE fsA rfs dofsE dofsA { m with scratch := s0 } sc0 sc1 = some (e', a', { m' with scratch := sc }) ∧
      sc.length = m'.scratch.length := by
  simp only [localEl, Option.bind_eq_bind, Option.bind_eq_some_iff] at h
  obtain ⟨m1, h1, ⟨e1, a1, s1⟩, h2, ⟨e2, a2, s2, s3⟩, h3, h4⟩ := h
  cases h4
  obtain ⟨sc, k1, k2⟩ := ck_eq hS.tp hs0 h1
  obtain ⟨scF, k3, k4⟩ := volInt_eq hS.vp (fun hr => (ck_len h1).trans (hl hr)) k2 h2
  have k5 := surfLocal_eq hS.sp hF h3
  refine ⟨sc, ?_, k2⟩
  simp only [localElF, k1, Option.bind_eq_bind, Option.bind_some, k3, hS.nN, k5]

/-- Flux solvers of the faces of the neighboring update. -/
def FaceSolvers (c : Cfg) (fs : List (FaceIn K)) : Prop :=
  ∀ f ∈ fs, f.outflow = false → c.nQtsE * c.nQtsE ≤ f.fsE.length ∧ (0 < c.nRms → c.nQtsM * c.nQtsE ≤ f.fsA.length)

theorem neighEl_eq (hS : SurfSet c ev pt fL fN fT LN FT A B ks.sp) (hN : ks.nN = fN.length) {rfs : List K} {firstTs : Bool} {fs : List (FaceIn K)} (hF : FaceSolvers c fs)
    {dofsE : List K} {dofsA : List (List K)} {sc0 sc1 : List K} {r : List K × List (List K)} (h : neighEl c LN FT rfs firstTs fs dofsE dofsA sc0 sc1 = some r) :
    neighElF c ks rfs firstTs fs dofsE dofsA sc0 sc1 = some r := by
  simp only [neighEl, Option.bind_eq_bind, Option.bind_eq_some_iff] at h
  obtain ⟨x, h1, h2⟩ := h
  have k := forN_same (b2 := fun fa s => (rd fs fa).bind fun f => neighFaceF c ks firstTs fa f s) (by
    intro fa u u' hfa hb
    simp only [Option.bind_eq_some_iff] at hb ⊢
    obtain ⟨f, b1, b2⟩ := hb
    refine ⟨f, b1, ?_⟩
    unfold neighFace at b2
    unfold neighFaceF
    by_cases ho : f.outflow
    · rw [if_pos ho] at b2 ⊢
      exact b2
    · rw [if_neg ho] at b2 ⊢
      simp only [Option.bind_eq_bind, Option.bind_eq_some_iff] at b2 ⊢
      obtain ⟨⟨tD, tFi⟩, b3, b4⟩ := b2
      refine ⟨(tD, tFi), b3, ?_⟩
      obtain ⟨f1, f2⟩ := hF f (List.mem_of_getElem? b1) (by simpa using ho)
      simp only at b4 ⊢
      rw [hN]
      exact surfNeigh_eq hS hfa f1 f2 b4) h1
  simp only [neighElF, Option.bind_eq_bind]
  rw [k, Option.bind_some]
  exact h2

theorem stepEl_eq (hS : StepSet c ev pt dT dV fL fN fT stT stV LN FT starE starA srcA sE sA sS GT GV A B ks) {fsE fsA : List (List K)} (hF : Solvers c fsE fsA) {dt : K}
    {rfs dofsE : List K} {firstTs : Bool} {fs : List (FaceIn K)} (hF' : FaceSolvers c fs) {dofsA : List (List K)} {m : CkMem K} {s0 : List K}
    (hs0 : s0.length = m.scratch.length) (hl : 0 < c.nRms → m.tIntE.length = c.nQtsE * c.nMds * c.nCrs) {sc0 sc1 e' : List K} {a' : List (List K)} {m' : CkMem K}
    (h : stepEl c dt stT stV LN FT starE starA srcA fsE fsA rfs firstTs fs dofsE dofsA m sc0 sc1 = some (e', a', m')) :
    ∃ sc, stepElF c ks dt sE sA sS fsE fsA rfs firstTs fs dofsE dofsA { m with scratch := s0 } sc0 sc1 = some (e', a', { m' with scratch := sc }) ∧
      sc.length = m'.scratch.length := by
  simp only [stepEl, Option.bind_eq_bind, Option.bind_eq_some_iff] at h
  obtain ⟨⟨e1, a1, m1⟩, h1, ⟨e2, a2⟩, h2, h3⟩ := h
  cases h3
  obtain ⟨sc, k1, k2⟩ := localEl_eq hS hF hs0 hl h1
  have k3 := neighEl_eq hS.sp hS.nN hF' h2
  refine ⟨sc, ?_, k2⟩
  simp only [stepElF, k1, Option.bind_eq_bind, Option.bind_some, k3]

end

/-! ### Mesh -/

omit [Field K] [LinearOrder K] [IsStrictOrderedRing K] in
theorem mapM_rel {α β γ : Type} {f : α → Option β} {g : α → Option γ} (R : β → γ → Prop) {l : List α} (hs : ∀ x ∈ l, ∀ y, f x = some y → ∃ z, g x = some z ∧ R y z) :
    ∀ {ys : List β}, l.mapM f = some ys → ∃ zs, l.mapM g = some zs ∧ List.Forall₂ R ys zs := by
  induction l with
  | nil => intro ys h; simp at h; subst h; exact ⟨[], rfl, .nil⟩
  | cons a l ih =>
    intro ys h
    simp only [List.mapM_cons, Option.bind_eq_bind, Option.pure_def, Option.bind_eq_some_iff] at h ⊢
    obtain ⟨y, h1, ys', h2, h3⟩ := h
    cases h3
    obtain ⟨z, k1, k2⟩ := hs a (by simp) y h1
    obtain ⟨zs, k3, k4⟩ := ih (fun x hx => hs x (by simp [hx])) h2
    exact ⟨z :: zs, ⟨z, k1, zs, k3, rfl⟩, .cons k2 k4⟩

omit [Field K] [LinearOrder K] [IsStrictOrderedRing K] in
/-- Same degrees of freedom, derivatives and integrals; the scratch memory may have other contents. -/
def SameSt (x y : List K × CkMem K) : Prop := ∃ s, y = (x.1, { x.2 with scratch := s }) ∧ s.length = x.2.scratch.length

omit [Field K] [LinearOrder K] [IsStrictOrderedRing K] in
theorem same_rd {st st' : List (List K × CkMem K)} (h : List.Forall₂ SameSt st st') {el : Nat} {x : List K × CkMem K} (hx : rd st el = some x) :
    ∃ y, rd st' el = some y ∧ SameSt x y := by
  induction h generalizing el with
  | nil => simp [rd] at hx
  | cons h1 _ ih =>
    cases el with
    | zero => simp [rd] at hx ⊢; subst hx; exact h1
    | succ el => exact ih (by simpa [rd] using hx)

omit [Field K] [LinearOrder K] [IsStrictOrderedRing K] in
theorem same_tInt {st st' : List (List K × CkMem K)} (h : List.Forall₂ SameSt st st') : st'.map (·.2.tIntE) = st.map (·.2.tIntE) := by
  induction h with
  | nil => rfl
  | cons h1 _ ih =>
    obtain ⟨s, e, -⟩ := h1
    rw [List.map_cons, List.map_cons, ih, e]

/-- Setting of a mesh: star matrices `sE` of element `el` are the sparse versions of those of `els`. -/
structure MeshSet (c : Cfg) (els els' : List (MEl K)) : Prop where
  len : els'.length = els.length
  get : ∀ el E, rd els el = some E → ∃ sE, rd els' el = some { E with starE := sE } ∧ SparseAll (starEPos c.nDis) c.nDis c.nQtsE c.nQtsE E.starE sE ∧
    (∀ f ∈ E.fsL, c.nQtsE * c.nQtsE ≤ f.length) ∧ ∀ f ∈ E.faces, c.nQtsE * c.nQtsE ≤ f.fsE.length

variable {c : Cfg} {ev : Env K} {pt : Pats} {dT dV fL fN fT stT stV LN FT : List (List K)} {GT GV A B : Nat → Nat → Nat → K} {ks : Kerns K}

/-- The matrices of a mesh without relaxation mechanisms; those of an element are left out. -/
def Ready (c : Cfg) (ev : Env K) (pt : Pats) (dT dV fL fN fT stT stV LN FT : List (List K)) (GT GV A B : Nat → Nat → Nat → K) (ks : Kerns K) : Prop :=
  ∀ starE sE : List (List K), SparseAll (starEPos c.nDis) c.nDis c.nQtsE c.nQtsE starE sE →
    StepSet c ev pt dT dV fL fN fT stT stV LN FT starE [] [] sE [] [] GT GV A B ks

theorem stepMesh_eq (hr : c.nRms = 0) (hR : Ready c ev pt dT dV fL fN fT stT stV LN FT GT GV A B ks) {els els' : List (MEl K)} (hM : MeshSet c els els') {sc0 sc1 : List K}
    {st st' : List (List K × CkMem K)} (h0 : List.Forall₂ SameSt st st') {dt : K} {r : List (List K × CkMem K)}
    (h : stepMesh c stT stV LN FT els sc0 sc1 st dt = some r) : ∃ r', stepMeshF c ks els' sc0 sc1 st' dt = some r' ∧ List.Forall₂ SameSt r r' := by
  simp only [stepMesh, Option.bind_eq_bind, Option.bind_eq_some_iff] at h
  obtain ⟨s1, h1, h2⟩ := h
  obtain ⟨s1', k1, k2⟩ := mapM_rel (g := localOfF c ks dt els' sc0 sc1 st') SameSt (by
    intro el _ y hy
    simp only [localOf, Option.bind_eq_bind, Option.bind_eq_some_iff] at hy
    obtain ⟨E, b1, x, b2, ⟨e', a', m'⟩, b3, b4⟩ := hy
    cases b4
    obtain ⟨sE, c1, c2, c3, c4⟩ := hM.get el E b1
    obtain ⟨y, d1, s, rfl, d2⟩ := same_rd h0 b2
    obtain ⟨sc, g1, g2⟩ := localEl_eq (hR _ _ c2) (fsE := E.fsL) (fsA := []) ⟨fun fa _ f hf => c3 f (List.mem_of_getElem? hf), fun fa _ f hf => by simp [rd] at hf⟩ d2
      (fun h => absurd h (by omega)) b3
    refine ⟨(e', { m' with scratch := sc }), ?_, sc, rfl, g2⟩
    simp only [localOfF, c1, d1, Option.bind_eq_bind, Option.bind_some, g1]) h1
  obtain ⟨r', k3, k4⟩ := mapM_rel (g := neighOfF c ks els' sc0 sc1 s1') SameSt (by
    intro el _ y hy
    simp only [neighOf, Option.bind_eq_bind, Option.bind_eq_some_iff] at hy
    obtain ⟨E, b1, x, b2, fs, b3, ⟨e', a'⟩, b4, b5⟩ := hy
    cases b5
    obtain ⟨sE, c1, c2, c3, c4⟩ := hM.get el E b1
    obtain ⟨y, d1, s, rfl, d2⟩ := same_rd k2 b2
    have hfs : FaceSolvers c fs := by
      intro f hf _
      refine ⟨?_, fun h => absurd h (by omega)⟩
      have : ∀ {l : List (MFace K)} {fs : List (FaceIn K)}, (∀ f ∈ l, c.nQtsE * c.nQtsE ≤ f.fsE.length) →
          l.mapM (fun f => (if f.outflow then some [] else rd (s1.map (·.2.tIntE)) (f.nb el)).map f.toIn) = some fs → ∀ f ∈ fs, c.nQtsE * c.nQtsE ≤ f.fsE.length := by
        intro l
        induction l with
        | nil => intro fs _ h; simp at h; subst h; simp
        | cons a l ih =>
          intro fs hl h
          simp only [List.mapM_cons, Option.bind_eq_bind, Option.pure_def, Option.bind_eq_some_iff, Option.map_eq_some_iff] at h
          obtain ⟨y, ⟨t, -, rfl⟩, ys, h2, h3⟩ := h
          cases h3
          intro f hf
          rcases List.mem_cons.1 hf with rfl | hf
          · exact hl a (by simp)
          · exact ih (fun f hf => hl f (by simp [hf])) h2 f hf
      exact this c4 b3 f hf
    have g1 := neighEl_eq (hR _ _ c2).sp (hR _ _ c2).nN hfs b4
    refine ⟨(e', { x.2 with scratch := s }), ?_, s, rfl, d2⟩
    simp only [neighOfF, c1, d1, Option.bind_eq_bind, Option.bind_some, same_tInt k2, b3, g1]) h2
  refine ⟨r', ?_, k4⟩
  simp only [stepMeshF, hM.len, k1, Option.bind_eq_bind, Option.bind_some, k3]

theorem runMesh_eq (hr : c.nRms = 0) (hR : Ready c ev pt dT dV fL fN fT stT stV LN FT GT GV A B ks) {els els' : List (MEl K)} (hM : MeshSet c els els') {sc0 sc1 : List K}
    (dts : List K) : ∀ {st st' : List (List K × CkMem K)}, List.Forall₂ SameSt st st' → ∀ {r : List (List K × CkMem K)},
    runMesh c stT stV LN FT els sc0 sc1 dts st = some r → ∃ r', runMeshF c ks els' sc0 sc1 dts st' = some r' ∧ List.Forall₂ SameSt r r' := by
  induction dts with
  | nil =>
    intro st st' h0 r h
    simp only [runMesh, List.foldlM_nil, Option.pure_def, Option.some.injEq] at h
    subst h
    exact ⟨st', rfl, h0⟩
  | cons dt dts ih =>
    intro st st' h0 r h
    simp only [runMesh, List.foldlM_cons, Option.bind_eq_bind, Option.bind_eq_some_iff] at h
    obtain ⟨s1, h1, h2⟩ := h
    obtain ⟨s1', k1, k2⟩ := stepMesh_eq hr hR hM h0 h1
    obtain ⟨r', k3, k4⟩ := ih k2 h2
    exact ⟨r', by simp only [runMeshF, List.foldlM_cons, k1, Option.bind_eq_bind, Option.bind_some]; exact k3, k4⟩

end Edge.Fused
