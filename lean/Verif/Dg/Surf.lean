import Verif.Dg.Pred
import Verif.Dg.LtsModel
/-!
Surface integration and neighboring updates (C75).
-/
namespace Edge.Dg
open Edge Edge.Linalg Finset

variable {K : Type} [Field K] [LinearOrder K]

/-! ### Specification -/

/-- Values `t F` at a face of the time integrated modes `t`: `F` is the flux matrix of the side the data belongs to. -/
def faceProj (c : Cfg) (F : Nat → Nat → K) (t : Nat → Nat → Nat → K) (q n r : Nat) : K :=
  ∑ m ∈ range c.nMds, t q m r * F m n

/-- Surface contribution `fs P FT` of the values `P` at a face: `fs` is the flux solver, `FT` the transposed flux matrix of the
element's face. -/
def surfC (c : Cfg) (fs FT : Nat → Nat → K) (P : Nat → Nat → Nat → K) (q md r : Nat) : K :=
  ∑ n ∈ range c.nMdsFa, (∑ p ∈ range c.nQtsE, fs q p * P p n r) * FT n md

/-! ### Kernels -/

theorem fluxInt_spec {c : Cfg} {t mat out : List K} {T P : Nat → Nat → Nat → K} {F : Nat → Nat → K} {QC : Nat}
    (ht : Rep c.nQtsE c.nMds c.nCrs t T) (hF : Mat c.nMds c.nMdsFa c.nMdsFa mat F) (ho : Rep QC c.nMdsFa c.nCrs out P)
    (hQ : c.nQtsE ≤ QC) :
    ∃ o, fluxInt c t mat out = some o ∧ Rep QC c.nMdsFa c.nCrs o (fun q n r => if q < c.nQtsE then faceProj c F T q n r
      else P q n r) := by
  obtain ⟨o, h0, h1⟩ := mmAC (beta := (0 : K)) ht hF ho le_rfl le_rfl hQ le_rfl
  refine ⟨o, h0, h1.congr fun q n r _ k2 _ => ?_⟩
  by_cases hq : q < c.nQtsE
  · simp only [hq, k2, and_self, if_true, zero_mul, zero_add, faceProj]
  · simp [hq]

theorem fluxSolve_spec {c : Cfg} (hs : Sizes c) {fsE fsA fT tFi dofsE upA sc1 : List K} {FE FA FT : Nat → Nat → K}
    {P d u : Nat → Nat → Nat → K} (hE : Mat c.nQtsE c.nQtsE c.nQtsE fsE FE)
    (hA : 0 < c.nRms → Mat c.nQtsM c.nQtsE c.nQtsE fsA FA) (hT : Mat c.nMdsFa c.nMds c.nMds fT FT)
    (hP : ∀ q n r, q < c.nQtsE → n < c.nMdsFa → r < c.nCrs → tFi[at3 c.nMdsFa c.nCrs q n r]? = some (P q n r))
    (hd : Rep c.nQtsE c.nMds c.nCrs dofsE d) (hu : Rep c.nQtsM c.nMds c.nCrs upA u)
    (hsc : sc1.length = c.nQtsE * c.nMdsFa * c.nCrs) :
    ∃ s, fluxSolve c fsE fsA fT tFi dofsE upA sc1 = some s ∧
      Rep c.nQtsE c.nMds c.nCrs s.1 (fun q md r => d q md r + surfC c FE FT P q md r) ∧
      Rep c.nQtsM c.nMds c.nCrs s.2.1 (fun q md r => u q md r + if 0 < c.nRms then surfC c FA FT P q md r else 0) ∧
      s.2.2.length = c.nQtsE * c.nMdsFa * c.nCrs := by
  have hinh : Inhabited K := ⟨0⟩
  have hqts := hs.qts
  obtain ⟨s1, a0, a1⟩ := mmBC' (n := c.nMdsFa) (beta := (0 : K)) hE hP (rep_of_length hsc) le_rfl le_rfl
  have a1' : Rep c.nQtsE c.nMdsFa c.nCrs s1 (fun q n r => ∑ p ∈ range c.nQtsE, FE q p * P p n r) :=
    a1.congr fun q n r k1 k2 _ => by simp only [k1, k2, and_self, if_true, zero_mul, zero_add]
  obtain ⟨d', b0, b1⟩ := mmAC (Q := c.nQtsE) (n := c.nMds) (beta := (1 : K)) a1' hT hd le_rfl le_rfl le_rfl le_rfl
  have b1' : Rep c.nQtsE c.nMds c.nCrs d' (fun q md r => d q md r + surfC c FE FT P q md r) :=
    b1.congr fun q md r k1 k2 _ => by simp only [k1, k2, and_self, if_true, one_mul, surfC]
  by_cases hr : 0 < c.nRms
  · obtain ⟨s2, e0, e1⟩ := mmBC' (n := c.nMdsFa) (beta := (0 : K)) (hA hr) hP a1' (by omega) le_rfl
    obtain ⟨u', g0, g1⟩ := mmAC (Q := c.nQtsM) (n := c.nMds) (beta := (1 : K)) e1 hT hu (by omega) le_rfl le_rfl le_rfl
    refine ⟨(d', u', s2), ?_, b1', g1.congr fun q md r k1 k2 _ => ?_, e1.1⟩
    · simp only [fluxSolve, Option.bind_eq_bind, gt_iff_lt]
      rw [a0, Option.bind_some, b0, Option.bind_some, if_pos hr, e0, Option.bind_some, g0, Option.bind_some]
    · simp only [k1, k2, hr, and_self, if_true, one_mul, surfC]
      congr 1
      refine sum_congr rfl fun n hn => ?_
      simp only [mem_range.1 hn, and_true, if_true, zero_mul, zero_add]
  · refine ⟨(d', upA, s1), ?_, b1', hu.congr (by intros; simp [hr]), a1.1⟩
    simp only [fluxSolve, Option.bind_eq_bind, gt_iff_lt]
    rw [a0, Option.bind_some, b0, Option.bind_some, if_neg hr]

theorem scatterUpdateA_spec {c : Cfg} {rfs up : List K} {dofsA : List (List K)} {rf : Nat → K} {u : Nat → Nat → Nat → K}
    {da : Nat → Nat → Nat → Nat → K} (hrf : ∀ rm < c.nRms, rd rfs rm = some (rf rm)) (hu : Rep c.nQtsM c.nMds c.nCrs up u)
    (hda : PerRm c da dofsA) :
    ∃ A', scatterUpdateA c rfs up dofsA = some A' ∧ PerRm c (fun rm q md r => da rm q md r + rf rm * u q md r) A' := by
  obtain ⟨A', h0, h1⟩ := forN_inv (n := c.nRms) (s := dofsA) (body := fun rm (dofsA : List (List K)) => do
    let rf ← rd rfs rm
    let d ← rd dofsA rm
    let d ← loop3 c.nQtsM c.nMds c.nCrs (fun qt md cr d => do
      let x ← rd d (at3 c.nMds c.nCrs qt md cr)
      let u ← rd up (at3 c.nMds c.nCrs qt md cr)
      wr d (at3 c.nMds c.nCrs qt md cr) (x + rf * u)) d
    wr dofsA rm d)
    (fun n l => PerRm c (fun rm q md r => if rm < n then da rm q md r + rf rm * u q md r else da rm q md r) l)
    (hda.congr (by intros; simp)) (by
    rintro rm l hrm h
    obtain ⟨x, hx, rx⟩ := h.2 rm hrm
    simp only [lt_irrefl, if_false] at rx
    obtain ⟨x', l0, l1⟩ := loop3_spec rx le_rfl le_rfl (fun q md r y => y + rf rm * u q md r)
      (body := fun qt md cr d => do
      let x ← rd d (at3 c.nMds c.nCrs qt md cr)
      let u ← rd up (at3 c.nMds c.nCrs qt md cr)
      wr d (at3 c.nMds c.nCrs qt md cr) (x + rf rm * u)) (fun q md r l' k1 k2 k3 hl hx => by
        simp only [Option.bind_eq_bind]
        rw [rd, hx, Option.bind_some, hu.rd k1 k2 k3, Option.bind_some, wr_some hl])
    obtain ⟨v1, v2⟩ := h.set (g := fun rm' q md r => if rm' < rm + 1 then da rm' q md r + rf rm' * u q md r
        else da rm' q md r) hrm (t := x') (l1.congr fun q md r k1 k2 k3 => by simp [k1, k2]) (by
        intro rm' hne
        funext q md r
        by_cases hlt : rm' < rm
        · rw [if_pos hlt, if_pos (by omega)]
        · rw [if_neg hlt, if_neg (by omega)])
    refine ⟨l.set rm x', ?_, v2⟩
    simp only [Option.bind_eq_bind] at l0 ⊢
    rw [hrf rm hrm, Option.bind_some, hx, Option.bind_some, l0, Option.bind_some, v1])
  exact ⟨A', h0, h1.congr fun rm q md r hrm _ _ _ => by simp [hrm]⟩

/-- C75: the local surface integration adds the contributions of all faces to the elastic modes, and to the memory variables
of every mechanism with its frequency. -/
theorem C75_local {c : Cfg} (hs : Sizes c) {fIntLN fIntT fsE fsA : List (List K)} {rfs tE dofsE sc0 sc1 : List K}
    {dofsA : List (List K)} {F FT FE FA : Nat → Nat → Nat → K} {rf : Nat → K} {T d : Nat → Nat → Nat → K}
    {da : Nat → Nat → Nat → Nat → K} (hF : Mats c.nFas c.nMds c.nMdsFa c.nMdsFa fIntLN F)
    (hT : Mats c.nFas c.nMdsFa c.nMds c.nMds fIntT FT) (hE : Mats c.nFas c.nQtsE c.nQtsE c.nQtsE fsE FE)
    (hA : 0 < c.nRms → Mats c.nFas c.nQtsM c.nQtsE c.nQtsE fsA FA) (hrf : ∀ rm < c.nRms, rd rfs rm = some (rf rm))
    (ht : Rep c.nQtsE c.nMds c.nCrs tE T) (hd : Rep c.nQtsE c.nMds c.nCrs dofsE d) (hda : PerRm c da dofsA)
    (h0 : sc0.length = c.nQtsE * c.nMdsFa * c.nCrs) (h1 : sc1.length = c.nQtsE * c.nMdsFa * c.nCrs) :
    ∃ E' A' s0 s1, surfLocal c fIntLN fIntT fsE fsA rfs tE dofsE dofsA sc0 sc1 = some (E', A', s0, s1) ∧
      Rep c.nQtsE c.nMds c.nCrs E' (fun q md r => d q md r +
        ∑ fa ∈ range c.nFas, surfC c (FE fa) (FT fa) (faceProj c (F fa) T) q md r) ∧
      PerRm c (fun rm q md r => da rm q md r +
        rf rm * ∑ fa ∈ range c.nFas, surfC c (FA fa) (FT fa) (faceProj c (F fa) T) q md r) A' := by
  have hinh : Inhabited K := ⟨0⟩
  obtain ⟨⟨E', u', s0, s1⟩, g0, g1, g2, -, -⟩ := forN_inv (n := c.nFas)
    (s := (dofsE, List.replicate (c.nQtsM * c.nMds * c.nCrs) (0 : K), sc0, sc1))
    (body := fun fa (s : List K × List K × List K × List K) => do
    let mat ← rd fIntLN fa
    let sc0 ← fluxInt c tE mat s.2.2.1
    let fE ← rd fsE fa
    let fA ← fsAOf c fsA fa
    let fT ← rd fIntT fa
    let (dofsE, upA, sc1) ← fluxSolve c fE fA fT sc0 s.1 s.2.1 s.2.2.2
    some (dofsE, upA, sc0, sc1))
    (fun n s => Rep c.nQtsE c.nMds c.nCrs s.1 (fun q md r => d q md r +
        ∑ fa ∈ range n, surfC c (FE fa) (FT fa) (faceProj c (F fa) T) q md r) ∧
      Rep c.nQtsM c.nMds c.nCrs s.2.1 (fun q md r => if 0 < c.nRms then
        ∑ fa ∈ range n, surfC c (FA fa) (FT fa) (faceProj c (F fa) T) q md r else 0) ∧
      s.2.2.1.length = c.nQtsE * c.nMdsFa * c.nCrs ∧ s.2.2.2.length = c.nQtsE * c.nMdsFa * c.nCrs)
    ⟨hd.congr (by intros; simp), (rep_replicate c.nQtsM c.nMds c.nCrs (0 : K)).congr (by intros; simp), h0, h1⟩ (by
    rintro fa ⟨dE, u, s0, s1⟩ hfa ⟨k1, k2, k3, k4⟩
    dsimp only at k1 k2 k3 k4
    obtain ⟨mF, hmF, mmF⟩ := hF fa hfa
    obtain ⟨mT, hmT, mmT⟩ := hT fa hfa
    obtain ⟨mE, hmE, mmE⟩ := hE fa hfa
    obtain ⟨s0', a0, a1⟩ := fluxInt_spec ht mmF (rep_of_length k3) le_rfl
    obtain ⟨mA, hmA, mmA⟩ : ∃ mA, fsAOf c fsA fa = some mA ∧
        (0 < c.nRms → Mat c.nQtsM c.nQtsE c.nQtsE mA (FA fa)) := by
      by_cases hr : 0 < c.nRms
      · obtain ⟨mA, x, y⟩ := hA hr fa hfa
        exact ⟨mA, by rw [fsAOf, if_pos hr, x], fun _ => y⟩
      · exact ⟨[], by rw [fsAOf, if_neg hr], fun h => absurd h hr⟩
    obtain ⟨⟨dE', u', s1'⟩, b0, b1, b2, b3⟩ := fluxSolve_spec hs mmE mmA mmT
      (fun q n r q1 q2 q3 => (a1.2 q n r q1 q2 q3).trans (congrArg some (if_pos q1))) k1 k2 k4
    refine ⟨(dE', u', s0', s1'), ?_, b1.congr fun q md r _ _ _ => ?_, b2.congr fun q md r _ _ _ => ?_, a1.1, b3⟩
    · simp only [Option.bind_eq_bind]
      rw [hmF, Option.bind_some, a0, Option.bind_some, hmE, Option.bind_some, hmA, Option.bind_some, hmT, Option.bind_some,
        b0, Option.bind_some]
    · rw [sum_range_succ _ fa, add_assoc]
    · by_cases hr : 0 < c.nRms
      · simp only [hr, if_true, sum_range_succ _ fa]
      · simp [hr])
  dsimp only at g1 g2
  by_cases hr : 0 < c.nRms
  · obtain ⟨A', x0, x1⟩ := scatterUpdateA_spec hrf g2 hda
    refine ⟨E', A', s0, s1, ?_, g1, x1.congr fun rm q md r _ _ _ _ => by simp only [hr, if_true]⟩
    simp only [surfLocal, Option.bind_eq_bind, gt_iff_lt] at g0 ⊢
    rw [g0, Option.bind_some, if_pos hr, x0, Option.bind_some]
  · refine ⟨E', dofsA, s0, s1, ?_, g1, hda.1, fun rm hrm => absurd hrm (by omega)⟩
    simp only [surfLocal, Option.bind_eq_bind, gt_iff_lt] at g0 ⊢
    rw [g0, Option.bind_some, if_neg hr, Option.bind_some]

/-! ### Neighboring updates -/

/-- Position of the flux matrix of a face: first the local matrices of the faces, then the neighboring ones, for every vertex
option those of the faces of the adjacent element. Without an adjacent element (free surface, no vertex option) the local
matrix of the face is used. -/
def fluxPos (nFas fa : Nat) (freeSurface : Bool) (vId : Option Nat) (fId : Nat) : Nat :=
  match freeSurface, vId with
  | false, some v => nFas + v * nFas + fId
  | _, _ => fa

/-- The data `neighFace` takes for face `fa`: the values `P` at the face are those of the adjacent element's time integrated
modes, either computed with the flux matrix for the ids of the face or received. -/
def FaceData (c : Cfg) (fIntLN : List (List K)) (firstTs : Bool) (fa : Nat) (f : FaceIn K) (P : Nat → Nat → Nat → K) : Prop :=
  match f.recv with
  | none => ∃ t T mat F, assemble c f.ad.eq f.ad.gt firstTs f.tNe = some t ∧ Rep c.nQtsE c.nMds c.nCrs t T ∧
      rd fIntLN (fluxPos c.nFas fa f.freeSurface f.vId f.fId) = some mat ∧
      Mat c.nMds c.nMdsFa c.nMdsFa mat F ∧
      ∀ q n r, q < c.nQtsE → n < c.nMdsFa → r < c.nCrs → P q n r = faceProj c F T q n r
  | some b => ∀ q n r, q < c.nQtsE → n < c.nMdsFa → r < c.nCrs →
      b[at3 c.nMdsFa c.nCrs ((if f.ad.lt ∧ ¬ firstTs then c.nQtsE else 0) + q) n r]? = some (P q n r)

theorem neighFace_spec {c : Cfg} (hs : Sizes c) {fIntLN fIntT : List (List K)} {firstTs : Bool} {fa : Nat} {f : FaceIn K}
    {FT FE FA : Nat → Nat → K} {P d u : Nat → Nat → Nat → K} {mT : List K} (hmT : rd fIntT fa = some mT)
    (mmT : Mat c.nMdsFa c.nMds c.nMds mT FT) (hE : f.outflow = false → Mat c.nQtsE c.nQtsE c.nQtsE f.fsE FE)
    (hA : f.outflow = false → 0 < c.nRms → Mat c.nQtsM c.nQtsE c.nQtsE f.fsA FA)
    (hP : f.outflow = false → FaceData c fIntLN firstTs fa f P) {dE upA s0 s1 : List K}
    (hd : Rep c.nQtsE c.nMds c.nCrs dE d) (hu : Rep c.nQtsM c.nMds c.nCrs upA u)
    (h0 : s0.length = c.nQtsE * c.nMdsFa * c.nCrs) (h1 : s1.length = c.nQtsE * c.nMdsFa * c.nCrs) :
    ∃ s, neighFace c fIntLN fIntT firstTs fa f (dE, upA, s0, s1) = some s ∧
      Rep c.nQtsE c.nMds c.nCrs s.1 (fun q md r => d q md r + if f.outflow then 0 else surfC c FE FT P q md r) ∧
      Rep c.nQtsM c.nMds c.nCrs s.2.1 (fun q md r => u q md r + if f.outflow = false ∧ 0 < c.nRms then
        surfC c FA FT P q md r else 0) ∧
      s.2.2.1.length = c.nQtsE * c.nMdsFa * c.nCrs ∧ s.2.2.2.length = c.nQtsE * c.nMdsFa * c.nCrs := by
  have hinh : Inhabited K := ⟨0⟩
  by_cases ho : f.outflow = true
  · exact ⟨(dE, upA, s0, s1), by rw [neighFace, if_pos ho], hd.congr (by intros; simp [ho]), hu.congr (by intros; simp [ho]),
      h0, h1⟩
  · have ho' : f.outflow = false := by simpa using ho
    have hP' := hP ho'
    unfold FaceData at hP'
    -- data at the face
    obtain ⟨tD, tFi, tF, s0', e0, e1, e2, e3⟩ : ∃ tD tFi tF s0',
        faceSource c firstTs f = some (tD, tFi) ∧
        faceValues c fIntLN fa (if f.freeSurface then none else f.vId) (if f.freeSurface then 65535 else f.fId) tD tFi s0 =
          some (tF, s0') ∧ s0'.length = c.nQtsE * c.nMdsFa * c.nCrs ∧
        ∀ q n r, q < c.nQtsE → n < c.nMdsFa → r < c.nCrs → tF[at3 c.nMdsFa c.nCrs q n r]? = some (P q n r) := by
      cases hrv : f.recv with
      | none =>
        rw [hrv] at hP'
        obtain ⟨t, T, mat, F, a0, a1, a2, a3, a4⟩ := hP'
        have hpos : fluxPos c.nFas fa f.freeSurface f.vId f.fId =
            fMatId c fa (if f.freeSurface then none else f.vId) (if f.freeSurface then 65535 else f.fId) := by
          cases f.freeSurface <;> cases f.vId <;> simp [fluxPos, fMatId, Nat.add_assoc]
        rw [hpos] at a2
        obtain ⟨s0', b0, b1⟩ := fluxInt_spec a1 a3 (rep_of_length h0) le_rfl
        refine ⟨t, none, s0', s0', by simp [faceSource, hrv, a0], ?_, b1.1, fun q n r q1 q2 q3 => ?_⟩
        · simp only [faceValues, neighFluxInt, Option.bind_eq_bind]
          rw [a2, Option.bind_some, b0, Option.bind_some]
        · rw [b1.2 q n r q1 q2 q3]
          beta_reduce
          rw [if_pos q1, a4 q n r q1 q2 q3]
      | some b =>
        rw [hrv] at hP'
        refine ⟨[], some (b.drop (at3 c.nMdsFa c.nCrs (if f.ad.lt then (if firstTs then 0 else c.nQtsE) else 0) 0 0)), _, s0,
          by rw [faceSource, hrv], rfl, h0, fun q n r q1 q2 q3 => ?_⟩
        rw [List.getElem?_drop, at3_off, ← hP' q n r q1 q2 q3]
        congr 3
        cases f.ad.lt <;> cases firstTs <;> simp
    obtain ⟨⟨dE', u', s1'⟩, b0, b1, b2, b3⟩ := fluxSolve_spec hs (hE ho') (hA ho') mmT e3 hd hu h1
    refine ⟨(dE', u', s0', s1'), ?_, b1.congr (by intros; simp [ho']), b2.congr (by intros; simp [ho']), e2, b3⟩
    simp only [neighFace, ho', Option.bind_eq_bind, surfNeigh] at e0 e1 ⊢
    rw [if_neg (by simp), e0, Option.bind_some]
    dsimp only
    rw [e1, Option.bind_some, hmT, Option.bind_some, b0, Option.bind_some]

/-- C75: the neighboring update adds the contributions of all faces except those with outflow boundary conditions. -/
theorem C75_neigh {c : Cfg} (hs : Sizes c) {fIntLN fIntT : List (List K)} {rfs : List K} {firstTs : Bool}
    {fs : Nat → FaceIn K} {fl : List (FaceIn K)} (hfl : ∀ fa < c.nFas, rd fl fa = some (fs fa))
    {FT FE FA : Nat → Nat → Nat → K} {rf : Nat → K} {P : Nat → Nat → Nat → Nat → K} {d : Nat → Nat → Nat → K}
    {da : Nat → Nat → Nat → Nat → K} (hT : Mats c.nFas c.nMdsFa c.nMds c.nMds fIntT FT)
    (hE : ∀ fa < c.nFas, (fs fa).outflow = false → Mat c.nQtsE c.nQtsE c.nQtsE (fs fa).fsE (FE fa))
    (hA : ∀ fa < c.nFas, (fs fa).outflow = false → 0 < c.nRms → Mat c.nQtsM c.nQtsE c.nQtsE (fs fa).fsA (FA fa))
    (hrf : ∀ rm < c.nRms, rd rfs rm = some (rf rm))
    (hP : ∀ fa < c.nFas, (fs fa).outflow = false → FaceData c fIntLN firstTs fa (fs fa) (P fa))
    {dofsE sc0 sc1 : List K} {dofsA : List (List K)} (hd : Rep c.nQtsE c.nMds c.nCrs dofsE d) (hda : PerRm c da dofsA)
    (h0 : sc0.length = c.nQtsE * c.nMdsFa * c.nCrs) (h1 : sc1.length = c.nQtsE * c.nMdsFa * c.nCrs) :
    ∃ E' A', neighEl c fIntLN fIntT rfs firstTs fl dofsE dofsA sc0 sc1 = some (E', A') ∧
      Rep c.nQtsE c.nMds c.nCrs E' (fun q md r => d q md r +
        ∑ fa ∈ range c.nFas, if (fs fa).outflow then 0 else surfC c (FE fa) (FT fa) (P fa) q md r) ∧
      PerRm c (fun rm q md r => da rm q md r +
        rf rm * ∑ fa ∈ range c.nFas, if (fs fa).outflow then 0 else surfC c (FA fa) (FT fa) (P fa) q md r) A' := by
  obtain ⟨⟨E', u', s0, s1⟩, g0, g1, g2, -, -⟩ := forN_inv (n := c.nFas)
    (s := (dofsE, List.replicate (c.nQtsM * c.nMds * c.nCrs) (0 : K), sc0, sc1))
    (body := fun fa s => do
      let f ← rd fl fa
      neighFace c fIntLN fIntT firstTs fa f s)
    (fun n s => Rep c.nQtsE c.nMds c.nCrs s.1 (fun q md r => d q md r +
        ∑ fa ∈ range n, if (fs fa).outflow then 0 else surfC c (FE fa) (FT fa) (P fa) q md r) ∧
      Rep c.nQtsM c.nMds c.nCrs s.2.1 (fun q md r => if 0 < c.nRms then
        ∑ fa ∈ range n, if (fs fa).outflow then 0 else surfC c (FA fa) (FT fa) (P fa) q md r else 0) ∧
      s.2.2.1.length = c.nQtsE * c.nMdsFa * c.nCrs ∧ s.2.2.2.length = c.nQtsE * c.nMdsFa * c.nCrs)
    ⟨hd.congr (by intros; simp), (rep_replicate c.nQtsM c.nMds c.nCrs (0 : K)).congr (by intros; simp), h0, h1⟩ (by
    rintro fa ⟨dE, u, s0, s1⟩ hfa ⟨k1, k2, k3, k4⟩
    dsimp only at k1 k2 k3 k4
    obtain ⟨mT, hmT, mmT⟩ := hT fa hfa
    obtain ⟨s, b0, b1, b2, b3, b4⟩ := neighFace_spec hs hmT mmT (hE fa hfa) (hA fa hfa) (hP fa hfa) k1 k2 k3 k4
    refine ⟨s, ?_, b1.congr fun q md r _ _ _ => ?_, b2.congr fun q md r _ _ _ => ?_, b3, b4⟩
    · rw [hfl fa hfa, Option.bind_eq_bind, Option.bind_some, b0]
    · rw [sum_range_succ _ fa, add_assoc]
    · by_cases hr : 0 < c.nRms
      · cases ho : (fs fa).outflow <;> simp [hr, sum_range_succ _ fa, ho]
      · simp [hr])
  dsimp only at g1 g2
  by_cases hr : 0 < c.nRms
  · obtain ⟨A', x0, x1⟩ := scatterUpdateA_spec hrf g2 hda
    refine ⟨E', A', ?_, g1, x1.congr fun rm q md r _ _ _ _ => by simp only [hr, if_true]⟩
    simp only [neighEl, Option.bind_eq_bind, gt_iff_lt] at g0 ⊢
    rw [g0, Option.bind_some, if_pos hr, x0, Option.bind_some]
  · refine ⟨E', dofsA, ?_, g1, hda.1, fun rm hrm => absurd hrm (by omega)⟩
    simp only [neighEl, Option.bind_eq_bind, gt_iff_lt] at g0 ⊢
    rw [g0, Option.bind_some, if_neg hr, Option.bind_some]

end Edge.Dg
