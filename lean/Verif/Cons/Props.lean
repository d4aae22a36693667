import Verif.Cons.Side
/-!
C98: time steps conserve momentum and angular momentum.
-/
namespace Edge.Cons
open Edge Edge.Map Edge.Quad Edge.Basis Edge.Proj Edge.Gen Edge.Flux Edge.Step Edge.Seismic Matrix

/-- What is kept by the update of the modes is kept by time steps. -/
theorem run_inv {c : Dg.Cfg} {e : Ent} {o : Nat} (hF : Flux.Fits c e o) (hc : Fit c e o) {lT lV LN FT : List (List ℝ)} (hst : Stored c e o lT lV LN FT)
    {els : List (MEl ℝ)} {F : Nat → Nat → MFace ℝ} {S FL FN : Nat → Nat → Nat → Nat → ℝ} {sc0 sc1 : List ℝ}
    (h0 : sc0.length = c.nQtsE * c.nMdsFa * c.nCrs) (h1 : sc1.length = c.nQtsE * c.nMdsFa * c.nCrs)
    (hE : ∀ el E, els[el]? = some E → Dg.Mats c.nDis c.nQtsE c.nQtsE c.nQtsE E.starE (S el) ∧ Dg.Mats c.nFas c.nQtsE c.nQtsE c.nQtsE E.fsL (FL el) ∧
      FacesOk e els.length E.faces (F el) ∧ ∀ fa < c.nFas, (F el fa).outflow = false → Dg.Mat c.nQtsE c.nQtsE c.nQtsE (F el fa).fsE (FN el fa))
    {P : (Nat → Nat → Nat → Nat → ℝ) → Prop} (hP : ∀ (dT : ℝ) (u : Nat → Nat → Nat → Nat → ℝ), P u → P (fun el q md r => u el q md r + Dg.rhsE c (GV e o) (S el) (S el) (tInt c e o (S el) (u el) dT) (fun _ => u el) q md r +
        (∑ fa ∈ Finset.range e.nFa, onFace e o fa md (fun x y => ∑ p ∈ Finset.range c.nQtsE, FL el fa q p * recon e o (fun m => tInt c e o (S el) (u el) dT p m r) (elPt e fa x y))) / normSq e o md +
        (∑ fa ∈ Finset.range e.nFa, if (F el fa).outflow then 0 else onFace e o fa md (fun x y => ∑ p ∈ Finset.range c.nQtsE, FN el fa q p *
          recon e o (fun m => tInt c e o (S ((F el fa).nb el)) (u ((F el fa).nb el)) dT p m r) (sidePt e fa ((F el fa).toIn []) x y))) / normSq e o md))
    {st : List (List ℝ × Dg.CkMem ℝ)} (hlen : st.length = els.length) {u : Nat → Nat → Nat → Nat → ℝ} (hu : ∀ el < els.length, HasDofs c st el (u el)) (hPu : P u) (dts : List ℝ) :
    ∃ st', ∃ u' : Nat → Nat → Nat → Nat → ℝ, runMesh c lT lV LN FT els sc0 sc1 dts st = some st' ∧ st'.length = els.length ∧ (∀ el < els.length, HasDofs c st' el (u' el)) ∧ P u' := by
  induction dts generalizing st u with
  | nil => exact ⟨st, u, rfl, hlen, hu, hPu⟩
  | cons dT dts ih =>
    obtain ⟨st1, g1, g2, g3⟩ := mesh_any hF hc hst dT h0 h1 hE hu
    obtain ⟨st2, u2, k1, k2, k3, k4⟩ := ih g2 g3 (hP dT u hPu)
    refine ⟨st2, u2, ?_, k2, k3, k4⟩
    rw [runMesh, List.foldlM_cons, g1]
    exact k1

/-- Star matrices and flux solvers of the mesh: updates of the modes with any time integrated modes `T` conserve momentum. -/
theorem cons_set3 {c : Dg.Cfg} {o : Nat} (ho : 0 < o) (hF : Flux.Fits c .tet o) (hc : Fit c .tet o) (hq : c.nQtsE = 9)
    {els : List (MEl ℝ)} {F : Nat → Nat → MFace ℝ} {tol tolL : ℝ} {ves : Nat → Nat → Nat → ℝ} {m : Nat → Material} {m' : Nat → Nat → Material} {ν : Nat → Nat → Fin 3 → ℝ}
    {t : Nat → Nat → Nat → ℝ}
    (hels : ∀ el E, els[el]? = some E → SetUp3 tol tolL (ves el) (m el) (m' el) (ν el) (fun fa => (F el fa).freeSurface) E.starE E.fsL (fun fa => (F el fa).fsE) ∧
      FacesOk .tet els.length E.faces (F el) ∧ ∀ fa < 4, Joined .tet ves el fa (F el fa) (t el fa))
    (hcl : Closed .tet els.length F) (hmat : ∀ el < els.length, ∀ fa < 4, m' el fa = m (if (F el fa).freeSurface then el else (F el fa).ne)) :
    ∃ S FL FN : Nat → Nat → Nat → Nat → ℝ, (∀ el E, els[el]? = some E → Dg.Mats c.nDis c.nQtsE c.nQtsE c.nQtsE E.starE (S el) ∧ Dg.Mats c.nFas c.nQtsE c.nQtsE c.nQtsE E.fsL (FL el) ∧
      FacesOk .tet els.length E.faces (F el) ∧ ∀ fa < c.nFas, (F el fa).outflow = false → Dg.Mat c.nQtsE c.nQtsE c.nQtsE (F el fa).fsE (FN el fa)) ∧
    ∀ (b : Nat → ℝ) (W : Nat → Nat → ℝ), (∀ i < 3, ∀ j < 3, W i j = -W j i) → ((∃ i < 3, ∃ j < 3, W i j ≠ 0) → 1 < o) →
      (∀ el < els.length, ∀ fa < 4, (F el fa).freeSurface = false → ∀ i < 3, ∑ d ∈ Finset.range 3, W i d * t el fa d = 0) →
    ∀ (u u' T : Nat → Nat → Nat → Nat → ℝ) (r : Nat), (∀ el < els.length, ∀ j < 3, ∀ md < nModes .tet o, u' el (6 + j) md r = u el (6 + j) md r +
        Dg.rhsE c (GV .tet o) (S el) (S el) (T el) (fun _ => u el) (6 + j) md r +
        (∑ fa ∈ Finset.range (Ent.nFa .tet), onFace .tet o fa md (fun x y => ∑ p ∈ Finset.range c.nQtsE, FL el fa (6 + j) p * recon .tet o (fun m => T el p m r) (elPt .tet fa x y))) / normSq .tet o md +
        (∑ fa ∈ Finset.range (Ent.nFa .tet), if (F el fa).outflow then 0 else onFace .tet o fa md (fun x y => ∑ p ∈ Finset.range c.nQtsE, FN el fa (6 + j) p *
          recon .tet o (fun m => T ((F el fa).nb el) p m r) (sidePt .tet fa ((F el fa).toIn []) x y))) / normSq .tet o md) →
      momentum tol .tet o els.length ves (fun el => (m el).rho) (fun j => 6 + j) b W u' r = momentum tol .tet o els.length ves (fun el => (m el).rho) (fun j => 6 + j) b W u r := by
  have hget : ∀ el (h : el < els.length), els[el]? = some els[el] := fun el h => List.getElem?_eq_getElem h
  have hset := fun el (h : el < els.length) => hels el _ (hget el h)
  have hM : ∀ el, ∃ (J : Nat → Nat → ℝ) (S FL FN : Nat → Nat → Nat → ℝ) (area : Nat → ℝ), el < els.length → ∀ E, els[el]? = some E → Dg.Mats c.nDis c.nQtsE c.nQtsE c.nQtsE E.starE S ∧
      (∀ d < Ent.nDim .tet, ∀ d2 < Ent.nDim .tet, ∑ di ∈ Finset.range (Ent.nDim .tet), J d di * evalJac .tet (ves el) di d2 = if d = d2 then 1 else 0) ∧
      (∀ j < 3, ∀ di < 3, ∀ X : Nat → ℝ, ∑ p ∈ Finset.range 9, S di (6 + j) p * X p = -(1 / (m el).rho) * ∑ d ∈ Finset.range 3, J d di * X (sq3 j d)) ∧
      Dg.Mats c.nFas c.nQtsE c.nQtsE c.nQtsE E.fsL FL ∧ (∀ fa < c.nFas, Dg.Mat c.nQtsE c.nQtsE c.nQtsE (F el fa).fsE (FN fa)) ∧
      ∀ fa < 4, FaceGeo3 (ves el) fa (area fa) (ν el fa) ∧ ∀ qL qR : Nat → ℝ, ∃ τ v : Fin 3 → ℝ, IsMiddle (m el) (m' el fa) (ν el fa) (stress3 (fun k => qL k.val) *ᵥ ν el fa) (vel3 (fun k => qL k.val))
          (if (F el fa).freeSurface then -(stress3 (fun k => qR k.val) *ᵥ ν el fa) else stress3 (fun k => qR k.val) *ᵥ ν el fa) (vel3 (fun k => qR k.val)) τ v ∧
        ∀ j : Fin 3, (m el).rho * jDet .tet (ves el) * (∑ p ∈ Finset.range 9, FL fa (6 + j.val) p * qL p + ∑ p ∈ Finset.range 9, FN fa (6 + j.val) p * qR p) = 2 * area fa * τ j := by
    intro el
    by_cases h : el < els.length
    · obtain ⟨hs, -, -⟩ := hset el h
      obtain ⟨J, S, s1, s2, s3⟩ := star3_spec hs.tols.2 hs.star
      obtain ⟨FL, FN, area, f1, f2, f3⟩ := flux3 hs
      refine ⟨J, S, FL, FN, area, fun _ E hE => ?_⟩
      rw [hget el h, Option.some_inj] at hE
      subst hE
      exact ⟨by rw [hq, hc.dis]; exact s1, s2, fun j hj di hdi X => star3_vel s3 hj hdi X, by rw [hq, hF.fas]; exact f1, by rw [hq, hF.fas]; exact f2, f3⟩
    · exact ⟨fun _ _ => 0, fun _ _ _ => 0, fun _ _ _ => 0, fun _ _ _ => 0, fun _ => 0, fun h2 => absurd h2 h⟩
  choose J S FL FN area hM using hM
  refine ⟨S, FL, FN, fun el E hE => ?_, ?_⟩
  · have hel : el < els.length := by
      by_contra h
      rw [List.getElem?_eq_none (by omega)] at hE; cases hE
    obtain ⟨a1, -, -, a4, a5, -⟩ := hM el hel E hE
    exact ⟨a1, a4, (hels el E hE).2.1, fun fa hfa _ => a5 fa hfa⟩
  · intro b W hW hW1 hWt u u' T r hu
    rcases Nat.eq_zero_or_pos els.length with hz | hpos
    · rw [hz]; rfl
    have ht : 0 ≤ tol := (hset 0 hpos).1.tols.1
    refine cons_any (by decide) hF hc ht (S := S) (FL := FL) (FN := FN) (F := F) (t := t) (J := J) (T := T) (sq := sq3) ?_ ?_ hcl ?_ ?_ ?_ ?_ b hW ho hW1 hWt
    · intro i hi j hj
      have hi : i < 3 := hi
      have hj : j < 3 := hj
      interval_cases i <;> interval_cases j <;> rfl
    · intro el hel
      obtain ⟨hs, -, -⟩ := hset el hel
      obtain ⟨-, a2, a3, -⟩ := hM el hel _ (hget el hel)
      exact ⟨hs.regular, hs.det, hs.mat.1, a2, by rw [hq]; exact a3⟩
    · intro el hel fa hfa
      exact (hset el hel).2.2 fa hfa
    · exact hu
    · intro el hel fa hfa hfr j hj x y
      obtain ⟨hs, -, -⟩ := hset el hel
      obtain ⟨-, -, -, -, -, a6⟩ := hM el hel _ (hget el hel)
      have hmm := hmat el hel fa hfa
      rw [hfr, if_pos rfl] at hmm
      have a7 := (a6 fa hfa).2
      rw [hmm] at a7
      exact free3 hq hs.mat hfr (hcl el hel fa hfa).1 a7 T r hj x y
    · intro el hel fa hfa hfr ve hve j hj x y
      obtain ⟨hs, -, hj1⟩ := hset el hel
      obtain ⟨c1, c2⟩ := hcl el hel fa hfa
      obtain ⟨d1, d2, d3, d4, d5, d6⟩ := c2 hfr
      obtain ⟨hs', -, -⟩ := hset _ d1
      obtain ⟨-, -, -, -, -, a6⟩ := hM el hel _ (hget el hel)
      obtain ⟨-, -, -, -, -, b6⟩ := hM _ d1 _ (hget _ d1)
      obtain ⟨ve', e1, e2, -, e4⟩ := hj1 fa hfa c1 hfr
      obtain rfl : ve' = ve := Option.some.inj (e1.symm.trans hve)
      obtain ⟨g1, g2⟩ := sides3 hs.det hs'.det hfa d2 e2 e4 (a6 fa hfa).1 (b6 _ d2).1
      have hmm := hmat el hel fa hfa
      rw [hfr] at hmm
      simp only [Bool.false_eq_true, if_false] at hmm
      have hmm' := hmat _ d1 _ d2
      rw [d3] at hmm'
      simp only [Bool.false_eq_true, if_false, d4] at hmm'
      have a7 := (a6 fa hfa).2
      have b7 := (b6 _ d2).2
      rw [hmm] at a7
      rw [hmm', g1, g2] at b7
      exact pair3 hq hs.mat hs'.mat e2 hfr c1 hve d3 (hcl _ d1 _ d2).1 (d6.trans hve) d4 d5 a7 b7 T r hj x y

/-- C98, 3D: on any mesh of tetrahedra, with any materials, whose boundary is the free surface or periodic, any number of time steps of any sizes conserves, for any data and each of the
fused simulations, the momentum along every rigid motion with velocity `b + W x`, where `W` is antisymmetric. If `W` is not zero, then the order has to be at least two, and shifts of
periodic boundaries have to be along the axis. -/
theorem C98_rigid3 {c : Dg.Cfg} {o : Nat} (ho : 0 < o) (hF : Flux.Fits c .tet o) (hc : Fit c .tet o) (hq : c.nQtsE = 9) {lT lV LN FT : List (List ℝ)} (hst : Stored c .tet o lT lV LN FT)
    {els : List (MEl ℝ)} {F : Nat → Nat → MFace ℝ} {tol tolL : ℝ} {ves : Nat → Nat → Nat → ℝ} {m : Nat → Material} {m' : Nat → Nat → Material} {ν : Nat → Nat → Fin 3 → ℝ}
    {t : Nat → Nat → Nat → ℝ}
    (hels : ∀ el E, els[el]? = some E → SetUp3 tol tolL (ves el) (m el) (m' el) (ν el) (fun fa => (F el fa).freeSurface) E.starE E.fsL (fun fa => (F el fa).fsE) ∧
      FacesOk .tet els.length E.faces (F el) ∧ ∀ fa < 4, Joined .tet ves el fa (F el fa) (t el fa))
    (hcl : Closed .tet els.length F) (hmat : ∀ el < els.length, ∀ fa < 4, m' el fa = m (if (F el fa).freeSurface then el else (F el fa).ne))
    {sc0 sc1 : List ℝ} (h0 : sc0.length = c.nQtsE * c.nMdsFa * c.nCrs) (h1 : sc1.length = c.nQtsE * c.nMdsFa * c.nCrs)
    (b : Nat → ℝ) {W : Nat → Nat → ℝ} (hW : ∀ i < 3, ∀ j < 3, W i j = -W j i) (hW1 : (∃ i < 3, ∃ j < 3, W i j ≠ 0) → 1 < o)
    (hWt : ∀ el < els.length, ∀ fa < 4, (F el fa).freeSurface = false → ∀ i < 3, ∑ d ∈ Finset.range 3, W i d * t el fa d = 0)
    {st : List (List ℝ × Dg.CkMem ℝ)} (hlen : st.length = els.length) {u : Nat → Nat → Nat → Nat → ℝ} (hu : ∀ el < els.length, HasDofs c st el (u el)) (dts : List ℝ) :
    ∃ st', ∃ u' : Nat → Nat → Nat → Nat → ℝ, runMesh c lT lV LN FT els sc0 sc1 dts st = some st' ∧ st'.length = els.length ∧ (∀ el < els.length, HasDofs c st' el (u' el)) ∧
      ∀ r < c.nCrs, momentum tol .tet o els.length ves (fun el => (m el).rho) (fun j => 6 + j) b W u' r = momentum tol .tet o els.length ves (fun el => (m el).rho) (fun j => 6 + j) b W u r := by
  obtain ⟨S, FL, FN, k1, k2⟩ := cons_set3 ho hF hc hq hels hcl hmat
  refine run_inv hF hc hst h0 h1 (F := F) (S := S) (FL := FL) (FN := FN) k1
    (P := fun u' => ∀ r < c.nCrs, momentum tol .tet o els.length ves (fun el => (m el).rho) (fun j => 6 + j) b W u' r = momentum tol .tet o els.length ves (fun el => (m el).rho) (fun j => 6 + j) b W u r)
    ?_ hlen hu (fun _ _ => rfl) dts
  intro dT v hv r hr
  rw [← hv r hr]
  exact k2 b W hW hW1 hWt v _ (fun el => tInt c .tet o (S el) (v el) dT) r (fun el hel j hj md hmd => rfl)

/-- C98, 3D: momentum is conserved: the sum over the elements of density times the integral of each component of the velocity. -/
theorem C98_momentum3 {c : Dg.Cfg} {o : Nat} (ho : 0 < o) (hF : Flux.Fits c .tet o) (hc : Fit c .tet o) (hq : c.nQtsE = 9) {lT lV LN FT : List (List ℝ)} (hst : Stored c .tet o lT lV LN FT)
    {els : List (MEl ℝ)} {F : Nat → Nat → MFace ℝ} {tol tolL : ℝ} {ves : Nat → Nat → Nat → ℝ} {m : Nat → Material} {m' : Nat → Nat → Material} {ν : Nat → Nat → Fin 3 → ℝ}
    {t : Nat → Nat → Nat → ℝ}
    (hels : ∀ el E, els[el]? = some E → SetUp3 tol tolL (ves el) (m el) (m' el) (ν el) (fun fa => (F el fa).freeSurface) E.starE E.fsL (fun fa => (F el fa).fsE) ∧
      FacesOk .tet els.length E.faces (F el) ∧ ∀ fa < 4, Joined .tet ves el fa (F el fa) (t el fa))
    (hcl : Closed .tet els.length F) (hmat : ∀ el < els.length, ∀ fa < 4, m' el fa = m (if (F el fa).freeSurface then el else (F el fa).ne))
    {sc0 sc1 : List ℝ} (h0 : sc0.length = c.nQtsE * c.nMdsFa * c.nCrs) (h1 : sc1.length = c.nQtsE * c.nMdsFa * c.nCrs)
    {st : List (List ℝ × Dg.CkMem ℝ)} (hlen : st.length = els.length) {u : Nat → Nat → Nat → Nat → ℝ} (hu : ∀ el < els.length, HasDofs c st el (u el)) (dts : List ℝ) {j : Nat} (hj : j < 3) :
    ∃ st', ∃ u' : Nat → Nat → Nat → Nat → ℝ, runMesh c lT lV LN FT els sc0 sc1 dts st = some st' ∧ st'.length = els.length ∧ (∀ el < els.length, HasDofs c st' el (u' el)) ∧
      ∀ r < c.nCrs, ∑ el ∈ Finset.range els.length, (m el).rho * elInt .tet (ves el) (physEval tol .tet o (ves el) (fun md => u' el (6 + j) md r)) =
        ∑ el ∈ Finset.range els.length, (m el).rho * elInt .tet (ves el) (physEval tol .tet o (ves el) (fun md => u el (6 + j) md r)) := by
  obtain ⟨st', u', a, l, d, h⟩ := C98_rigid3 ho hF hc hq hst hels hcl hmat h0 h1 (fun i => if i = j then 1 else 0) (W := fun _ _ => 0) (by simp) (fun ⟨_, _, _, _, h⟩ => absurd rfl h) (by simp) hlen hu dts
  refine ⟨st', u', a, l, d, fun r hr => ?_⟩
  have e : ∀ v : Nat → Nat → Nat → Nat → ℝ, momentum tol .tet o els.length ves (fun el => (m el).rho) (fun j => 6 + j) (fun i => if i = j then 1 else 0) (fun _ _ => 0) v r =
      ∑ el ∈ Finset.range els.length, (m el).rho * elInt .tet (ves el) (physEval tol .tet o (ves el) (fun md => v el (6 + j) md r)) := by
    intro v
    refine Finset.sum_congr rfl (fun el _ => ?_)
    congr 2
    funext x
    rw [Finset.sum_eq_single j]
    · simp [affine]
    · intro i _ hi; simp [affine, hi]
    · intro h; exact absurd (Finset.mem_range.2 hj) h
  rw [← e, ← e]
  exact h r hr

/-- C98, 3D: without periodic boundaries and with order at least two, angular momentum is conserved. -/
theorem C98_angular3 {c : Dg.Cfg} {o : Nat} (ho : 1 < o) (hF : Flux.Fits c .tet o) (hc : Fit c .tet o) (hq : c.nQtsE = 9) {lT lV LN FT : List (List ℝ)} (hst : Stored c .tet o lT lV LN FT)
    {els : List (MEl ℝ)} {F : Nat → Nat → MFace ℝ} {tol tolL : ℝ} {ves : Nat → Nat → Nat → ℝ} {m : Nat → Material} {m' : Nat → Nat → Material} {ν : Nat → Nat → Fin 3 → ℝ}
    (hels : ∀ el E, els[el]? = some E → SetUp3 tol tolL (ves el) (m el) (m' el) (ν el) (fun fa => (F el fa).freeSurface) E.starE E.fsL (fun fa => (F el fa).fsE) ∧
      FacesOk .tet els.length E.faces (F el) ∧ ∀ fa < 4, Joined .tet ves el fa (F el fa) (fun _ => 0))
    (hcl : Closed .tet els.length F) (hmat : ∀ el < els.length, ∀ fa < 4, m' el fa = m (if (F el fa).freeSurface then el else (F el fa).ne))
    {sc0 sc1 : List ℝ} (h0 : sc0.length = c.nQtsE * c.nMdsFa * c.nCrs) (h1 : sc1.length = c.nQtsE * c.nMdsFa * c.nCrs)
    {st : List (List ℝ × Dg.CkMem ℝ)} (hlen : st.length = els.length) {u : Nat → Nat → Nat → Nat → ℝ} (hu : ∀ el < els.length, HasDofs c st el (u el)) (dts : List ℝ) {i j : Nat} (hi : i < 3) (hj : j < 3) :
    ∃ st', ∃ u' : Nat → Nat → Nat → Nat → ℝ, runMesh c lT lV LN FT els sc0 sc1 dts st = some st' ∧ st'.length = els.length ∧ (∀ el < els.length, HasDofs c st' el (u' el)) ∧
      ∀ r < c.nCrs, ∑ el ∈ Finset.range els.length, (m el).rho * elInt .tet (ves el) (fun x => x i * physEval tol .tet o (ves el) (fun md => u' el (6 + j) md r) x -
          x j * physEval tol .tet o (ves el) (fun md => u' el (6 + i) md r) x) =
        ∑ el ∈ Finset.range els.length, (m el).rho * elInt .tet (ves el) (fun x => x i * physEval tol .tet o (ves el) (fun md => u el (6 + j) md r) x -
          x j * physEval tol .tet o (ves el) (fun md => u el (6 + i) md r) x) := by
  obtain ⟨st', u', a, l, d, h⟩ := C98_rigid3 (by omega) hF hc hq hst hels hcl hmat h0 h1 (fun _ => 0) (W := fun k d => (if k = j ∧ d = i then 1 else 0) - (if k = i ∧ d = j then 1 else 0))
    (by intro k _ d _; simp only [neg_sub, and_comm]) (fun _ => ho) (by simp) hlen hu dts
  refine ⟨st', u', a, l, d, fun r hr => ?_⟩
  have e : ∀ v : Nat → Nat → Nat → Nat → ℝ, momentum tol .tet o els.length ves (fun el => (m el).rho) (fun j => 6 + j) (fun _ => 0) (fun k d => (if k = j ∧ d = i then 1 else 0) - (if k = i ∧ d = j then 1 else 0)) v r =
      ∑ el ∈ Finset.range els.length, (m el).rho * elInt .tet (ves el) (fun x => x i * physEval tol .tet o (ves el) (fun md => v el (6 + j) md r) x -
          x j * physEval tol .tet o (ves el) (fun md => v el (6 + i) md r) x) := by
    intro v
    refine Finset.sum_congr rfl (fun el _ => ?_)
    congr 2
    funext x
    simp only [affine, Ent.nDim]
    interval_cases i <;> interval_cases j <;> simp [Finset.sum_range_succ] <;> ring
  rw [← e, ← e]
  exact h r hr

/-- Star matrices and flux solvers of the mesh: updates of the modes with any time integrated modes `T` conserve momentum. -/
theorem cons_set2 {c : Dg.Cfg} {o : Nat} (ho : 0 < o) (hF : Flux.Fits c .tria o) (hc : Fit c .tria o) (hq : c.nQtsE = 5)
    {els : List (MEl ℝ)} {F : Nat → Nat → MFace ℝ} {tol tolL : ℝ} {ves : Nat → Nat → Nat → ℝ} {m : Nat → Material} {m' : Nat → Nat → Material} {ν : Nat → Nat → Fin 2 → ℝ}
    {t : Nat → Nat → Nat → ℝ}
    (hels : ∀ el E, els[el]? = some E → SetUp2 tol tolL (ves el) (m el) (m' el) (ν el) (fun fa => (F el fa).freeSurface) E.starE E.fsL (fun fa => (F el fa).fsE) ∧
      FacesOk .tria els.length E.faces (F el) ∧ ∀ fa < 3, Joined .tria ves el fa (F el fa) (t el fa))
    (hcl : Closed .tria els.length F) (hmat : ∀ el < els.length, ∀ fa < 3, m' el fa = m (if (F el fa).freeSurface then el else (F el fa).ne)) :
    ∃ S FL FN : Nat → Nat → Nat → Nat → ℝ, (∀ el E, els[el]? = some E → Dg.Mats c.nDis c.nQtsE c.nQtsE c.nQtsE E.starE (S el) ∧ Dg.Mats c.nFas c.nQtsE c.nQtsE c.nQtsE E.fsL (FL el) ∧
      FacesOk .tria els.length E.faces (F el) ∧ ∀ fa < c.nFas, (F el fa).outflow = false → Dg.Mat c.nQtsE c.nQtsE c.nQtsE (F el fa).fsE (FN el fa)) ∧
    ∀ (b : Nat → ℝ) (W : Nat → Nat → ℝ), (∀ i < 2, ∀ j < 2, W i j = -W j i) → ((∃ i < 2, ∃ j < 2, W i j ≠ 0) → 1 < o) →
      (∀ el < els.length, ∀ fa < 3, (F el fa).freeSurface = false → ∀ i < 2, ∑ d ∈ Finset.range 2, W i d * t el fa d = 0) →
    ∀ (u u' T : Nat → Nat → Nat → Nat → ℝ) (r : Nat), (∀ el < els.length, ∀ j < 2, ∀ md < nModes .tria o, u' el (3 + j) md r = u el (3 + j) md r +
        Dg.rhsE c (GV .tria o) (S el) (S el) (T el) (fun _ => u el) (3 + j) md r +
        (∑ fa ∈ Finset.range (Ent.nFa .tria), onFace .tria o fa md (fun x y => ∑ p ∈ Finset.range c.nQtsE, FL el fa (3 + j) p * recon .tria o (fun m => T el p m r) (elPt .tria fa x y))) / normSq .tria o md +
        (∑ fa ∈ Finset.range (Ent.nFa .tria), if (F el fa).outflow then 0 else onFace .tria o fa md (fun x y => ∑ p ∈ Finset.range c.nQtsE, FN el fa (3 + j) p *
          recon .tria o (fun m => T ((F el fa).nb el) p m r) (sidePt .tria fa ((F el fa).toIn []) x y))) / normSq .tria o md) →
      momentum tol .tria o els.length ves (fun el => (m el).rho) (fun j => 3 + j) b W u' r = momentum tol .tria o els.length ves (fun el => (m el).rho) (fun j => 3 + j) b W u r := by
  have hget : ∀ el (h : el < els.length), els[el]? = some els[el] := fun el h => List.getElem?_eq_getElem h
  have hset := fun el (h : el < els.length) => hels el _ (hget el h)
  have hM : ∀ el, ∃ (J : Nat → Nat → ℝ) (S FL FN : Nat → Nat → Nat → ℝ) (area : Nat → ℝ), el < els.length → ∀ E, els[el]? = some E → Dg.Mats c.nDis c.nQtsE c.nQtsE c.nQtsE E.starE S ∧
      (∀ d < Ent.nDim .tria, ∀ d2 < Ent.nDim .tria, ∑ di ∈ Finset.range (Ent.nDim .tria), J d di * evalJac .tria (ves el) di d2 = if d = d2 then 1 else 0) ∧
      (∀ j < 2, ∀ di < 2, ∀ X : Nat → ℝ, ∑ p ∈ Finset.range 5, S di (3 + j) p * X p = -(1 / (m el).rho) * ∑ d ∈ Finset.range 2, J d di * X (sq2 j d)) ∧
      Dg.Mats c.nFas c.nQtsE c.nQtsE c.nQtsE E.fsL FL ∧ (∀ fa < c.nFas, Dg.Mat c.nQtsE c.nQtsE c.nQtsE (F el fa).fsE (FN fa)) ∧
      ∀ fa < 3, FaceGeo2 (ves el) fa (area fa) (ν el fa) ∧ ∀ qL qR : Nat → ℝ, ∃ τ v : Fin 2 → ℝ, IsMiddle (m el) (m' el fa) (ν el fa) (stress2 (fun k => qL k.val) *ᵥ ν el fa) (vel2 (fun k => qL k.val))
          (if (F el fa).freeSurface then -(stress2 (fun k => qR k.val) *ᵥ ν el fa) else stress2 (fun k => qR k.val) *ᵥ ν el fa) (vel2 (fun k => qR k.val)) τ v ∧
        ∀ j : Fin 2, (m el).rho * jDet .tria (ves el) * (∑ p ∈ Finset.range 5, FL fa (3 + j.val) p * qL p + ∑ p ∈ Finset.range 5, FN fa (3 + j.val) p * qR p) = 1 * area fa * τ j := by
    intro el
    by_cases h : el < els.length
    · obtain ⟨hs, -, -⟩ := hset el h
      obtain ⟨J, S, s1, s2, s3⟩ := star2_spec hs.tols.2 hs.star
      obtain ⟨FL, FN, area, f1, f2, f3⟩ := flux2 hs
      refine ⟨J, S, FL, FN, area, fun _ E hE => ?_⟩
      rw [hget el h, Option.some_inj] at hE
      subst hE
      exact ⟨by rw [hq, hc.dis]; exact s1, s2, fun j hj di hdi X => star2_vel s3 hj hdi X, by rw [hq, hF.fas]; exact f1, by rw [hq, hF.fas]; exact f2, f3⟩
    · exact ⟨fun _ _ => 0, fun _ _ _ => 0, fun _ _ _ => 0, fun _ _ _ => 0, fun _ => 0, fun h2 => absurd h2 h⟩
  choose J S FL FN area hM using hM
  refine ⟨S, FL, FN, fun el E hE => ?_, ?_⟩
  · have hel : el < els.length := by
      by_contra h
      rw [List.getElem?_eq_none (by omega)] at hE; cases hE
    obtain ⟨a1, -, -, a4, a5, -⟩ := hM el hel E hE
    exact ⟨a1, a4, (hels el E hE).2.1, fun fa hfa _ => a5 fa hfa⟩
  · intro b W hW hW1 hWt u u' T r hu
    rcases Nat.eq_zero_or_pos els.length with hz | hpos
    · rw [hz]; rfl
    have ht : 0 ≤ tol := (hset 0 hpos).1.tols.1
    refine cons_any (by decide) hF hc ht (S := S) (FL := FL) (FN := FN) (F := F) (t := t) (J := J) (T := T) (sq := sq2) ?_ ?_ hcl ?_ ?_ ?_ ?_ b hW ho hW1 hWt
    · intro i hi j hj
      have hi : i < 2 := hi
      have hj : j < 2 := hj
      interval_cases i <;> interval_cases j <;> rfl
    · intro el hel
      obtain ⟨hs, -, -⟩ := hset el hel
      obtain ⟨-, a2, a3, -⟩ := hM el hel _ (hget el hel)
      exact ⟨hs.regular, hs.det, hs.mat.1, a2, by rw [hq]; exact a3⟩
    · intro el hel fa hfa
      exact (hset el hel).2.2 fa hfa
    · exact hu
    · intro el hel fa hfa hfr j hj x y
      obtain ⟨hs, -, -⟩ := hset el hel
      obtain ⟨-, -, -, -, -, a6⟩ := hM el hel _ (hget el hel)
      have hmm := hmat el hel fa hfa
      rw [hfr, if_pos rfl] at hmm
      have a7 := (a6 fa hfa).2
      rw [hmm] at a7
      exact free2 hq hs.mat hfr (hcl el hel fa hfa).1 a7 T r hj x y
    · intro el hel fa hfa hfr ve hve j hj x y
      obtain ⟨hs, -, hj1⟩ := hset el hel
      obtain ⟨c1, c2⟩ := hcl el hel fa hfa
      obtain ⟨d1, d2, d3, d4, d5, d6⟩ := c2 hfr
      obtain ⟨hs', -, -⟩ := hset _ d1
      obtain ⟨-, -, -, -, -, a6⟩ := hM el hel _ (hget el hel)
      obtain ⟨-, -, -, -, -, b6⟩ := hM _ d1 _ (hget _ d1)
      obtain ⟨ve', e1, e2, -, e4⟩ := hj1 fa hfa c1 hfr
      obtain rfl : ve' = ve := Option.some.inj (e1.symm.trans hve)
      obtain ⟨g1, g2⟩ := sides2 hs.det hs'.det hfa d2 e2 e4 (a6 fa hfa).1 (b6 _ d2).1
      have hmm := hmat el hel fa hfa
      rw [hfr] at hmm
      simp only [Bool.false_eq_true, if_false] at hmm
      have hmm' := hmat _ d1 _ d2
      rw [d3] at hmm'
      simp only [Bool.false_eq_true, if_false, d4] at hmm'
      have a7 := (a6 fa hfa).2
      have b7 := (b6 _ d2).2
      rw [hmm] at a7
      rw [hmm', g1, g2] at b7
      exact pair2 hq hs.mat hs'.mat e2 hfr c1 hve d3 (hcl _ d1 _ d2).1 (d6.trans hve) d4 d5 a7 b7 T r hj x y

/-- C98, 2D: on any mesh of triangles, with any materials, whose boundary is the free surface or periodic, any number of time steps of any sizes conserves, for any data and each of the
fused simulations, the momentum along every rigid motion with velocity `b + W x`, where `W` is antisymmetric. If `W` is not zero, then the order has to be at least two, and shifts of
periodic boundaries have to be along the axis. -/
theorem C98_rigid2 {c : Dg.Cfg} {o : Nat} (ho : 0 < o) (hF : Flux.Fits c .tria o) (hc : Fit c .tria o) (hq : c.nQtsE = 5) {lT lV LN FT : List (List ℝ)} (hst : Stored c .tria o lT lV LN FT)
    {els : List (MEl ℝ)} {F : Nat → Nat → MFace ℝ} {tol tolL : ℝ} {ves : Nat → Nat → Nat → ℝ} {m : Nat → Material} {m' : Nat → Nat → Material} {ν : Nat → Nat → Fin 2 → ℝ}
    {t : Nat → Nat → Nat → ℝ}
    (hels : ∀ el E, els[el]? = some E → SetUp2 tol tolL (ves el) (m el) (m' el) (ν el) (fun fa => (F el fa).freeSurface) E.starE E.fsL (fun fa => (F el fa).fsE) ∧
      FacesOk .tria els.length E.faces (F el) ∧ ∀ fa < 3, Joined .tria ves el fa (F el fa) (t el fa))
    (hcl : Closed .tria els.length F) (hmat : ∀ el < els.length, ∀ fa < 3, m' el fa = m (if (F el fa).freeSurface then el else (F el fa).ne))
    {sc0 sc1 : List ℝ} (h0 : sc0.length = c.nQtsE * c.nMdsFa * c.nCrs) (h1 : sc1.length = c.nQtsE * c.nMdsFa * c.nCrs)
    (b : Nat → ℝ) {W : Nat → Nat → ℝ} (hW : ∀ i < 2, ∀ j < 2, W i j = -W j i) (hW1 : (∃ i < 2, ∃ j < 2, W i j ≠ 0) → 1 < o)
    (hWt : ∀ el < els.length, ∀ fa < 3, (F el fa).freeSurface = false → ∀ i < 2, ∑ d ∈ Finset.range 2, W i d * t el fa d = 0)
    {st : List (List ℝ × Dg.CkMem ℝ)} (hlen : st.length = els.length) {u : Nat → Nat → Nat → Nat → ℝ} (hu : ∀ el < els.length, HasDofs c st el (u el)) (dts : List ℝ) :
    ∃ st', ∃ u' : Nat → Nat → Nat → Nat → ℝ, runMesh c lT lV LN FT els sc0 sc1 dts st = some st' ∧ st'.length = els.length ∧ (∀ el < els.length, HasDofs c st' el (u' el)) ∧
      ∀ r < c.nCrs, momentum tol .tria o els.length ves (fun el => (m el).rho) (fun j => 3 + j) b W u' r = momentum tol .tria o els.length ves (fun el => (m el).rho) (fun j => 3 + j) b W u r := by
  obtain ⟨S, FL, FN, k1, k2⟩ := cons_set2 ho hF hc hq hels hcl hmat
  refine run_inv hF hc hst h0 h1 (F := F) (S := S) (FL := FL) (FN := FN) k1
    (P := fun u' => ∀ r < c.nCrs, momentum tol .tria o els.length ves (fun el => (m el).rho) (fun j => 3 + j) b W u' r = momentum tol .tria o els.length ves (fun el => (m el).rho) (fun j => 3 + j) b W u r)
    ?_ hlen hu (fun _ _ => rfl) dts
  intro dT v hv r hr
  rw [← hv r hr]
  exact k2 b W hW hW1 hWt v _ (fun el => tInt c .tria o (S el) (v el) dT) r (fun el hel j hj md hmd => rfl)

/-- C98, 2D: momentum is conserved: the sum over the elements of density times the integral of each component of the velocity. -/
theorem C98_momentum2 {c : Dg.Cfg} {o : Nat} (ho : 0 < o) (hF : Flux.Fits c .tria o) (hc : Fit c .tria o) (hq : c.nQtsE = 5) {lT lV LN FT : List (List ℝ)} (hst : Stored c .tria o lT lV LN FT)
    {els : List (MEl ℝ)} {F : Nat → Nat → MFace ℝ} {tol tolL : ℝ} {ves : Nat → Nat → Nat → ℝ} {m : Nat → Material} {m' : Nat → Nat → Material} {ν : Nat → Nat → Fin 2 → ℝ}
    {t : Nat → Nat → Nat → ℝ}
    (hels : ∀ el E, els[el]? = some E → SetUp2 tol tolL (ves el) (m el) (m' el) (ν el) (fun fa => (F el fa).freeSurface) E.starE E.fsL (fun fa => (F el fa).fsE) ∧
      FacesOk .tria els.length E.faces (F el) ∧ ∀ fa < 3, Joined .tria ves el fa (F el fa) (t el fa))
    (hcl : Closed .tria els.length F) (hmat : ∀ el < els.length, ∀ fa < 3, m' el fa = m (if (F el fa).freeSurface then el else (F el fa).ne))
    {sc0 sc1 : List ℝ} (h0 : sc0.length = c.nQtsE * c.nMdsFa * c.nCrs) (h1 : sc1.length = c.nQtsE * c.nMdsFa * c.nCrs)
    {st : List (List ℝ × Dg.CkMem ℝ)} (hlen : st.length = els.length) {u : Nat → Nat → Nat → Nat → ℝ} (hu : ∀ el < els.length, HasDofs c st el (u el)) (dts : List ℝ) {j : Nat} (hj : j < 2) :
    ∃ st', ∃ u' : Nat → Nat → Nat → Nat → ℝ, runMesh c lT lV LN FT els sc0 sc1 dts st = some st' ∧ st'.length = els.length ∧ (∀ el < els.length, HasDofs c st' el (u' el)) ∧
      ∀ r < c.nCrs, ∑ el ∈ Finset.range els.length, (m el).rho * elInt .tria (ves el) (physEval tol .tria o (ves el) (fun md => u' el (3 + j) md r)) =
        ∑ el ∈ Finset.range els.length, (m el).rho * elInt .tria (ves el) (physEval tol .tria o (ves el) (fun md => u el (3 + j) md r)) := by
  obtain ⟨st', u', a, l, d, h⟩ := C98_rigid2 ho hF hc hq hst hels hcl hmat h0 h1 (fun i => if i = j then 1 else 0) (W := fun _ _ => 0) (by simp) (fun ⟨_, _, _, _, h⟩ => absurd rfl h) (by simp) hlen hu dts
  refine ⟨st', u', a, l, d, fun r hr => ?_⟩
  have e : ∀ v : Nat → Nat → Nat → Nat → ℝ, momentum tol .tria o els.length ves (fun el => (m el).rho) (fun j => 3 + j) (fun i => if i = j then 1 else 0) (fun _ _ => 0) v r =
      ∑ el ∈ Finset.range els.length, (m el).rho * elInt .tria (ves el) (physEval tol .tria o (ves el) (fun md => v el (3 + j) md r)) := by
    intro v
    refine Finset.sum_congr rfl (fun el _ => ?_)
    congr 2
    funext x
    rw [Finset.sum_eq_single j]
    · simp [affine]
    · intro i _ hi; simp [affine, hi]
    · intro h; exact absurd (Finset.mem_range.2 hj) h
  rw [← e, ← e]
  exact h r hr

/-- C98, 2D: without periodic boundaries and with order at least two, angular momentum is conserved. -/
theorem C98_angular2 {c : Dg.Cfg} {o : Nat} (ho : 1 < o) (hF : Flux.Fits c .tria o) (hc : Fit c .tria o) (hq : c.nQtsE = 5) {lT lV LN FT : List (List ℝ)} (hst : Stored c .tria o lT lV LN FT)
    {els : List (MEl ℝ)} {F : Nat → Nat → MFace ℝ} {tol tolL : ℝ} {ves : Nat → Nat → Nat → ℝ} {m : Nat → Material} {m' : Nat → Nat → Material} {ν : Nat → Nat → Fin 2 → ℝ}
    (hels : ∀ el E, els[el]? = some E → SetUp2 tol tolL (ves el) (m el) (m' el) (ν el) (fun fa => (F el fa).freeSurface) E.starE E.fsL (fun fa => (F el fa).fsE) ∧
      FacesOk .tria els.length E.faces (F el) ∧ ∀ fa < 3, Joined .tria ves el fa (F el fa) (fun _ => 0))
    (hcl : Closed .tria els.length F) (hmat : ∀ el < els.length, ∀ fa < 3, m' el fa = m (if (F el fa).freeSurface then el else (F el fa).ne))
    {sc0 sc1 : List ℝ} (h0 : sc0.length = c.nQtsE * c.nMdsFa * c.nCrs) (h1 : sc1.length = c.nQtsE * c.nMdsFa * c.nCrs)
    {st : List (List ℝ × Dg.CkMem ℝ)} (hlen : st.length = els.length) {u : Nat → Nat → Nat → Nat → ℝ} (hu : ∀ el < els.length, HasDofs c st el (u el)) (dts : List ℝ) {i j : Nat} (hi : i < 2) (hj : j < 2) :
    ∃ st', ∃ u' : Nat → Nat → Nat → Nat → ℝ, runMesh c lT lV LN FT els sc0 sc1 dts st = some st' ∧ st'.length = els.length ∧ (∀ el < els.length, HasDofs c st' el (u' el)) ∧
      ∀ r < c.nCrs, ∑ el ∈ Finset.range els.length, (m el).rho * elInt .tria (ves el) (fun x => x i * physEval tol .tria o (ves el) (fun md => u' el (3 + j) md r) x -
          x j * physEval tol .tria o (ves el) (fun md => u' el (3 + i) md r) x) =
        ∑ el ∈ Finset.range els.length, (m el).rho * elInt .tria (ves el) (fun x => x i * physEval tol .tria o (ves el) (fun md => u el (3 + j) md r) x -
          x j * physEval tol .tria o (ves el) (fun md => u el (3 + i) md r) x) := by
  obtain ⟨st', u', a, l, d, h⟩ := C98_rigid2 (by omega) hF hc hq hst hels hcl hmat h0 h1 (fun _ => 0) (W := fun k d => (if k = j ∧ d = i then 1 else 0) - (if k = i ∧ d = j then 1 else 0))
    (by intro k _ d _; simp only [neg_sub, and_comm]) (fun _ => ho) (by simp) hlen hu dts
  refine ⟨st', u', a, l, d, fun r hr => ?_⟩
  have e : ∀ v : Nat → Nat → Nat → Nat → ℝ, momentum tol .tria o els.length ves (fun el => (m el).rho) (fun j => 3 + j) (fun _ => 0) (fun k d => (if k = j ∧ d = i then 1 else 0) - (if k = i ∧ d = j then 1 else 0)) v r =
      ∑ el ∈ Finset.range els.length, (m el).rho * elInt .tria (ves el) (fun x => x i * physEval tol .tria o (ves el) (fun md => v el (3 + j) md r) x -
          x j * physEval tol .tria o (ves el) (fun md => v el (3 + i) md r) x) := by
    intro v
    refine Finset.sum_congr rfl (fun el _ => ?_)
    congr 2
    funext x
    simp only [affine, Ent.nDim]
    interval_cases i <;> interval_cases j <;> simp [Finset.sum_range_succ] <;> ring
  rw [← e, ← e]
  exact h r hr

end Edge.Cons
