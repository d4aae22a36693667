import Verif.Work.Sim
/-!
C104: results of simulations.
-/
namespace Edge.Work
open Edge Edge.Map Edge.Quad Edge.Basis Edge.Proj Edge.Gen Edge.Flux Edge.Step Edge.Cons Edge.Seismic Edge.Rate Edge.Lts Matrix

/-- Time groups and bits of the elements are those which the set up computes: `EdgeV::setLtsTypes` for a mesh on a single rank. -/
structure Typed (e : Ent) (L : Layout) (els : List (REl ℝ)) (tg : Nat → Nat) (F : Nat → Nat → MFace ℝ) : Prop where
  layout : L.Ok els.length tg
  tg : ∀ (el : Nat) (E : REl ℝ), els[el]? = some E → E.tg = tg el
  bits : ∃ elFaEl sp out, Adjacent e els.length elFaEl F ∧ sp.length = els.length ∧ (∀ w ∈ sp, ∀ k, 32 ≤ k → w.getLsbD k = false) ∧
    setLtsTypes els.length e.nFa L.nTgs elFaEl L.nIn L.nSe none sp = some out ∧ BitsOf e out els

theorem Typed.ok {e : Ent} {L : Layout} {els : List (REl ℝ)} {tg : Nat → Nat} {F : Nat → Nat → MFace ℝ} (h : Typed e L els tg F) (he : e.nFa ≤ 6) : BitsOk e tg F els := by
  obtain ⟨elFaEl, sp, out, a, b, c, d, f⟩ := h.bits
  exact C104_bits h.layout a b c d h.tg f he

/-- Updates of all elements in the intervals of a simulation. -/
noncomputable def simRun (c : Dg.Cfg) (lT lV LN FT : List (List ℝ)) (els : List (REl ℝ)) (sc0 sc1 : List ℝ) (is : List Itv) (st : List (RSt ℝ)) : Option (List (RSt ℝ)) :=
  runSync c lT lV LN FT els sc0 sc1 (is.map (fun i => (i.dt, i.x.out))) st

theorem nb_of_faces {e : Ent} {els : List (REl ℝ)} {F : Nat → Nat → MFace ℝ} (h : ∀ (el : Nat) (E : REl ℝ), els[el]? = some E → FacesOk e els.length E.faces (F el)) :
    ∀ el < els.length, ∀ fa < e.nFa, (F el fa).outflow = false → (F el fa).nb el < els.length := by
  intro el hel fa hfa hout
  obtain ⟨-, a⟩ := h el _ (List.getElem?_eq_getElem hel)
  rcases hfr : (F el fa).freeSurface with _ | _
  · have : (F el fa).nb el = (F el fa).ne := by simp [MFace.nb, hfr]
    rw [this]
    exact (a fa hfa).2.1 hout hfr
  · have : (F el fa).nb el = el := by simp [MFace.nb, hfr]
    rwa [this]

theorem complete_unique {tg : Nat → Nat} {N : Nat} {evs : List Ev} {M M' : Nat} (hN : 0 < N) (h : Complete tg N evs M) (h' : Complete tg N evs M') : M = M' := (h 0 hN).2.symm.trans (h' 0 hN).2

open Classical in
/-- Number of steps of the smallest time step. -/
noncomputable def stepsOf (tg : Nat → Nat) (N : Nat) (iv : (Nat → Nat → ℝ) × List Ev) : Nat := if h : ∃ M, Complete tg N iv.2 M then h.choose else 0

theorem stepsOf_spec {tg : Nat → Nat} {N : Nat} {iv : (Nat → Nat → ℝ) × List Ev} {M : Nat} (h : Complete tg N iv.2 M) : Complete tg N iv.2 (stepsOf tg N iv) := by
  have hx : ∃ M, Complete tg N iv.2 M := ⟨M, h⟩
  rw [stepsOf, dif_pos hx]
  exact hx.choose_spec

/-- What the theorems on sequences of updates need, and the duration of the simulation. -/
theorem sim_ivs {e : Ent} {F : Nat → Nat → MFace ℝ} {L : Layout} {N : Nat} {tg : Nat → Nat} (hL : L.Ok N tg) (hF : ∀ el < N, ∀ fa < e.nFa, (F el fa).outflow = false → (F el fa).nb el < N) {is : List Itv}
    (his : ∀ i ∈ is, i.Ok L) :
    (∀ iv ∈ is.map (fun i => (i.dt, i.x.out)), Halves tg N iv.1 ∧ Ordered e tg F N iv.2 ∧ Complete tg N iv.2 (stepsOf tg N iv)) ∧
    (0 < N → ((is.map (fun i => (i.dt, i.x.out))).map (fun iv => tm iv.1 0 (stepsOf tg N iv))).sum = (is.map (fun i => (i.T : ℝ))).sum) := by
  constructor
  · intro iv hiv
    obtain ⟨i, h1, rfl⟩ := List.mem_map.1 hiv
    obtain ⟨a, b, c, -⟩ := C104_interval (F := F) hL (his i h1) hF
    exact ⟨a, b, stepsOf_spec c⟩
  · intro hN
    rw [List.map_map]
    congr 1
    refine List.map_congr_left (fun i hi => ?_)
    obtain ⟨a, b, c, d⟩ := C104_interval (F := F) hL (his i hi) hF
    have : stepsOf tg N (i.dt, i.x.out) = i.p.N 0 := complete_unique hN (stepsOf_spec (iv := (i.dt, i.x.out)) c) c
    simp only [Function.comp, this, d]

/-- C104, 3D: simulations conserve the momentum along rigid motions `x ↦ b + W x`. Any mesh on a rank whose boundaries are free surfaces or periodic, any materials, any data; time steps, bits of the
elements, distribution of the work and threads are those of the code, with any interleaving of the threads; any number of intervals of any durations. -/
theorem C104_rigid3 {c : Dg.Cfg} {o : Nat} (ho : 0 < o) (hF : Flux.Fits c .tet o) (hc : Fit c .tet o) (hq : c.nQtsE = 9) {lT lV LN FT : List (List ℝ)} (hst : Stored c .tet o lT lV LN FT)
    {els : List (REl ℝ)} {F : Nat → Nat → MFace ℝ} {tol tolL : ℝ} {ves : Nat → Nat → Nat → ℝ} {m : Nat → Material} {m' : Nat → Nat → Material} {ν : Nat → Nat → Fin 3 → ℝ}
    {t : Nat → Nat → Nat → ℝ} {tg : Nat → Nat} {L : Layout}
    (hels : ∀ el E, els[el]? = some E → SetUp3 tol tolL (ves el) (m el) (m' el) (ν el) (fun fa => (F el fa).freeSurface) E.starE E.fsL (fun fa => (F el fa).fsE) ∧
      FacesOk .tet els.length E.faces (F el) ∧ ∀ fa < 4, Joined .tet ves el fa (F el fa) (t el fa)) (hty : Typed .tet L els tg F)
    (hcl : Closed .tet els.length F) (hmat : ∀ el < els.length, ∀ fa < 4, m' el fa = m (if (F el fa).freeSurface then el else (F el fa).ne))
    {sc0 sc1 : List ℝ} (h0 : sc0.length = c.nQtsE * c.nMdsFa * c.nCrs) (h1 : sc1.length = c.nQtsE * c.nMdsFa * c.nCrs)
    (b : Nat → ℝ) {W : Nat → Nat → ℝ} (hW : ∀ i < 3, ∀ j < 3, W i j = -W j i) (hW1 : (∃ i < 3, ∃ j < 3, W i j ≠ 0) → 1 < o)
    (hWt : ∀ el < els.length, ∀ fa < 4, (F el fa).freeSurface = false → ∀ i < 3, ∑ d ∈ Finset.range 3, W i d * t el fa d = 0)
    {st : List (RSt ℝ)} {u : Nat → Modes} (hu : Ready c els st u) {is : List Itv} (his : ∀ i ∈ is, i.Ok L) :
    ∃ (st' : List (RSt ℝ)) (u' : Nat → Modes), simRun c lT lV LN FT els sc0 sc1 is st = some st' ∧ Ready c els st' u' ∧
      ∀ r < c.nCrs, momentum tol .tet o els.length ves (fun el => (m el).rho) (fun j => 6 + j) b W u' r = momentum tol .tet o els.length ves (fun el => (m el).rho) (fun j => 6 + j) b W u r :=
  C100_rigid3 ho hF hc hq hst hels (hty.ok (by decide)) hcl hmat h0 h1 b hW hW1 hWt hu (fun iv hiv =>
    have h := (sim_ivs (F := F) hty.layout (nb_of_faces (fun el E hE => (hels el E hE).2.1)) his).1 iv hiv
    ⟨h.2.1, _, h.2.2⟩)

/-- C104, 3D: simulations are exact for solutions `w` which are polynomials of degree less than the order in space, with continuous traction and velocity at the faces, zero traction at the free
surface and only outgoing waves at outflow boundaries. Any mesh on a rank, any materials; time steps, bits of the elements, distribution of the work and threads are those of the code, with any interleaving
of the threads. After any number of intervals the degrees of freedom are those of `w` at the time which is the sum of the durations. -/
theorem C104_exact3 {c : Dg.Cfg} {o : Nat} (ho : 0 < o) (hF : Flux.Fits c .tet o) (hc : Fit c .tet o) (hq : c.nQtsE = 9) {lT lV LN FT : List (List ℝ)} (hst : Stored c .tet o lT lV LN FT)
    {els : List (REl ℝ)} {F : Nat → Nat → MFace ℝ} {tol tolL : ℝ} {ves : Nat → Nat → Nat → ℝ} {m : Nat → Material} {m' : Nat → Nat → Material} {ν : Nat → Nat → Fin 3 → ℝ}
    {t : Nat → Nat → Nat → ℝ} {tg : Nat → Nat} {L : Layout}
    (hels : ∀ el E, els[el]? = some E → SetUp3 tol tolL (ves el) (m el) (m' el) (ν el) (fun fa => (F el fa).freeSurface) E.starE E.fsL (fun fa => (F el fa).fsE) ∧
      FacesOk .tet els.length E.faces (F el) ∧ ∀ fa < 4, Joined .tet ves el fa (F el fa) (t el fa)) (hty : Typed .tet L els tg F)
    {w : Nat → Nat → ℝ → Nat → (Nat → ℝ) → ℝ} (hw : ∀ el < els.length, ∀ r < c.nCrs, Wave3 (m el) o (w el r))
    (hQ : ∀ el < els.length, ∀ fa < 4, ∀ r < c.nCrs, ∀ τ x y, Quiet (m' el fa) (ν el fa) (F el fa).freeSurface (F el fa).outflow
      (stress3 (at_ 9 (w el r τ) (faceX .tet (ves el) fa x y)) *ᵥ ν el fa) (vel3 (at_ 9 (w el r τ) (faceX .tet (ves el) fa x y)))
      (stress3 (at_ 9 (w (F el fa).ne r τ) (fun d => faceX .tet (ves el) fa x y d + t el fa d)) *ᵥ ν el fa)
      (vel3 (at_ 9 (w (F el fa).ne r τ) (fun d => faceX .tet (ves el) fa x y d + t el fa d))))
    {sc0 sc1 : List ℝ} (h0 : sc0.length = c.nQtsE * c.nMdsFa * c.nCrs) (h1 : sc1.length = c.nQtsE * c.nMdsFa * c.nCrs)
    {st : List (RSt ℝ)} {s : ℝ} {u : Nat → Modes} (hu : Ready c els st u)
    (hu2 : ∀ el < els.length, ∀ r < c.nCrs, ∀ q < 9, ∀ x, physEval tol .tet o (ves el) (fun md => u el q md r) x = w el r s q x)
    {is : List Itv} (his : ∀ i ∈ is, i.Ok L) :
    ∃ (st' : List (RSt ℝ)) (u' : Nat → Modes), simRun c lT lV LN FT els sc0 sc1 is st = some st' ∧ Ready c els st' u' ∧
      ∀ el < els.length, ∀ r < c.nCrs, ∀ q < 9, ∀ x, physEval tol .tet o (ves el) (fun md => u' el q md r) x = w el r (s + (is.map (fun i => (i.T : ℝ))).sum) q x := by
  obtain ⟨a, b⟩ := sim_ivs (F := F) hty.layout (nb_of_faces (fun el E hE => (hels el E hE).2.1)) his
  obtain ⟨st', u', k1, k2, k3⟩ := C102_mesh3 ho hF hc hq hst hels (hty.ok (by decide)) hw hQ h0 h1 hu hu2 a
  refine ⟨st', u', k1, k2, fun el hel => ?_⟩
  rw [← b (by omega)]
  exact k3 el hel

/-- C104, 2D: simulations conserve the momentum along rigid motions `x ↦ b + W x`. Any mesh on a rank whose boundaries are free surfaces or periodic, any materials, any data; time steps, bits of the
elements, distribution of the work and threads are those of the code, with any interleaving of the threads; any number of intervals of any durations. -/
theorem C104_rigid2 {c : Dg.Cfg} {o : Nat} (ho : 0 < o) (hF : Flux.Fits c .tria o) (hc : Fit c .tria o) (hq : c.nQtsE = 5) {lT lV LN FT : List (List ℝ)} (hst : Stored c .tria o lT lV LN FT)
    {els : List (REl ℝ)} {F : Nat → Nat → MFace ℝ} {tol tolL : ℝ} {ves : Nat → Nat → Nat → ℝ} {m : Nat → Material} {m' : Nat → Nat → Material} {ν : Nat → Nat → Fin 2 → ℝ}
    {t : Nat → Nat → Nat → ℝ} {tg : Nat → Nat} {L : Layout}
    (hels : ∀ el E, els[el]? = some E → SetUp2 tol tolL (ves el) (m el) (m' el) (ν el) (fun fa => (F el fa).freeSurface) E.starE E.fsL (fun fa => (F el fa).fsE) ∧
      FacesOk .tria els.length E.faces (F el) ∧ ∀ fa < 3, Joined .tria ves el fa (F el fa) (t el fa)) (hty : Typed .tria L els tg F)
    (hcl : Closed .tria els.length F) (hmat : ∀ el < els.length, ∀ fa < 3, m' el fa = m (if (F el fa).freeSurface then el else (F el fa).ne))
    {sc0 sc1 : List ℝ} (h0 : sc0.length = c.nQtsE * c.nMdsFa * c.nCrs) (h1 : sc1.length = c.nQtsE * c.nMdsFa * c.nCrs)
    (b : Nat → ℝ) {W : Nat → Nat → ℝ} (hW : ∀ i < 2, ∀ j < 2, W i j = -W j i) (hW1 : (∃ i < 2, ∃ j < 2, W i j ≠ 0) → 1 < o)
    (hWt : ∀ el < els.length, ∀ fa < 3, (F el fa).freeSurface = false → ∀ i < 2, ∑ d ∈ Finset.range 2, W i d * t el fa d = 0)
    {st : List (RSt ℝ)} {u : Nat → Modes} (hu : Ready c els st u) {is : List Itv} (his : ∀ i ∈ is, i.Ok L) :
    ∃ (st' : List (RSt ℝ)) (u' : Nat → Modes), simRun c lT lV LN FT els sc0 sc1 is st = some st' ∧ Ready c els st' u' ∧
      ∀ r < c.nCrs, momentum tol .tria o els.length ves (fun el => (m el).rho) (fun j => 3 + j) b W u' r = momentum tol .tria o els.length ves (fun el => (m el).rho) (fun j => 3 + j) b W u r :=
  C100_rigid2 ho hF hc hq hst hels (hty.ok (by decide)) hcl hmat h0 h1 b hW hW1 hWt hu (fun iv hiv =>
    have h := (sim_ivs (F := F) hty.layout (nb_of_faces (fun el E hE => (hels el E hE).2.1)) his).1 iv hiv
    ⟨h.2.1, _, h.2.2⟩)

/-- C104, 2D: simulations are exact for solutions `w` which are polynomials of degree less than the order in space, with continuous traction and velocity at the faces, zero traction at the free
surface and only outgoing waves at outflow boundaries. Any mesh on a rank, any materials; time steps, bits of the elements, distribution of the work and threads are those of the code, with any interleaving
of the threads. After any number of intervals the degrees of freedom are those of `w` at the time which is the sum of the durations. -/
theorem C104_exact2 {c : Dg.Cfg} {o : Nat} (ho : 0 < o) (hF : Flux.Fits c .tria o) (hc : Fit c .tria o) (hq : c.nQtsE = 5) {lT lV LN FT : List (List ℝ)} (hst : Stored c .tria o lT lV LN FT)
    {els : List (REl ℝ)} {F : Nat → Nat → MFace ℝ} {tol tolL : ℝ} {ves : Nat → Nat → Nat → ℝ} {m : Nat → Material} {m' : Nat → Nat → Material} {ν : Nat → Nat → Fin 2 → ℝ}
    {t : Nat → Nat → Nat → ℝ} {tg : Nat → Nat} {L : Layout}
    (hels : ∀ el E, els[el]? = some E → SetUp2 tol tolL (ves el) (m el) (m' el) (ν el) (fun fa => (F el fa).freeSurface) E.starE E.fsL (fun fa => (F el fa).fsE) ∧
      FacesOk .tria els.length E.faces (F el) ∧ ∀ fa < 3, Joined .tria ves el fa (F el fa) (t el fa)) (hty : Typed .tria L els tg F)
    {w : Nat → Nat → ℝ → Nat → (Nat → ℝ) → ℝ} (hw : ∀ el < els.length, ∀ r < c.nCrs, Wave2 (m el) o (w el r))
    (hQ : ∀ el < els.length, ∀ fa < 3, ∀ r < c.nCrs, ∀ τ x y, Quiet (m' el fa) (ν el fa) (F el fa).freeSurface (F el fa).outflow
      (stress2 (at_ 5 (w el r τ) (faceX .tria (ves el) fa x y)) *ᵥ ν el fa) (vel2 (at_ 5 (w el r τ) (faceX .tria (ves el) fa x y)))
      (stress2 (at_ 5 (w (F el fa).ne r τ) (fun d => faceX .tria (ves el) fa x y d + t el fa d)) *ᵥ ν el fa)
      (vel2 (at_ 5 (w (F el fa).ne r τ) (fun d => faceX .tria (ves el) fa x y d + t el fa d))))
    {sc0 sc1 : List ℝ} (h0 : sc0.length = c.nQtsE * c.nMdsFa * c.nCrs) (h1 : sc1.length = c.nQtsE * c.nMdsFa * c.nCrs)
    {st : List (RSt ℝ)} {s : ℝ} {u : Nat → Modes} (hu : Ready c els st u)
    (hu2 : ∀ el < els.length, ∀ r < c.nCrs, ∀ q < 5, ∀ x, physEval tol .tria o (ves el) (fun md => u el q md r) x = w el r s q x)
    {is : List Itv} (his : ∀ i ∈ is, i.Ok L) :
    ∃ (st' : List (RSt ℝ)) (u' : Nat → Modes), simRun c lT lV LN FT els sc0 sc1 is st = some st' ∧ Ready c els st' u' ∧
      ∀ el < els.length, ∀ r < c.nCrs, ∀ q < 5, ∀ x, physEval tol .tria o (ves el) (fun md => u' el q md r) x = w el r (s + (is.map (fun i => (i.T : ℝ))).sum) q x := by
  obtain ⟨a, b⟩ := sim_ivs (F := F) hty.layout (nb_of_faces (fun el E hE => (hels el E hE).2.1)) his
  obtain ⟨st', u', k1, k2, k3⟩ := C102_mesh2 ho hF hc hq hst hels (hty.ok (by decide)) hw hQ h0 h1 hu hu2 a
  refine ⟨st', u', k1, k2, fun el hel => ?_⟩
  rw [← b (by omega)]
  exact k3 el hel

end Edge.Work
