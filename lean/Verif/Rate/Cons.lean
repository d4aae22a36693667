import Verif.Rate.Total
import Verif.Cons.Props
/-!
C100: conservation with local time stepping.
-/
namespace Edge.Rate
open Edge Edge.Map Edge.Quad Edge.Basis Edge.Proj Edge.Gen Edge.Flux Edge.Step Edge.Cons Edge.Seismic

/-- A property of the modes which sums of updates preserve holds at all synchronizations. -/
theorem sync_inv {c : Dg.Cfg} {e : Ent} {o : Nat} {lT lV LN FT : List (List ℝ)} {els : List (REl ℝ)} {sc0 sc1 : List ℝ} {tg : Nat → Nat}
    {F : Nat → Nat → MFace ℝ} {S FL FN : Nat → Nat → Nat → Nat → ℝ} (hF : Flux.Fits c e o) (hc : Fit c e o) (hst : Stored c e o lT lV LN FT)
    (h0 : sc0.length = c.nQtsE * c.nMdsFa * c.nCrs) (h1 : sc1.length = c.nQtsE * c.nMdsFa * c.nCrs) (hE : ElsOk c e tg els F S FL FN) {P : (Nat → Modes) → Prop}
    (hP : ∀ v v' T : Nat → Modes, (∀ el < els.length, v' el = v el + locTerm c e o (S el) (FL el) (T el) + neiTerm c e o (F el) (FN el) (fun fa => T ((F el fa).nb el))) → P v → P v')
    {st : List (RSt ℝ)} {u : Nat → Modes} (hu : Ready c els st u) (hPu : P u) (ivs : List ((Nat → Nat → ℝ) × List Ev))
    (hiv : ∀ iv ∈ ivs, Ordered e tg F els.length iv.2 ∧ ∃ M, Complete tg els.length iv.2 M) :
    ∃ (st' : List (RSt ℝ)) (u' : Nat → Modes), runSync c lT lV LN FT els sc0 sc1 ivs st = some st' ∧ Ready c els st' u' ∧ P u' := by
  induction ivs generalizing st u with
  | nil => exact ⟨st, u, rfl, hu, hPu⟩
  | cons iv ivs ih =>
    obtain ⟨i1, M, i2⟩ := hiv iv List.mem_cons_self
    obtain ⟨s1, u1, T, a1, a2, a3⟩ := total (dt := iv.1) hF hc hst h0 h1 hE hu i1 i2
    obtain ⟨s2, u2, b1, b2, b3⟩ := ih a2 (hP _ _ T a3 hPu) (fun iv' h => hiv iv' (List.mem_cons_of_mem _ h))
    refine ⟨s2, u2, ?_, b2, b3⟩
    rw [runSync, List.foldlM_cons, a1]
    exact b1

/-- C100, 3D: local time stepping conserves the momentum along rigid motions `x ↦ b + W x` at the synchronizations: for any mesh whose boundaries are free surfaces or periodic, any time groups,
any time steps of them, and any order of the updates with the rhythm of the scheduler. -/
theorem C100_rigid3 {c : Dg.Cfg} {o : Nat} (ho : 0 < o) (hF : Flux.Fits c .tet o) (hc : Fit c .tet o) (hq : c.nQtsE = 9) {lT lV LN FT : List (List ℝ)} (hst : Stored c .tet o lT lV LN FT)
    {els : List (REl ℝ)} {F : Nat → Nat → MFace ℝ} {tol tolL : ℝ} {ves : Nat → Nat → Nat → ℝ} {m : Nat → Material} {m' : Nat → Nat → Material} {ν : Nat → Nat → Fin 3 → ℝ}
    {t : Nat → Nat → Nat → ℝ} {tg : Nat → Nat}
    (hels : ∀ el E, els[el]? = some E → SetUp3 tol tolL (ves el) (m el) (m' el) (ν el) (fun fa => (F el fa).freeSurface) E.starE E.fsL (fun fa => (F el fa).fsE) ∧
      FacesOk .tet els.length E.faces (F el) ∧ ∀ fa < 4, Joined .tet ves el fa (F el fa) (t el fa)) (hbits : BitsOk .tet tg F els)
    (hcl : Closed .tet els.length F) (hmat : ∀ el < els.length, ∀ fa < 4, m' el fa = m (if (F el fa).freeSurface then el else (F el fa).ne))
    {sc0 sc1 : List ℝ} (h0 : sc0.length = c.nQtsE * c.nMdsFa * c.nCrs) (h1 : sc1.length = c.nQtsE * c.nMdsFa * c.nCrs)
    (b : Nat → ℝ) {W : Nat → Nat → ℝ} (hW : ∀ i < 3, ∀ j < 3, W i j = -W j i) (hW1 : (∃ i < 3, ∃ j < 3, W i j ≠ 0) → 1 < o)
    (hWt : ∀ el < els.length, ∀ fa < 4, (F el fa).freeSurface = false → ∀ i < 3, ∑ d ∈ Finset.range 3, W i d * t el fa d = 0)
    {st : List (RSt ℝ)} {u : Nat → Modes} (hu : Ready c els st u) {ivs : List ((Nat → Nat → ℝ) × List Ev)}
    (hiv : ∀ iv ∈ ivs, Ordered .tet tg F els.length iv.2 ∧ ∃ M, Complete tg els.length iv.2 M) :
    ∃ (st' : List (RSt ℝ)) (u' : Nat → Modes), runSync c lT lV LN FT els sc0 sc1 ivs st = some st' ∧ Ready c els st' u' ∧
      ∀ r < c.nCrs, momentum tol .tet o els.length ves (fun el => (m el).rho) (fun j => 6 + j) b W u' r = momentum tol .tet o els.length ves (fun el => (m el).rho) (fun j => 6 + j) b W u r := by
  have hlm : (els.map REl.toMEl).length = els.length := List.length_map _
  obtain ⟨S, FL, FN, k1, k2⟩ := cons_set3 (els := els.map REl.toMEl) (ν := ν) (t := t) ho hF hc hq (fun el E hE => by
    rw [List.getElem?_map, Option.map_eq_some_iff] at hE
    obtain ⟨E', h, rfl⟩ := hE
    rw [hlm]
    exact hels el E' h) (by rw [hlm]; exact hcl) (by rw [hlm]; exact hmat)
  rw [hlm] at k1 k2
  have k3 : ∀ el (E : REl ℝ), els[el]? = some E → (els.map REl.toMEl)[el]? = some (REl.toMEl E) := fun el E h => by rw [List.getElem?_map, h]; rfl
  have hE : ElsOk c .tet tg els F S FL FN := ⟨fun el E h => (k1 el _ (k3 el E h)).1, fun el E h => (k1 el _ (k3 el E h)).2.1, fun el E h => (k1 el _ (k3 el E h)).2.2.1,
    fun el E h => (k1 el _ (k3 el E h)).2.2.2, hbits⟩
  refine sync_inv hF hc hst h0 h1 hE (P := fun v => ∀ r < c.nCrs, momentum tol .tet o els.length ves (fun el => (m el).rho) (fun j => 6 + j) b W v r = momentum tol .tet o els.length ves (fun el => (m el).rho) (fun j => 6 + j) b W u r)
    ?_ hu (fun _ _ => rfl) ivs hiv
  intro v v' T hT hv r hr
  rw [← hv r hr]
  refine k2 b W hW hW1 hWt v v' T r (fun el hel j _ md _ => ?_)
  rw [hT el hel]
  simp only [Pi.add_apply, locTerm, neiTerm]
  rw [rhs_aux hc.rms _ _ _ (fun _ => T el) (fun _ => v el)]
  ring

/-- C100, 3D: momentum is conserved: the sum over the elements of density times the integral of each component of the velocity. -/
theorem C100_momentum3 {c : Dg.Cfg} {o : Nat} (ho : 0 < o) (hF : Flux.Fits c .tet o) (hc : Fit c .tet o) (hq : c.nQtsE = 9) {lT lV LN FT : List (List ℝ)} (hst : Stored c .tet o lT lV LN FT)
    {els : List (REl ℝ)} {F : Nat → Nat → MFace ℝ} {tol tolL : ℝ} {ves : Nat → Nat → Nat → ℝ} {m : Nat → Material} {m' : Nat → Nat → Material} {ν : Nat → Nat → Fin 3 → ℝ}
    {t : Nat → Nat → Nat → ℝ} {tg : Nat → Nat}
    (hels : ∀ el E, els[el]? = some E → SetUp3 tol tolL (ves el) (m el) (m' el) (ν el) (fun fa => (F el fa).freeSurface) E.starE E.fsL (fun fa => (F el fa).fsE) ∧
      FacesOk .tet els.length E.faces (F el) ∧ ∀ fa < 4, Joined .tet ves el fa (F el fa) (t el fa)) (hbits : BitsOk .tet tg F els)
    (hcl : Closed .tet els.length F) (hmat : ∀ el < els.length, ∀ fa < 4, m' el fa = m (if (F el fa).freeSurface then el else (F el fa).ne))
    {sc0 sc1 : List ℝ} (h0 : sc0.length = c.nQtsE * c.nMdsFa * c.nCrs) (h1 : sc1.length = c.nQtsE * c.nMdsFa * c.nCrs)
    {st : List (RSt ℝ)} {u : Nat → Modes} (hu : Ready c els st u) {ivs : List ((Nat → Nat → ℝ) × List Ev)}
    (hiv : ∀ iv ∈ ivs, Ordered .tet tg F els.length iv.2 ∧ ∃ M, Complete tg els.length iv.2 M) {j : Nat} (hj : j < 3) :
    ∃ (st' : List (RSt ℝ)) (u' : Nat → Modes), runSync c lT lV LN FT els sc0 sc1 ivs st = some st' ∧ Ready c els st' u' ∧
      ∀ r < c.nCrs, ∑ el ∈ Finset.range els.length, (m el).rho * elInt .tet (ves el) (physEval tol .tet o (ves el) (fun md => u' el (6 + j) md r)) =
        ∑ el ∈ Finset.range els.length, (m el).rho * elInt .tet (ves el) (physEval tol .tet o (ves el) (fun md => u el (6 + j) md r)) := by
  obtain ⟨st', u', a, d, h⟩ := C100_rigid3 ho hF hc hq hst hels hbits hcl hmat h0 h1 (fun i => if i = j then 1 else 0) (W := fun _ _ => 0) (by simp) (fun ⟨_, _, _, _, h⟩ => absurd rfl h) (by simp) hu hiv
  refine ⟨st', u', a, d, fun r hr => ?_⟩
  have e : ∀ v : Nat → Modes, momentum tol .tet o els.length ves (fun el => (m el).rho) (fun j => 6 + j) (fun i => if i = j then 1 else 0) (fun _ _ => 0) v r =
      ∑ el ∈ Finset.range els.length, (m el).rho * elInt .tet (ves el) (physEval tol .tet o (ves el) (fun md => v el (6 + j) md r)) := by
    intro v
    refine Finset.sum_congr rfl (fun el _ => ?_)
    congr 2
    funext x
    rw [Finset.sum_eq_single j]
    · simp [affine]
    · intro i _ hi; simp [affine, hi]
    · intro h; exact absurd (Finset.mem_range.2 hj) h
  rw [← e, ← e]
  exact h r hr

/-- C100, 2D: local time stepping conserves the momentum along rigid motions `x ↦ b + W x` at the synchronizations: for any mesh whose boundaries are free surfaces or periodic, any time groups,
any time steps of them, and any order of the updates with the rhythm of the scheduler. -/
theorem C100_rigid2 {c : Dg.Cfg} {o : Nat} (ho : 0 < o) (hF : Flux.Fits c .tria o) (hc : Fit c .tria o) (hq : c.nQtsE = 5) {lT lV LN FT : List (List ℝ)} (hst : Stored c .tria o lT lV LN FT)
    {els : List (REl ℝ)} {F : Nat → Nat → MFace ℝ} {tol tolL : ℝ} {ves : Nat → Nat → Nat → ℝ} {m : Nat → Material} {m' : Nat → Nat → Material} {ν : Nat → Nat → Fin 2 → ℝ}
    {t : Nat → Nat → Nat → ℝ} {tg : Nat → Nat}
    (hels : ∀ el E, els[el]? = some E → SetUp2 tol tolL (ves el) (m el) (m' el) (ν el) (fun fa => (F el fa).freeSurface) E.starE E.fsL (fun fa => (F el fa).fsE) ∧
      FacesOk .tria els.length E.faces (F el) ∧ ∀ fa < 3, Joined .tria ves el fa (F el fa) (t el fa)) (hbits : BitsOk .tria tg F els)
    (hcl : Closed .tria els.length F) (hmat : ∀ el < els.length, ∀ fa < 3, m' el fa = m (if (F el fa).freeSurface then el else (F el fa).ne))
    {sc0 sc1 : List ℝ} (h0 : sc0.length = c.nQtsE * c.nMdsFa * c.nCrs) (h1 : sc1.length = c.nQtsE * c.nMdsFa * c.nCrs)
    (b : Nat → ℝ) {W : Nat → Nat → ℝ} (hW : ∀ i < 2, ∀ j < 2, W i j = -W j i) (hW1 : (∃ i < 2, ∃ j < 2, W i j ≠ 0) → 1 < o)
    (hWt : ∀ el < els.length, ∀ fa < 3, (F el fa).freeSurface = false → ∀ i < 2, ∑ d ∈ Finset.range 2, W i d * t el fa d = 0)
    {st : List (RSt ℝ)} {u : Nat → Modes} (hu : Ready c els st u) {ivs : List ((Nat → Nat → ℝ) × List Ev)}
    (hiv : ∀ iv ∈ ivs, Ordered .tria tg F els.length iv.2 ∧ ∃ M, Complete tg els.length iv.2 M) :
    ∃ (st' : List (RSt ℝ)) (u' : Nat → Modes), runSync c lT lV LN FT els sc0 sc1 ivs st = some st' ∧ Ready c els st' u' ∧
      ∀ r < c.nCrs, momentum tol .tria o els.length ves (fun el => (m el).rho) (fun j => 3 + j) b W u' r = momentum tol .tria o els.length ves (fun el => (m el).rho) (fun j => 3 + j) b W u r := by
  have hlm : (els.map REl.toMEl).length = els.length := List.length_map _
  obtain ⟨S, FL, FN, k1, k2⟩ := cons_set2 (els := els.map REl.toMEl) (ν := ν) (t := t) ho hF hc hq (fun el E hE => by
    rw [List.getElem?_map, Option.map_eq_some_iff] at hE
    obtain ⟨E', h, rfl⟩ := hE
    rw [hlm]
    exact hels el E' h) (by rw [hlm]; exact hcl) (by rw [hlm]; exact hmat)
  rw [hlm] at k1 k2
  have k3 : ∀ el (E : REl ℝ), els[el]? = some E → (els.map REl.toMEl)[el]? = some (REl.toMEl E) := fun el E h => by rw [List.getElem?_map, h]; rfl
  have hE : ElsOk c .tria tg els F S FL FN := ⟨fun el E h => (k1 el _ (k3 el E h)).1, fun el E h => (k1 el _ (k3 el E h)).2.1, fun el E h => (k1 el _ (k3 el E h)).2.2.1,
    fun el E h => (k1 el _ (k3 el E h)).2.2.2, hbits⟩
  refine sync_inv hF hc hst h0 h1 hE (P := fun v => ∀ r < c.nCrs, momentum tol .tria o els.length ves (fun el => (m el).rho) (fun j => 3 + j) b W v r = momentum tol .tria o els.length ves (fun el => (m el).rho) (fun j => 3 + j) b W u r)
    ?_ hu (fun _ _ => rfl) ivs hiv
  intro v v' T hT hv r hr
  rw [← hv r hr]
  refine k2 b W hW hW1 hWt v v' T r (fun el hel j _ md _ => ?_)
  rw [hT el hel]
  simp only [Pi.add_apply, locTerm, neiTerm]
  rw [rhs_aux hc.rms _ _ _ (fun _ => T el) (fun _ => v el)]
  ring

/-- C100, 2D: momentum is conserved: the sum over the elements of density times the integral of each component of the velocity. -/
theorem C100_momentum2 {c : Dg.Cfg} {o : Nat} (ho : 0 < o) (hF : Flux.Fits c .tria o) (hc : Fit c .tria o) (hq : c.nQtsE = 5) {lT lV LN FT : List (List ℝ)} (hst : Stored c .tria o lT lV LN FT)
    {els : List (REl ℝ)} {F : Nat → Nat → MFace ℝ} {tol tolL : ℝ} {ves : Nat → Nat → Nat → ℝ} {m : Nat → Material} {m' : Nat → Nat → Material} {ν : Nat → Nat → Fin 2 → ℝ}
    {t : Nat → Nat → Nat → ℝ} {tg : Nat → Nat}
    (hels : ∀ el E, els[el]? = some E → SetUp2 tol tolL (ves el) (m el) (m' el) (ν el) (fun fa => (F el fa).freeSurface) E.starE E.fsL (fun fa => (F el fa).fsE) ∧
      FacesOk .tria els.length E.faces (F el) ∧ ∀ fa < 3, Joined .tria ves el fa (F el fa) (t el fa)) (hbits : BitsOk .tria tg F els)
    (hcl : Closed .tria els.length F) (hmat : ∀ el < els.length, ∀ fa < 3, m' el fa = m (if (F el fa).freeSurface then el else (F el fa).ne))
    {sc0 sc1 : List ℝ} (h0 : sc0.length = c.nQtsE * c.nMdsFa * c.nCrs) (h1 : sc1.length = c.nQtsE * c.nMdsFa * c.nCrs)
    {st : List (RSt ℝ)} {u : Nat → Modes} (hu : Ready c els st u) {ivs : List ((Nat → Nat → ℝ) × List Ev)}
    (hiv : ∀ iv ∈ ivs, Ordered .tria tg F els.length iv.2 ∧ ∃ M, Complete tg els.length iv.2 M) {j : Nat} (hj : j < 2) :
    ∃ (st' : List (RSt ℝ)) (u' : Nat → Modes), runSync c lT lV LN FT els sc0 sc1 ivs st = some st' ∧ Ready c els st' u' ∧
      ∀ r < c.nCrs, ∑ el ∈ Finset.range els.length, (m el).rho * elInt .tria (ves el) (physEval tol .tria o (ves el) (fun md => u' el (3 + j) md r)) =
        ∑ el ∈ Finset.range els.length, (m el).rho * elInt .tria (ves el) (physEval tol .tria o (ves el) (fun md => u el (3 + j) md r)) := by
  obtain ⟨st', u', a, d, h⟩ := C100_rigid2 ho hF hc hq hst hels hbits hcl hmat h0 h1 (fun i => if i = j then 1 else 0) (W := fun _ _ => 0) (by simp) (fun ⟨_, _, _, _, h⟩ => absurd rfl h) (by simp) hu hiv
  refine ⟨st', u', a, d, fun r hr => ?_⟩
  have e : ∀ v : Nat → Modes, momentum tol .tria o els.length ves (fun el => (m el).rho) (fun j => 3 + j) (fun i => if i = j then 1 else 0) (fun _ _ => 0) v r =
      ∑ el ∈ Finset.range els.length, (m el).rho * elInt .tria (ves el) (physEval tol .tria o (ves el) (fun md => v el (3 + j) md r)) := by
    intro v
    refine Finset.sum_congr rfl (fun el _ => ?_)
    congr 2
    funext x
    rw [Finset.sum_eq_single j]
    · simp [affine]
    · intro i _ hi; simp [affine, hi]
    · intro h; exact absurd (Finset.mem_range.2 hj) h
  rw [← e, ← e]
  exact h r hr

end Edge.Rate
