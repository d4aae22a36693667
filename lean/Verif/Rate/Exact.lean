import Verif.Rate.Solve
import Verif.Step.MeshProps
/-!
C102: local time stepping is exact for polynomial solutions.
-/
namespace Edge.Rate
open Edge Edge.Map Edge.Quad Edge.Basis Edge.Proj Edge.Gen Edge.Flux Edge.Step Edge.Seismic Matrix

/-- Solutions on the elements of a region are reproduced at the synchronizations. -/
theorem sync_agree {c : Dg.Cfg} {e : Ent} {o : Nat} (he : e = .tria ∨ e = .tet) (ho : 0 < o) {lT lV LN FT : List (List ℝ)} {els : List (REl ℝ)} {sc0 sc1 : List ℝ} {tg : Nat → Nat}
    {F : Nat → Nat → MFace ℝ} {S FL FN : Nat → Nat → Nat → Nat → ℝ} (hF : Flux.Fits c e o) (hc : Fit c e o) (hst : Stored c e o lT lV LN FT)
    (h0 : sc0.length = c.nQtsE * c.nMdsFa * c.nCrs) (h1 : sc1.length = c.nQtsE * c.nMdsFa * c.nCrs) (hE : ElsOk c e tg els F S FL FN) {R : Nat → Prop} {U : Nat → ℝ → Modes}
    (hU : ∀ el < els.length, R el → Solution c e o (S el) (U el))
    (hcons : ∀ s dT, ∀ el < els.length, Inside e F R 1 el → Consistent c e o (S el) (FL el) (FN el) (fun fa => (F el fa).toIn []) (tInt c e o (S el) (U el s) dT)
      (fun fa => tInt c e o (S ((F el fa).nb el)) (U ((F el fa).nb el) s) dT)) {st : List (RSt ℝ)} {s : ℝ} {n0 : Nat} {u : Nat → Modes} (hu : Ready c els st u)
    (hu2 : ∀ el < els.length, Inside e F R n0 el → Agree c (u el) (U el s)) {ivs : List ((Nat → Nat → ℝ) × List Ev)} {M : (Nat → Nat → ℝ) × List Ev → Nat}
    (hiv : ∀ iv ∈ ivs, Halves tg els.length iv.1 ∧ Ordered e tg F els.length iv.2 ∧ Complete tg els.length iv.2 (M iv)) :
    ∃ (st' : List (RSt ℝ)) (u' : Nat → Modes), runSync c lT lV LN FT els sc0 sc1 ivs st = some st' ∧ Ready c els st' u' ∧
      ∀ el < els.length, Inside e F R (n0 + (ivs.map M).sum) el → Agree c (u' el) (U el (s + (ivs.map (fun iv => tm iv.1 0 (M iv))).sum)) := by
  induction ivs generalizing st u s n0 with
  | nil => exact ⟨st, u, rfl, hu, by simpa using hu2⟩
  | cons iv ivs ih =>
    obtain ⟨i1, i2, i3⟩ := hiv iv List.mem_cons_self
    obtain ⟨s1, V, a1, a2, a3⟩ := history (dt := iv.1) hF hc hst h0 h1 hE hu i2
    have hag := modes_agree he ho hF hc hE i1 hU hcons hu2 i2 a3
    obtain ⟨s2, u2, b1, b2, b3⟩ := ih (n0 := n0 + M iv) (s := s + tm iv.1 0 (M iv)) (EInv.ready (fun el E h => (hE.bits el E h).1) a2 a3 (fun el hel => (i3 el hel).1)) (fun el hel hin => by
      have hM : iv.2.count (.nei el) * 2 ^ tg el = M iv := by rw [(i3 el hel).1]; exact (i3 el hel).2
      rw [← hM, tm_pow i1 hel le_rfl]
      exact hag _ el _ hM hel le_rfl hin) (fun iv' h => hiv iv' (List.mem_cons_of_mem _ h))
    refine ⟨s2, u2, ?_, b2, fun el hel hin => ?_⟩
    · rw [runSync, List.foldlM_cons, a1]
      exact b1
    · rw [List.map_cons, List.sum_cons, ← add_assoc]
      rw [List.map_cons, List.sum_cons, ← add_assoc] at hin
      exact b3 el hel hin

/-- C102, 3D: local time stepping on any mesh, with any materials, boundary conditions and time groups, and any region `R` of it. `w el` is the solution in element `el` of the region, a polynomial
of degree less than the order in space. If, in the region, traction and velocity are continuous at the inner faces (and equal at periodic boundaries), the traction is zero at the free surface, and
only outgoing waves reach outflow boundaries, then any sequence of updates with the rhythm of the scheduler between synchronizations, which starts with the degrees of freedom of `w` at time `s` in
the region and with arbitrary ones elsewhere, gives those of `w` at the time of the last synchronization, in all elements which are as many faces away from the boundary of the region as there are
steps of the smallest time step. -/
theorem C102_region3 {c : Dg.Cfg} {o : Nat} (ho : 0 < o) (hF : Flux.Fits c .tet o) (hc : Fit c .tet o) (hq : c.nQtsE = 9) {lT lV LN FT : List (List ℝ)} (hst : Stored c .tet o lT lV LN FT)
    {els : List (REl ℝ)} {F : Nat → Nat → MFace ℝ} {tol tolL : ℝ} {ves : Nat → Nat → Nat → ℝ} {m : Nat → Material} {m' : Nat → Nat → Material} {ν : Nat → Nat → Fin 3 → ℝ}
    {t : Nat → Nat → Nat → ℝ} {tg : Nat → Nat}
    (hels : ∀ el E, els[el]? = some E → SetUp3 tol tolL (ves el) (m el) (m' el) (ν el) (fun fa => (F el fa).freeSurface) E.starE E.fsL (fun fa => (F el fa).fsE) ∧
      FacesOk .tet els.length E.faces (F el) ∧ ∀ fa < 4, Joined .tet ves el fa (F el fa) (t el fa)) (hbits : BitsOk .tet tg F els)
    {R : Nat → Prop} {w : Nat → Nat → ℝ → Nat → (Nat → ℝ) → ℝ} (hw : ∀ el < els.length, R el → ∀ r < c.nCrs, Wave3 (m el) o (w el r))
    (hQ : ∀ el < els.length, R el → ∀ fa < 4, ((F el fa).outflow = false → (F el fa).freeSurface = false → R (F el fa).ne) → ∀ r < c.nCrs, ∀ τ x y, Quiet (m' el fa) (ν el fa) (F el fa).freeSurface (F el fa).outflow
      (stress3 (at_ 9 (w el r τ) (faceX .tet (ves el) fa x y)) *ᵥ ν el fa) (vel3 (at_ 9 (w el r τ) (faceX .tet (ves el) fa x y)))
      (stress3 (at_ 9 (w (F el fa).ne r τ) (fun d => faceX .tet (ves el) fa x y d + t el fa d)) *ᵥ ν el fa)
      (vel3 (at_ 9 (w (F el fa).ne r τ) (fun d => faceX .tet (ves el) fa x y d + t el fa d))))
    {sc0 sc1 : List ℝ} (h0 : sc0.length = c.nQtsE * c.nMdsFa * c.nCrs) (h1 : sc1.length = c.nQtsE * c.nMdsFa * c.nCrs)
    {st : List (RSt ℝ)} {s : ℝ} {u : Nat → Modes} (hu : Ready c els st u)
    (hu2 : ∀ el < els.length, R el → ∀ r < c.nCrs, ∀ q < 9, ∀ x, physEval tol .tet o (ves el) (fun md => u el q md r) x = w el r s q x)
    {ivs : List ((Nat → Nat → ℝ) × List Ev)} {M : (Nat → Nat → ℝ) × List Ev → Nat}
    (hiv : ∀ iv ∈ ivs, Halves tg els.length iv.1 ∧ Ordered .tet tg F els.length iv.2 ∧ Complete tg els.length iv.2 (M iv)) :
    ∃ (st' : List (RSt ℝ)) (u' : Nat → Modes), runSync c lT lV LN FT els sc0 sc1 ivs st = some st' ∧ Ready c els st' u' ∧
      ∀ el < els.length, Inside .tet F R (ivs.map M).sum el → ∀ r < c.nCrs, ∀ q < 9, ∀ x,
        physEval tol .tet o (ves el) (fun md => u' el q md r) x = w el r (s + (ivs.map (fun iv => tm iv.1 0 (M iv))).sum) q x := by
  have he : .tet = Ent.tria ∨ .tet = Ent.tet := by decide
  have hlm : (els.map REl.toMEl).length = els.length := List.length_map _
  obtain ⟨S, FL, FN, U, k1, hU, hsol, hcons, hmd⟩ := exact_set3 (els := els.map REl.toMEl) (ν := ν) (t := t) (R := R) (w := w) ho hF hc hq (fun el E hE => by
    rw [List.getElem?_map, Option.map_eq_some_iff] at hE
    obtain ⟨E', h, rfl⟩ := hE
    rw [hlm]
    exact hels el E' h) (by rw [hlm]; exact hw) (by rw [hlm]; exact hQ)
  rw [hlm] at k1 hU hsol hcons hmd
  have k3 : ∀ el (E : REl ℝ), els[el]? = some E → (els.map REl.toMEl)[el]? = some (REl.toMEl E) := fun el E h => by rw [List.getElem?_map, h]; rfl
  have hE : ElsOk c .tet tg els F S FL FN := ⟨fun el E h => (k1 el _ (k3 el E h)).1, fun el E h => (k1 el _ (k3 el E h)).2.1, fun el E h => (k1 el _ (k3 el E h)).2.2.1,
    fun el E h => (k1 el _ (k3 el E h)).2.2.2, hbits⟩
  have hstart : ∀ el < els.length, Inside .tet F R 0 el → Agree c (u el) (U el s) := by
    intro el hel hR q hq' md hmd' r hr
    rw [hc.mds] at hmd'
    exact hmd el hel (fun md => u el q md r) (fun md => U el s q md r) (fun x => by rw [hu2 el hel hR r hr q (by omega) x, hU el hel hR r hr q hq' s x]) md hmd'
  obtain ⟨st', u', a, b, d⟩ := sync_agree he ho hF hc hst h0 h1 hE hsol hcons hu hstart hiv
  refine ⟨st', u', a, b, fun el hel hin r hr q hq' x => ?_⟩
  rw [Nat.zero_add] at d
  have hd := d el hel hin
  rw [← hU el hel hin.region r hr q (by omega), physEval, physEval, recon_agree hc.mds hd (q := q) (by omega) hr]

/-- C102, 3D: the same for a solution on all elements, with the boundary conditions at all boundaries: it is reproduced everywhere. -/
theorem C102_mesh3 {c : Dg.Cfg} {o : Nat} (ho : 0 < o) (hF : Flux.Fits c .tet o) (hc : Fit c .tet o) (hq : c.nQtsE = 9) {lT lV LN FT : List (List ℝ)} (hst : Stored c .tet o lT lV LN FT)
    {els : List (REl ℝ)} {F : Nat → Nat → MFace ℝ} {tol tolL : ℝ} {ves : Nat → Nat → Nat → ℝ} {m : Nat → Material} {m' : Nat → Nat → Material} {ν : Nat → Nat → Fin 3 → ℝ}
    {t : Nat → Nat → Nat → ℝ} {tg : Nat → Nat}
    (hels : ∀ el E, els[el]? = some E → SetUp3 tol tolL (ves el) (m el) (m' el) (ν el) (fun fa => (F el fa).freeSurface) E.starE E.fsL (fun fa => (F el fa).fsE) ∧
      FacesOk .tet els.length E.faces (F el) ∧ ∀ fa < 4, Joined .tet ves el fa (F el fa) (t el fa)) (hbits : BitsOk .tet tg F els)
    {w : Nat → Nat → ℝ → Nat → (Nat → ℝ) → ℝ} (hw : ∀ el < els.length, ∀ r < c.nCrs, Wave3 (m el) o (w el r))
    (hQ : ∀ el < els.length, ∀ fa < 4, ∀ r < c.nCrs, ∀ τ x y, Quiet (m' el fa) (ν el fa) (F el fa).freeSurface (F el fa).outflow
      (stress3 (at_ 9 (w el r τ) (faceX .tet (ves el) fa x y)) *ᵥ ν el fa) (vel3 (at_ 9 (w el r τ) (faceX .tet (ves el) fa x y)))
      (stress3 (at_ 9 (w (F el fa).ne r τ) (fun d => faceX .tet (ves el) fa x y d + t el fa d)) *ᵥ ν el fa)
      (vel3 (at_ 9 (w (F el fa).ne r τ) (fun d => faceX .tet (ves el) fa x y d + t el fa d))))
    {sc0 sc1 : List ℝ} (h0 : sc0.length = c.nQtsE * c.nMdsFa * c.nCrs) (h1 : sc1.length = c.nQtsE * c.nMdsFa * c.nCrs)
    {st : List (RSt ℝ)} {s : ℝ} {u : Nat → Modes} (hu : Ready c els st u)
    (hu2 : ∀ el < els.length, ∀ r < c.nCrs, ∀ q < 9, ∀ x, physEval tol .tet o (ves el) (fun md => u el q md r) x = w el r s q x)
    {ivs : List ((Nat → Nat → ℝ) × List Ev)} {M : (Nat → Nat → ℝ) × List Ev → Nat}
    (hiv : ∀ iv ∈ ivs, Halves tg els.length iv.1 ∧ Ordered .tet tg F els.length iv.2 ∧ Complete tg els.length iv.2 (M iv)) :
    ∃ (st' : List (RSt ℝ)) (u' : Nat → Modes), runSync c lT lV LN FT els sc0 sc1 ivs st = some st' ∧ Ready c els st' u' ∧
      ∀ el < els.length, ∀ r < c.nCrs, ∀ q < 9, ∀ x,
        physEval tol .tet o (ves el) (fun md => u' el q md r) x = w el r (s + (ivs.map (fun iv => tm iv.1 0 (M iv))).sum) q x := by
  obtain ⟨st', u', a, b, d⟩ := C102_region3 ho hF hc hq hst (R := fun _ => True) hels hbits (fun el hel _ => hw el hel) (fun el hel _ fa hfa _ => hQ el hel fa hfa) h0 h1 hu
    (fun el hel _ => hu2 el hel) hiv
  exact ⟨st', u', a, b, fun el hel => d el hel Inside.all⟩

/-- C102, 2D: local time stepping on any mesh, with any materials, boundary conditions and time groups, and any region `R` of it. `w el` is the solution in element `el` of the region, a polynomial
of degree less than the order in space. If, in the region, traction and velocity are continuous at the inner faces (and equal at periodic boundaries), the traction is zero at the free surface, and
only outgoing waves reach outflow boundaries, then any sequence of updates with the rhythm of the scheduler between synchronizations, which starts with the degrees of freedom of `w` at time `s` in
the region and with arbitrary ones elsewhere, gives those of `w` at the time of the last synchronization, in all elements which are as many faces away from the boundary of the region as there are
steps of the smallest time step. -/
theorem C102_region2 {c : Dg.Cfg} {o : Nat} (ho : 0 < o) (hF : Flux.Fits c .tria o) (hc : Fit c .tria o) (hq : c.nQtsE = 5) {lT lV LN FT : List (List ℝ)} (hst : Stored c .tria o lT lV LN FT)
    {els : List (REl ℝ)} {F : Nat → Nat → MFace ℝ} {tol tolL : ℝ} {ves : Nat → Nat → Nat → ℝ} {m : Nat → Material} {m' : Nat → Nat → Material} {ν : Nat → Nat → Fin 2 → ℝ}
    {t : Nat → Nat → Nat → ℝ} {tg : Nat → Nat}
    (hels : ∀ el E, els[el]? = some E → SetUp2 tol tolL (ves el) (m el) (m' el) (ν el) (fun fa => (F el fa).freeSurface) E.starE E.fsL (fun fa => (F el fa).fsE) ∧
      FacesOk .tria els.length E.faces (F el) ∧ ∀ fa < 3, Joined .tria ves el fa (F el fa) (t el fa)) (hbits : BitsOk .tria tg F els)
    {R : Nat → Prop} {w : Nat → Nat → ℝ → Nat → (Nat → ℝ) → ℝ} (hw : ∀ el < els.length, R el → ∀ r < c.nCrs, Wave2 (m el) o (w el r))
    (hQ : ∀ el < els.length, R el → ∀ fa < 3, ((F el fa).outflow = false → (F el fa).freeSurface = false → R (F el fa).ne) → ∀ r < c.nCrs, ∀ τ x y, Quiet (m' el fa) (ν el fa) (F el fa).freeSurface (F el fa).outflow
      (stress2 (at_ 5 (w el r τ) (faceX .tria (ves el) fa x y)) *ᵥ ν el fa) (vel2 (at_ 5 (w el r τ) (faceX .tria (ves el) fa x y)))
      (stress2 (at_ 5 (w (F el fa).ne r τ) (fun d => faceX .tria (ves el) fa x y d + t el fa d)) *ᵥ ν el fa)
      (vel2 (at_ 5 (w (F el fa).ne r τ) (fun d => faceX .tria (ves el) fa x y d + t el fa d))))
    {sc0 sc1 : List ℝ} (h0 : sc0.length = c.nQtsE * c.nMdsFa * c.nCrs) (h1 : sc1.length = c.nQtsE * c.nMdsFa * c.nCrs)
    {st : List (RSt ℝ)} {s : ℝ} {u : Nat → Modes} (hu : Ready c els st u)
    (hu2 : ∀ el < els.length, R el → ∀ r < c.nCrs, ∀ q < 5, ∀ x, physEval tol .tria o (ves el) (fun md => u el q md r) x = w el r s q x)
    {ivs : List ((Nat → Nat → ℝ) × List Ev)} {M : (Nat → Nat → ℝ) × List Ev → Nat}
    (hiv : ∀ iv ∈ ivs, Halves tg els.length iv.1 ∧ Ordered .tria tg F els.length iv.2 ∧ Complete tg els.length iv.2 (M iv)) :
    ∃ (st' : List (RSt ℝ)) (u' : Nat → Modes), runSync c lT lV LN FT els sc0 sc1 ivs st = some st' ∧ Ready c els st' u' ∧
      ∀ el < els.length, Inside .tria F R (ivs.map M).sum el → ∀ r < c.nCrs, ∀ q < 5, ∀ x,
        physEval tol .tria o (ves el) (fun md => u' el q md r) x = w el r (s + (ivs.map (fun iv => tm iv.1 0 (M iv))).sum) q x := by
  have he : .tria = Ent.tria ∨ .tria = Ent.tet := by decide
  have hlm : (els.map REl.toMEl).length = els.length := List.length_map _
  obtain ⟨S, FL, FN, U, k1, hU, hsol, hcons, hmd⟩ := exact_set2 (els := els.map REl.toMEl) (ν := ν) (t := t) (R := R) (w := w) ho hF hc hq (fun el E hE => by
    rw [List.getElem?_map, Option.map_eq_some_iff] at hE
    obtain ⟨E', h, rfl⟩ := hE
    rw [hlm]
    exact hels el E' h) (by rw [hlm]; exact hw) (by rw [hlm]; exact hQ)
  rw [hlm] at k1 hU hsol hcons hmd
  have k3 : ∀ el (E : REl ℝ), els[el]? = some E → (els.map REl.toMEl)[el]? = some (REl.toMEl E) := fun el E h => by rw [List.getElem?_map, h]; rfl
  have hE : ElsOk c .tria tg els F S FL FN := ⟨fun el E h => (k1 el _ (k3 el E h)).1, fun el E h => (k1 el _ (k3 el E h)).2.1, fun el E h => (k1 el _ (k3 el E h)).2.2.1,
    fun el E h => (k1 el _ (k3 el E h)).2.2.2, hbits⟩
  have hstart : ∀ el < els.length, Inside .tria F R 0 el → Agree c (u el) (U el s) := by
    intro el hel hR q hq' md hmd' r hr
    rw [hc.mds] at hmd'
    exact hmd el hel (fun md => u el q md r) (fun md => U el s q md r) (fun x => by rw [hu2 el hel hR r hr q (by omega) x, hU el hel hR r hr q hq' s x]) md hmd'
  obtain ⟨st', u', a, b, d⟩ := sync_agree he ho hF hc hst h0 h1 hE hsol hcons hu hstart hiv
  refine ⟨st', u', a, b, fun el hel hin r hr q hq' x => ?_⟩
  rw [Nat.zero_add] at d
  have hd := d el hel hin
  rw [← hU el hel hin.region r hr q (by omega), physEval, physEval, recon_agree hc.mds hd (q := q) (by omega) hr]

/-- C102, 2D: the same for a solution on all elements, with the boundary conditions at all boundaries: it is reproduced everywhere. -/
theorem C102_mesh2 {c : Dg.Cfg} {o : Nat} (ho : 0 < o) (hF : Flux.Fits c .tria o) (hc : Fit c .tria o) (hq : c.nQtsE = 5) {lT lV LN FT : List (List ℝ)} (hst : Stored c .tria o lT lV LN FT)
    {els : List (REl ℝ)} {F : Nat → Nat → MFace ℝ} {tol tolL : ℝ} {ves : Nat → Nat → Nat → ℝ} {m : Nat → Material} {m' : Nat → Nat → Material} {ν : Nat → Nat → Fin 2 → ℝ}
    {t : Nat → Nat → Nat → ℝ} {tg : Nat → Nat}
    (hels : ∀ el E, els[el]? = some E → SetUp2 tol tolL (ves el) (m el) (m' el) (ν el) (fun fa => (F el fa).freeSurface) E.starE E.fsL (fun fa => (F el fa).fsE) ∧
      FacesOk .tria els.length E.faces (F el) ∧ ∀ fa < 3, Joined .tria ves el fa (F el fa) (t el fa)) (hbits : BitsOk .tria tg F els)
    {w : Nat → Nat → ℝ → Nat → (Nat → ℝ) → ℝ} (hw : ∀ el < els.length, ∀ r < c.nCrs, Wave2 (m el) o (w el r))
    (hQ : ∀ el < els.length, ∀ fa < 3, ∀ r < c.nCrs, ∀ τ x y, Quiet (m' el fa) (ν el fa) (F el fa).freeSurface (F el fa).outflow
      (stress2 (at_ 5 (w el r τ) (faceX .tria (ves el) fa x y)) *ᵥ ν el fa) (vel2 (at_ 5 (w el r τ) (faceX .tria (ves el) fa x y)))
      (stress2 (at_ 5 (w (F el fa).ne r τ) (fun d => faceX .tria (ves el) fa x y d + t el fa d)) *ᵥ ν el fa)
      (vel2 (at_ 5 (w (F el fa).ne r τ) (fun d => faceX .tria (ves el) fa x y d + t el fa d))))
    {sc0 sc1 : List ℝ} (h0 : sc0.length = c.nQtsE * c.nMdsFa * c.nCrs) (h1 : sc1.length = c.nQtsE * c.nMdsFa * c.nCrs)
    {st : List (RSt ℝ)} {s : ℝ} {u : Nat → Modes} (hu : Ready c els st u)
    (hu2 : ∀ el < els.length, ∀ r < c.nCrs, ∀ q < 5, ∀ x, physEval tol .tria o (ves el) (fun md => u el q md r) x = w el r s q x)
    {ivs : List ((Nat → Nat → ℝ) × List Ev)} {M : (Nat → Nat → ℝ) × List Ev → Nat}
    (hiv : ∀ iv ∈ ivs, Halves tg els.length iv.1 ∧ Ordered .tria tg F els.length iv.2 ∧ Complete tg els.length iv.2 (M iv)) :
    ∃ (st' : List (RSt ℝ)) (u' : Nat → Modes), runSync c lT lV LN FT els sc0 sc1 ivs st = some st' ∧ Ready c els st' u' ∧
      ∀ el < els.length, ∀ r < c.nCrs, ∀ q < 5, ∀ x,
        physEval tol .tria o (ves el) (fun md => u' el q md r) x = w el r (s + (ivs.map (fun iv => tm iv.1 0 (M iv))).sum) q x := by
  obtain ⟨st', u', a, b, d⟩ := C102_region2 ho hF hc hq hst (R := fun _ => True) hels hbits (fun el hel _ => hw el hel) (fun el hel _ fa hfa _ => hQ el hel fa hfa) h0 h1 hu
    (fun el hel _ => hu2 el hel) hiv
  exact ⟨st', u', a, b, fun el hel => d el hel Inside.all⟩

end Edge.Rate
