import Verif.Step.Exact
import Verif.Face.Mesh
/-!
Time steps of a mesh in terms of modes.
-/
namespace Edge.Step
open Edge Edge.Map Edge.Quad Edge.Basis Edge.Proj Edge.Gen Edge.Flux

theorem mapM_range {β : Type} {n : Nat} {f : Nat → Option β} {P : Nat → β → Prop} (h : ∀ i < n, ∃ y, f i = some y ∧ P i y) :
    ∃ ys, (List.range n).mapM f = some ys ∧ ys.length = n ∧ ∀ i < n, ∃ y, ys[i]? = some y ∧ P i y := by
  rcases Nat.eq_zero_or_pos n with rfl | hn
  · exact ⟨[], rfl, rfl, fun i hi => absurd hi (by omega)⟩
  obtain ⟨y0, -, -⟩ := h 0 hn
  have : Inhabited β := ⟨y0⟩
  choose! y h1 h2 using h
  refine ⟨(List.range n).map y, ?_, by simp, fun i hi => ⟨y i, by simp [hi], h2 i hi⟩⟩
  rw [Face.mapM_some_iff, List.forall₂_map_right_iff, List.forall₂_same]
  exact fun i hi => h1 i (List.mem_range.1 hi)

/-- Degrees of freedom and memory of element `el`: modes `u`. -/
def HasDofs (c : Dg.Cfg) (st : List (List ℝ × Dg.CkMem ℝ)) (el : Nat) (u : Nat → Nat → Nat → ℝ) : Prop :=
  ∃ d m, st[el]? = some (d, m) ∧ Dg.Rep c.nQtsE c.nMds c.nCrs d u ∧ Dg.CkOut c m

theorem HasDofs.congr {c : Dg.Cfg} {st : List (List ℝ × Dg.CkMem ℝ)} {el : Nat} {u v : Nat → Nat → Nat → ℝ} (h : HasDofs c st el u)
    (e : ∀ q md r, q < c.nQtsE → md < c.nMds → r < c.nCrs → u q md r = v q md r) : HasDofs c st el v := by
  obtain ⟨d, m, h1, h2, h3⟩ := h
  exact ⟨d, m, h1, h2.congr e, h3⟩

/-- Faces of an element: those which are neither outflow boundaries nor at the free surface have an adjacent element and valid ids. -/
def FacesOk (e : Ent) (N : Nat) (fl : List (MFace ℝ)) (F : Nat → MFace ℝ) : Prop :=
  fl.length = e.nFa ∧ ∀ fa < e.nFa, fl[fa]? = some (F fa) ∧
    ((F fa).outflow = false → (F fa).freeSurface = false → (F fa).ne < N) ∧
    ((F fa).freeSurface = false → ∀ ve, (F fa).vId = some ve → ve < e.nVeOpts ∧ (F fa).fId < e.nFa)

/-- Modes after a time step, for any modes `u`. -/
theorem mesh_any {c : Dg.Cfg} {e : Ent} {o : Nat} (hF : Fits c e o) (hc : Fit c e o) {lT lV LN FT : List (List ℝ)} (hst : Stored c e o lT lV LN FT) (dT : ℝ)
    {els : List (MEl ℝ)} {F : Nat → Nat → MFace ℝ} {S FL FN : Nat → Nat → Nat → Nat → ℝ} {sc0 sc1 : List ℝ}
    (h0 : sc0.length = c.nQtsE * c.nMdsFa * c.nCrs) (h1 : sc1.length = c.nQtsE * c.nMdsFa * c.nCrs)
    (hE : ∀ el E, els[el]? = some E → Dg.Mats c.nDis c.nQtsE c.nQtsE c.nQtsE E.starE (S el) ∧ Dg.Mats c.nFas c.nQtsE c.nQtsE c.nQtsE E.fsL (FL el) ∧
      FacesOk e els.length E.faces (F el) ∧ ∀ fa < c.nFas, (F el fa).outflow = false → Dg.Mat c.nQtsE c.nQtsE c.nQtsE (F el fa).fsE (FN el fa))
    {st : List (List ℝ × Dg.CkMem ℝ)} {u : Nat → Nat → Nat → Nat → ℝ} (hu : ∀ el < els.length, HasDofs c st el (u el)) :
    ∃ st', stepMesh c lT lV LN FT els sc0 sc1 st dT = some st' ∧ st'.length = els.length ∧ ∀ el < els.length,
      HasDofs c st' el (fun q md r => u el q md r + Dg.rhsE c (GV e o) (S el) (S el) (tInt c e o (S el) (u el) dT) (fun _ => u el) q md r +
        (∑ fa ∈ Finset.range e.nFa, onFace e o fa md (fun x y => ∑ p ∈ Finset.range c.nQtsE, FL el fa q p * recon e o (fun m => tInt c e o (S el) (u el) dT p m r) (elPt e fa x y))) / normSq e o md +
        (∑ fa ∈ Finset.range e.nFa, if (F el fa).outflow then 0 else onFace e o fa md (fun x y => ∑ p ∈ Finset.range c.nQtsE, FN el fa q p *
          recon e o (fun m => tInt c e o (S ((F el fa).nb el)) (u ((F el fa).nb el)) dT p m r) (sidePt e fa ((F el fa).toIn []) x y))) / normSq e o md) := by
  have hno : ∀ {p : Prop} {i : Nat}, i < c.nRms → p := fun h => absurd h (by rw [hc.rms]; omega)
  obtain ⟨st1, m1, m2, m3⟩ := mapM_range (n := els.length)
    (f := localOf c dT lT lV LN FT els sc0 sc1 st)
    (P := fun el x => Dg.CkOut c x.2 ∧ Dg.Rep c.nQtsE c.nMds c.nCrs x.2.tIntE (tInt c e o (S el) (u el) dT) ∧
      Dg.Rep c.nQtsE c.nMds c.nCrs x.1 (fun q md r => u el q md r + Dg.rhsE c (GV e o) (S el) (S el) (tInt c e o (S el) (u el) dT) (fun _ => u el) q md r +
        (∑ fa ∈ Finset.range e.nFa, onFace e o fa md (fun x y => ∑ p ∈ Finset.range c.nQtsE, FL el fa q p * recon e o (fun m => tInt c e o (S el) (u el) dT p m r) (elPt e fa x y))) / normSq e o md))
    (by
      intro el hel
      obtain ⟨d, m, g1, g2, g3⟩ := hu el hel
      obtain ⟨a1, a2, -⟩ := hE el els[el] (List.getElem?_eq_getElem hel)
      obtain ⟨E', m', l0, l1, -, l3, l4⟩ := local_any hF hc hst dT a1 a2 g2 g3 h0 h1
      refine ⟨(E', m'), ?_, l1, l3, l4⟩
      simp only [localOf, rd_some hel, show rd st el = some (d, m) from g1, l0, Option.bind_eq_bind, Option.bind_some])
  obtain ⟨st2, n1, n2, n3⟩ := mapM_range (n := els.length)
    (f := neighOf c LN FT els sc0 sc1 st1)
    (P := fun el x => Dg.CkOut c x.2 ∧ Dg.Rep c.nQtsE c.nMds c.nCrs x.1
      (fun q md r => u el q md r + Dg.rhsE c (GV e o) (S el) (S el) (tInt c e o (S el) (u el) dT) (fun _ => u el) q md r +
        (∑ fa ∈ Finset.range e.nFa, onFace e o fa md (fun x y => ∑ p ∈ Finset.range c.nQtsE, FL el fa q p * recon e o (fun m => tInt c e o (S el) (u el) dT p m r) (elPt e fa x y))) / normSq e o md +
        (∑ fa ∈ Finset.range e.nFa, if (F el fa).outflow then 0 else onFace e o fa md (fun x y => ∑ p ∈ Finset.range c.nQtsE, FN el fa q p *
          recon e o (fun m => tInt c e o (S ((F el fa).nb el)) (u ((F el fa).nb el)) dT p m r) (sidePt e fa ((F el fa).toIn []) x y))) / normSq e o md))
    (by
      intro el hel
      obtain ⟨⟨d, m⟩, g1, g2, g3, g4⟩ := m3 el hel
      obtain ⟨-, -, ⟨a3, a4⟩, a5⟩ := hE el els[el] (List.getElem?_eq_getElem hel)
      simp only at g2 g3 g4
      -- data of the faces
      obtain ⟨fl, f1, f2⟩ : ∃ fl, facesIn (st1.map (·.2.tIntE)) el els[el].faces = some fl ∧ ∀ fa < c.nFas, ∃ t, rd fl fa = some ((F el fa).toIn t) ∧
          ((F el fa).outflow = false → Dg.Rep c.nQtsE c.nMds c.nCrs t (tInt c e o (S ((F el fa).nb el)) (u ((F el fa).nb el)) dT)) := by
        have key : ∀ fa < e.nFa, ∃ t, (if (F el fa).outflow then some [] else rd (st1.map (·.2.tIntE)) ((F el fa).nb el)) = some t ∧
            ((F el fa).outflow = false → Dg.Rep c.nQtsE c.nMds c.nCrs t (tInt c e o (S ((F el fa).nb el)) (u ((F el fa).nb el)) dT)) := by
          intro fa hfa
          by_cases hout : (F el fa).outflow
          · exact ⟨[], by simp [hout], by simp [hout]⟩
          · have hnb : (F el fa).nb el < els.length := by
              rw [MFace.nb]
              split
              · exact hel
              · rename_i hfs
                exact (a4 fa hfa).2.1 (by simpa using hout) (by simpa using hfs)
            obtain ⟨⟨d', m'⟩, b1, -, b3, -⟩ := m3 _ hnb
            exact ⟨m'.tIntE, by simp [hout, rd, b1], fun _ => b3⟩
        choose! t k1 k2 using key
        refine ⟨(List.range e.nFa).map (fun fa => (F el fa).toIn (t fa)), ?_, ?_⟩
        · rw [facesIn, Face.mapM_some_iff, List.forall₂_iff_get]
          refine ⟨by simp [a3], fun i hi1 hi2 => ?_⟩
          rw [a3] at hi1
          have hF1 := (a4 i hi1).1
          rw [List.getElem?_eq_getElem (by omega), Option.some_inj] at hF1
          simp only [List.get_eq_getElem, hF1, k1 i hi1, List.getElem_map, List.getElem_range, Option.map_some]
        · intro fa hfa
          rw [hF.fas] at hfa
          exact ⟨t fa, by simp [rd, hfa], k2 fa hfa⟩
      choose! t t1 t2 using f2
      obtain ⟨LN', FT', E3, A3, x0, x1, x2, x3⟩ := C94_neigh hF (rfs := []) (rf := fun _ => 0) (firstTs := false) (FE := FN el) (FA := FL el)
        (T := fun fa => tInt c e o (S ((F el fa).nb el)) (u ((F el fa).nb el)) dT) (fs := fun fa => (F el fa).toIn (t fa)) t1
        (fun fa hfa ho => a5 fa hfa ho) (fun _ _ _ h => hno h) (fun i hi => hno hi) (fun fa hfa => (a4 fa (by rw [← hF.fas]; exact hfa)).2.2)
        (fun fa hfa hout => ⟨rfl, Dg.assemble_eq (t := ⟨t fa, none, none⟩) (t2 fa hfa hout) _ _⟩) g4 (da := fun _ => u el) (dofsA := []) ⟨hc.rms.symm, fun i hi => hno hi⟩ h0 h1
      rw [hst.flux, Option.some.injEq, Prod.mk.injEq] at x0
      obtain ⟨rfl, rfl⟩ := x0
      refine ⟨(E3, m), ?_, g2, x2.congr (fun q md r hq hmd hr => ?_)⟩
      · simp only [neighOf, rd_some hel, show rd st1 el = some (d, m) from g1, f1, x1, Option.bind_eq_bind, Option.bind_some]
      · rfl)
  refine ⟨st2, ?_, n2, fun el hel => ?_⟩
  · rw [stepMesh, m1]
    exact n1
  · obtain ⟨⟨d, m⟩, g1, g2, g3⟩ := n3 el hel
    exact ⟨d, m, g1, g3, g2⟩

theorem mesh_consistent {c : Dg.Cfg} {e : Ent} {o : Nat} (hF : Fits c e o) (hc : Fit c e o) {dT : ℝ} {el : Nat} {F : Nat → Nat → MFace ℝ} {S FL FN : Nat → Nat → Nat → Nat → ℝ}
    {u : Nat → Nat → Nat → Nat → ℝ} (hcons : Consistent c e o (S el) (FL el) (FN el) (fun fa => (F el fa).toIn []) (tInt c e o (S el) (u el) dT)
      (fun fa => tInt c e o (S ((F el fa).nb el)) (u ((F el fa).nb el)) dT)) {q md r : Nat} (hq : q < c.nQtsE) (hmd : md < nModes e o) (hr : r < c.nCrs) :
    u el q md r + Dg.rhsE c (GV e o) (S el) (S el) (tInt c e o (S el) (u el) dT) (fun _ => u el) q md r +
        (∑ fa ∈ Finset.range e.nFa, onFace e o fa md (fun x y => ∑ p ∈ Finset.range c.nQtsE, FL el fa q p * recon e o (fun m => tInt c e o (S el) (u el) dT p m r) (elPt e fa x y))) / normSq e o md +
        (∑ fa ∈ Finset.range e.nFa, if (F el fa).outflow then 0 else onFace e o fa md (fun x y => ∑ p ∈ Finset.range c.nQtsE, FN el fa q p *
          recon e o (fun m => tInt c e o (S ((F el fa).nb el)) (u ((F el fa).nb el)) dT p m r) (sidePt e fa ((F el fa).toIn []) x y))) / normSq e o md =
      pred c e o (S el) (u el) dT q md r + dT ^ o / (o.factorial : ℝ) * der c e o (S el) (u el) o q md r := by
  rw [← rhs_tInt hc (S el) (S el) (u el) (fun _ => u el), ← weak_strong hF hc hcons (S el) (fun _ => u el) hq hmd hr]
  rw [← add_assoc, ← add_assoc]
  rfl

/-- Elements of a region which are at least `n` faces away from its boundary: a path of `n` faces does not leave the region. -/
def Inside (e : Ent) (F : Nat → Nat → MFace ℝ) (R : Nat → Prop) : Nat → Nat → Prop
  | 0, el => R el
  | n + 1, el => R el ∧ ∀ fa < e.nFa, (F el fa).outflow = false → (F el fa).freeSurface = false → Inside e F R n (F el fa).ne

theorem Inside.region {e : Ent} {F : Nat → Nat → MFace ℝ} {R : Nat → Prop} : ∀ {n el : Nat}, Inside e F R n el → R el
  | 0, _, h => h
  | _ + 1, _, h => h.1

theorem Inside.less {e : Ent} {F : Nat → Nat → MFace ℝ} {R : Nat → Prop} : ∀ {n el : Nat}, Inside e F R (n + 1) el → Inside e F R n el
  | 0, _, h => h.1
  | _ + 1, _, h => ⟨h.1, fun fa hfa h1 h2 => Inside.less (h.2 fa hfa h1 h2)⟩

theorem Inside.all {e : Ent} {F : Nat → Nat → MFace ℝ} : ∀ {n el : Nat}, Inside e F (fun _ => True) n el
  | 0, _ => trivial
  | _ + 1, _ => ⟨trivial, fun _ _ _ _ => Inside.all⟩

theorem Inside.one {e : Ent} {F : Nat → Nat → MFace ℝ} {R : Nat → Prop} : ∀ {n el : Nat}, Inside e F R (n + 1) el → Inside e F R 1 el
  | 0, _, h => h
  | _ + 1, _, h => ⟨h.1, fun fa hfa h1 h2 => (h.2 fa hfa h1 h2).region⟩

/-- Solutions on the elements of a region, whose fluxes are consistent at any time, are reproduced by any sequence of time steps; every step removes a layer of elements. -/
theorem mesh_run {c : Dg.Cfg} {e : Ent} (he : e = .tria ∨ e = .tet) {o : Nat} (ho : 0 < o) (hF : Fits c e o) (hc : Fit c e o) {lT lV LN FT : List (List ℝ)}
    (hst : Stored c e o lT lV LN FT) {els : List (MEl ℝ)} {F : Nat → Nat → MFace ℝ} {S FL FN : Nat → Nat → Nat → Nat → ℝ} {sc0 sc1 : List ℝ}
    (h0 : sc0.length = c.nQtsE * c.nMdsFa * c.nCrs) (h1 : sc1.length = c.nQtsE * c.nMdsFa * c.nCrs)
    (hE : ∀ el E, els[el]? = some E → Dg.Mats c.nDis c.nQtsE c.nQtsE c.nQtsE E.starE (S el) ∧ Dg.Mats c.nFas c.nQtsE c.nQtsE c.nQtsE E.fsL (FL el) ∧
      FacesOk e els.length E.faces (F el) ∧ ∀ fa < c.nFas, (F el fa).outflow = false → Dg.Mat c.nQtsE c.nQtsE c.nQtsE (F el fa).fsE (FN el fa))
    {R : Nat → Prop} {U : Nat → ℝ → Nat → Nat → Nat → ℝ} (hU : ∀ el < els.length, R el → Solution c e o (S el) (U el))
    (hcons : ∀ s dT, ∀ el < els.length, Inside e F R 1 el → Consistent c e o (S el) (FL el) (FN el) (fun fa => (F el fa).toIn []) (tInt c e o (S el) (U el s) dT)
      (fun fa => tInt c e o (S ((F el fa).nb el)) (U ((F el fa).nb el) s) dT)) (dts : List ℝ)
    {st : List (List ℝ × Dg.CkMem ℝ)} {s : ℝ} {n : Nat} (hu : ∀ el < els.length, ∃ u, HasDofs c st el u) (hu2 : ∀ el < els.length, Inside e F R n el → HasDofs c st el (U el s))
    (hlen : st.length = els.length) :
    ∃ st', runMesh c lT lV LN FT els sc0 sc1 dts st = some st' ∧ st'.length = els.length ∧ (∀ el < els.length, ∃ u, HasDofs c st' el u) ∧
      ∀ el < els.length, Inside e F R (n + dts.length) el → HasDofs c st' el (U el (s + dts.sum)) := by
  induction dts generalizing st s n with
  | nil => exact ⟨st, rfl, hlen, hu, by simpa using hu2⟩
  | cons dT dts ih =>
    have hv : ∀ el, ∃ v, (el < els.length → HasDofs c st el v) ∧ (el < els.length → Inside e F R n el → v = U el s) := by
      intro el
      by_cases h : el < els.length
      · by_cases h2 : Inside e F R n el
        · exact ⟨U el s, fun _ => hu2 el h h2, fun _ _ => rfl⟩
        · obtain ⟨v, hv⟩ := hu el h
          exact ⟨v, fun _ => hv, fun _ h3 => absurd h3 h2⟩
      · exact ⟨fun _ _ _ => 0, fun h2 => absurd h2 h, fun h2 => absurd h2 h⟩
    choose v hv1 hv2 using hv
    obtain ⟨st1, g1, g2, g3⟩ := mesh_any hF hc hst dT h0 h1 hE hv1
    have g4 : ∀ el < els.length, Inside e F R (n + 1) el → HasDofs c st1 el (U el (s + dT)) := by
      intro el hel hin
      have hve : v el = U el s := hv2 el hel hin.less
      have hvn : ∀ fa < c.nFas, (F el fa).outflow = false → v ((F el fa).nb el) = U ((F el fa).nb el) s := by
        intro fa hfa hout
        rw [MFace.nb]
        split
        · exact hve
        · rename_i hfs
          have hfs : (F el fa).freeSurface = false := by simpa using hfs
          rw [hF.fas] at hfa
          exact hv2 _ (((hE el _ (List.getElem?_eq_getElem hel)).2.2.1.2 fa hfa).2.1 hout hfs) (hin.2 fa hfa hout hfs)
      have hcs := hcons s dT el hel hin.one
      refine (g3 el hel).congr (fun q md r hq hmd hr => ?_)
      rw [hc.mds] at hmd
      have h2 := mesh_consistent hF hc (el := el) (F := F) (S := S) (FL := FL) (FN := FN) (u := fun el => U el s) (dT := dT) hcs hq hmd hr
      beta_reduce at h2
      rw [der_top he hc (S el) _ hmd, mul_zero, add_zero, (hU el hel hin.region).unique he ho hc s dT hq hmd hr] at h2
      rw [← h2, hve]
      congr 2
      refine Finset.sum_congr rfl (fun fa hfa => ?_)
      rcases hout : (F el fa).outflow with _ | _
      · rw [hvn fa (by rw [hF.fas]; exact Finset.mem_range.1 hfa) hout]
      · rfl
    obtain ⟨st2, k1, k2, k3, k4⟩ := ih (fun el hel => ⟨_, g3 el hel⟩) g4 g2
    refine ⟨st2, ?_, k2, k3, fun el hel hin => by
      rw [List.sum_cons, ← add_assoc]
      exact k4 el hel (by rw [List.length_cons] at hin; rwa [Nat.add_right_comm, Nat.add_assoc])⟩
    rw [runMesh, List.foldlM_cons, g1]
    exact k1

end Edge.Step
