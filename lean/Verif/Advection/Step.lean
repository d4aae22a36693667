import Verif.Advection.Weak

/-!
Time steps of the advection equation on a mesh in terms of modes.
-/
namespace Edge.Advection
open Edge Edge.Map Edge.Quad Edge.Basis Edge.Proj Edge.Gen Edge.Flux MvPolynomial

/-- Matrices of the kernels as they are stored by the constructors (TimePred.hpp, VolInt.hpp, SurfInt.hpp): stiffness matrices of
the time and of the volume kernel, flux matrices. -/
structure KStored (e : Ent) (o : Nat) (lT lV LN FT : List (List ℝ)) : Prop where
  stiffT : storeStiffTDense (stiffVRaw e o) (stiffTRaw e o) e (nModes e o) = some lT
  stiffV : storeStiffDense (stiffVRaw e o) (stiffTRaw e o) e (nModes e o) = some lV
  flux : storeFluxDense (fluxLRaw e o) (fluxNRaw e o) (fluxTRaw e o) e (nModes e o) (nModes (faTy e) o) = some (LN, FT)

/-- Entries of all flux matrices. -/
noncomputable def entLN (e : Ent) (o i : Nat) : Nat → Nat → ℝ :=
  if i < e.nFa then entL e o i else entN e o ((i - e.nFa) / e.nFa) ((i - e.nFa) % e.nFa)

theorem nFa_pos (e : Ent) : e ≠ .line → 0 < e.nFa := by cases e <;> decide

theorem kmats {c : KCfg} {e : Ent} (he : e ≠ .line) {o : Nat} (hc : KFit c e o) {lT lV LN FT : List (List ℝ)} (hst : KStored e o lT lV LN FT) :
    KMats c (e.nFa + e.nVeOpts * e.nFa) lT lV LN FT (GT e o) (GV e o) (entLN e o) (entF e o) := by
  obtain ⟨l1, h1, m1⟩ := storeT e o
  obtain ⟨l2, h2, m2⟩ := storeV e o
  obtain ⟨L, T, h3, m3, m4, m5⟩ := stored he o
  have e1 := hst.stiffT.symm.trans h1
  have e2 := hst.stiffV.symm.trans h2
  have e3 := hst.flux.symm.trans h3
  cases e1; cases e2; cases e3
  have hp := nFa_pos e he
  refine ⟨?_, ?_, ?_, ?_, by rw [hc.fas]; omega⟩
  · rw [hc.dis, hc.mds]; exact m1 _ fun di m md h => by rw [GT, dif_pos h]
  · rw [hc.dis, hc.mds]; exact m2 _ fun di m md h => by rw [GV, dif_pos h]
  · rw [hc.mds, hc.mdsFa]
    intro i hi
    by_cases h : i < e.nFa
    · obtain ⟨mat, x, y⟩ := m3 i h
      exact ⟨mat, x, by rw [entLN, if_pos h]; exact y⟩
    · have d1 : (i - e.nFa) / e.nFa < e.nVeOpts := Nat.div_lt_of_lt_mul (by rw [mul_comm]; omega)
      have d2 := Nat.mod_lt (i - e.nFa) hp
      obtain ⟨mat, x, y⟩ := m4 _ d1 _ d2
      have hidx : e.nFa + (i - e.nFa) / e.nFa * e.nFa + (i - e.nFa) % e.nFa = i := by
        have := Nat.div_add_mod (i - e.nFa) e.nFa
        rw [mul_comm] at this
        omega
      rw [hidx] at x
      exact ⟨mat, x, by rw [entLN, if_neg h]; exact y⟩
  · rw [hc.fas, hc.mds, hc.mdsFa]; exact m5

/-- Point of face `fa` as seen from the element behind it; the element itself at outflow boundaries. -/
def facePt (e : Ent) (fa : Nat) (f : AFace) (x y : ℝ) : Fin 3 → ℝ :=
  match f.outflow, f.vId with
  | false, some ve => outPt e ve f.fId x y
  | _, _ => elPt e fa x y

/-- The face in the theory of the elastic system. -/
def toIn (f : AFace) : Dg.FaceIn ℝ := ⟨false, f.outflow, f.vId, f.fId, ⟨true, false, false⟩, [], [], ⟨[], none, none⟩, none⟩

theorem facePt_in (e : Ent) (fa : Nat) (f : AFace) (x y : ℝ) : facePt e fa f x y = sidePt e fa (toIn f) x y := by
  obtain ⟨o, ne, v, fi, r⟩ := f
  cases o <;> cases v <;> rfl

theorem cont_facePt (e : Ent) (fa : Nat) (f : AFace) : Continuous (fun v : ℝ × ℝ × ℝ => facePt e fa f v.1 v.2.1) := by
  simp only [facePt_in]
  exact Step.cont_sidePt e fa (toIn f)

/-- Element behind a face. -/
def nb (el : Nat) (f : AFace) : Nat := if f.outflow then el else f.ne

theorem entLN_face {e : Ent} (he : e ≠ .line) {o fa : Nat} (hfa : fa < e.nFa) {f : AFace} (hid : f.outflow = false → ∀ ve, f.vId = some ve → f.fId < e.nFa) (m j : Nat) :
    entLN e o (matId e.nFa fa (if f.outflow then none else f.vId) f.fId) m j =
      refInt (faTy e) (fun x y z => val (bf (faTy e) o j) x y z * eval (facePt e fa f x y) (bf e o m)) := by
  have hp := nFa_pos e he
  obtain ⟨ou, ne, v, fi, r⟩ := f
  cases ou
  · cases v with
    | none => simp [matId, entLN, hfa, entL, facePt]
    | some ve =>
      have hfi : fi < e.nFa := hid rfl ve rfl
      have h1 : e.nFa + ve * e.nFa + fi - e.nFa = fi + e.nFa * ve := by rw [mul_comm]; omega
      have h2 : ¬ e.nFa + ve * e.nFa + fi < e.nFa := by omega
      simp only [matId, Bool.false_eq_true, if_false, entLN, h2, h1, Nat.add_mul_div_left _ _ hp, Nat.add_mul_mod_self_left, Nat.div_eq_of_lt hfi, Nat.mod_eq_of_lt hfi,
        Nat.zero_add, entN, facePt, outPt]
  · simp [matId, entLN, hfa, entL, facePt]

/-- Modes of an element after a time step: `X`, `Y` are the flux solvers for its own and for the elements behind the faces, `T` and `Tn` the
integrals in time of the predictions. -/
noncomputable def newModes (c : KCfg) (e : Ent) (o : Nat) (S X Y : Nat → ℝ) (f : Nat → AFace) (u T : Nat → Nat → ℝ) (Tn : Nat → Nat → Nat → ℝ) (md r : Nat) : ℝ :=
  u md r + volC c S (GV e o) T md r + (∑ fa ∈ Finset.range e.nFa, onFace e o fa md (fun x y => X fa * recon e o (fun m => T m r) (elPt e fa x y))) / normSq e o md +
    (∑ fa ∈ Finset.range e.nFa, onFace e o fa md (fun x y => Y fa * recon e o (fun m => Tn fa m r) (facePt e fa (f fa) x y))) / normSq e o md

theorem surf_local {c : KCfg} {e : Ent} (he : e ≠ .line) {o : Nat} (ho : 0 < o) (hc : KFit c e o) {X : Nat → ℝ} {T : Nat → Nat → ℝ} {md : Nat} (hmd : md < nModes e o) (r : Nat) :
    ∑ fa ∈ Finset.range c.nFas, surfC c (entLN e o fa) (X fa) (entF e o fa) T md r =
      (∑ fa ∈ Finset.range e.nFa, onFace e o fa md (fun x y => X fa * recon e o (fun m => T m r) (elPt e fa x y))) / normSq e o md := by
  rw [Finset.sum_div, hc.fas]
  refine Finset.sum_congr rfl fun fa hfa => ?_
  have hfa := Finset.mem_range.1 hfa
  exact surf_emb he ho hc hfa hmd (X fa) T (pt := fun x y => elPt e fa x y) (cont_elPt e fa continuous_fst (continuous_fst.comp continuous_snd))
    (fun m j => by rw [entLN, if_pos hfa, entL]) r

theorem surf_neigh {c : KCfg} {e : Ent} (he : e ≠ .line) {o : Nat} (ho : 0 < o) (hc : KFit c e o) {Y : Nat → ℝ} {f : Nat → AFace}
    (hid : ∀ fa < e.nFa, (f fa).outflow = false → ∀ ve, (f fa).vId = some ve → (f fa).fId < e.nFa) {Tn : Nat → Nat → Nat → ℝ} {md : Nat} (hmd : md < nModes e o) (r : Nat) :
    ∑ fa ∈ Finset.range c.nFas, surfC c (entLN e o (matId c.nFas fa (if (f fa).outflow then none else (f fa).vId) (f fa).fId)) (Y fa) (entF e o fa) (Tn fa) md r =
      (∑ fa ∈ Finset.range e.nFa, onFace e o fa md (fun x y => Y fa * recon e o (fun m => Tn fa m r) (facePt e fa (f fa) x y))) / normSq e o md := by
  rw [Finset.sum_div, hc.fas]
  refine Finset.sum_congr rfl fun fa hfa => ?_
  have hfa := Finset.mem_range.1 hfa
  exact surf_emb he ho hc hfa hmd (Y fa) (Tn fa) (pt := fun x y => facePt e fa (f fa) x y) (cont_facePt e fa (f fa)) (fun m j => entLN_face he hfa (hid fa hfa) m j) r

/-- Data of an element: star values, flux solvers, faces; `n` is the number of elements. -/
structure ElData (c : KCfg) (e : Ent) (n : Nat) (E : AEl ℝ) (S X Y : Nat → ℝ) (f : Nat → AFace) : Prop where
  star : ∀ i < c.nDis, E.star[i]? = some (S i)
  own : ∀ i < c.nFas, E.fs[i]? = some (X i)
  ne : ∀ i < c.nFas, E.fs[c.nFas + i]? = some (Y i)
  faces : ∀ fa < c.nFas, rd E.faces fa = some (f fa)
  ids : ∀ fa < c.nFas, (f fa).outflow = false → (f fa).ne < n ∧ ∀ ve, (f fa).vId = some ve → ve < e.nVeOpts ∧ (f fa).fId < e.nFa

/-- Modes of the elements, and sizes of the data for the neighbours. -/
def StateOk (c : KCfg) (n : Nat) (st : List (List ℝ × TDofs ℝ)) (u : Nat → Nat → Nat → ℝ) : Prop :=
  st.length = n ∧ ∀ el < n, ∃ s, st[el]? = some s ∧ Vec c s.1 (u el) ∧ s.2.eq.length = 1 * c.nMds * c.nCrs ∧
    s.2.lt.length = 1 * c.nMds * c.nCrs ∧ s.2.gt.length = 1 * c.nMds * c.nCrs

theorem vec_of_length {c : KCfg} {l : List ℝ} (h : l.length = 1 * c.nMds * c.nCrs) : ∃ L, Vec c l L := by
  have : Inhabited ℝ := ⟨0⟩
  refine ⟨fun md r => l.getD (Dg.at3 c.nMds c.nCrs 0 md r) default, ?_⟩
  have := Dg.rep_of_length h
  refine this.congr fun q md r hq _ _ => ?_
  obtain rfl : q = 0 := by omega
  simp

/-- A time step of the mesh in terms of modes. -/
theorem step_mesh {c : KCfg} {e : Ent} (he : e ≠ .line) {o : Nat} (ho : 0 < o) (hc : KFit c e o) {lT lV LN FT : List (List ℝ)} (hst : KStored e o lT lV LN FT)
    {mem : Stack ℝ} (hmem : StackOk c mem) {els : List (AEl ℝ)} {S X Y : Nat → Nat → ℝ} {f : Nat → Nat → AFace}
    (hels : ∀ el E, els[el]? = some E → ElData c e els.length E (S el) (X el) (Y el) (f el)) (hrel : ∀ el < els.length, ∀ fa < c.nFas, (f el fa).rel = .eq)
    {st : List (List ℝ × TDofs ℝ)} {u : Nat → Nat → Nat → ℝ} (hu : StateOk c els.length st u) (dt : ℝ) :
    ∃ st' u', stepMesh c lT lV LN FT mem els st dt = some st' ∧ StateOk c els.length st' u' ∧ ∀ el < els.length, ∀ md < c.nMds, ∀ r < c.nCrs,
      u' el md r = newModes c e o (S el) (X el) (Y el) (f el) (u el) (tInt c (S el) (GT e o) (u el) dt)
        (fun fa => tInt c (S (nb el (f el fa))) (GT e o) (u (nb el (f el fa))) dt) md r := by
  have hM := kmats he hc hst
  have hE : ∀ el < els.length, ∃ E, els[el]? = some E := fun el h => ⟨_, List.getElem?_eq_getElem h⟩
  obtain ⟨s1, k1, l1, p1⟩ := Step.mapM_range (n := els.length) (f := fun el => do
    let E ← rd els el
    let s ← rd st el
    localEl c lT lV LN FT true dt E.lt E.gt E.star E.fs mem s.1 s.2)
    (P := fun el s => Vec c s.1 (fun md r => u el md r + volC c (S el) (GV e o) (tInt c (S el) (GT e o) (u el) dt) md r +
        ∑ fa ∈ Finset.range c.nFas, surfC c (entLN e o fa) (X el fa) (entF e o fa) (tInt c (S el) (GT e o) (u el) dt) md r) ∧
      Vec c s.2.eq (tInt c (S el) (GT e o) (u el) dt) ∧ s.2.lt.length = 1 * c.nMds * c.nCrs ∧ s.2.gt.length = 1 * c.nMds * c.nCrs) (by
    intro el hel
    obtain ⟨E, hE⟩ := hE el hel
    obtain ⟨s, h1, h2, h3, h4, h5⟩ := hu.2 el hel
    obtain ⟨L, hL⟩ := vec_of_length h4
    have hd := hels el E hE
    obtain ⟨d', t', a0, a1, a2, a3, a4, -⟩ := localEl_spec (by rw [hc.ord]; exact ho) hM (firstTs := true) (lt := E.lt) (gt := E.gt) (dt := dt) hd.star hd.own hmem h2 h3 hL h5
    refine ⟨(d', t'), ?_, a1, a2, a3.1, a4⟩
    simp only [rd, hE, h1, Option.bind_eq_bind, Option.bind_some]
    exact a0)
  have hts : ∀ i < els.length, ∃ t, rd (s1.map (·.2)) i = some t ∧ Vec c t.eq (tInt c (S i) (GT e o) (u i) dt) := by
    intro i hi
    obtain ⟨y, h1, -, h2, -⟩ := p1 i hi
    exact ⟨y.2, by simp [rd, h1], h2⟩
  obtain ⟨s2, k2, l2, p2⟩ := Step.mapM_range (n := els.length) (f := fun el => do
    let E ← rd els el
    let s ← rd s1 el
    let d ← neighEl c LN FT true E.fs E.faces (s1.map (·.2)) el mem s.1
    some (d, s.2))
    (P := fun el s => Vec c s.1 (fun md r => u el md r + volC c (S el) (GV e o) (tInt c (S el) (GT e o) (u el) dt) md r +
        ∑ fa ∈ Finset.range c.nFas, surfC c (entLN e o fa) (X el fa) (entF e o fa) (tInt c (S el) (GT e o) (u el) dt) md r +
        ∑ fa ∈ Finset.range c.nFas, surfC c (entLN e o (matId c.nFas fa (if (f el fa).outflow then none else (f el fa).vId) (f el fa).fId)) (Y el fa) (entF e o fa)
          (tInt c (S (nb el (f el fa))) (GT e o) (u (nb el (f el fa))) dt) md r) ∧
      s.2.eq.length = 1 * c.nMds * c.nCrs ∧ s.2.lt.length = 1 * c.nMds * c.nCrs ∧ s.2.gt.length = 1 * c.nMds * c.nCrs) (by
    intro el hel
    obtain ⟨E, hE⟩ := hE el hel
    obtain ⟨s, h1, h2, h3, h4, h5⟩ := p1 el hel
    have hd := hels el E hE
    obtain ⟨d', a0, a1⟩ := neighEl_spec hM (firstTs := true) hd.ne hd.faces (fun fa hfa => by
      rcases hou : (f el fa).outflow with _ | _
      · simp only [Bool.false_eq_true, if_false]
        rcases hv : (f el fa).vId with _ | ve
        · simp only [matId]; rw [hc.fas] at hfa; omega
        · obtain ⟨q1, q2⟩ := (hd.ids fa hfa hou).2 ve hv
          simp only [matId, hc.fas]
          have : ve * e.nFa + e.nFa ≤ e.nVeOpts * e.nFa := by rw [← Nat.succ_mul]; exact Nat.mul_le_mul_right _ q1
          omega
      · simp only [if_true, matId]; rw [hc.fas] at hfa; omega)
      (ts := s1.map (·.2)) (el := el) (Tn := fun fa => tInt c (S (nb el (f el fa))) (GT e o) (u (nb el (f el fa))) dt) (fun fa hfa => by
      have hn : nb el (f el fa) < els.length := by
        unfold nb
        split
        · exact hel
        · rename_i hou
          exact (hd.ids fa hfa (by simpa using hou)).1
      obtain ⟨t, x0, x1⟩ := hts _ hn
      exact ⟨t, t.eq, x0, by rw [hrel el hel fa hfa]; rfl, x1⟩) hmem h2
    refine ⟨(d', s.2), ?_, a1, h3.1, h4, h5⟩
    simp only [rd, hE, h1, Option.bind_eq_bind, Option.bind_some]
    rw [a0, Option.bind_some])
  refine ⟨s2, fun el md r => u el md r + volC c (S el) (GV e o) (tInt c (S el) (GT e o) (u el) dt) md r +
        ∑ fa ∈ Finset.range c.nFas, surfC c (entLN e o fa) (X el fa) (entF e o fa) (tInt c (S el) (GT e o) (u el) dt) md r +
        ∑ fa ∈ Finset.range c.nFas, surfC c (entLN e o (matId c.nFas fa (if (f el fa).outflow then none else (f el fa).vId) (f el fa).fId)) (Y el fa) (entF e o fa)
          (tInt c (S (nb el (f el fa))) (GT e o) (u (nb el (f el fa))) dt) md r, ?_, ⟨l2, p2⟩, ?_⟩
  · rw [stepMesh, localAll, k1, Option.bind_some, neighAll, k2]
  · intro el hel md hmd r _
    obtain ⟨E, hE⟩ := hE el hel
    rw [hc.mds] at hmd
    have hd := hels el E hE
    beta_reduce
    rw [newModes, surf_local he ho hc hmd, surf_neigh he ho hc (fun fa hfa hou ve hv => ((hd.ids fa (hc.fas ▸ hfa) hou).2 ve hv).2) hmd]

end Edge.Advection
