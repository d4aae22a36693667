import Verif.Fused.Step
import Verif.Dg.Props
import Verif.Seismic.Star
/-!
C99: the kernels for fused simulations compute the same as the vanilla kernels.
-/
namespace Edge.Fused
open Edge Edge.Linalg Edge.Dg Edge.Step

/-! ### Specification -/

/-- Sizes of the seismic solver for triangles or tetrahedrons of any order: numbers of dimensions, elastic quantities, memory variables, faces and modes. -/
structure Simplex (c : Cfg) : Prop where
  el : c.nDis = 2 ∧ c.nQtsE = 5 ∧ c.nQtsM = 3 ∧ c.nFas = 3 ∧ c.nMds = elModes .tria3 c.oTi ∧ c.ck = elModesCk .tria3 c.oTi ∨
    c.nDis = 3 ∧ c.nQtsE = 9 ∧ c.nQtsM = 6 ∧ c.nFas = 4 ∧ c.nMds = elModes .tet4 c.oTi ∧ c.ck = elModesCk .tet4 c.oTi
  ord : 0 < c.oTi
  mdsFa : 0 < c.nMdsFa

section
variable {K : Type} [Field K] [LinearOrder K]

/-- `n` matrices with `sz` entries each, whose entries are zero or larger than the tolerance (and are not the marker of the fill-in). -/
structure Exact (ev : Env K) (n sz : Nat) (l : List (List K)) : Prop where
  len : l.length = n
  get : ∀ a ∈ l, a.length = sz ∧ ∀ x ∈ a, x ≠ ev.big ∧ (|x| ≤ ev.tol → x = 0)

/-- The arrays of `l'` begin with the entries of those of `l`, to which `f` was applied. -/
structure Copies (f : K → K) (sz : Nat) (l l' : List (List K)) : Prop where
  len : l'.length = l.length
  get : ∀ (i : Nat) a v, l[i]? = some a → l'[i]? = some v → ∀ p < sz, v[p]? = (a[p]?).map f

/-- The constructors of the fused kernels have been called with the dense matrices `dT` (time prediction), `dV` (volume) and `fL`, `fN`, `fT` (surface). -/
def SetUp (c : Cfg) (ev : Env K) (dT dV fL fN fT : List (List K)) (ks : Kerns K) : Prop :=
  ∃ z0 z1 z2 pt, fakeMats c.nDis c.nQtsE c.nQtsM z0 z1 z2 = some pt ∧ initTimePred c ev pt dT = some ks.tp ∧ initVolInt c ev pt dV = some ks.vp ∧
    initSurfInt c ev pt fL fN fT = some ks.sp ∧ ks.nN = fN.length

/-- All dense matrices of the discretisation are exact, and those of the vanilla kernels (`stT`, `stV`, `LN`, `FT`) are copies of them, negated for the time prediction. -/
structure Dense (c : Cfg) (ev : Env K) (dT dV fL fN fT stT stV LN FT : List (List K)) : Prop where
  t : Exact ev c.nDis (c.nMds * c.nMds) dT
  v : Exact ev c.nDis (c.nMds * c.nMds) dV
  l : Exact ev c.nFas (c.nMds * c.nMdsFa) fL
  n : Exact ev fN.length (c.nMds * c.nMdsFa) fN
  f : Exact ev c.nFas (c.nMdsFa * c.nMds) fT
  stT : Copies (fun x => -x) (c.nMds * c.nMds) dT stT
  stV : Copies (fun x => x) (c.nMds * c.nMds) dV stV
  ln : Copies (fun x => x) (c.nMds * c.nMdsFa) (fL ++ fN) LN
  ft : Copies (fun x => x) (c.nMdsFa * c.nMds) fT FT

end

/-! ### Auxiliary -/

theorem modes_lt2 (n : Nat) : elModes .tria3 n < elModes .tria3 (n + 1) := by
  simp only [elModes]
  have : (n + 1) * (n + 1) + (n + 1) = n * n + n + (2 * n + 2) := by ring
  omega

theorem modes_lt3 (n : Nat) : elModes .tet4 n < elModes .tet4 (n + 1) := by
  simp only [elModes]
  have : (n + 1) * (n + 1 + 1) * (n + 1 + 2) = n * (n + 1) * (n + 2) + 6 + (3 * n * n + 9 * n) := by ring
  omega

theorem Simplex.shrink {c : Cfg} (h : Simplex c) : Shrink c := by
  have ho := h.ord
  rcases h.el with ⟨-, -, -, -, h1, h2⟩ | ⟨-, -, -, -, h1, h2⟩
  · refine ⟨by rw [h1, h2]; rfl, ?_, ?_⟩
    · rw [h1]
      obtain ⟨o, e⟩ := Nat.exists_eq_succ_of_ne_zero ho.ne'
      rw [e]
      exact lt_of_le_of_lt (Nat.zero_le _) (modes_lt2 o)
    · intro k hk
      simp only [h2, elModesCk]
      rw [show c.oTi - k = c.oTi - (k + 1) + 1 by omega]
      exact modes_lt2 _
  · refine ⟨by rw [h1, h2]; rfl, ?_, ?_⟩
    · rw [h1]
      obtain ⟨o, e⟩ := Nat.exists_eq_succ_of_ne_zero ho.ne'
      rw [e]
      exact lt_of_le_of_lt (Nat.zero_le _) (modes_lt3 o)
    · intro k hk
      simp only [h2, elModesCk]
      rw [show c.oTi - k = c.oTi - (k + 1) + 1 by omega]
      exact modes_lt3 _

theorem Simplex.dims {c : Cfg} (h : Simplex c) : Dims c.nDis c.nQtsE c.nQtsM := by
  rcases h.el with ⟨a, b, d, -⟩ | ⟨a, b, d, -⟩
  · exact Or.inl ⟨a, b, d⟩
  · exact Or.inr ⟨a, b, d⟩

theorem Simplex.ckLe {c : Cfg} (h : Simplex c) : c.ck 1 ≤ c.nMds := by
  rcases h.el with ⟨-, -, -, -, h1, h2⟩ | ⟨-, -, -, -, h1, h2⟩
  · rw [h1, h2]; exact elModesCk_le .tria3 _ _
  · rw [h1, h2]; exact elModesCk_le .tet4 _ _

section
variable {K : Type} [Field K] [LinearOrder K]

/-- Entries of the matrices of a list. -/
def ents (l : List (List K)) (cols : Nat) (i r j : Nat) : K := val ((l[i]?).getD []) (r * cols + j)

theorem Exact.mats {ev : Env K} {n rows cols : Nat} {l : List (List K)} (h : Exact ev n (rows * cols) l) : Mats n rows cols cols l (ents l cols) := by
  intro i hi
  have hi' : i < l.length := h.len ▸ hi
  refine ⟨l[i], List.getElem?_eq_getElem hi', fun r j hr hj => ?_⟩
  have := val_some (l := l[i]) (p := r * cols + j) (by rw [(h.get _ (List.getElem_mem hi')).1]; exact mad_lt hr hj)
  rw [this]
  simp [ents, List.getElem?_eq_getElem hi']

theorem Exact.clean {ev : Env K} {n rows cols : Nat} {l : List (List K)} (h : Exact ev n (rows * cols) l) {i : Nat} (hi : i < n) : Clean ev rows cols (ents l cols i) := by
  intro r j hr hj
  have hi' : i < l.length := h.len ▸ hi
  obtain ⟨h1, h2⟩ := h.get _ (List.getElem_mem hi')
  have h3 : r * cols + j < l[i].length := by rw [h1]; exact mad_lt hr hj
  have e : ents l cols i r j = l[i][r * cols + j] := by simp [ents, val, List.getElem?_eq_getElem hi', List.getElem?_eq_getElem h3]
  obtain ⟨h4, h5⟩ := h2 _ (List.getElem_mem h3)
  rw [e]
  exact ⟨h4, fun h => h5 (not_lt.1 h)⟩

theorem Copies.mats {f : K → K} {n rows cols : Nat} {l l' : List (List K)} (h : Copies f (rows * cols) l l') (hn : l.length = n)
    (hl : ∀ a ∈ l, a.length = rows * cols) : Mats n rows cols cols l' (fun i r j => f (ents l cols i r j)) := by
  intro i hi
  have hi1 : i < l.length := hn ▸ hi
  have hi2 : i < l'.length := h.len ▸ hi1
  refine ⟨l'[i], List.getElem?_eq_getElem hi2, fun r j hr hj => ?_⟩
  have h3 : r * cols + j < l[i].length := by rw [hl _ (List.getElem_mem hi1)]; exact mad_lt hr hj
  rw [h.get i _ _ (List.getElem?_eq_getElem hi1) (List.getElem?_eq_getElem hi2) _ (mad_lt hr hj), val_some h3]
  simp [ents, List.getElem?_eq_getElem hi1]

theorem Exact.append {ev : Env K} {n m sz : Nat} {l l' : List (List K)} (h : Exact ev n sz l) (h' : Exact ev m sz l') : Exact ev (n + m) sz (l ++ l') :=
  ⟨by rw [List.length_append, h.len, h'.len], fun a ha => (List.mem_append.1 ha).elim (h.get a) (h'.get a)⟩

variable [IsStrictOrderedRing K]

theorem stepSet {c : Cfg} (hc : Simplex c) {ev : Env K} {dT dV fL fN fT stT stV LN FT : List (List K)} (hD : Dense c ev dT dV fL fN fT stT stV LN FT) {ks : Kerns K}
    (hk : SetUp c ev dT dV fL fN fT ks) : ∃ pt, ∀ starE starA srcA sE sA sS : List (List K), SparseAll (starEPos c.nDis) c.nDis c.nQtsE c.nQtsE starE sE →
      (0 < c.nRms → SparseAll (starAPos c.nDis) c.nDis c.nQtsM c.nDis starA sA) → SparseAll (srcPos c.nDis) c.nRms c.nQtsM c.nQtsM srcA sS →
      StepSet c ev pt dT dV fL fN fT stT stV LN FT starE starA srcA sE sA sS (ents dT c.nMds) (ents dV c.nMds) (ents (fL ++ fN) c.nMdsFa) (ents fT c.nMds) ks := by
  obtain ⟨z0, z1, z2, pt, h1, h2, h3, h4, h5⟩ := hk
  have hp : PatOk K c.nDis c.nQtsE c.nQtsM pt := pats_ok K hc.dims h1
  refine ⟨pt, fun starE starA srcA sE sA sS e1 e2 e3 => ⟨?_, ?_, ?_, h5⟩⟩
  · exact ⟨hc.dims, hc.shrink, hp, hD.t.mats, fun di hdi => hD.t.clean hdi, hD.stT.mats hD.t.len (fun a ha => (hD.t.get a ha).1), initTimePred_ok hc.shrink h2, e1, e2, e3⟩
  · exact ⟨hc.dims, hc.ckLe, hp, hD.v.mats, fun di hdi => hD.v.clean hdi, hD.stV.mats hD.v.len (fun a ha => (hD.v.get a ha).1), initVolInt_ok h3, e1, e2, e3⟩
  · have hap := hD.l.append hD.n
    exact ⟨hc.dims, hp, by rw [hD.ln.len, hap.len], hD.l.len, hD.f.len, hap.mats, hD.f.mats, fun k hk => hap.clean hk, fun k hk => hD.f.clean hk,
      hD.ln.mats hap.len (fun a ha => (hap.get a ha).1), hD.ft.mats hD.f.len (fun a ha => (hD.f.get a ha).1), initSurfInt_ok hD.l.len hD.f.len h4, hc.shrink.mds, hc.mdsFa⟩


/-! ### Sparse matrices of the elements -/

omit [LinearOrder K] [IsStrictOrderedRing K] in
theorem sparse_tab {pos : List (Nat × Nat)} {m n : Nat} {f : Nat → Nat → K} (hp : ∀ p ∈ pos, p.1 < m ∧ p.2 < n)
    (hz : ∀ r j, r < m → j < n → (r, j) ∉ pos → f r j = 0) : SparseOf pos m n (tab m n f) (pos.map (fun p => f p.1 p.2)) := by
  have ht := tab_mat m n f
  refine ⟨by simp [tab], fun r j hr hj hn => (ht r j hr hj).trans (by rw [hz r j hr hj hn]), fun k r j hk => ?_⟩
  obtain ⟨h1, h2⟩ := hp _ (List.mem_of_getElem? hk)
  exact ⟨h1, h2, by rw [ht r j h1 h2]; simp [hk]⟩

omit [LinearOrder K] [IsStrictOrderedRing K] in
theorem sparse_flat {m n : Nat} {pos : List (Nat × Nat)} {posF : List (Fin m × Fin n)} (hp : pos = posF.map (fun p => (p.1.1, p.2.1))) {a : Matrix (Fin m) (Fin n) K}
    (hz : ∀ p ∉ posF, a p.1 p.2 = 0) : SparseOf pos m n (Seismic.flat a) (posF.map (fun p => a p.1 p.2)) := by
  have hf : ∀ (r : Fin m) (j : Fin n), (Seismic.flat a)[r.1 * n + j.1]? = some (a r j) := by
    intro r j
    have hn : 0 < n := lt_of_le_of_lt (Nat.zero_le _) j.2
    have hlt := mad_lt r.2 j.2
    simp only [Seismic.flat, List.getElem?_ofFn, hlt, dif_pos, Option.some.injEq]
    congr 1
    · ext; simp [Fin.divNat, Nat.add_comm (r.1 * n), Nat.add_mul_div_right _ _ hn, Nat.div_eq_of_lt j.2]
    · ext; simp [Fin.modNat, Nat.add_comm (r.1 * n), Nat.mod_eq_of_lt j.2]
  subst hp
  refine ⟨by simp [Seismic.flat], fun r j hr hj hn => ?_, fun k r j hk => ?_⟩
  · rw [hf ⟨r, hr⟩ ⟨j, hj⟩, hz (⟨r, hr⟩, ⟨j, hj⟩) (fun h => hn (List.mem_map.2 ⟨_, h, rfl⟩))]
  · simp only [List.getElem?_map, Option.map_eq_some_iff] at hk
    obtain ⟨⟨a1, a2⟩, k1, k2⟩ := hk
    cases k2
    exact ⟨a1.2, a2.2, by rw [hf a1 a2]; simp [k1]⟩

theorem rd_map {α β : Type} {l : List α} (f : α → β) {i : Nat} (hi : i < l.length) : rd (l.map f) i = some (f l[i]) := by
  simp [rd, hi]

omit [LinearOrder K] [IsStrictOrderedRing K] in
/-- The sparse elastic star matrices hold the entries of the dense ones. -/
theorem C99_starE2 (rho lam mu : K) (J : Fin 2 → Fin 2 → K) :
    SparseAll (starEPos 2) 2 5 5 (List.ofFn fun di => Seismic.flat (Seismic.star2 rho lam mu J di)) (List.ofFn fun di => Seismic.starSparse2 rho lam mu J di) := by
  intro i hi
  exact ⟨_, _, (List.getElem?_ofFn (i := i)).trans (dif_pos hi), (List.getElem?_ofFn (i := i)).trans (dif_pos hi),
    sparse_flat (posF := Seismic.starPos2) (by decide +kernel) (Seismic.C71_star2 rho lam mu J ⟨i, hi⟩).2.1⟩

omit [LinearOrder K] [IsStrictOrderedRing K] in
theorem C99_starE3 (rho lam mu : K) (J : Fin 3 → Fin 3 → K) :
    SparseAll (starEPos 3) 3 9 9 (List.ofFn fun di => Seismic.flat (Seismic.star3 rho lam mu J di)) (List.ofFn fun di => Seismic.starSparse3 rho lam mu J di) := by
  intro i hi
  exact ⟨_, _, (List.getElem?_ofFn (i := i)).trans (dif_pos hi), (List.getElem?_ofFn (i := i)).trans (dif_pos hi),
    sparse_flat (posF := Seismic.starPos3) (by decide +kernel) (Seismic.C71_star3 rho lam mu J ⟨i, hi⟩).2.1⟩

omit [LinearOrder K] [IsStrictOrderedRing K] in
/-- The sparse anelastic star matrices hold the entries of the dense ones. -/
theorem C99_starA2 (J : Nat → Nat → K) : SparseAll (starAPos 2) 2 3 2 ((List.range 2).map fun di => tab 3 2 (starA2 J di))
    ((List.range 2).map fun di => (starAPos 2).map (fun p => starA2 J di p.1 p.2)) := by
  intro i hi
  refine ⟨_, _, rd_map _ hi, rd_map _ hi, sparse_tab (by decide +kernel) ?_⟩
  intro r j hr hj hn
  interval_cases r <;> interval_cases j <;> first | rfl | (exact absurd (by decide +kernel) hn)

omit [LinearOrder K] [IsStrictOrderedRing K] in
theorem C99_starA3 (J : Nat → Nat → K) : SparseAll (starAPos 3) 3 6 3 ((List.range 3).map fun di => tab 6 3 (starA3 J di))
    ((List.range 3).map fun di => (starAPos 3).map (fun p => starA3 J di p.1 p.2)) := by
  intro i hi
  refine ⟨_, _, rd_map _ hi, rd_map _ hi, sparse_tab (by decide +kernel) ?_⟩
  intro r j hr hj hn
  interval_cases r <;> interval_cases j <;> first | rfl | (exact absurd (by decide +kernel) hn)

omit [LinearOrder K] [IsStrictOrderedRing K] in
/-- The sparse source matrices hold the entries of the dense ones; `z` are the coefficients of the mechanisms. -/
theorem C99_src2 (z : List (K × K × K)) : SparseAll (srcPos 2) z.length 3 3 (z.map fun y => tab 3 3 (srcOf 2 y.1 y.2.1 y.2.2))
    (z.map fun y => (srcPos 2).map (fun p => srcOf 2 y.1 y.2.1 y.2.2 p.1 p.2)) := by
  intro i hi
  refine ⟨_, _, rd_map _ hi, rd_map _ hi, sparse_tab (by decide +kernel) ?_⟩
  intro r j hr hj hn
  interval_cases r <;> interval_cases j <;> first | rfl | (exact absurd (by decide +kernel) hn)

omit [LinearOrder K] [IsStrictOrderedRing K] in
theorem C99_src3 (z : List (K × K × K)) : SparseAll (srcPos 3) z.length 6 6 (z.map fun y => tab 6 6 (srcOf 3 y.1 y.2.1 y.2.2))
    (z.map fun y => (srcPos 3).map (fun p => srcOf 3 y.1 y.2.1 y.2.2 p.1 p.2)) := by
  intro i hi
  refine ⟨_, _, rd_map _ hi, rd_map _ hi, sparse_tab (by decide +kernel) ?_⟩
  intro r j hr hj hn
  interval_cases r <;> interval_cases j <;> first | rfl | (exact absurd (by decide +kernel) hn)

/-! ### Kernels -/

section
variable {c : Cfg} (hc : Simplex c) {ev : Env K} {dT dV fL fN fT stT stV LN FT : List (List K)} (hD : Dense c ev dT dV fL fN fT stT stV LN FT) {ks : Kerns K}
  (hk : SetUp c ev dT dV fL fN fT ks) {starE starA srcA sE sA sS : List (List K)} (h1 : SparseAll (starEPos c.nDis) c.nDis c.nQtsE c.nQtsE starE sE)
  (h2 : 0 < c.nRms → SparseAll (starAPos c.nDis) c.nDis c.nQtsM c.nDis starA sA) (h3 : SparseAll (srcPos c.nDis) c.nRms c.nQtsM c.nQtsM srcA sS)

include hc hD hk h1 h2 h3

/-- **Time prediction.** From equal degrees of freedom and any contents of the scratch memory, the fused kernel computes the derivatives and time integrated degrees of
freedom of the vanilla kernel. -/
theorem C99_timePred {dt : K} {rfs dofsE : List K} {dofsA : List (List K)} {m m' : CkMem K} {s0 : List K} (hs : s0.length = m.scratch.length)
    (h : ck c dt stT starE starA srcA rfs dofsE dofsA m = some m') :
    ∃ s, ckF c ks.tp dt sE sA sS rfs dofsE dofsA { m with scratch := s0 } = some { m' with scratch := s } := by
  obtain ⟨pt, H⟩ := stepSet hc hD hk
  obtain ⟨s, k, -⟩ := ck_eq (H starE starA srcA sE sA sS h1 h2 h3).tp hs h
  exact ⟨s, k⟩

/-- **Volume integration.** The fused kernel computes the degrees of freedom of the vanilla kernel. -/
theorem C99_volInt {rfs t : List K} {tA : List (List K)} {dofsE : List K} {dofsA : List (List K)} {s s0 : List K}
    (ht : 0 < c.nRms → t.length = c.nQtsE * c.nMds * c.nCrs) (hs : s0.length = s.length) {dofsE' : List K} {dofsA' : List (List K)} {s' : List K}
    (h : volInt c stV starE starA srcA rfs t tA dofsE dofsA s = some (dofsE', dofsA', s')) :
    ∃ s1, volIntF c ks.vp sE sA sS rfs t tA dofsE dofsA s0 = some (dofsE', dofsA', s1) := by
  obtain ⟨pt, H⟩ := stepSet hc hD hk
  obtain ⟨s, k, -⟩ := volInt_eq (H starE starA srcA sE sA sS h1 h2 h3).vp ht hs h
  exact ⟨s, k⟩

/-- **Time step of an element**, with any number of relaxation mechanisms, kinds of faces and contents of the scratch memory: the fused kernels compute the degrees of
freedom, derivatives and time integrated degrees of freedom of the vanilla kernels. -/
theorem C99_step {fsE fsA : List (List K)} (hF : Solvers c fsE fsA) {dt : K} {rfs dofsE : List K} {firstTs : Bool} {fs : List (FaceIn K)} (hF' : FaceSolvers c fs)
    {dofsA : List (List K)} {m : CkMem K} {s0 : List K} (hs : s0.length = m.scratch.length) (hl : 0 < c.nRms → m.tIntE.length = c.nQtsE * c.nMds * c.nCrs)
    {sc0 sc1 e' : List K} {a' : List (List K)} {m' : CkMem K}
    (h : stepEl c dt stT stV LN FT starE starA srcA fsE fsA rfs firstTs fs dofsE dofsA m sc0 sc1 = some (e', a', m')) :
    ∃ s, stepElF c ks dt sE sA sS fsE fsA rfs firstTs fs dofsE dofsA { m with scratch := s0 } sc0 sc1 = some (e', a', { m' with scratch := s }) := by
  obtain ⟨pt, H⟩ := stepSet hc hD hk
  obtain ⟨s, k, -⟩ := stepEl_eq (H starE starA srcA sE sA sS h1 h2 h3) hF hF' hs hl h
  exact ⟨s, k⟩

end

section
variable {c : Cfg} (hc : Simplex c) {ev : Env K} {dT dV fL fN fT stT stV LN FT : List (List K)} (hD : Dense c ev dT dV fL fN fT stT stV LN FT) {ks : Kerns K}
  (hk : SetUp c ev dT dV fL fN fT ks)
include hc hD hk

omit hc hD hk in
theorem surfSet (hc : Simplex c) (hD : Dense c ev dT dV fL fN fT stT stV LN FT) (hk : SetUp c ev dT dV fL fN fT ks) :
    (∃ pt A B, SurfSet c ev pt fL fN fT LN FT A B ks.sp) ∧ ks.nN = fN.length := by
  obtain ⟨z0, z1, z2, pt, h1, h2, h3, h4, h5⟩ := hk
  have hap := hD.l.append hD.n
  exact ⟨⟨pt, _, _, hc.dims, pats_ok K hc.dims h1, by rw [hD.ln.len, hap.len], hD.l.len, hD.f.len, hap.mats, hD.f.mats, fun k hk => hap.clean hk, fun k hk => hD.f.clean hk,
      hD.ln.mats hap.len (fun a ha => (hap.get a ha).1), hD.ft.mats hD.f.len (fun a ha => (hD.f.get a ha).1), initSurfInt_ok hD.l.len hD.f.len h4, hc.shrink.mds, hc.mdsFa⟩, h5⟩

/-- **Surface integration**, local part. -/
theorem C99_surfLocal {fsE fsA : List (List K)} (hF : Solvers c fsE fsA) {rfs t dofsE : List K} {dofsA : List (List K)} {sc0 sc1 : List K}
    {r : List K × List (List K) × List K × List K} (h : surfLocal c LN FT fsE fsA rfs t dofsE dofsA sc0 sc1 = some r) :
    surfLocalF c ks.sp ks.nN fsE fsA rfs t dofsE dofsA sc0 sc1 = some r := by
  obtain ⟨⟨pt, A, B, H⟩, e⟩ := surfSet hc hD hk
  rw [e]
  exact surfLocal_eq H hF h

/-- **Surface integration**, part of the neighbours: for every face, orientation of the neighbour and boundary (`vId = none`). -/
theorem C99_surfNeigh {fa : Nat} (hfa : fa < c.nFas) {vId : Option Nat} {fId : Nat} {fsE fsA t : List K} {tFi : Option (List K)} {dofsE upA sc0 sc1 : List K}
    (hE : c.nQtsE * c.nQtsE ≤ fsE.length) (hA : 0 < c.nRms → c.nQtsM * c.nQtsE ≤ fsA.length) {r : List K × List K × List K × List K}
    (h : surfNeigh c LN FT fa vId fId fsE fsA t tFi dofsE upA sc0 sc1 = some r) : surfNeighF c ks.sp ks.nN fa vId fId fsE fsA t tFi dofsE upA sc0 sc1 = some r := by
  obtain ⟨⟨pt, A, B, H⟩, e⟩ := surfSet hc hD hk
  rw [e]
  exact surfNeigh_eq H hfa hE hA h

/-- **Time steps of a mesh**: any number of time steps of any mesh without relaxation mechanisms yields the same states. -/
theorem C99_mesh (hr : c.nRms = 0) {els els' : List (MEl K)} (hM : MeshSet c els els') {sc0 sc1 : List K} (dts : List K) {st st' : List (List K × CkMem K)}
    (h0 : List.Forall₂ SameSt st st') {r : List (List K × CkMem K)} (h : runMesh c stT stV LN FT els sc0 sc1 dts st = some r) :
    ∃ r', runMeshF c ks els' sc0 sc1 dts st' = some r' ∧ r'.map (·.1) = r.map (·.1) := by
  obtain ⟨pt, H⟩ := stepSet hc hD hk
  obtain ⟨r', k1, k2⟩ := runMesh_eq hr (fun starE sE hE => H starE [] [] sE [] [] hE (by omega) (fun i hi => by omega)) hM dts h0 h
  refine ⟨r', k1, ?_⟩
  clear k1 h
  induction k2 with
  | nil => rfl
  | cons a _ ih =>
    obtain ⟨s, e, -⟩ := a
    rw [List.map_cons, List.map_cons, ih, e]

end
end
end Edge.Fused
