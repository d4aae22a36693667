import Verif.Fused.Pats
/-!
Results of the constructors of the fused kernels.
-/
namespace Edge.Fused
open Edge Edge.Linalg Edge.Dg

variable {K : Type} [Field K] [LinearOrder K]

/-! ### Kernels -/

/-- Kernels of a group. -/
def groupOf (gs : List (List (Kern K))) (g : Nat) : List (Kern K) := (gs[g]?).getD []

omit [Field K] [LinearOrder K] in
theorem groupOf_add (g : Nat) (k : Kern K) (gs : List (List (Kern K))) (g' : Nat) :
    groupOf (addKern g k gs) g' = if g' = g then groupOf gs g ++ [k] else groupOf gs g' := by
  have hpad : ∀ x : Nat, ((if g ≥ gs.length then gs ++ List.replicate (g + 1 - gs.length) [] else gs)[x]?).getD [] = (gs[x]?).getD [] := by
    intro x
    split
    · by_cases hx : x < gs.length
      · rw [List.getElem?_append_left hx]
      · rw [List.getElem?_append_right (by omega), List.getElem?_eq_none (l := gs) (by omega), List.getElem?_replicate]
        split <;> rfl
    · rfl
  have hlen : g < (if g ≥ gs.length then gs ++ List.replicate (g + 1 - gs.length) [] else gs).length := by
    split
    · simp; omega
    · omega
  simp only [groupOf, addKern]
  rw [List.getElem?_modify]
  by_cases e : g' = g
  · subst e
    rw [if_pos rfl, ← hpad g', List.getElem?_eq_getElem hlen]
    simp
  · have e' : ¬ g = g' := fun h => e h.symm
    simp only [if_neg e, if_neg e', id_map']
    exact hpad g'

theorem callKern_eq {gs : List (List (Kern K))} {g i r : Nat} {k : Kern K} (h : (groupOf gs g)[i]? = some k) (a b c : List K) :
    callKern gs g i r a b c = k.run r a b c := by
  unfold groupOf at h
  cases hg : gs[g]? with
  | none => rw [hg] at h; simp at h
  | some ks =>
    rw [hg] at h
    simp only [Option.getD_some] at h
    simp only [callKern, rd, hg, h, Option.bind_eq_bind, Option.bind_some]

/-! ### Stored values -/

/-- The matrices `ms` are stored one after the other. -/
structure Held (o : CscOut K) (ms : List (Comp K)) : Prop where
  len : o.offs.length = ms.length + 1
  last : o.offs.getLast? = some o.nz.length
  get : ∀ (k : Nat) m, ms[k]? = some m → ∃ off, o.offs[k]? = some off ∧ ∀ (p : Nat) x, m.val[p]? = some x → o.nz[off + p]? = some x

omit [Field K] [LinearOrder K] in
theorem pushMat_held {o : CscOut K} {ms : List (Comp K)} (h : Held o ms) (m : Comp K) :
    ∃ o', pushMat m o = some o' ∧ Held o' (ms ++ [m]) ∧ o'.mats = o.mats ∧ o'.maxNz = o.maxNz := by
  refine ⟨{ o with nz := o.nz ++ m.val, offs := o.offs ++ [o.nz.length + m.val.length] }, by rw [pushMat, h.last]; rfl, ⟨?_, ?_, ?_⟩, rfl, rfl⟩
  · simp [h.len]
  · simp
  · intro k m' hk
    simp only
    by_cases hlt : k < ms.length
    · rw [List.getElem?_append_left hlt] at hk
      obtain ⟨off, h1, h2⟩ := h.get k m' hk
      refine ⟨off, by rw [List.getElem?_append_left (by rw [h.len]; omega)]; exact h1, fun p x hx => ?_⟩
      have := h2 p x hx
      rw [List.getElem?_append_left (List.getElem?_eq_some_iff.1 this).1]
      exact this
    · have hk' : k = ms.length := by
        have := (List.getElem?_eq_some_iff.1 hk).1
        simp at this; omega
      subst hk'
      rw [List.getElem?_append_right (Nat.le_refl _), Nat.sub_self, List.getElem?_cons_zero] at hk
      cases hk
      have e : o.offs[ms.length]? = some o.nz.length := by
        rw [← h.last, List.getLast?_eq_getElem?, h.len]; rfl
      refine ⟨o.nz.length, by rw [List.getElem?_append_left (by rw [h.len]; omega)]; exact e, fun p x hx => ?_⟩
      rw [List.getElem?_append_right (by omega), show o.nz.length + p - o.nz.length = p by omega]
      exact hx

omit [Field K] [LinearOrder K] in
theorem pushAll_held (ms' : List (Comp K)) : ∀ {o : CscOut K} {ms : List (Comp K)}, Held o ms →
    ∃ o', ms'.foldlM (fun o m => pushMat m o) o = some o' ∧ Held o' (ms ++ ms') ∧ o'.mats = o.mats ∧ o'.maxNz = o.maxNz := by
  induction ms' with
  | nil => intro o ms h; exact ⟨o, rfl, by simpa using h, rfl, rfl⟩
  | cons m ms' ih =>
    intro o ms h
    obtain ⟨o1, a1, a2, a3, a4⟩ := pushMat_held h m
    obtain ⟨o2, b1, b2, b3, b4⟩ := ih a2
    refine ⟨o2, ?_, by simpa using b2, b3.trans a3, b4.trans a4⟩
    rw [List.foldlM_cons, a1]
    exact b1

omit [Field K] [LinearOrder K] in
/-- A loop which appends. -/
theorem forN_append {α : Type} {n : Nat} {f : Nat → Option α} {l0 l : List α} (h : forN n (fun i acc => do
    let x ← f i
    some (acc ++ [x])) l0 = some l) : l.length = l0.length + n ∧ (∀ i < l0.length, l[i]? = l0[i]?) ∧ ∀ i < n, ∃ x, f i = some x ∧ l[l0.length + i]? = some x := by
  refine forN_post (P := fun n l => l.length = l0.length + n ∧ (∀ i < l0.length, l[i]? = l0[i]?) ∧ ∀ i < n, ∃ x, f i = some x ∧ l[l0.length + i]? = some x)
    ⟨rfl, fun _ _ => rfl, fun _ hi => absurd hi (by omega)⟩ ?_ h
  intro i t t' _ ⟨p1, p2, p3⟩ he
  simp only [Option.bind_eq_bind, Option.bind_eq_some_iff] at he
  obtain ⟨x, hx, he⟩ := he
  cases he
  refine ⟨by simp [p1]; omega, fun j hj => by rw [List.getElem?_append_left (by omega)]; exact p2 j hj, fun j hj => ?_⟩
  by_cases e : j = i
  · subst e
    exact ⟨x, hx, by rw [← p1]; simp⟩
  · obtain ⟨y, h1, h2⟩ := p3 j (by omega)
    exact ⟨y, h1, by rw [List.getElem?_append_left (by omega)]; exact h2⟩

theorem cscDims_spec {c : Cfg} {ev : Env K} {st : List (List K)} {sr sc : Option Nat} {ms : List (Comp K)} (h : cscDims c ev st sr sc = some ms) :
    ms.length = c.nDis ∧ ∀ di < c.nDis, ∃ a m, rd st di = some a ∧ denseToCsc c.nMds c.nMds a ev.tol ev.big sr sc ev.qfma ⟨[], [], []⟩ = some m ∧ ms[di]? = some m := by
  have h' : forN c.nDis (fun di ms => do
      let m ← (rd st di).bind (fun a => denseToCsc c.nMds c.nMds a ev.tol ev.big sr sc ev.qfma ⟨[], [], []⟩)
      some (ms ++ [m])) [] = some ms := by
    rw [← h, cscDims]
    congr 1
    funext di ms
    cases rd st di <;> rfl
  obtain ⟨p1, -, p3⟩ := forN_append h'
  refine ⟨by simpa using p1, fun di hdi => ?_⟩
  obtain ⟨m, q1, q2⟩ := p3 di hdi
  obtain ⟨a, r1, r2⟩ := Option.bind_eq_some_iff.1 q1
  exact ⟨a, m, r1, r2, by simpa using q2⟩

/-! ### Time prediction -/

/-- The numbers of modes shrink. -/
structure Shrink (c : Cfg) : Prop where
  ck0 : c.ck 0 = c.nMds
  mds : 0 < c.nMds
  lt : ∀ k, k + 1 < c.oTi → c.ck (k + 1) < c.ck k

theorem stiffT_spec {c : Cfg} (hc : Shrink c) {ev : Env K} {st : List (List K)} {o : CscOut K} (h : getCscStiffT c ev st = some o) :
    o.maxNz = (List.range (c.oTi - 1)).map (fun k => c.ck (k + 1) - 1) ∧ (∀ k < c.oTi - 1, 0 < c.ck (k + 1)) ∧ o.mats.length = (c.oTi - 1) * c.nDis ∧ Held o o.mats ∧
      ∀ k < c.oTi - 1, ∀ di < c.nDis, ∃ a m, rd st di = some a ∧
        denseToCsc c.nMds c.nMds a ev.tol ev.big (some (c.ck k)) (some (c.ck (k + 1))) ev.qfma ⟨[], [], []⟩ = some m ∧ o.mats[k * c.nDis + di]? = some m := by
  simp only [getCscStiffT, Option.bind_eq_bind, Option.bind_eq_some_iff] at h
  obtain ⟨crds, -, s, h1, h2⟩ := h
  cases h2
  have key := forN_post (P := fun n (s : CscOut K × Nat) => s.2 + 1 = c.ck n ∧ s.1.maxNz = (List.range n).map (fun k => c.ck (k + 1) - 1) ∧ (∀ k < n, 0 < c.ck (k + 1)) ∧
      s.1.mats.length = n * c.nDis ∧ Held s.1 s.1.mats ∧ ∀ k < n, ∀ di < c.nDis, ∃ a m, rd st di = some a ∧
        denseToCsc c.nMds c.nMds a ev.tol ev.big (some (c.ck k)) (some (c.ck (k + 1))) ev.qfma ⟨[], [], []⟩ = some m ∧ s.1.mats[k * c.nDis + di]? = some m)
    (by
      refine ⟨by rw [hc.ck0]; have := hc.mds; simp only; omega, rfl, fun k hk => absurd hk (by omega), by simp, ⟨rfl, rfl, fun k m hk => by simp at hk⟩, fun k hk => absurd hk (by omega)⟩)
    (by
      intro i t t' hi ⟨p1, p2, p3, p4, p5, p6⟩ he
      simp only [stiffTStep, Option.bind_eq_bind, Option.bind_eq_some_iff] at he
      obtain ⟨mx, -, ms, e2, he⟩ := he
      have e4 : mx + 1 = c.ck (i + 1) := by
        split at he <;> simp only [Option.bind_eq_some_iff] at he
        all_goals
          obtain ⟨_, -, _, e4, -⟩ := he
          simpa using check_some.1 e4
      have e4' : mx + 1 = c.ck (i + 1) := e4
      have hlt := hc.lt i (by omega)
      have hmx : mx < t.2 := by omega
      rw [if_pos (Or.inr hmx)] at he
      simp only [Option.bind_eq_some_iff] at he
      obtain ⟨o', e3, _, -, e5⟩ := he
      cases e5
      have hh : Held ({ t.1 with maxNz := t.1.maxNz ++ [mx], mats := t.1.mats ++ ms } : CscOut K) t.1.mats := ⟨p5.len, p5.last, p5.get⟩
      obtain ⟨o2, b1, b2, b3, b4⟩ := pushAll_held ms hh
      rw [b1] at e3
      cases e3
      obtain ⟨q1, q2⟩ := cscDims_spec e2
      refine ⟨e4', ?_, ?_, ?_, by rw [b3]; exact b2, ?_⟩
      · rw [b4]
        simp only [p2, List.range_succ, List.map_append, List.map_cons, List.map_nil]
        congr 2
        omega
      · intro k hk
        by_cases e : k = i
        · subst e; omega
        · exact p3 k (by omega)
      · rw [b3]
        simp only [List.length_append, p4, q1, Nat.succ_mul]
      · intro k hk di hdi
        rw [b3]
        simp only
        by_cases e : k = i
        · subst e
          obtain ⟨a, m, r1, r2, r3⟩ := q2 di hdi
          refine ⟨a, m, r1, by rw [← p1, ← e4']; exact r2, ?_⟩
          rw [List.getElem?_append_right (by omega), p4, show k * c.nDis + di - k * c.nDis = di by omega]
          exact r3
        · obtain ⟨a, m, r1, r2, r3⟩ := p6 k (by omega) di hdi
          refine ⟨a, m, r1, r2, ?_⟩
          rw [List.getElem?_append_left (by rw [p4]; exact mad_lt (by omega) hdi)]
          exact r3) h1
  exact ⟨key.2.1, key.2.2.1, key.2.2.2.1, key.2.2.2.2.1, key.2.2.2.2.2⟩

/-- What the constructor of the time prediction leaves behind. -/
structure TpOk (c : Cfg) (ev : Env K) (pt : Pats) (st : List (List K)) (tp : Prep K) : Prop where
  csc : ∀ k < c.oTi - 1, ∀ di < c.nDis, ∃ a m vals, rd st di = some a ∧
    denseToCsc c.nMds c.nMds a ev.tol ev.big (some (c.ck k)) (some (c.ck (k + 1))) ev.qfma ⟨[], [], []⟩ = some m ∧
    rd tp.mats (k * c.nDis + di) = some vals ∧ (∀ (p : Nat) x, m.val[p]? = some x → vals[p]? = some (-1 * x)) ∧
    (groupOf tp.gs 0)[k * c.nDis + di]? = some ⟨false, m.ptr, m.idx, c.nQtsE, c.ck (k + 1), c.nMds, 0, c.ck (k + 1), 0⟩
  star : ∀ k < c.oTi - 1, (groupOf tp.gs 1)[k]? = some ⟨true, pt.starE.ptr, pt.starE.idx, c.nQtsE, c.ck (k + 1), 0, c.ck (k + 1), c.nMds, 1⟩
  pos : ∀ k < c.oTi - 1, 0 < c.ck (k + 1)
  an : 0 < c.nRms → pt.srcA.val.length = nzSrcA c.nDis ∧
    (groupOf tp.gs 2)[0]? = some ⟨true, pt.starA.ptr, pt.starA.idx, c.nQtsM, c.ck 1, 0, c.ck 1, c.nMds, 1⟩ ∧
    (groupOf tp.gs 2)[1]? = some ⟨true, pt.srcA.ptr, pt.srcA.idx, c.nQtsM, c.nMds, 0, c.nMds, c.nMds, 1⟩

omit [LinearOrder K] in
/-- Groups after the kernels of the derivatives. -/
theorem genDer_spec {c : Cfg} {pt : Pats} {o : CscOut K} {mx : Nat → Nat} (h1 : o.maxNz = (List.range (c.oTi - 1)).map mx) {gs : List (List (Kern K))}
    (h : forN (c.oTi - 1) (genDer c pt o) [] = some gs) :
    groupOf gs 2 = [] ∧ (∀ k < c.oTi - 1, (groupOf gs 1)[k]? = some ⟨true, pt.starE.ptr, pt.starE.idx, c.nQtsE, mx k + 1, 0, mx k + 1, c.nMds, 1⟩) ∧
      ∀ k < c.oTi - 1, ∀ di < c.nDis, ∃ m, o.mats[k * c.nDis + di]? = some m ∧
        (groupOf gs 0)[k * c.nDis + di]? = some ⟨false, m.ptr, m.idx, c.nQtsE, mx k + 1, c.nMds, 0, mx k + 1, 0⟩ := by
  have key := forN_post (P := fun n (gs : List (List (Kern K))) => groupOf gs 2 = [] ∧ (groupOf gs 1).length = n ∧ (groupOf gs 0).length = n * c.nDis ∧
      (∀ k < n, (groupOf gs 1)[k]? = some ⟨true, pt.starE.ptr, pt.starE.idx, c.nQtsE, mx k + 1, 0, mx k + 1, c.nMds, 1⟩) ∧
      ∀ k < n, ∀ di < c.nDis, ∃ m, o.mats[k * c.nDis + di]? = some m ∧
        (groupOf gs 0)[k * c.nDis + di]? = some ⟨false, m.ptr, m.idx, c.nQtsE, mx k + 1, c.nMds, 0, mx k + 1, 0⟩)
    (by refine ⟨rfl, rfl, by simp [groupOf], fun k hk => absurd hk (by omega), fun k hk => absurd hk (by omega)⟩)
    (by
      intro i t t' hi ⟨p1, p2, p3, p4, p5⟩ he
      simp only [genDer, Option.bind_eq_bind, Option.bind_eq_some_iff] at he
      obtain ⟨mx', e1, gs', e2, e3⟩ := he
      cases e3
      have hmx : mx' = mx i := by
        simp only [rd, h1, List.getElem?_map] at e1
        rw [List.getElem?_range hi] at e1
        exact (Option.some.inj e1).symm
      subst hmx
      have inner := forN_post (P := fun n (gs : List (List (Kern K))) => groupOf gs 2 = [] ∧ groupOf gs 1 = groupOf t 1 ∧ (groupOf gs 0).length = i * c.nDis + n ∧
          (∀ k < i * c.nDis, (groupOf gs 0)[k]? = (groupOf t 0)[k]?) ∧ ∀ di < n, ∃ m, o.mats[i * c.nDis + di]? = some m ∧
            (groupOf gs 0)[i * c.nDis + di]? = some ⟨false, m.ptr, m.idx, c.nQtsE, mx i + 1, c.nMds, 0, mx i + 1, 0⟩)
        (by exact ⟨p1, rfl, p3, fun _ _ => rfl, fun _ hk => absurd hk (by omega)⟩)
        (by
          intro di u u' _ ⟨q1, q2, q3, q4, q5⟩ he
          simp only [Option.bind_eq_some_iff] at he
          obtain ⟨m, f1, f2⟩ := he
          cases f2
          refine ⟨by rw [groupOf_add]; simpa using q1, by rw [groupOf_add]; simpa using q2, by rw [groupOf_add]; simp [q3]; omega, ?_, ?_⟩
          · intro k hk
            rw [groupOf_add, if_pos rfl, List.getElem?_append_left (by omega)]
            exact q4 k hk
          · intro dj hdj
            rw [groupOf_add, if_pos rfl]
            by_cases e : dj = di
            · subst e
              exact ⟨m, f1, by rw [← q3]; simp⟩
            · obtain ⟨m', g1, g2⟩ := q5 dj (by omega)
              exact ⟨m', g1, by rw [List.getElem?_append_left (by omega)]; exact g2⟩) e2
      obtain ⟨q1, q2, q3, q4, q5⟩ := inner
      refine ⟨by rw [groupOf_add]; simpa using q1, by rw [groupOf_add]; simp [q2, p2], by rw [groupOf_add]; simp [q3, Nat.succ_mul], ?_, ?_⟩
      · intro k hk
        rw [groupOf_add, if_pos rfl, q2]
        by_cases e : k = i
        · subst e; rw [← p2]; simp
        · rw [List.getElem?_append_left (by omega)]; exact p4 k (by omega)
      · intro k hk di hdi
        rw [groupOf_add, if_neg (by omega)]
        by_cases e : k = i
        · subst e; exact q5 di hdi
        · obtain ⟨m, g1, g2⟩ := p5 k (by omega) di hdi
          exact ⟨m, g1, by rw [q4 _ (mad_lt (by omega) hdi)]; exact g2⟩) h
  exact ⟨key.1, key.2.2.2.1, key.2.2.2.2⟩

theorem initTimePred_ok {c : Cfg} (hc : Shrink c) {ev : Env K} {pt : Pats} {st : List (List K)} {tp : Prep K} (h : initTimePred c ev pt st = some tp) : TpOk c ev pt st tp := by
  simp only [initTimePred, Option.bind_eq_bind, Option.bind_eq_some_iff] at h
  obtain ⟨o, h1, mats, h2, gs, h3, h4⟩ := h
  cases h4
  obtain ⟨s1, s2, s3, s4, s5⟩ := stiffT_spec hc h1
  simp only [storeStiffTSparse, Option.bind_eq_bind, Option.bind_eq_some_iff] at h2
  obtain ⟨u, -, h2⟩ := h2
  obtain ⟨-, -, a3⟩ := forN_append (f := fun k => (rd o.offs k).bind (fun off => some ((o.nz.map (fun x => -x)).drop off))) (l0 := []) (l := mats) (by
    rw [← h2]
    congr 1
    funext k ps
    cases rd o.offs k <;> rfl)
  simp only [genTimePred, Option.bind_eq_bind, Option.bind_eq_some_iff] at h3
  obtain ⟨u', -, gs', h5, h6⟩ := h3
  obtain ⟨g1, g2, g3⟩ := genDer_spec s1 h5
  have hck : ∀ k < c.oTi - 1, c.ck (k + 1) - 1 + 1 = c.ck (k + 1) := fun k hk => by have := s2 k hk; omega
  have hgs : ∀ g, g ≠ 2 → groupOf gs g = groupOf gs' g := by
    intro g hg
    split at h6
    · simp only [Option.bind_eq_some_iff] at h6
      obtain ⟨_, -, _, -, mx, -, h6⟩ := h6
      cases h6
      rw [groupOf_add, if_neg hg, groupOf_add, if_neg hg]
    · cases h6; rfl
  refine ⟨?_, ?_, s2, ?_⟩
  · intro k hk di hdi
    obtain ⟨a, m, r1, r2, r3⟩ := s5 k hk di hdi
    have hlt : k * c.nDis + di < (c.oTi - 1) * c.nDis := mad_lt hk hdi
    obtain ⟨vals, v1, v2⟩ := a3 _ hlt
    simp only [List.length_nil, Nat.zero_add] at v2
    obtain ⟨off, w1, w2⟩ := Option.bind_eq_some_iff.1 v1
    cases w2
    refine ⟨a, m, _, r1, r2, v2, ?_, ?_⟩
    · intro p x hx
      obtain ⟨off', x1, x2⟩ := s4.get _ m r3
      rw [rd, x1] at w1
      cases w1
      rw [List.getElem?_drop, List.getElem?_map, x2 p x hx]
      simp
    · obtain ⟨m', y1, y2⟩ := g3 k hk di hdi
      rw [r3] at y1
      cases y1
      rw [hgs 0 (by omega), y2, hck k hk]
  · intro k hk
    rw [hgs 1 (by omega), g2 k hk, hck k hk]
  · intro hr
    rw [if_pos hr] at h6
    simp only [Option.bind_eq_some_iff] at h6
    obtain ⟨_, -, _, f2, mx, f3, h6⟩ := h6
    cases h6
    have h0 : 0 < c.oTi - 1 := by
      have := rd_lt f3
      rw [s1] at this
      simpa using this
    have hmx : mx + 1 = c.ck 1 := by
      simp only [rd, s1, List.getElem?_map] at f3
      rw [List.getElem?_range h0] at f3
      have := Option.some.inj f3
      have := hck 0 h0
      simp only [Nat.zero_add] at *
      omega
    refine ⟨by simpa using check_some.1 f2, ?_, ?_⟩
    · rw [groupOf_add, if_pos rfl, groupOf_add, if_pos rfl, g1, hmx]; rfl
    · rw [groupOf_add, if_pos rfl, groupOf_add, if_pos rfl, g1]; rfl

end Edge.Fused
