import Verif.Recv.Steps
/-!
C43: which samples a receiver gets over the time steps of its element.
-/
namespace Edge.Recv
open Edge

/-- What happens to the receivers in a simulation: local steps of a worker (time, time step, range of elements and time predictions of
the elements) and calls of the interface. -/
inductive Ev (K : Type) where
  | loc (t dt : K) (first n : Nat) (pred : Nat → K → List K)
  | op (o : Op K)

section
variable {K : Type} [Field K] [LinearOrder K]

/-- A local step begins with the number of elements with receivers in front of its own (`src/parallel/LoadBalancing.cpp:36-43`, C14). -/
def runEv (c : Cfg K) (flag : Nat → Bool) (s : St K) : Ev K → Option (St K)
  | .loc t dt first n pred => (localRecvs c pred flag t dt first n ((List.range first).countP flag) s).map Prod.fst
  | .op o => runOp c s o

def runEvs (c : Cfg K) (flag : Nat → Bool) (s : St K) : List (Ev K) → Option (St K)
  | [] => some s
  | v :: l => (runEv c flag s v).bind (fun s' => runEvs c flag s' l)

/-- A time step of an element. -/
structure Step (K : Type) where
  t : K
  dt : K
  pred : K → List K

/-- The time steps of element `e` in a history. -/
def stepsOf (e : Nat) (evs : List (Ev K)) : List (Step K) :=
  evs.filterMap (fun v => match v with
    | .loc t dt first n pred => if first ≤ e ∧ e < first + n then some ⟨t, dt, pred e⟩ else none
    | .op _ => none)

/-- The steps follow each other without gaps, the first one begins at `t`. -/
def Consecutive (t : K) : List (Step K) → Prop
  | [] => True
  | st :: l => st.t = t ∧ 0 ≤ st.dt ∧ Consecutive (t + st.dt) l

/-- End of consecutive steps. -/
def endTime (t : K) (steps : List (Step K)) : K := t + (steps.map Step.dt).sum

/-- All data have the right size. -/
def SizedEv (c : Cfg K) (evs : List (Ev K)) : Prop :=
  (∀ t dt first n pred, Ev.loc t dt first n pred ∈ evs → ∀ el x, (pred el x).length = c.nQts * c.nMds * c.nCrs) ∧
  (∀ k d, Ev.op (Op.write k d) ∉ evs)

/-! ### Elements and sparse ids -/

theorem countP_ens {ens : List Nat} (h : ens.Pairwise (· < ·)) {k e : Nat} (hk : ens[k]? = some e) :
    (List.range e).countP (fun x => decide (x ∈ ens)) = k := by
  have hkl := getElem?_lt hk
  have hke : ens[k] = e := by rw [List.getElem?_eq_getElem hkl] at hk; exact Option.some.inj hk
  have hp := List.pairwise_iff_getElem.mp h
  have hnd : ens.Nodup := h.imp (fun h => Nat.ne_of_lt h)
  have hperm : ((List.range e).filter (fun x => decide (x ∈ ens))).Perm (ens.take k) := by
    refine (List.perm_ext_iff_of_nodup (List.nodup_range.filter _) (hnd.sublist (List.take_sublist k ens))).mpr ?_
    intro a
    simp only [List.mem_filter, List.mem_range, decide_eq_true_eq]
    constructor
    · rintro ⟨ha, hm⟩
      obtain ⟨j, hj, rfl⟩ := List.getElem_of_mem hm
      have : j < k := by
        by_contra hc
        rcases Nat.eq_or_lt_of_le (Nat.le_of_not_lt hc) with h1 | h1
        · subst h1; omega
        · have := hp k j hkl hj h1; omega
      exact List.mem_iff_getElem.mpr ⟨j, by rw [List.length_take]; omega, by simp⟩
    · intro hm
      obtain ⟨j, hj, rfl⟩ := List.getElem_of_mem hm
      rw [List.length_take] at hj
      rw [List.getElem_take]
      refine ⟨?_, List.getElem_mem _⟩
      have := hp j k (by omega) hkl (by omega)
      omega
  rw [List.countP_eq_length_filter, hperm.length_eq, List.length_take]
  omega

theorem countP_snoc (flag : Nat → Bool) (n : Nat) :
    (List.range (n + 1)).countP flag = (List.range n).countP flag + (if flag n then 1 else 0) := by
  rw [List.range_succ, List.countP_append]
  simp [List.countP_cons]

end

section
variable {K : Type} [Field K] [LinearOrder K] [IsStrictOrderedRing K]

theorem writesTo_append (l : List Nat) (e : Nat) (a b : List (Op K)) : writesTo l e (a ++ b) = writesTo l e a ++ writesTo l e b := by
  simp [writesTo, List.filterMap_append]

theorem writesTo_writes {l : List Nat} {k e : Nat} (hk : l[k]? = some e) (m : Nat) (f : Nat → List K) (e' : Nat) :
    writesTo l e' ((List.range m).map (fun i => Op.write k (f i))) = if e' = e then (List.range m).map f else [] := by
  unfold writesTo
  rw [List.filterMap_map]
  by_cases h : e' = e
  · subst h
    rw [if_pos rfl]
    simp [Function.comp_def, hk, List.filterMap_eq_map']
  · rw [if_neg h]
    rw [List.filterMap_eq_nil_iff]
    intro a _
    have : e ≠ e' := fun h' => h h'.symm
    simp [hk, this]

/-- The samples of an element in a time step if the next one is due at `τ`. -/
def StepDs (c : Cfg K) (st : Step K) (τ : K) (ds : List (List K)) : Prop :=
  ∃ m : Nat, ds = (List.range m).map (fun i : Nat => st.pred |τ + i * c.freq - st.t|) ∧
    (∀ i : Nat, i < m → st.t - c.tol < τ + i * c.freq ∧ τ + i * c.freq < st.t + st.dt - c.tol) ∧
    ¬ (st.t - c.tol < τ + m * c.freq ∧ τ + m * c.freq < st.t + st.dt - c.tol)

theorem loc_spec {c : Cfg K} {t0 : K} {s0 : St K} {ens : List Nat} (hl : ∀ k, ens[k]? = s0.enOf k) (hB : c.buffSize < c.uint)
    (hasc : ens.Pairwise (· < ·)) {done : List (Op K)} {s s' : St K} {t dt : K} {first n : Nat} {pred : Nat → K → List K}
    (hp : ∀ el x, (pred el x).length = c.nQts * c.nMds * c.nCrs) (h : Hist c t0 s0 ens done s)
    (hr : runEv c (fun e => decide (e ∈ ens)) s (.loc t dt first n pred) = some s') :
    ∃ ops, Hist c t0 s0 ens (done ++ ops) s' ∧ ∀ e ∈ ens,
      if first ≤ e ∧ e < first + n then
        StepDs c ⟨t, dt, pred e⟩ (t0 + (writesTo ens e done).length * c.freq) (writesTo ens e ops)
      else writesTo ens e ops = [] := by
  rw [runEv, Option.map_eq_some_iff] at hr
  obtain ⟨⟨u, sp⟩, h1, rfl⟩ := hr
  unfold localRecvs at h1
  have := forN_post (n := n) (P := fun i (v : St K × Nat) => v.2 = (List.range (first + i)).countP (fun e => decide (e ∈ ens)) ∧
      ∃ ops, Hist c t0 s0 ens (done ++ ops) v.1 ∧ ∀ e ∈ ens,
        if first ≤ e ∧ e < first + i then
          StepDs c ⟨t, dt, pred e⟩ (t0 + (writesTo ens e done).length * c.freq) (writesTo ens e ops)
        else writesTo ens e ops = [])
    ⟨rfl, [], by simpa using h, by intro e _; rw [if_neg (by omega)]; rfl⟩ ?_ h1
  · exact this.2
  · rintro i ⟨v, k⟩ v' hi ⟨hk, ops, hH, hops⟩ hb
    simp only at hk hH hb
    by_cases hfl : first + i ∈ ens
    · rw [if_pos (by simpa using hfl)] at hb
      simp only [Option.bind_eq_bind, Option.bind_eq_some_iff, Option.some.injEq] at hb
      obtain ⟨v1, hb1, rfl⟩ := hb
      obtain ⟨k', hk'⟩ := List.mem_iff_getElem?.mp hfl
      have hkk : k = k' := by rw [hk]; exact countP_ens hasc hk'
      subst hkk
      have hen : v.enOf k = some (first + i) := by rw [enOf_eq hH.ens hH.sp, ← hl, hk']
      have hτ : ∀ r ∈ v.recvs, r.en = first + i → r.time = t0 + (writesTo ens (first + i) done).length * c.freq := by
        intro r hr hre
        obtain ⟨j, hj, hjr⟩ := List.getElem_of_mem hr
        have hj' : v.recvs[j]? = some r := by rw [List.getElem?_eq_getElem hj, hjr]
        obtain ⟨r0, hr0, hr0e⟩ := getElem?_of_ens hH.ens hj'
        obtain ⟨r', h2, -, h3, -⟩ := hH.rcv j r0 hr0
        rw [hj'] at h2
        obtain rfl := Option.some.inj h2
        have h4 := hops (first + i) hfl
        rw [if_neg (by omega)] at h4
        rw [h3, hr0e, hre, writesTo_append, h4, List.append_nil]
      obtain ⟨m, m1, m2, m3⟩ := stepLoop_spec (hp _) hH.wf hen hτ hb1
      have hH' := hist_run hl hB hH (by
        intro k d hkd
        obtain ⟨j, -, hj⟩ := List.mem_map.mp hkd
        simp only [Op.write.injEq] at hj
        rw [← hj.2]; exact hp _ _) m1
      refine ⟨?_, _, by rw [List.append_assoc] at hH'; exact hH', ?_⟩
      · rw [show first + (i + 1) = first + i + 1 by omega, countP_snoc, if_pos (by simpa using hfl), hk]
      · intro e he
        rw [writesTo_append, writesTo_writes hk']
        have h4 := hops e he
        by_cases hee : e = first + i
        · subst hee
          rw [if_neg (by omega)] at h4
          rw [if_pos (by omega), if_pos rfl, h4, List.nil_append]
          exact ⟨m, rfl, m2, m3⟩
        · rw [if_neg hee, List.append_nil]
          by_cases hin : first ≤ e ∧ e < first + i
          · rw [if_pos hin] at h4; rw [if_pos (by omega)]; exact h4
          · rw [if_neg hin] at h4; rw [if_neg (by omega)]; exact h4
    · rw [if_neg (by simpa using hfl)] at hb
      obtain rfl := Option.some.inj hb
      refine ⟨?_, ops, hH, ?_⟩
      · rw [show first + (i + 1) = first + i + 1 by omega, countP_snoc, if_neg (by simpa using hfl), hk]
        rfl
      · intro e he
        have h4 := hops e he
        by_cases hin : first ≤ e ∧ e < first + i
        · rw [if_pos hin] at h4; rw [if_pos (by omega)]; exact h4
        · rw [if_neg hin] at h4
          have : e ≠ first + i := by rintro rfl; exact hfl he
          rw [if_neg (by omega)]; exact h4

/-! ### Histories -/

theorem Consecutive.append {t : K} {a b : List (Step K)} (h : Consecutive t (a ++ b)) : Consecutive (endTime t a) b := by
  induction a generalizing t with
  | nil => simpa [endTime] using h
  | cons st a ih =>
    have := ih h.2.2
    simpa [endTime, add_assoc] using this

theorem stepsOf_append (e : Nat) (a b : List (Ev K)) : stepsOf e (a ++ b) = stepsOf e a ++ stepsOf e b := by
  simp [stepsOf, List.filterMap_append]

/-- The samples of an element up to time `T`. -/
structure Good (c : Cfg K) (t0 : K) (T : K) (steps : List (Step K)) (ds : List (List K)) : Prop where
  next : T - c.tol < t0 + ds.length * c.freq
  lt : ∀ i : Nat, i < ds.length → t0 + i * c.freq < T - c.tol
  val : ∀ i : Nat, i < ds.length → ∃ st ∈ steps, st.t - c.tol < t0 + i * c.freq ∧ t0 + i * c.freq < st.t + st.dt - c.tol ∧
    ds[i]? = some (st.pred |t0 + i * c.freq - st.t|)

theorem good_step {c : Cfg K} {t0 T : K} {steps : List (Step K)} {ds ds' : List (List K)} {st : Step K} (hf : 0 < c.freq)
    (h : Good c t0 T steps ds) (ht : st.t = T) (hdt : 0 ≤ st.dt) (hne : ∀ i : Nat, t0 + i * c.freq ≠ st.t + st.dt - c.tol)
    (hs : StepDs c st (t0 + ds.length * c.freq) ds') : Good c t0 (T + st.dt) (steps ++ [st]) (ds ++ ds') := by
  obtain ⟨m, rfl, h2, h3⟩ := hs
  have hsh : ∀ i : Nat, t0 + (ds.length : K) * c.freq + i * c.freq = t0 + ((ds.length + i : Nat) : K) * c.freq := by
    intro i; push_cast; ring
  simp only [hsh] at h2 h3 ⊢
  have hlen : (ds ++ (List.range m).map (fun i : Nat => st.pred |t0 + ((ds.length + i : Nat) : K) * c.freq - st.t|)).length
      = ds.length + m := by simp
  refine ⟨?_, ?_, ?_⟩
  · rw [hlen]
    have h4 : st.t - c.tol < t0 + ((ds.length + m : Nat) : K) * c.freq := by
      have h0 := h.next
      rw [← hsh, ht]
      have := mul_nonneg (Nat.cast_nonneg (α := K) m) hf.le
      linarith
    rcases lt_trichotomy (t0 + ((ds.length + m : Nat) : K) * c.freq) (st.t + st.dt - c.tol) with h5 | h5 | h5
    · exact absurd ⟨h4, h5⟩ h3
    · exact absurd h5 (hne _)
    · rw [← ht]; exact h5
  · intro i hi
    rw [hlen] at hi
    rcases Nat.lt_or_ge i ds.length with h4 | h4
    · have := h.lt i h4; linarith
    · have := (h2 (i - ds.length) (by omega)).2
      rw [show ds.length + (i - ds.length) = i by omega, ht] at this
      exact this
  · intro i hi
    rw [hlen] at hi
    rcases Nat.lt_or_ge i ds.length with h4 | h4
    · obtain ⟨q, hq, h5, h6, h7⟩ := h.val i h4
      exact ⟨q, by simp [hq], h5, h6, by rw [List.getElem?_append_left h4]; exact h7⟩
    · have h5 := h2 (i - ds.length) (by omega)
      rw [show ds.length + (i - ds.length) = i by omega] at h5
      refine ⟨st, by simp, h5.1, h5.2, ?_⟩
      rw [List.getElem?_append_right h4, List.getElem?_map, List.getElem?_range (by omega)]
      simp only [Option.map_some]
      rw [show ds.length + (i - ds.length) = i by omega]

theorem run_good {c : Cfg K} {t0 : K} {s0 : St K} {ens : List Nat} (hl : ∀ k, ens[k]? = s0.enOf k) (hB : c.buffSize < c.uint)
    (hasc : ens.Pairwise (· < ·)) (hf : 0 < c.freq) {e : Nat} (he : e ∈ ens) {tS : K} {evs done : List (Ev K)} {ops : List (Op K)}
    {s s' : St K} (hsz : SizedEv c evs) (hc : Consecutive tS (stepsOf e (done ++ evs)))
    (hne : ∀ st ∈ stepsOf e (done ++ evs), ∀ i : Nat, t0 + i * c.freq ≠ st.t + st.dt - c.tol)
    (h : Hist c t0 s0 ens ops s) (hg : Good c t0 (endTime tS (stepsOf e done)) (stepsOf e done) (writesTo ens e ops))
    (hr : runEvs c (fun e => decide (e ∈ ens)) s evs = some s') :
    ∃ ops', Hist c t0 s0 ens ops' s' ∧
      Good c t0 (endTime tS (stepsOf e (done ++ evs))) (stepsOf e (done ++ evs)) (writesTo ens e ops') := by
  induction evs generalizing done ops s with
  | nil =>
    simp only [runEvs, Option.some.injEq] at hr
    subst hr
    exact ⟨ops, h, by simpa using hg⟩
  | cons v evs ih =>
    simp only [runEvs, Option.bind_eq_some_iff] at hr
    obtain ⟨s1, hr1, hr2⟩ := hr
    have hsz' : SizedEv c evs :=
      ⟨fun t dt first n pred hm => hsz.1 t dt first n pred (by simp [hm]), fun k d hm => hsz.2 k d (by simp [hm])⟩
    have hap : done ++ v :: evs = done ++ [v] ++ evs := by simp
    rw [hap] at hc hne ⊢
    cases v with
    | op o =>
      have hso : Sized c [o] := by
        intro k d hm
        simp only [List.mem_singleton] at hm
        exact absurd (by simp [hm]) (hsz.2 k d)
      have h1 := hist_step hl hB h hso hr1
      have hw : writesTo ens e [o] = [] := by
        cases o with
        | write k d => exact absurd (by simp) (hsz.2 k d)
        | _ => rfl
      have hst : stepsOf e (done ++ [Ev.op o]) = stepsOf e done := by
        rw [stepsOf_append]; simp [stepsOf]
      refine ih hsz' hc hne h1 ?_ hr2
      rw [hst, writesTo_append, hw, List.append_nil]
      exact hg
    | loc t dt first n pred =>
      obtain ⟨ops1, h1, h2⟩ := loc_spec hl hB hasc (hsz.1 t dt first n pred (by simp)) h hr1
      have h3 := h2 e he
      refine ih hsz' hc hne h1 ?_ hr2
      rw [writesTo_append]
      by_cases hin : first ≤ e ∧ e < first + n
      · rw [if_pos hin] at h3
        have hst : stepsOf e (done ++ [Ev.loc t dt first n pred]) = stepsOf e done ++ [⟨t, dt, pred e⟩] := by
          rw [stepsOf_append]; simp [stepsOf, hin]
        rw [stepsOf_append, hst, List.append_assoc] at hc
        have hc' := hc.append
        simp only [List.singleton_append, Consecutive] at hc'
        rw [hst]
        have hend : endTime tS (stepsOf e done ++ [⟨t, dt, pred e⟩]) = endTime tS (stepsOf e done) + dt := by
          simp [endTime, add_assoc]
        rw [hend]
        refine good_step hf hg hc'.1 hc'.2.1 (hne ⟨t, dt, pred e⟩ ?_) h3
        rw [stepsOf_append, hst]
        simp
      · rw [if_neg hin] at h3
        have hst : stepsOf e (done ++ [Ev.loc t dt first n pred]) = stepsOf e done := by
          rw [stepsOf_append]; simp [stepsOf, hin]
        rw [hst, h3, List.append_nil]
        exact hg

/-- **C43 (partial).** For every history of local steps (of arbitrary ranges of elements, with receivers enabled for the elements `getEnRecv`
returned) and flushes in which no check fails: consider a receiver of the input which is located in element `en`, the steps of
which are consecutive and begin at `tS`, with a first sample after `tS - tol`. If no sample coincides with the end of a step minus
`tol`, the rows of the receiver at the end `T` of the steps are exactly the samples `t0 + i * freq < T - tol`, each once and in order,
and each holds the time prediction of the one step `[t, t+dt]` with `t - tol < t0 + i * freq < t + dt - tol`, evaluated
at the distance of the sample from `t` and at the location of the receiver.  (Missing for the full property: samples at
`t + dt - tol`, see `C43_lost_refuted`.) -/
theorem C43_partial (c : Cfg K) (hB : c.buffSize < c.uint) (hf : 0 < c.freq) (t0 : K) (eval : Nat → Nat → Option (List K))
    (deIds : List (Option Nat)) (nIn nSe : List Nat)
    (hev : ∀ re en, deIds[re]? = some (some en) → en < nIn.sum + nSe.sum → ∃ b, eval en re = some b ∧ b.length = c.nMds)
    (s0 s : St K) (ens : List Nat) (h0 : init c t0 eval deIds nIn nSe = some s0) (hens : getEnRecv s0 = some ens)
    (evs : List (Ev K)) (hsz : SizedEv c evs) (hrun : runEvs c (fun e => decide (e ∈ ens)) s0 evs = some s)
    (re en : Nat) (b : List K) (hd : deIds[re]? = some (some en)) (he : en < nIn.sum + nSe.sum) (hb : eval en re = some b)
    (tS : K) (hS : tS - c.tol < t0) (hc : Consecutive tS (stepsOf en evs))
    (hne : ∀ st ∈ stepsOf en evs, ∀ i : Nat, t0 + i * c.freq ≠ st.t + st.dt - c.tol) :
    ∃ r n, r ∈ s.recvs ∧ r.id = re ∧ (∀ r' ∈ s.recvs, r'.id = re → r' = r) ∧ (rows c r).length = n ∧
      (∀ i : Nat, i < n ↔ t0 + i * c.freq < endTime tS (stepsOf en evs) - c.tol) ∧
      ∀ i : Nat, i < n → ∃ st ∈ stepsOf en evs, st.t - c.tol < t0 + i * c.freq ∧ t0 + i * c.freq < st.t + st.dt - c.tol ∧
        (rows c r)[i]? = some (t0 + i * c.freq, sample c b (st.pred |t0 + i * c.freq - st.t|)) := by
  obtain ⟨s0', h1, h2⟩ := init_spec (t0 := t0) hev
  rw [h0] at h1
  obtain rfl := Option.some.inj h1
  obtain ⟨l, h3, h4, h5, h6, -⟩ := getEnRecv_spec h2.wf
  rw [hens] at h3
  obtain rfl := Option.some.inj h3
  have hmem : en ∈ ens := by
    rw [h5]
    have : (en, re) ∈ keysBelow deIds (nIn.sum + nSe.sum) := mem_keysBelow.mpr ⟨he, hd⟩
    rw [← h2.keys] at this
    obtain ⟨r, hr, hre⟩ := List.mem_map.mp this
    simp only [Prod.mk.injEq] at hre
    rw [← hre.1]
    exact List.mem_map_of_mem hr
  obtain ⟨ops, hH, hG⟩ := run_good (done := []) h6 hB h4 hf hmem hsz hc hne (hist_init h2 ens)
    (by simpa [stepsOf, endTime, writesTo] using (⟨by simpa using hS, by simp, by simp⟩ : Good c t0 tS [] [])) hrun
  rw [List.nil_append] at hG
  obtain ⟨r, b', h7, h8, h9, h10, h11, -, h12⟩ := recv_of_id h2 hH hd he
  rw [hb] at h10
  obtain rfl := Option.some.inj h10
  refine ⟨r, (writesTo ens en ops).length, h7, h8, h9, by rw [h12]; simp [expected], ?_, ?_⟩
  · intro i
    constructor
    · exact hG.lt i
    · intro hi
      by_contra hc
      have h13 := hG.next
      have : ((writesTo ens en ops).length : K) * c.freq ≤ i * c.freq :=
        mul_le_mul_of_nonneg_right (Nat.cast_le.mpr (Nat.le_of_not_lt hc)) hf.le
      linarith
  · intro i hi
    obtain ⟨st, hst, h13, h14, h15⟩ := hG.val i hi
    refine ⟨st, hst, h13, h14, ?_⟩
    rw [h12, expected, List.getElem?_mapIdx, h15]
    rfl

/-- Once the next sample is not after the begin of a step minus `tol`, no step adds a sample. -/
theorem run_stuck {c : Cfg K} {t0 : K} {s0 : St K} {ens : List Nat} (hl : ∀ k, ens[k]? = s0.enOf k) (hB : c.buffSize < c.uint)
    (hasc : ens.Pairwise (· < ·)) {e : Nat} (he : e ∈ ens) {evs : List (Ev K)} {ops : List (Op K)} {T : K}
    {s s' : St K} (hsz : SizedEv c evs) (hc : Consecutive T (stepsOf e evs)) (h : Hist c t0 s0 ens ops s)
    (hT : t0 + (writesTo ens e ops).length * c.freq ≤ T - c.tol)
    (hr : runEvs c (fun e => decide (e ∈ ens)) s evs = some s') :
    ∃ ops', Hist c t0 s0 ens ops' s' ∧ writesTo ens e ops' = writesTo ens e ops := by
  induction evs generalizing ops s T with
  | nil =>
    simp only [runEvs, Option.some.injEq] at hr
    subst hr
    exact ⟨ops, h, rfl⟩
  | cons v evs ih =>
    simp only [runEvs, Option.bind_eq_some_iff] at hr
    obtain ⟨s1, hr1, hr2⟩ := hr
    have hsz' : SizedEv c evs :=
      ⟨fun t dt first n pred hm => hsz.1 t dt first n pred (by simp [hm]), fun k d hm => hsz.2 k d (by simp [hm])⟩
    rw [← List.singleton_append, stepsOf_append] at hc
    cases v with
    | op o =>
      have hso : Sized c [o] := by
        intro k d hm
        simp only [List.mem_singleton] at hm
        exact absurd (by simp [hm]) (hsz.2 k d)
      have h1 := hist_step hl hB h hso hr1
      have hw : writesTo ens e [o] = [] := by
        cases o with
        | write k d => exact absurd (by simp) (hsz.2 k d)
        | _ => rfl
      have hw' : writesTo ens e (ops ++ [o]) = writesTo ens e ops := by rw [writesTo_append, hw, List.append_nil]
      obtain ⟨ops', h2, h3⟩ := ih (T := T) hsz' (by simpa [stepsOf] using hc) h1 (by rw [hw']; exact hT) hr2
      exact ⟨ops', h2, h3.trans hw'⟩
    | loc t dt first n pred =>
      obtain ⟨ops1, h1, h2⟩ := loc_spec hl hB hasc (hsz.1 t dt first n pred (by simp)) h hr1
      have h3 := h2 e he
      by_cases hin : first ≤ e ∧ e < first + n
      · rw [if_pos hin] at h3
        have hst : stepsOf e [Ev.loc t dt first n pred] = [⟨t, dt, pred e⟩] := by simp [stepsOf, hin]
        rw [hst] at hc
        simp only [List.singleton_append, Consecutive] at hc
        obtain ⟨m, h4, h5, -⟩ := h3
        have hm : m = 0 := by
          by_contra hm
          have := (h5 0 (by omega)).1
          rw [Nat.cast_zero, zero_mul, add_zero, hc.1] at this
          exact absurd this (not_lt.mpr hT)
        subst hm
        have hw' : writesTo ens e (ops ++ ops1) = writesTo ens e ops := by
          rw [writesTo_append, h4]; simp
        obtain ⟨ops', h6, h7⟩ := ih hsz' hc.2.2 h1 (by rw [hw']; have := hc.2.1; linarith) hr2
        exact ⟨ops', h6, h7.trans hw'⟩
      · rw [if_neg hin] at h3
        have hst : stepsOf e [Ev.loc t dt first n pred] = [] := by simp [stepsOf, hin]
        rw [hst, List.nil_append] at hc
        have hw' : writesTo ens e (ops ++ ops1) = writesTo ens e ops := by
          rw [writesTo_append, h3, List.append_nil]
        obtain ⟨ops', h6, h7⟩ := ih hsz' hc h1 (by rw [hw']; exact hT) hr2
        exact ⟨ops', h6, h7.trans hw'⟩

theorem runEvs_append (c : Cfg K) (flag : Nat → Bool) (s : St K) (l l' : List (Ev K)) :
    runEvs c flag s (l ++ l') = (runEvs c flag s l).bind (fun s' => runEvs c flag s' l') := by
  induction l generalizing s with
  | nil => rfl
  | cons o l ih =>
    simp only [List.cons_append, runEvs]
    rw [Option.bind_assoc]
    congr 1
    funext s'
    exact ih s'

/-- **C43 (negative part).** If the sample `n` coincides with the end of a step minus `tol`, this sample and all following ones are lost: no matter
which steps and flushes follow, the receiver has exactly the `n` rows of the previous samples. -/
theorem C43_lost_refuted (c : Cfg K) (hB : c.buffSize < c.uint) (hf : 0 < c.freq) (t0 : K) (eval : Nat → Nat → Option (List K))
    (deIds : List (Option Nat)) (nIn nSe : List Nat)
    (hev : ∀ re en, deIds[re]? = some (some en) → en < nIn.sum + nSe.sum → ∃ b, eval en re = some b ∧ b.length = c.nMds)
    (s0 s : St K) (ens : List Nat) (h0 : init c t0 eval deIds nIn nSe = some s0) (hens : getEnRecv s0 = some ens)
    (evs1 evs2 : List (Ev K)) (t dt : K) (first m : Nat) (pred : Nat → K → List K)
    (hsz : SizedEv c (evs1 ++ [.loc t dt first m pred] ++ evs2))
    (hrun : runEvs c (fun e => decide (e ∈ ens)) s0 (evs1 ++ [.loc t dt first m pred] ++ evs2) = some s)
    (re en : Nat) (hd : deIds[re]? = some (some en)) (he : en < nIn.sum + nSe.sum) (hin : first ≤ en ∧ en < first + m)
    (tS : K) (hS : tS - c.tol < t0) (hc : Consecutive tS (stepsOf en (evs1 ++ [.loc t dt first m pred] ++ evs2)))
    (hne : ∀ st ∈ stepsOf en evs1, ∀ i : Nat, t0 + i * c.freq ≠ st.t + st.dt - c.tol)
    (n : Nat) (hn : t0 + n * c.freq = t + dt - c.tol) (hpos : 0 < dt) :
    ∃ r ∈ s.recvs, r.id = re ∧ (∀ r' ∈ s.recvs, r'.id = re → r' = r) ∧ (rows c r).length = n := by
  obtain ⟨s0', h1, h2⟩ := init_spec (t0 := t0) hev
  rw [h0] at h1
  obtain rfl := Option.some.inj h1
  obtain ⟨l, h3, h4, h5, h6, -⟩ := getEnRecv_spec h2.wf
  rw [hens] at h3
  obtain rfl := Option.some.inj h3
  have hmem : en ∈ ens := by
    rw [h5]
    have : (en, re) ∈ keysBelow deIds (nIn.sum + nSe.sum) := mem_keysBelow.mpr ⟨he, hd⟩
    rw [← h2.keys] at this
    obtain ⟨r, hr, hre⟩ := List.mem_map.mp this
    simp only [Prod.mk.injEq] at hre
    rw [← hre.1]
    exact List.mem_map_of_mem hr
  have hst : stepsOf en [Ev.loc t dt first m pred] = [⟨t, dt, pred en⟩] := by simp [stepsOf, hin]
  rw [List.append_assoc, stepsOf_append, stepsOf_append, hst] at hc
  have hc2 := hc.append
  simp only [List.singleton_append, Consecutive] at hc2
  have hc1 : Consecutive tS (stepsOf en evs1) := by
    have : ∀ (a b : List (Step K)) (t : K), Consecutive t (a ++ b) → Consecutive t a := by
      intro a
      induction a with
      | nil => intros; trivial
      | cons st a ih => intro b t h; exact ⟨h.1, h.2.1, ih b _ h.2.2⟩
    exact this _ _ _ hc
  rw [List.append_assoc, runEvs_append] at hrun
  rcases hr1 : runEvs c (fun e => decide (e ∈ ens)) s0 evs1 with _ | s1
  · rw [hr1] at hrun; cases hrun
  rw [hr1, Option.bind_some, runEvs_append] at hrun
  have hsz1 : SizedEv c evs1 := ⟨fun t dt a b p hm => hsz.1 t dt a b p (by simp [hm]), fun k d hm => hsz.2 k d (by simp [hm])⟩
  have hsz2 : SizedEv c evs2 := ⟨fun t dt a b p hm => hsz.1 t dt a b p (by simp [hm]), fun k d hm => hsz.2 k d (by simp [hm])⟩
  obtain ⟨ops, hH, hG⟩ := run_good (done := []) h6 hB h4 hf hmem hsz1 hc1 hne (hist_init h2 ens)
    (by simpa [stepsOf, endTime, writesTo] using (⟨by simpa using hS, by simp, by simp⟩ : Good c t0 tS [] [])) hr1
  rw [List.nil_append] at hG
  simp only [runEvs] at hrun
  rcases hr2 : runEv c (fun e => decide (e ∈ ens)) s1 (.loc t dt first m pred) with _ | s2
  · rw [hr2] at hrun; cases hrun
  rw [hr2] at hrun
  simp only [Option.bind_some] at hrun
  obtain ⟨ops1, hH1, hd1⟩ := loc_spec h6 hB h4 (hsz.1 t dt first m pred (by simp)) hH hr2
  have hd2 := hd1 en hmem
  rw [if_pos hin] at hd2
  obtain ⟨j, j1, j2, j3⟩ := hd2
  simp only at j1 j2 j3
  have hsh : ∀ i : Nat, t0 + ((writesTo ens en ops).length : K) * c.freq + i * c.freq
      = t0 + (((writesTo ens en ops).length + i : Nat) : K) * c.freq := by
    intro i; push_cast; ring
  simp only [hsh] at j2 j3
  have hmono : ∀ a b : Nat, t0 + (a : K) * c.freq < t0 + b * c.freq ↔ a < b := by
    intro a b
    rw [add_lt_add_iff_left, mul_lt_mul_iff_left₀ hf, Nat.cast_lt]
  have hlen : (writesTo ens en ops).length + j = n := by
    have hle : (writesTo ens en ops).length + j ≤ n := by
      rcases Nat.eq_zero_or_pos j with rfl | hj
      · by_contra hc
        have h7 : n < (writesTo ens en ops).length := by omega
        have := hG.lt n h7
        rw [hn, ← hc2.1] at this
        linarith
      · have := (j2 (j - 1) (by omega)).2
        rw [← hn, hmono] at this
        omega
    have hge : ¬ (writesTo ens en ops).length + j < n := by
      intro h
      refine j3 ⟨?_, by rw [← hn, hmono]; exact h⟩
      have h7 := hG.next
      rw [← hc2.1] at h7
      have : t0 + ((writesTo ens en ops).length : K) * c.freq ≤ t0 + (((writesTo ens en ops).length + j : Nat) : K) * c.freq := by
        by_contra h8
        rw [not_le, hmono] at h8
        omega
      linarith
    omega
  have hlen' : (writesTo ens en (ops ++ ops1)).length = n := by
    rw [writesTo_append, j1]
    simpa using hlen
  obtain ⟨ops', hH', hw'⟩ := run_stuck h6 hB h4 hmem hsz2 hc2.2.2 hH1 (by rw [hlen', hn, ← hc2.1]) hrun
  obtain ⟨r, b', h7, h8, h9, -, -, -, h12⟩ := recv_of_id h2 hH' hd he
  refine ⟨r, h7, h8, h9, ?_⟩
  rw [h12, hw', expected, List.length_mapIdx, hlen']

end

/-! Concrete cases: a receiver in element 2; three steps of length 3/2, samples at 0, 1, 2, …; a conditional flush after the first step.
With `tol = 1/100` all samples are taken, with `tol = 1/2` the sample at time 1 coincides with the end of the first step minus `tol`. -/

def smpCfg (tol : Rat) : Cfg Rat where
  nQts := 1
  nCrs := 1
  nMds := 1
  buffSize := 3
  freq := 1
  tol := tol
  uint := 2 ^ 32

def smpLoc (k : Nat) : Ev Rat := .loc (k * (3 / 2)) (3 / 2) 1 2 (fun _ x => [x])
def smpEvs : List (Ev Rat) := [smpLoc 0] ++ [.op (.flushIf 3), smpLoc 1, .op .flushAll, smpLoc 2]

/-- The files and buffered rows after a run. -/
def smpRun (tol : Rat) : Option (List (List (Rat × List Rat))) := do
  let s0 ← init (smpCfg tol) 0 (fun _ _ => some [1]) [some 2] [3] []
  let ens ← getEnRecv s0
  let s ← runEvs (smpCfg tol) (fun e => decide (e ∈ ens)) s0 smpEvs
  some (s.recvs.map (rows (smpCfg tol)))

example : smpRun (1 / 100) = some [[(0, [0]), (1, [1]), (2, [1 / 2]), (3, [0]), (4, [1])]] := by decide +kernel
example : smpRun (1 / 2) = some [[(0, [0])]] := by decide +kernel

end Edge.Recv
