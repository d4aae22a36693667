import Verif.Recv.Init
import Mathlib.Tactic.NormNum
/-!
C42: what ends up in the files of the receivers, for every history of writes and flushes.
-/
namespace Edge.Recv
open Edge

/-- Calls of the public interface (and of `flush`). -/
inductive Op (K : Type) where
  | write (spEn : Nat) (dofs : List K)
  | flush (i : Nat)
  | flushIf (th : Nat)
  | flushAll

section
variable {K : Type} [Field K]

def runOp (c : Cfg K) (s : St K) : Op K → Option (St K)
  | .write k d => writeRecvAll c s k d
  | .flush i => flush c s i
  | .flushIf th => flushIf c th s
  | .flushAll => flushAll c s

def runOps (c : Cfg K) (s : St K) : List (Op K) → Option (St K)
  | [] => some s
  | o :: l => (runOp c s o).bind (fun s' => runOps c s' l)

theorem runOps_append (c : Cfg K) (s : St K) (l l' : List (Op K)) :
    runOps c s (l ++ l') = (runOps c s l).bind (fun s' => runOps c s' l') := by
  induction l generalizing s with
  | nil => rfl
  | cons o l ih =>
    simp only [List.cons_append, runOps]
    rw [Option.bind_assoc]
    congr 1
    funext s'
    exact ih s'

/-- Data written to entity `e`, if `ens` are the entities of the sparse ids. -/
def writesTo (ens : List Nat) (e : Nat) (ops : List (Op K)) : List (List K) :=
  ops.filterMap (fun o => match o with
    | .write k d => if ens[k]? = some e then some d else none
    | _ => none)

/-- Specification of the rows of a receiver: the `i`-th one has time `t0 + i * freq`. -/
def expected (c : Cfg K) (t0 : K) (basis : List K) (ds : List (List K)) : List (K × List K) :=
  ds.mapIdx (fun i d => (t0 + i * c.freq, sample c basis d))

/-- All data have the size of `[N_QUANTITIES][N_ELEMENT_MODES][N_CRUNS]`. -/
def Sized (c : Cfg K) (ops : List (Op K)) : Prop :=
  ∀ k d, Op.write k d ∈ ops → d.length = c.nQts * c.nMds * c.nCrs

/-- Invariant of a history `done` which began in `s0`. -/
structure Hist (c : Cfg K) (t0 : K) (s0 : St K) (l : List Nat) (done : List (Op K)) (s : St K) : Prop where
  wf : s.WF c
  ens : s.ens = s0.ens
  sp : s.sp = s0.sp
  rcv : ∀ (i : Nat) (r0 : Rcv K), s0.recvs[i]? = some r0 → ∃ r : Rcv K, s.recvs[i]? = some r ∧ Same r0 r ∧
    r.time = t0 + (writesTo l r0.en done).length * c.freq ∧ rows c r = expected c t0 r0.basis (writesTo l r0.en done)

theorem enOf_eq {s s0 : St K} (h1 : s.ens = s0.ens) (h2 : s.sp = s0.sp) (k : Nat) : s.enOf k = s0.enOf k := by
  rw [St.enOf, St.enOf, h1, h2]

theorem getElem?_of_ens {s s0 : St K} (h1 : s.ens = s0.ens) {i : Nat} {r : Rcv K} (h : s.recvs[i]? = some r) :
    ∃ r0, s0.recvs[i]? = some r0 ∧ r0.en = r.en := by
  have : s0.ens[i]? = some r.en := by rw [← h1]; simp [St.ens, h]
  simpa [St.ens] using this

theorem writesTo_snoc (l : List Nat) (e : Nat) (done : List (Op K)) (o : Op K) :
    writesTo l e (done ++ [o]) = writesTo l e done ++ writesTo l e [o] := by
  simp [writesTo, List.filterMap_append]

theorem expected_snoc (c : Cfg K) (t0 : K) (b : List K) (ds : List (List K)) (d : List K) :
    expected c t0 b (ds ++ [d]) = expected c t0 b ds ++ [(t0 + ds.length * c.freq, sample c b d)] := by
  simp [expected, List.mapIdx_append]

/-- A step which only flushes. -/
theorem hist_flush {c : Cfg K} {t0 : K} {s0 : St K} {l : List Nat} {done : List (Op K)} {s s' : St K} {o : Op K}
    (h : Hist c t0 s0 l done s) (hw : s'.WF c) (he : s'.ens = s.ens) (hsp : s'.sp = s.sp)
    (ho : ∀ e, writesTo l e [o] = [])
    (hr : ∀ (i : Nat) (r : Rcv K), s.recvs[i]? = some r → ∃ r' : Rcv K, s'.recvs[i]? = some r' ∧ Same r r' ∧ r'.time = r.time ∧ rows c r' = rows c r) :
    Hist c t0 s0 l (done ++ [o]) s' := by
  refine ⟨hw, he.trans h.ens, hsp.trans h.sp, ?_⟩
  intro i r0 hr0
  obtain ⟨r, h1, h2, h3, h4⟩ := h.rcv i r0 hr0
  obtain ⟨r', h5, h6, h7, h8⟩ := hr i r h1
  rw [writesTo_snoc, ho, List.append_nil]
  exact ⟨r', h5, h2.trans h6, h7.trans h3, h8.trans h4⟩

/-- Effect of the operations on the state, as far as the history is concerned. -/
theorem hist_step {c : Cfg K} {t0 : K} {s0 : St K} {l : List Nat} (hl : ∀ k, l[k]? = s0.enOf k) (hB : c.buffSize < c.uint)
    {done : List (Op K)} {s s' : St K} {o : Op K} (h : Hist c t0 s0 l done s) (hs : Sized c [o]) (hr : runOp c s o = some s') :
    Hist c t0 s0 l (done ++ [o]) s' := by
  cases o with
  | write k d =>
    have hD := hs k d (by simp)
    have hk : k < s.sp.length := by
      by_contra hk
      rw [runOp, writeRecvAll_unknown (by omega)] at hr
      cases hr
    obtain ⟨e, -, -, -, -, -, he, -⟩ := enOf_some h.wf hk
    have hcs := writeRecvAll_cases h.wf he hD
    by_cases hf : ∃ r ∈ s.recvs, r.en = e ∧ c.buffSize ≤ r.nBuff
    · rw [runOp, hcs.2 hf] at hr; cases hr
    · have hn : ∀ r ∈ s.recvs, r.en = e → r.nBuff < c.buffSize := by
        intro r h1 h2
        by_contra h3
        exact hf ⟨r, h1, h2, by omega⟩
      rw [runOp, hcs.1 hn] at hr
      obtain rfl := Option.some.inj hr
      have hm := h.wf.map (f := upd c e d) (fun r h1 => by
        have := upd_spec (h.wf.rcv r h1) hD (hn r h1)
        exact ⟨this.1, this.2.1⟩)
      refine ⟨hm.1, hm.2.trans h.ens, h.sp, ?_⟩
      intro i r0 hr0
      obtain ⟨r, h1, h2, h3, h4⟩ := h.rcv i r0 hr0
      have hmem := List.mem_of_getElem? h1
      obtain ⟨u1, u2, u3, u4, u5⟩ := upd_spec (h.wf.rcv r hmem) hD (hn r hmem)
      refine ⟨upd c e d r, by simp [h1], h2.trans u2, ?_⟩
      have hle : l[k]? = some e := by rw [hl, ← enOf_eq h.ens h.sp, he]
      rw [writesTo_snoc]
      by_cases hre : r0.en = e
      · have hre' : r.en = e := h2.1.trans hre
        have hw1 : writesTo l r0.en [Op.write k d] = [d] := by simp [writesTo, hle, hre]
        rw [hw1, u3, u5, if_pos hre', if_pos hre', h4, expected_snoc, h3, h2.2.2]
        refine ⟨?_, rfl⟩
        rw [List.length_append, List.length_singleton]
        push_cast
        ring
      · have hre' : r.en ≠ e := by rw [h2.1]; exact hre
        have hw1 : writesTo l r0.en [Op.write k d] = [] := by
          simp [writesTo, hle]
          exact fun h => hre h.symm
        rw [hw1, u3, u5, if_neg hre', if_neg hre', List.append_nil, List.append_nil]
        exact ⟨h3, h4⟩
  | flush i =>
    rcases hi : s.recvs[i]? with _ | r
    · rw [runOp, flush] at hr
      simp [rd, hi] at hr
    · have hwr := h.wf.rcv r (List.mem_of_getElem? hi)
      rw [runOp, flush_spec hi hwr] at hr
      obtain rfl := Option.some.inj hr
      have hm := h.wf.set hi (fl_wf hwr) (fl_same c r)
      refine hist_flush h hm.1 hm.2 rfl (fun e => rfl) ?_
      intro j q hq
      simp only [List.getElem?_set]
      by_cases hij : i = j
      · subst hij
        rw [hi] at hq
        obtain rfl := Option.some.inj hq
        rw [if_pos rfl, if_pos (getElem?_lt hi)]
        exact ⟨_, rfl, fl_same c r, rfl, rows_fl c r⟩
      · rw [if_neg hij]
        exact ⟨q, hq, Same.rfl, rfl, rfl⟩
  | flushIf th =>
    rw [runOp, flushIf_spec h.wf.rcv hB] at hr
    obtain rfl := Option.some.inj hr
    have hm := h.wf.map (f := flIf c th) (fun r h1 => ⟨flIf_wf (h.wf.rcv r h1), flIf_same c th r⟩)
    refine hist_flush h hm.1 hm.2 rfl (fun e => rfl) ?_
    intro j q hq
    exact ⟨flIf c th q, by simp [hq], flIf_same c th q, flIf_time c th q, rows_flIf c th q⟩
  | flushAll =>
    rw [runOp, flushAll_spec h.wf.rcv] at hr
    obtain rfl := Option.some.inj hr
    have hm := h.wf.map (f := fl c) (fun r h1 => ⟨fl_wf (h.wf.rcv r h1), fl_same c r⟩)
    refine hist_flush h hm.1 hm.2 rfl (fun e => rfl) ?_
    intro j q hq
    exact ⟨fl c q, by simp [hq], fl_same c q, rfl, rows_fl c q⟩

theorem hist_run {c : Cfg K} {t0 : K} {s0 : St K} {l : List Nat} (hl : ∀ k, l[k]? = s0.enOf k) (hB : c.buffSize < c.uint)
    {ops done : List (Op K)} {s s' : St K} (h : Hist c t0 s0 l done s) (hs : Sized c ops) (hr : runOps c s ops = some s') :
    Hist c t0 s0 l (done ++ ops) s' := by
  induction ops generalizing done s with
  | nil => simp only [runOps, Option.some.injEq] at hr; subst hr; simpa using h
  | cons o ops ih =>
    simp only [runOps] at hr
    rcases h1 : runOp c s o with _ | s1
    · rw [h1] at hr; cases hr
    · rw [h1] at hr
      have h2 := hist_step hl hB h (fun k d hk => hs k d (by simp at hk; simp [hk])) h1
      have h3 := ih h2 (fun k d hk => hs k d (by simp [hk])) hr
      simpa using h3

theorem hist_init {c : Cfg K} {t0 : K} {eval : Nat → Nat → Option (List K)} {s0 : St K} {keys : List (Nat × Nat)}
    (h : Built c t0 eval s0 keys) (l : List Nat) : Hist c t0 s0 l [] s0 := by
  refine ⟨h.wf, rfl, rfl, ?_⟩
  intro i r0 hr0
  have hf := h.fresh r0 (List.mem_of_getElem? hr0)
  refine ⟨r0, hr0, Same.rfl, by simp [writesTo, hf.2.2.1], ?_⟩
  rw [rows, buffered_zero hf.1, hf.2.1]
  rfl

/-- In a state reached from the initial one there is exactly one receiver for every owned one of the input. -/
theorem recv_of_id {c : Cfg K} {t0 : K} {eval : Nat → Nat → Option (List K)} {deIds : List (Option Nat)} {E : Nat} {s0 s : St K}
    {l : List Nat} {done : List (Op K)} (h0 : Built c t0 eval s0 (keysBelow deIds E)) (h : Hist c t0 s0 l done s) {re en : Nat}
    (hd : deIds[re]? = some (some en)) (he : en < E) :
    ∃ r b, r ∈ s.recvs ∧ r.id = re ∧ (∀ r' ∈ s.recvs, r'.id = re → r' = r) ∧ eval en re = some b ∧ r.en = en ∧
      r.time = t0 + (writesTo l en done).length * c.freq ∧ rows c r = expected c t0 b (writesTo l en done) := by
  have hk : (en, re) ∈ keysBelow deIds E := mem_keysBelow.mpr ⟨he, hd⟩
  rw [← h0.keys] at hk
  obtain ⟨r0, hm0, hr0⟩ := List.mem_map.mp hk
  simp only [Prod.mk.injEq] at hr0
  obtain ⟨i, hi, hir⟩ := List.getElem_of_mem hm0
  have hi' : s0.recvs[i]? = some r0 := by rw [List.getElem?_eq_getElem hi, hir]
  obtain ⟨r, h1, h2, h3, h4⟩ := h.rcv i r0 hi'
  have hf := h0.fresh r0 hm0
  refine ⟨r, r0.basis, List.mem_of_getElem? h1, h2.2.1.trans hr0.2, ?_, ?_, h2.1.trans hr0.1, ?_, ?_⟩
  · intro r' hr' hid
    obtain ⟨j, hj, hjr⟩ := List.getElem_of_mem hr'
    have hj' : s.recvs[j]? = some r' := by rw [List.getElem?_eq_getElem hj, hjr]
    obtain ⟨q0, hq0, -⟩ := getElem?_of_ens h.ens hj'
    obtain ⟨q, hq1, hq2, -⟩ := h.rcv j q0 hq0
    rw [hj'] at hq1
    obtain rfl := Option.some.inj hq1
    have hnd : (s0.recvs.map Rcv.id).Nodup := by
      have := ids_nodup deIds E
      rw [← h0.keys, List.map_map] at this
      exact this
    have e1 : (s0.recvs.map Rcv.id)[i]? = some re := by simp [hi', hr0.2]
    have e2 : (s0.recvs.map Rcv.id)[j]? = some re := by simp [hq0, ← hq2.2.1, hid]
    have hij : i = j := by
      have hii : i < (s0.recvs.map Rcv.id).length := getElem?_lt e1
      exact (List.getElem?_inj hii hnd).mp (e1.trans e2.symm)
    subst hij
    rw [h1] at hj'
    exact (Option.some.inj hj').symm
  · rw [← hr0.1, ← hr0.2]; exact hf.2.2.2
  · rw [h3, hr0.1]
  · rw [h4, hr0.1]

/-- **C42 (assignment of receivers).** Initialisation with receivers whose elements `deIds` have been determined succeeds if all of their
locations can be evaluated. Afterwards `getEnRecv` returns, in ascending order, exactly the elements which have receivers,
there is exactly one receiver for each of the input which is located in an element of the rank, nothing has been written and the first
sample is due at `t0`. -/
theorem C42_init (c : Cfg K) (t0 : K) (eval : Nat → Nat → Option (List K)) (deIds : List (Option Nat)) (nIn nSe : List Nat)
    (hev : ∀ re en, deIds[re]? = some (some en) → en < nIn.sum + nSe.sum → ∃ b, eval en re = some b ∧ b.length = c.nMds) :
    ∃ s ens, init c t0 eval deIds nIn nSe = some s ∧ getEnRecv s = some ens ∧ ens.Pairwise (· < ·) ∧
      (∀ e, e ∈ ens ↔ e < nIn.sum + nSe.sum ∧ some e ∈ deIds) ∧
      (∀ r ∈ s.recvs, deIds[r.id]? = some (some r.en) ∧ r.en < nIn.sum + nSe.sum) ∧
      ∀ re en, deIds[re]? = some (some en) → en < nIn.sum + nSe.sum →
        ∃ r ∈ s.recvs, r.id = re ∧ (∀ r' ∈ s.recvs, r'.id = re → r' = r) ∧ r.en = en ∧ eval en re = some r.basis ∧
          r.time = t0 ∧ r.nBuff = 0 ∧ r.file = [] := by
  obtain ⟨s, h1, h2⟩ := init_spec (t0 := t0) hev
  obtain ⟨l, h3, h4, h5, h6, -⟩ := getEnRecv_spec h2.wf
  have hkey : ∀ r ∈ s.recvs, deIds[r.id]? = some (some r.en) ∧ r.en < nIn.sum + nSe.sum := by
    intro r hr
    have : (r.en, r.id) ∈ keysBelow deIds (nIn.sum + nSe.sum) := by
      rw [← h2.keys]; exact List.mem_map.mpr ⟨r, hr, rfl⟩
    have := mem_keysBelow.mp this
    exact ⟨this.2, this.1⟩
  refine ⟨s, l, h1, h3, h4, ?_, hkey, ?_⟩
  · intro e
    rw [h5]
    constructor
    · intro he
      obtain ⟨r, hr, rfl⟩ := List.mem_map.mp he
      exact ⟨(hkey r hr).2, List.mem_of_getElem? (hkey r hr).1⟩
    · rintro ⟨he, hm⟩
      obtain ⟨re, hre⟩ := List.mem_iff_getElem?.mp hm
      have : (e, re) ∈ keysBelow deIds (nIn.sum + nSe.sum) := mem_keysBelow.mpr ⟨he, hre⟩
      rw [← h2.keys] at this
      obtain ⟨r, hr, hre'⟩ := List.mem_map.mp this
      simp only [Prod.mk.injEq] at hre'
      rw [← hre'.1]
      exact List.mem_map_of_mem hr
  · intro re en hd he
    obtain ⟨r, b, h7, h8, h9, h10, h11, -⟩ := recv_of_id h2 (hist_init h2 l) hd he
    have hf := h2.fresh r h7
    refine ⟨r, h7, h8, h9, h11, ?_, hf.2.2.1, hf.1, hf.2.1⟩
    rw [← h8, ← h11]
    exact hf.2.2.2

/-- **C42.** For every history of writes, conditional and unconditional flushes after an initialisation that ends with the flush of the
destructor (and in which no check failed), the file of every receiver holds exactly the samples written to its element, each once and in
order: the `i`-th row has time `t0 + i * freq` and the modes of the `i`-th write evaluated at the location of the receiver. -/
theorem C42_history (c : Cfg K) (hB : c.buffSize < c.uint) (t0 : K) (eval : Nat → Nat → Option (List K)) (deIds : List (Option Nat))
    (nIn nSe : List Nat)
    (hev : ∀ re en, deIds[re]? = some (some en) → en < nIn.sum + nSe.sum → ∃ b, eval en re = some b ∧ b.length = c.nMds)
    (s0 s : St K) (ens : List Nat) (h0 : init c t0 eval deIds nIn nSe = some s0) (hens : getEnRecv s0 = some ens)
    (ops : List (Op K)) (hops : ∀ k d, Op.write k d ∈ ops → d.length = c.nQts * c.nMds * c.nCrs)
    (hrun : runOps c s0 (ops ++ [.flushAll]) = some s)
    (re en : Nat) (b : List K) (hd : deIds[re]? = some (some en)) (he : en < nIn.sum + nSe.sum) (hb : eval en re = some b) :
    ∃ r ∈ s.recvs, r.id = re ∧ (∀ r' ∈ s.recvs, r'.id = re → r' = r) ∧ r.nBuff = 0 ∧
      r.file = (writesTo ens en ops).mapIdx (fun i d => (t0 + i * c.freq, sample c b d)) := by
  obtain ⟨s0', h1, h2⟩ := init_spec (t0 := t0) hev
  rw [h0] at h1
  obtain rfl := Option.some.inj h1
  obtain ⟨l, h3, -, -, h6, -⟩ := getEnRecv_spec h2.wf
  rw [hens] at h3
  obtain rfl := Option.some.inj h3
  rw [runOps_append] at hrun
  rcases hm : runOps c s0 ops with _ | s1
  · rw [hm] at hrun; cases hrun
  rw [hm] at hrun
  have hH := hist_run h6 hB (hist_init h2 ens) hops hm
  rw [List.nil_append] at hH
  obtain ⟨r, b', h7, h8, h9, h10, h11, -, h12⟩ := recv_of_id h2 hH hd he
  rw [hb] at h10
  obtain rfl := Option.some.inj h10
  simp only [Option.bind_some, runOps, runOp, flushAll_spec hH.wf.rcv] at hrun
  obtain rfl := Option.some.inj hrun
  refine ⟨fl c r, List.mem_map_of_mem h7, h8, ?_, rfl, ?_⟩
  · intro r' hr' hid
    obtain ⟨q, hq, rfl⟩ := List.mem_map.mp hr'
    rw [h9 q hq hid]
  · exact h12

/-! ### Absence of overflows -/

/-- Between conditional flushes with threshold `th` at most `th` samples are written to sparse entity `k`; `n` have been
written since the last one. -/
def Spaced (th k : Nat) : Nat → List (Op K) → Prop
  | _, [] => True
  | n, .write k' _ :: l => if k' = k then n < th ∧ Spaced th k (n + 1) l else Spaced th k n l
  | n, .flush _ :: l => Spaced th k n l
  | n, .flushIf th' :: l => if th' = th then Spaced th k 0 l else Spaced th k n l
  | n, .flushAll :: l => Spaced th k n l

theorem spaced_run {c : Cfg K} {s : St K} (hB : c.buffSize < c.uint) {th : Nat} (hth : th ≤ c.buffSize) {ops : List (Op K)}
    (hw : s.WF c) (hs : Sized c ops) (hk : ∀ k d, Op.write k d ∈ ops → k < s.sp.length)
    (hf : ∀ i, Op.flush i ∈ ops → i < s.recvs.length) (n : Nat → Nat)
    (hn : ∀ k e, s.enOf k = some e → ∀ r ∈ s.recvs, r.en = e → r.nBuff + th ≤ c.buffSize + n k)
    (hsp : ∀ k, k < s.sp.length → Spaced th k (n k) ops) : ∃ s', runOps c s ops = some s' := by
  induction ops generalizing s n with
  | nil => exact ⟨s, rfl⟩
  | cons o ops ih =>
    have hs' : Sized c ops := fun k d h => hs k d (by simp [h])
    cases o with
    | write k d =>
      have hkl := hk k d (by simp)
      have hD := hs k d (by simp)
      obtain ⟨e, -, -, -, -, -, he, -⟩ := enOf_some hw hkl
      have hsk := hsp k hkl
      simp only [Spaced, if_true] at hsk
      have hnn : ∀ r ∈ s.recvs, r.en = e → r.nBuff < c.buffSize := by
        intro r h1 h2
        have := hn k e he r h1 h2
        omega
      have e1 := (writeRecvAll_cases hw he hD).1 hnn
      simp only [runOps, runOp, e1, Option.bind_some]
      have hm := hw.map (f := upd c e d) (fun r h1 => by
        have := upd_spec (hw.rcv r h1) hD (hnn r h1)
        exact ⟨this.1, this.2.1⟩)
      obtain ⟨l, -, hasc, -, hl, -⟩ := getEnRecv_spec hw
      refine ih (s := { s with recvs := s.recvs.map (upd c e d) }) hm.1 hs' (fun k' d' h => hk k' d' (by simp [h]))
        (fun i h => by simpa using hf i (by simp [h])) (fun k' => if k' = k then n k + 1 else n k') ?_ ?_
      · intro k' e' he' r hr hre
        obtain ⟨q, hq, rfl⟩ := List.mem_map.mp hr
        obtain ⟨-, u2, -, u4, -⟩ := upd_spec (hw.rcv q hq) hD (hnn q hq)
        rw [enOf_eq hm.2 rfl] at he'
        rw [u2.1] at hre
        rw [u4]
        have h1 := hn k' e' he' q hq hre
        by_cases hkk : k' = k
        · subst hkk
          simp only [if_true]
          split <;> omega
        · simp only [hkk, if_false]
          have : q.en ≠ e := by
            rintro rfl
            rw [hre] at he
            have a1 : l[k]? = some e' := by rw [hl, he]
            have a2 : l[k']? = some e' := by rw [hl, he']
            exact hkk ((List.getElem?_inj (getElem?_lt a2) (hasc.imp (fun h => Nat.ne_of_lt h))).mp (a2.trans a1.symm))
          rw [if_neg this]
          exact h1
      · intro k' hk'
        have := hsp k' hk'
        simp only [Spaced] at this
        by_cases hkk : k = k'
        · subst hkk
          simp only [if_true] at this ⊢
          exact this.2
        · rw [if_neg hkk] at this
          rw [if_neg (fun h => hkk h.symm)]
          exact this
    | flush i =>
      have hi := hf i (by simp)
      have hr : s.recvs[i]? = some s.recvs[i] := List.getElem?_eq_getElem hi
      have hwr := hw.rcv _ (List.getElem_mem hi)
      simp only [runOps, runOp, flush_spec hr hwr, Option.bind_some]
      have hm := hw.set hr (fl_wf hwr) (fl_same c _)
      refine ih hm.1 hs' (fun k' d' h => hk k' d' (by simp [h])) (fun i h => by simpa using hf i (by simp [h])) n ?_
        (fun k' hk' => by have := hsp k' hk'; simpa only [Spaced] using this)
      intro k' e' he' r hr' hre
      rw [enOf_eq hm.2 rfl] at he'
      rcases List.mem_or_eq_of_mem_set hr' with h | rfl
      · exact hn k' e' he' r h hre
      · simp only [fl]; omega
    | flushIf th' =>
      simp only [runOps, runOp, flushIf_spec hw.rcv hB, Option.bind_some]
      have hm := hw.map (f := flIf c th') (fun r h1 => ⟨flIf_wf (hw.rcv r h1), flIf_same c th' r⟩)
      refine ih (s := { s with recvs := s.recvs.map (flIf c th') }) hm.1 hs' (fun k' d' h => hk k' d' (by simp [h]))
        (fun i h => by simpa using hf i (by simp [h])) (fun k => if th' = th then 0 else n k) ?_ ?_
      · intro k' e' he' r hr hre
        obtain ⟨q, hq, rfl⟩ := List.mem_map.mp hr
        rw [enOf_eq hm.2 rfl] at he'
        rw [(flIf_same c th' q).1] at hre
        have h1 := hn k' e' he' q hq hre
        have h2 := (hw.rcv q hq).nb
        unfold flIf
        split
        · simp only [fl]; omega
        · next hge => split <;> omega
      · intro k' hk'
        have := hsp k' hk'
        simp only [Spaced] at this
        by_cases h : th' = th
        · rw [if_pos h] at this; rw [if_pos h]; exact this
        · rw [if_neg h] at this; rw [if_neg h]; exact this
    | flushAll =>
      simp only [runOps, runOp, flushAll_spec hw.rcv, Option.bind_some]
      have hm := hw.map (f := fl c) (fun r h1 => ⟨fl_wf (hw.rcv r h1), fl_same c r⟩)
      refine ih (s := { s with recvs := s.recvs.map (fl c) }) hm.1 hs' (fun k' d' h => hk k' d' (by simp [h]))
        (fun i h => by simpa using hf i (by simp [h])) n ?_
        (fun k' hk' => by have := hsp k' hk'; simpa only [Spaced] using this)
      intro k' e' he' r hr hre
      obtain ⟨q, hq, rfl⟩ := List.mem_map.mp hr
      simp only [fl]; omega

/-- **C42 (no overflow).** If between two conditional flushes with a threshold `th` (50 by default) of at most the size of the buffers at
most `th` samples are written to each element, then no buffer overflows: the history, followed by the flush of the
destructor, runs through. -/
theorem C42_no_overflow (c : Cfg K) (hB : c.buffSize < c.uint) (t0 : K) (eval : Nat → Nat → Option (List K))
    (deIds : List (Option Nat)) (nIn nSe : List Nat)
    (hev : ∀ re en, deIds[re]? = some (some en) → en < nIn.sum + nSe.sum → ∃ b, eval en re = some b ∧ b.length = c.nMds)
    (s0 : St K) (ens : List Nat) (h0 : init c t0 eval deIds nIn nSe = some s0) (hens : getEnRecv s0 = some ens)
    (th : Nat) (hth : th ≤ c.buffSize) (ops : List (Op K))
    (hops : ∀ k d, Op.write k d ∈ ops → k < ens.length ∧ d.length = c.nQts * c.nMds * c.nCrs)
    (hfl : ∀ i, Op.flush i ∈ ops → i < s0.recvs.length)
    (hsp : ∀ k, k < ens.length → Spaced th k 0 ops) : ∃ s, runOps c s0 (ops ++ [.flushAll]) = some s := by
  obtain ⟨s0', h1, h2⟩ := init_spec (t0 := t0) hev
  rw [h0] at h1
  obtain rfl := Option.some.inj h1
  obtain ⟨l, h3, -, -, h6, hlen⟩ := getEnRecv_spec h2.wf
  rw [hens] at h3
  obtain rfl := Option.some.inj h3
  obtain ⟨s1, hs1⟩ := spaced_run hB hth h2.wf (fun k d h => (hops k d h).2) (fun k d h => by rw [← hlen]; exact (hops k d h).1)
    hfl (fun _ => 0) (fun k e he r hr hre => by have := (h2.fresh r hr).1; omega) (fun k hk => hsp k (by omega))
  have hH := hist_run h6 hB (hist_init h2 ens) (fun k d h => (hops k d h).2) hs1
  refine ⟨{ s1 with recvs := s1.recvs.map (fl c) }, ?_⟩
  rw [runOps_append, hs1]
  simp only [Option.bind_some, runOps, runOp, flushAll_spec hH.wf.rcv]

end
end Edge.Recv

namespace Edge.Recv
/-! A concrete case: three receivers, the first and the third in element 2 and the second one outside of the mesh; buffers of three rows, five
samples with a conditional flush (threshold 2) after every second one. -/

def exCfg : Cfg Rat where
  nQts := 2
  nCrs := 1
  nMds := 1
  buffSize := 3
  freq := 1 / 2
  tol := 1 / 100
  uint := 2 ^ 32

def exIds : List (Option Nat) := [some 2, none, some 2]
def exOps : List (Op Rat) :=
  [.write 0 [1, 2], .write 0 [3, 4], .flushIf 2, .write 0 [5, 6], .write 0 [7, 8], .flushIf 2, .write 0 [9, 10]]

example : ∃ s0 ens s r, init exCfg 0 (fun _ _ => some [1]) exIds [2] [1] = some s0 ∧ getEnRecv s0 = some ens ∧
    runOps exCfg s0 (exOps ++ [.flushAll]) = some s ∧ r ∈ s.recvs ∧ r.id = 2 ∧
    r.file = [(0, [1, 2]), (1 / 2, [3, 4]), (1, [5, 6]), (3 / 2, [7, 8]), (2, [9, 10])] := by
  have hev : ∀ re en, exIds[re]? = some (some en) → en < [2].sum + [1].sum →
      ∃ b, (fun (_ _ : Nat) => some [(1 : Rat)]) en re = some b ∧ b.length = exCfg.nMds := fun _ _ _ _ => ⟨[1], rfl, rfl⟩
  have hB : exCfg.buffSize < exCfg.uint := by decide +kernel
  obtain ⟨s0, ens, h1, h2, h3, h4, -⟩ := C42_init exCfg 0 (fun _ _ => some [1]) exIds [2] [1] hev
  have hens : ens = [2] := by
    have hm : ∀ e, e ∈ ens ↔ e = 2 := by
      intro e; rw [h4]
      simp [exIds]
      omega
    have hnd : ens.Nodup := h3.imp (fun h => Nat.ne_of_lt h)
    have := (List.perm_ext_iff_of_nodup hnd (by simp : [2].Nodup)).mpr (by simpa using hm)
    exact List.perm_singleton.mp this
  subst hens
  have hsz : ∀ k d, Op.write k d ∈ exOps → k < [2].length ∧ d.length = exCfg.nQts * exCfg.nMds * exCfg.nCrs := by
    intro k d h
    simp [exOps] at h
    rcases h with ⟨rfl, rfl⟩ | ⟨rfl, rfl⟩ | ⟨rfl, rfl⟩ | ⟨rfl, rfl⟩ | ⟨rfl, rfl⟩ <;> exact ⟨by simp, by simp [exCfg]⟩
  obtain ⟨s, hs⟩ := C42_no_overflow exCfg hB 0 (fun _ _ => some [1]) exIds [2] [1] hev s0 [2] h1 h2 2 (by decide) exOps hsz
    (by intro i h; simp [exOps] at h) (by
      intro k hk
      have : k = 0 := by simpa using hk
      subst this
      simp [exOps, Spaced])
  obtain ⟨r, hr, hid, -, -, hf⟩ := C42_history exCfg hB 0 (fun _ _ => some [1]) exIds [2] [1] hev s0 s [2] h1 h2 exOps
    (fun k d h => (hsz k d h).2) hs 2 2 [1] rfl (by decide) rfl
  refine ⟨s0, [2], s, r, h1, h2, hs, hr, hid, ?_⟩
  rw [hf]
  simp [writesTo, exOps, sample, exCfg]
  norm_num
  exact ⟨rfl, rfl, rfl, rfl, rfl⟩

end Edge.Recv
