import Verif.Recv.Props
/-!
C43: the samples of a receiver over consecutive time steps of its element.
-/
namespace Edge.Recv
open Edge

variable {K : Type} [Field K] [LinearOrder K] [IsStrictOrderedRing K]

/-- Receivers of the same entity have the same time. -/
def Lock (s : St K) : Prop := ∀ r ∈ s.recvs, ∀ r' ∈ s.recvs, r.en = r'.en → r.time = r'.time

/-- The first receiver of a sparse entity. -/
theorem first_recv {c : Cfg K} {s : St K} (hs : s.WF c) {k e : Nat} (hk : s.enOf k = some e) :
    ∃ i r, s.sp[k]? = some i ∧ s.recvs[i]? = some r ∧ r.en = e := by
  have hkl : k < s.sp.length := by
    by_contra h
    rw [St.enOf, List.getElem?_eq_none (by omega)] at hk
    cases hk
  obtain ⟨e', r, i, h1, h2, h3, h4, -, -⟩ := enOf_some hs hkl
  rw [hk] at h4
  obtain rfl := Option.some.inj h4
  exact ⟨i, r, h1, h2, h3⟩

theorem getRecvTimeRel_spec {c : Cfg K} {s : St K} {k i : Nat} {r : Rcv K} (h1 : s.sp[k]? = some i) (h2 : s.recvs[i]? = some r)
    (t dt : K) :
    getRecvTimeRel c s k t dt = some (if r.time > t - c.tol ∧ r.time < t + dt - c.tol then some |r.time - t| else none) := by
  unfold getRecvTimeRel
  simp only [Option.bind_eq_bind, rd, h1, h2, Option.bind_some]
  by_cases h : r.time > t - c.tol ∧ r.time < t + dt - c.tol
  · rw [if_pos h, if_pos h, decide_eq_true (by linarith [h.1])]
    rfl
  · rw [if_neg h, if_neg h]

/-- What the loop over the output of an element in a time step does: it writes the samples `τ + i * freq`, `i < m`. -/
theorem stepLoop_spec {c : Cfg K} {pred : K → List K} (hp : ∀ x, (pred x).length = c.nQts * c.nMds * c.nCrs) {k e : Nat} {t dt : K}
    {n : Nat} {s s' : St K} (hw : s.WF c) (hk : s.enOf k = some e) {τ : K} (hτ : ∀ r ∈ s.recvs, r.en = e → r.time = τ)
    (h : stepLoop c pred k t dt n s = some s') :
    ∃ m : Nat, runOps c s ((List.range m).map (fun i : Nat => Op.write k (pred |τ + i * c.freq - t|))) = some s' ∧
      (∀ i : Nat, i < m → t - c.tol < τ + i * c.freq ∧ τ + i * c.freq < t + dt - c.tol) ∧
      ¬ (t - c.tol < τ + m * c.freq ∧ τ + m * c.freq < t + dt - c.tol) := by
  induction n generalizing s τ with
  | zero => cases h
  | succ n ih =>
    obtain ⟨i, r, h1, h2, h3⟩ := first_recv hw hk
    have hrt := hτ r (List.mem_of_getElem? h2) h3
    have hg := getRecvTimeRel_spec (c := c) h1 h2 t dt
    unfold stepLoop at h
    rw [hg] at h
    by_cases hc : r.time > t - c.tol ∧ r.time < t + dt - c.tol
    · rw [if_pos hc] at h
      simp only [Option.bind_eq_bind, Option.bind_some] at h
      have hcs := writeRecvAll_cases hw hk (hp |r.time - t|)
      by_cases hf : ∃ r ∈ s.recvs, r.en = e ∧ c.buffSize ≤ r.nBuff
      · rw [hcs.2 hf] at h; cases h
      · have hn : ∀ r ∈ s.recvs, r.en = e → r.nBuff < c.buffSize := by
          intro r h1 h2
          by_contra h3
          exact hf ⟨r, h1, h2, by omega⟩
        have hwr := hcs.1 hn
        rw [hwr, Option.bind_some] at h
        have hu := fun r h1 => upd_spec (dofs := pred |r.time - t|) (hw.rcv r h1) (hp _) (hn r h1)
        have hu := fun q h1 => upd_spec (dofs := pred |r.time - t|) (hw.rcv q h1) (hp _) (hn q h1)
        have hm := hw.map (f := upd c e (pred |r.time - t|)) (fun q h1 => ⟨(hu q h1).1, (hu q h1).2.1⟩)
        obtain ⟨m, hm1, hm2, hm3⟩ := ih (s := { s with recvs := s.recvs.map (upd c e (pred |r.time - t|)) }) hm.1
          (by rw [enOf_eq hm.2 rfl]; exact hk) (τ := τ + c.freq) (by
            intro q hq hqe
            obtain ⟨q', hq', rfl⟩ := List.mem_map.mp hq
            obtain ⟨-, u2, u3, -⟩ := hu q' hq'
            rw [u2.1] at hqe
            rw [u3, if_pos hqe, hτ q' hq' hqe]) h
        have hsh : ∀ i : Nat, τ + c.freq + i * c.freq = τ + ((i + 1 : Nat) : K) * c.freq := by
          intro i; push_cast; ring
        refine ⟨m + 1, ?_, ?_, ?_⟩
        · rw [List.range_succ_eq_map, List.map_cons]
          simp only [runOps, runOp, Nat.cast_zero, zero_mul, add_zero]
          rw [← hrt, hwr, Option.bind_some, hrt, List.map_map]
          rw [← hm1]
          congr 1
          · rw [hrt]
          · apply List.map_congr_left
            intro i _
            simp only [Function.comp]
            rw [hsh]
        · intro i hi
          rcases i with _ | i
          · rw [Nat.cast_zero, zero_mul, add_zero, ← hrt]; exact hc
          · rw [← hsh]; exact hm2 i (by omega)
        · rw [← hsh]; exact hm3
    · rw [if_neg hc] at h
      simp only [Option.bind_eq_bind, Option.bind_some, Option.some.injEq] at h
      subst h
      refine ⟨0, rfl, by intro i hi; omega, ?_⟩
      rw [Nat.cast_zero, zero_mul, add_zero, ← hrt]
      exact hc

/-- The bound on the number of iterations is never what ends the loop. -/
theorem stepLoop_bound {c : Cfg K} {pred : K → List K} (hp : ∀ x, (pred x).length = c.nQts * c.nMds * c.nCrs) {k e : Nat} {t dt : K}
    {n m : Nat} {s : St K} (hw : s.WF c) (hk : s.enOf k = some e)
    (hn : ∃ r ∈ s.recvs, r.en = e ∧ c.buffSize < r.nBuff + n) (hnm : n ≤ m) :
    stepLoop c pred k t dt m s = stepLoop c pred k t dt n s := by
  induction n generalizing s m with
  | zero =>
    obtain ⟨r, hr, -, h⟩ := hn
    have := (hw.rcv r hr).nb
    omega
  | succ n ih =>
    obtain ⟨m, rfl⟩ : ∃ m', m = m' + 1 := ⟨m - 1, by omega⟩
    obtain ⟨i, r, h1, h2, h3⟩ := first_recv hw hk
    have hg := getRecvTimeRel_spec (c := c) h1 h2 t dt
    unfold stepLoop
    rw [hg]
    by_cases hc : r.time > t - c.tol ∧ r.time < t + dt - c.tol
    · rw [if_pos hc]
      simp only [Option.bind_eq_bind, Option.bind_some]
      have hcs := writeRecvAll_cases hw hk (hp |r.time - t|)
      by_cases hf : ∃ r ∈ s.recvs, r.en = e ∧ c.buffSize ≤ r.nBuff
      · rw [hcs.2 hf]; rfl
      · have hn' : ∀ r ∈ s.recvs, r.en = e → r.nBuff < c.buffSize := by
          intro r h1 h2
          by_contra h3
          exact hf ⟨r, h1, h2, by omega⟩
        rw [hcs.1 hn', Option.bind_some, Option.bind_some]
        have hu := fun q h1 => upd_spec (dofs := pred |r.time - t|) (hw.rcv q h1) (hp _) (hn' q h1)
        have hm := hw.map (f := upd c e (pred |r.time - t|)) (fun q h1 => ⟨(hu q h1).1, (hu q h1).2.1⟩)
        refine ih (s := { s with recvs := s.recvs.map (upd c e (pred |r.time - t|)) }) hm.1
          (by rw [enOf_eq hm.2 rfl]; exact hk) ?_ (by omega)
        obtain ⟨q, hq, hqe, hqn⟩ := hn
        obtain ⟨-, u2, -, u4, -⟩ := hu q hq
        exact ⟨_, List.mem_map_of_mem hq, u2.1.trans hqe, by rw [u4, if_pos hqe]; omega⟩
    · rw [if_neg hc]
      rfl

theorem stepEl_bound {c : Cfg K} {pred : K → List K} (hp : ∀ x, (pred x).length = c.nQts * c.nMds * c.nCrs) {k e : Nat} {t dt : K}
    {m : Nat} {s : St K} (hw : s.WF c) (hk : s.enOf k = some e) (hm : c.buffSize + 1 ≤ m) :
    stepLoop c pred k t dt m s = stepEl c pred k t dt s := by
  obtain ⟨i, r, -, h2, h3⟩ := first_recv hw hk
  exact stepLoop_bound hp hw hk ⟨r, List.mem_of_getElem? h2, h3, by omega⟩ hm

end Edge.Recv
