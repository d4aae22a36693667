import Verif.Dist.Props
/-!
C20 and C59: the GASPI layer with two buffers.
-/
namespace Edge.Dist
open Edge

/-- What the documentation of `finSends` asks for (src/parallel/Gaspi.cpp:237): the sends of group `tg` are finished if
the group's number of sends is at most one more than its number of receives. -/
def FinSendsSpec (fin : List Nat → List Nat → Bool → Nat → Bool) : Prop :=
  ∀ (nSends nRecvs : List Nat) (lt : Bool) (tg s r : Nat), nSends[tg]? = some s → nRecvs[tg]? = some r →
    (fin nSends nRecvs lt tg = true ↔ s ≤ r + 1)

/-- **C20** (refuted). `Gaspi::finSends` compares the addresses of the counter arrays, not the counters: wherever the
arrays are allocated, it does not report what it has to. -/
theorem C20_finSends_refuted (addrSends addrRecvs : Nat) : ¬ FinSendsSpec (gaspiFinSends addrSends addrRecvs) := by
  intro h
  have h1 := h [0] [0] false 0 0 0 rfl rfl
  have h2 := h [2] [0] false 0 2 0 rfl rfl
  unfold gaspiFinSends at h1 h2
  have := h1.2 (by omega)
  have := h2.1 this
  omega

/-- **C20** (what is reported instead). The answer depends on the addresses only. In particular, if the send counters
are allocated in front of the receive counters, every query is answered with true, whatever was sent and received. -/
theorem C20_finSends_constant (addrSends addrRecvs : Nat) (nS nR nS' nR' : List Nat) (lt lt' : Bool) (tg tg' : Nat) :
    gaspiFinSends addrSends addrRecvs nS nR lt tg = gaspiFinSends addrSends addrRecvs nS' nR' lt' tg' ∧
    (addrSends ≤ addrRecvs → gaspiFinSends addrSends addrRecvs nS nR lt tg = true) := by
  refine ⟨rfl, fun h => ?_⟩
  unfold gaspiFinSends
  simp; omega

/-! ### C59 -/

/-- The sender's counter after `k+1` begins is `k` (it starts with the marker value). -/
theorem incSync_reset : incSync sizeMax = 0 := by decide

/-- **C59** (transport). Message `i` of a channel, sent by the `sendStep`-th begin, is put into the buffer in which the
receiver waits for it in its `recvStep`-th begin. -/
theorem C59_transport (s r : Msg) (h1 : s.tgL = r.tgR) (h2 : s.tgR = r.tgL) (i : Nat) :
    let sendStep := if s.tgL < s.tgR then 2 * i + 1 else i
    let recvStep := if r.tgL < r.tgR then 2 * i else i
    gaspiRemoteBuf s sendStep = some (gaspiLocalBuf r recvStep) := by
  intro sendStep recvStep
  unfold gaspiRemoteBuf gaspiLocalBuf sendCommBuffers2 recvCommBuffers2
  by_cases a : s.tgL < s.tgR
  · have b : ¬ r.tgL < r.tgR := by omega
    simp only [sendStep, recvStep, a, b, if_true, if_false]
    rw [if_pos (by omega)]
    congr 1
    omega
  · by_cases b : r.tgL < r.tgR
    · simp only [sendStep, recvStep, a, b, if_true, if_false]
      congr 1
      omega
    · simp only [sendStep, recvStep, a, b, if_false]

/-- The receiver of a channel reads, in each of its steps, through the pointer set `idx` of the step; the data it needs
is in the buffer of the last message it waited for: with `u` completed steps, that of the begin number `u`, if the
channel takes part in this round, and of `u - 1` otherwise. -/
def ReadsRight (idx : Nat → Nat) (m : Msg) : Prop :=
  ∀ u, recvPtrBuf m (idx u) = gaspiLocalBuf m (if m.tgL < m.tgR then u / 2 * 2 else u)

/-- **C59** (refuted for two buffers). The pointer set used in the neighbouring updates does not refer to the buffer
with the data: neither for channels of equal or faster remote groups nor for those of slower ones. -/
theorem C59_read_buffer_refuted (m : Msg) : ¬ ReadsRight (recvPtrIdx 2) m := by
  intro h
  by_cases hm : m.tgL < m.tgR
  · have := h 2
    unfold recvPtrBuf gaspiLocalBuf recvPtrIdx recvCommBuffers2 at this
    rw [if_neg (by omega)] at this
    simp [hm] at this
  · have := h 1
    unfold recvPtrBuf gaspiLocalBuf recvPtrIdx recvCommBuffers2 at this
    rw [if_pos (by omega)] at this
    simp [hm] at this

/-- **C59** (what the four pointer sets are made for). Using set `u % 4` in step `u` reads the right buffer. -/
theorem C59_four_sets (m : Msg) : ReadsRight (fun u => u % 4) m := by
  intro u
  unfold recvPtrBuf gaspiLocalBuf recvCommBuffers2
  by_cases hm : m.tgL < m.tgR
  · rw [if_neg (by omega)]
    simp only [hm, if_true]
    omega
  · rw [if_pos (by omega)]
    simp only [hm, if_false]
    omega

/-- **C59** (one buffer, MPI). With a single buffer there is a single set of pointers, which refers to it. -/
theorem C59_one_buffer (m : Msg) (u : Nat) : recvPtrIdx 1 u = 0 ∧ sendPtrIdx 1 u = 0 ∧ recvPtrBuf m (recvPtrIdx 1 u) = 0 := by
  have h : recvPtrIdx 1 u = 0 := by unfold recvPtrIdx; omega
  refine ⟨h, by unfold sendPtrIdx; omega, ?_⟩
  rw [h]; unfold recvPtrBuf; split <;> rfl

/-- **C59** (send side). In step `u` the local update writes through pointer set `u % 2`, which refers to the local
buffer the send of the step reads. -/
theorem C59_send_buffer (u : Nat) : sendPtrIdx 2 u % 2 = (sendCommBuffers2 u).1 := by
  unfold sendPtrIdx sendCommBuffers2; simp

end Edge.Dist
