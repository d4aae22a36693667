import Verif.Dist.Lemmas
/-!
Properties of the communication structure (C15, C16, C19) and of the distributed minimum (C17).
-/
namespace Edge.Dist
open Edge Edge.Sparse

/-- Entry of a pointer table for pointer set `po`, element `e` and face `f`; outer `none`: outside of the table. -/
def entry (nEls nElFas : Nat) (ptrs : List (Option Nat)) (po e f : Nat) : Option (Option Nat) :=
  if e < nEls ∧ f < nElFas then ptrs[po * (nEls * nElFas) + (e * nElFas + f)]? else none

/-- The `a` bytes at `p` and the `b` bytes at `q` have no byte in common. -/
def Apart (p a q b : Nat) : Prop := p + a ≤ q ∨ q + b ≤ p

/-- Buffers and slots of one direction are laid out correctly: `msgs` are the messages of the channels, `size` the size
of one buffer, `nBuf` the number of buffers in the allocation, `np` the number of pointer sets, `w` the number of bytes
per face of a channel, `buf` the buffer a pointer set refers to and `els`, `fas` the faces of the channels. -/
structure Layout (nEls nElFas nBuf np size : Nat) (buf : Chan → Nat → Nat) (w : Chan → Nat) (chs : List Chan)
    (els fas : List Nat) (msgs : List Msg) (ptrs : List (Option Nat)) : Prop where
  /-- every channel has its message, with room for all of its faces -/
  count : msgs.length = chs.length
  room : ∀ (ch : Nat) (c : Chan) (m : Msg), chs[ch]? = some c → msgs[ch]? = some m → m.size = c.n * w c
  /-- messages are inside of a buffer -/
  inside : ∀ (ch : Nat) (m : Msg), msgs[ch]? = some m → m.offL + m.size ≤ size
  /-- messages of different channels are apart -/
  apart : ∀ (ch ch' : Nat) (m m' : Msg), ch ≠ ch' → msgs[ch]? = some m → msgs[ch']? = some m' →
    Apart m.offL m.size m'.offL m'.size
  /-- the `co`-th face of a channel has the `co`-th slot of its message, in one of the buffers -/
  slot : ∀ (ch co po : Nat) (c : Chan) (m : Msg), chs[ch]? = some c → msgs[ch]? = some m → co < c.n → po < np →
    ∃ (e f : Nat), els[firstFace chs ch + co]? = some e ∧ fas[firstFace chs ch + co]? = some f ∧ buf c po < nBuf ∧
      entry nEls nElFas ptrs po e f = some (some (buf c po * size + (m.offL + co * w c)))
  /-- slots are in the allocation and slots of different faces, in whatever pointer sets, are apart -/
  slotInside : ∀ (ch co po : Nat) (c : Chan) (e f p : Nat), chs[ch]? = some c → co < c.n → po < np →
    els[firstFace chs ch + co]? = some e → fas[firstFace chs ch + co]? = some f →
    entry nEls nElFas ptrs po e f = some (some p) → p + w c ≤ nBuf * size
  slotApart : ∀ (ch co po ch' co' po' : Nat) (c c' : Chan) (e f p e' f' p' : Nat),
    chs[ch]? = some c → co < c.n → po < np → chs[ch']? = some c' → co' < c'.n → po' < np →
    els[firstFace chs ch + co]? = some e → fas[firstFace chs ch + co]? = some f →
    els[firstFace chs ch' + co']? = some e' → fas[firstFace chs ch' + co']? = some f' →
    entry nEls nElFas ptrs po e f = some (some p) → entry nEls nElFas ptrs po' e' f' = some (some p') →
    (ch, co) ≠ (ch', co') → Apart p (w c) p' (w c')
  /-- faces without communication have null pointers -/
  null : ∀ (po e f : Nat), po < np → e < nEls → f < nElFas → (e, f) ∉ els.zip fas →
    entry nEls nElFas ptrs po e f = some none

theorem block_end (w : Chan → Nat) {chs : List Chan} {ch : Nat} (h : ch < chs.length) :
    offs (widths w chs) (firstFace chs ch) + chs[ch].n * w chs[ch] = offs (widths w chs) (firstFace chs (ch + 1)) := by
  rw [firstFace_succ h, widths_block w h _ (Nat.le_refl _)]

theorem offs_le_total (w : Chan → Nat) (chs : List Chan) (j : Nat) (hj : j ≤ nFaces chs) :
    offs (widths w chs) j ≤ (widths w chs).sum := by
  rw [widths_total]; exact offs_mono hj

theorem face_ne {chs : List Chan} {ch co ch' co' : Nat} (h : ch < chs.length) (hc : co < chs[ch].n)
    (h' : ch' < chs.length) (hc' : co' < chs[ch'].n) (hne : (ch, co) ≠ (ch', co')) :
    firstFace chs ch + co ≠ firstFace chs ch' + co' := by
  intro he
  rcases Nat.lt_trichotomy ch ch' with hl | hl | hl
  · have h1 := firstFace_succ h
    have h2 : firstFace chs (ch + 1) ≤ firstFace chs ch' := firstFace_mono hl
    omega
  · subst hl; apply hne; simp; omega
  · have h1 := firstFace_succ h'
    have h2 : firstFace chs (ch' + 1) ≤ firstFace chs ch := firstFace_mono hl
    omega

theorem layout_of {nEls nElFas nBuf np : Nat} {w : Chan → Nat} {chs : List Chan} {els fas : List Nat}
    {msgs : List Msg} {ptrs : List (Option Nat)} {key : Nat → Nat} {buf : Nat → Nat → Nat} {cbuf : Chan → Nat → Nat}
    (hok : FacesOk nEls nElFas (nFaces chs) els fas)
    (hlen : msgs.length = chs.length)
    (hm : ∀ ch (h : ch < chs.length), ∃ m, msgs[ch]? = some m ∧ m.size = chs[ch].n * w chs[ch] ∧
      m.offL = offs (widths w chs) (firstFace chs ch))
    (hkey : ∀ j, j < nFaces chs → ∃ e f, els[j]? = some e ∧ fas[j]? = some f ∧ key j = e * nElFas + f)
    (hbuf : ∀ j po, j < nFaces chs → po < np → buf j po < nBuf)
    (hcb : ∀ (ch co po : Nat) (h : ch < chs.length), co < chs[ch].n → buf (firstFace chs ch + co) po = cbuf chs[ch] po)
    (hp : PtrInv np (nEls * nElFas) key (fun j po => buf j po * (widths w chs).sum + offs (widths w chs) j)
      (nFaces chs) ptrs) :
    Layout nEls nElFas nBuf np (widths w chs).sum cbuf w chs els fas msgs ptrs := by
  obtain ⟨hp1, hp2, hp3⟩ := hp
  have hface : ∀ {ch co : Nat} (h : ch < chs.length), co < chs[ch].n → firstFace chs ch + co < nFaces chs := by
    intro ch co h hc
    have h1 := firstFace_succ h
    have h2 := firstFace_le chs (ch + 1)
    omega
  have hent : ∀ {j po e f : Nat}, j < nFaces chs → po < np → els[j]? = some e → fas[j]? = some f →
      entry nEls nElFas ptrs po e f = some (some (buf j po * (widths w chs).sum + offs (widths w chs) j)) := by
    intro j po e f hj hpo he hf
    obtain ⟨e', f', he', hf', hk⟩ := hkey j hj
    rw [he] at he'; rw [hf] at hf'
    obtain rfl := Option.some.inj he'
    obtain rfl := Option.some.inj hf'
    have := hp2 po j hpo hj
    rw [hk] at this
    unfold entry
    rw [if_pos ⟨hok.2.2.1 _ (List.mem_of_getElem? he), hok.2.2.2.1 _ (List.mem_of_getElem? hf)⟩]
    exact this
  refine ⟨hlen, ?_, ?_, ?_, ?_, ?_, ?_, ?_⟩
  · intro ch c m hc hm'
    obtain ⟨h, rfl⟩ := List.getElem?_eq_some_iff.1 hc
    obtain ⟨m2, h1, h2, -⟩ := hm ch h
    rw [hm'] at h1
    exact Option.some.inj h1 ▸ h2
  · intro ch m hm'
    obtain ⟨h, -⟩ := List.getElem?_eq_some_iff.1 hm'
    obtain ⟨m2, h1, h2, h3⟩ := hm ch (by omega)
    rw [hm'] at h1
    obtain rfl := Option.some.inj h1
    rw [h2, h3, block_end w (by omega)]
    exact offs_le_total w chs _ (firstFace_le _ _)
  · intro ch ch' m m' hne h1 h2
    have key : ∀ {ch ch' : Nat} {m m' : Msg}, ch < ch' → msgs[ch]? = some m → msgs[ch']? = some m' →
        m.offL + m.size ≤ m'.offL := by
      intro ch ch' m m' hlt h1 h2
      obtain ⟨hl, -⟩ := List.getElem?_eq_some_iff.1 h1
      obtain ⟨hl', -⟩ := List.getElem?_eq_some_iff.1 h2
      obtain ⟨a, a1, a2, a3⟩ := hm ch (by omega)
      obtain ⟨b, b1, -, b3⟩ := hm ch' (by omega)
      rw [h1] at a1; rw [h2] at b1
      obtain rfl := Option.some.inj a1
      obtain rfl := Option.some.inj b1
      rw [a2, a3, b3, block_end w (by omega)]
      exact offs_mono (firstFace_mono hlt)
    rcases Nat.lt_or_gt_of_ne hne with h | h
    · exact Or.inl (key h h1 h2)
    · exact Or.inr (key h h2 h1)
  · intro ch co po c m hc hm' hco hpo
    obtain ⟨h, rfl⟩ := List.getElem?_eq_some_iff.1 hc
    obtain ⟨e, f, he, hf, -⟩ := hkey _ (hface h hco)
    obtain ⟨m2, h1, -, h3⟩ := hm ch h
    rw [hm'] at h1
    obtain rfl := Option.some.inj h1
    refine ⟨e, f, he, hf, hcb ch co po h hco ▸ hbuf _ _ (hface h hco) hpo, ?_⟩
    rw [← hcb ch co po h hco, hent (hface h hco) hpo he hf, h3, widths_block w h co (by omega)]
  · intro ch co po c e f p hc hco hpo he hf hpt
    obtain ⟨h, rfl⟩ := List.getElem?_eq_some_iff.1 hc
    rw [hent (hface h hco) hpo he hf] at hpt
    obtain rfl := Option.some.inj (Option.some.inj hpt)
    have hb := hbuf _ _ (hface h hco) hpo
    have h1 := widths_step w h hco
    have h2 := offs_le_total w chs (firstFace chs ch + (co + 1)) (by have := hface h hco; omega)
    have h3 : (buf (firstFace chs ch + co) po + 1) * (widths w chs).sum ≤ nBuf * (widths w chs).sum :=
      Nat.mul_le_mul_right _ hb
    rw [Nat.add_mul] at h3
    omega
  · intro ch co po ch' co' po' c c' e f p e' f' p' hc hco hpo hc' hco' hpo' he hf he' hf' hpt hpt' hne
    obtain ⟨h, rfl⟩ := List.getElem?_eq_some_iff.1 hc
    obtain ⟨h', rfl⟩ := List.getElem?_eq_some_iff.1 hc'
    rw [hent (hface h hco) hpo he hf] at hpt
    rw [hent (hface h' hco') hpo' he' hf'] at hpt'
    obtain rfl := Option.some.inj (Option.some.inj hpt)
    obtain rfl := Option.some.inj (Option.some.inj hpt')
    have hne' := face_ne h hco h' hco' hne
    have s1 := widths_step w h hco
    have s2 := widths_step w h' hco'
    have t1 := offs_le_total w chs (firstFace chs ch + (co + 1)) (by have := hface h hco; omega)
    have t2 := offs_le_total w chs (firstFace chs ch' + (co' + 1)) (by have := hface h' hco'; omega)
    generalize buf (firstFace chs ch + co) po = b at *
    generalize buf (firstFace chs ch' + co') po' = b' at *
    generalize (widths w chs).sum = S at *
    have hmul : ∀ {x y : Nat}, x < y → x * S + S ≤ y * S := by
      intro x y hxy
      have := Nat.mul_le_mul_right S (Nat.succ_le_of_lt hxy)
      rwa [Nat.succ_mul] at this
    unfold Apart
    rcases Nat.lt_trichotomy b b' with hb | hb | hb
    · have := hmul hb; left; omega
    · subst hb
      rcases Nat.lt_or_gt_of_ne hne' with hj | hj
      · left
        have : offs (widths w chs) (firstFace chs ch + (co + 1)) ≤ offs (widths w chs) (firstFace chs ch' + co') :=
          offs_mono (by omega)
        omega
      · right
        have : offs (widths w chs) (firstFace chs ch' + (co' + 1)) ≤ offs (widths w chs) (firstFace chs ch + co) :=
          offs_mono (by omega)
        omega
    · have := hmul hb; right; omega
  · intro po e f hpo he hf hni
    unfold entry
    rw [if_pos ⟨he, hf⟩]
    have hlt : e * nElFas + f < nEls * nElFas := by rw [Nat.mul_comm nEls]; exact idx_lt he hf
    apply hp3 po _ hpo hlt
    intro j hj hk
    obtain ⟨e', f', he', hf', hk'⟩ := hkey j hj
    rw [hk'] at hk
    obtain ⟨rfl, rfl⟩ := idx_inj (hok.2.2.2.1 _ (List.mem_of_getElem? hf')) hf hk
    apply hni
    rw [List.mem_iff_getElem?]
    refine ⟨j, ?_⟩
    rw [List.getElem?_zip_eq_some]
    exact ⟨he', hf'⟩

/-- **C15** (sends). The initialisation succeeds; the send buffers of the channels and the slots of the faces therein
are pairwise disjoint and inside of the allocation of `nBuf` buffers of `sendSize` bytes; faces without communication
have no slot. -/
theorem C15_send_layout (nTgs nElFas nEls nByFa nBuf : Nat) (chs : List Chan)
    (sendFa sendEl recvFa recvEl : List Nat) (hb : nBuf = 1 ∨ nBuf = 2)
    (hs : FacesOk nEls nElFas (nFaces chs) sendEl sendFa) (hr : FacesOk nEls nElFas (nFaces chs) recvEl recvFa) :
    ∃ d, init nTgs nElFas nEls nByFa (encode chs) sendFa sendEl recvFa recvEl nBuf = some d ∧
      Layout nEls nElFas nBuf nBuf d.sendSize (fun _ po => po % 2) (Chan.sendWidth nByFa) chs sendEl sendFa d.sendMsgs d.sendPtrs := by
  obtain ⟨d, kS, kR, h, -, -, -, -, hss, -, hsm, -, hkS, -, hp, -⟩ := init_spec (nTgs := nTgs) (nByFa := nByFa) hb hs hr
  refine ⟨d, h, ?_⟩
  rw [hss]
  refine layout_of (key := kS) (buf := fun _ po => po % 2) hs (by rw [hsm]; simp) ?_ hkS ?_ (fun _ _ _ _ _ => rfl) hp
  · intro ch hc
    rw [hsm]
    exact ⟨_, by rw [List.getElem?_mapIdx, List.getElem?_eq_getElem hc]; rfl, rfl, rfl⟩
  · intro j po _ hpo
    rcases hb with rfl | rfl
    · obtain rfl : po = 0 := by omega
      decide
    · exact Nat.mod_lt _ (by decide)

/-- **C15** (receives). The same for the receive buffers; there are four pointer sets if there are two buffers. -/
theorem C15_recv_layout (nTgs nElFas nEls nByFa nBuf : Nat) (chs : List Chan)
    (sendFa sendEl recvFa recvEl : List Nat) (hb : nBuf = 1 ∨ nBuf = 2)
    (hs : FacesOk nEls nElFas (nFaces chs) sendEl sendFa) (hr : FacesOk nEls nElFas (nFaces chs) recvEl recvFa) :
    ∃ d, init nTgs nElFas nEls nByFa (encode chs) sendFa sendEl recvFa recvEl nBuf = some d ∧
      Layout nEls nElFas nBuf (if nBuf = 2 then 4 else 1) d.recvSize
        (fun c po => if c.tg < c.tgAd then po / 2 % 2 else po % 2) (Chan.recvWidth nByFa) chs recvEl recvFa d.recvMsgs d.recvPtrs := by
  obtain ⟨d, kS, kR, h, -, -, -, -, -, hss, -, hsm, -, hkR, -, hp⟩ := init_spec (nTgs := nTgs) (nByFa := nByFa) hb hs hr
  refine ⟨d, h, ?_⟩
  rw [hss]
  refine layout_of (key := kR) (buf := recvBufOf chs) hr (by rw [hsm]; simp) ?_ hkR ?_ ?_ hp
  · intro ch hc
    rw [hsm]
    exact ⟨_, by rw [List.getElem?_mapIdx, List.getElem?_eq_getElem hc]; rfl, rfl, rfl⟩
  · intro j po _ hpo
    unfold recvBufOf
    rcases hb with rfl | rfl
    · obtain rfl : po = 0 := by simpa using hpo
      split
      · decide
      · split <;> decide
    · split
      · decide
      · split <;> exact Nat.mod_lt _ (by decide)
  · intro ch co po h hco
    simp only [recvBufOf, chanOf_get chs ch co h hco]
    by_cases h' : chs[ch].tg < chs[ch].tgAd
    · rw [if_pos h', if_neg (by omega)]
    · rw [if_neg h', if_pos (by omega)]

/-- Three channels: to rank 2, group 0 to 0 with two faces, group 0 to 1 with one face, group 1 to 0 with two. -/
def demoChs : List Chan := [⟨0, 2, 0, 2⟩, ⟨0, 2, 1, 1⟩, ⟨1, 2, 0, 2⟩]
def demoSendEl : List Nat := [0, 1, 1, 2, 3]
def demoSendFa : List Nat := [2, 0, 1, 0, 0]
def demoRecvEl : List Nat := [0, 1, 1, 3, 2]
def demoRecvFa : List Nat := [2, 0, 1, 0, 0]

example : FacesOk 5 3 (nFaces demoChs) demoSendEl demoSendFa ∧ FacesOk 5 3 (nFaces demoChs) demoRecvEl demoRecvFa := by
  unfold FacesOk; decide

example : (init 2 3 5 10 (encode demoChs) demoSendFa demoSendEl demoRecvFa demoRecvEl 2).map
    (fun d => ([d.sendSize, d.recvSize], [d.sendMsgs.map (·.offL), d.recvMsgs.map (·.offL)],
      [entry 5 3 d.sendPtrs 1 3 0, entry 5 3 d.recvPtrs 1 1 1, entry 5 3 d.recvPtrs 2 1 1, entry 5 3 d.sendPtrs 0 4 2])) =
    some ([70, 60], [[0, 20, 30], [0, 20, 40]], [some (some 120), some (some 20), some (some 80), some none]) := by
  decide +kernel

/-! ### C16 -/

/-- Two ranks describe the two ends of a channel. -/
def Mirror (rankA rankB : Nat) (a b : Chan) : Prop :=
  a.rank = rankB ∧ b.rank = rankA ∧ a.tg = b.tgAd ∧ a.tgAd = b.tg ∧ a.n = b.n

/-- **C16** (agreement). The message sent by rank A through a channel and the one received by rank B through the other
end of the channel agree in tag and number of bytes, are addressed to each other, and the `co`-th face of the channel
has the same slot (distance from the start of the message) on both sides. -/
theorem C16_ends_agree (nTgs nElFasA nElsA nElFasB nElsB nByFa nBufA nBufB rankA rankB : Nat) (chsA chsB : List Chan)
    (sFaA sElA rFaA rElA sFaB sElB rFaB rElB : List Nat) (dA dB : D)
    (hbA : nBufA = 1 ∨ nBufA = 2) (hbB : nBufB = 1 ∨ nBufB = 2)
    (hsA : FacesOk nElsA nElFasA (nFaces chsA) sElA sFaA) (hrA : FacesOk nElsA nElFasA (nFaces chsA) rElA rFaA)
    (hsB : FacesOk nElsB nElFasB (nFaces chsB) sElB sFaB) (hrB : FacesOk nElsB nElFasB (nFaces chsB) rElB rFaB)
    (hA : init nTgs nElFasA nElsA nByFa (encode chsA) sFaA sElA rFaA rElA nBufA = some dA)
    (hB : init nTgs nElFasB nElsB nByFa (encode chsB) sFaB sElB rFaB rElB nBufB = some dB)
    (i j : Nat) (a b : Chan) (ha : chsA[i]? = some a) (hb : chsB[j]? = some b) (hm : Mirror rankA rankB a b) :
    ∃ s r, dA.sendMsgs[i]? = some s ∧ dB.recvMsgs[j]? = some r ∧ s.tag = r.tag ∧ s.size = r.size ∧
      s.rank = rankB ∧ r.rank = rankA ∧ s.tgL = r.tgR ∧ s.tgR = r.tgL ∧
      ∀ co, co < a.n → ∃ slot e f e' f' bA bB, slot + a.sendWidth nByFa ≤ s.size ∧
        sElA[firstFace chsA i + co]? = some e ∧ sFaA[firstFace chsA i + co]? = some f ∧
        rElB[firstFace chsB j + co]? = some e' ∧ rFaB[firstFace chsB j + co]? = some f' ∧
        entry nElsA nElFasA dA.sendPtrs 0 e f = some (some (bA * dA.sendSize + (s.offL + slot))) ∧
        entry nElsB nElFasB dB.recvPtrs 0 e' f' = some (some (bB * dB.recvSize + (r.offL + slot))) := by
  obtain ⟨d1, hd1, hL1⟩ := C15_send_layout nTgs nElFasA nElsA nByFa nBufA chsA sFaA sElA rFaA rElA hbA hsA hrA
  obtain ⟨d2, hd2, hL2⟩ := C15_recv_layout nTgs nElFasB nElsB nByFa nBufB chsB sFaB sElB rFaB rElB hbB hsB hrB
  rw [hA] at hd1; obtain rfl := Option.some.inj hd1
  rw [hB] at hd2; obtain rfl := Option.some.inj hd2
  obtain ⟨d1, -, -, h1, -, -, -, -, -, -, hsm, -⟩ := init_spec (nTgs := nTgs) (nByFa := nByFa) hbA hsA hrA
  obtain ⟨d2, -, -, h2, -, -, -, -, -, -, -, hrm, -⟩ := init_spec (nTgs := nTgs) (nByFa := nByFa) hbB hsB hrB
  rw [hA] at h1; obtain rfl := Option.some.inj h1
  rw [hB] at h2; obtain rfl := Option.some.inj h2
  have hs : dA.sendMsgs[i]? = some (sendMsgOf nTgs nByFa chsA i a) := by
    rw [hsm, List.getElem?_mapIdx, ha]; rfl
  have hr : dB.recvMsgs[j]? = some (recvMsgOf nTgs nByFa chsB j b) := by
    rw [hrm, List.getElem?_mapIdx, hb]; rfl
  obtain ⟨m1, m2, m3, m4, m5⟩ := hm
  have hw : b.recvWidth nByFa = a.sendWidth nByFa := by
    unfold Chan.recvWidth Chan.sendWidth; rw [m3, m4]
  refine ⟨_, _, hs, hr, ?_, ?_, m1, m2, m3, m4, ?_⟩
  · simp only [sendMsgOf, recvMsgOf, m3, m4]
  · simp only [sendMsgOf, recvMsgOf, hw, m5]
  · intro co hco
    obtain ⟨e, f, g1, g2, -, g3⟩ := hL1.slot i co 0 a _ ha hs hco (by rcases hbA with rfl | rfl <;> decide)
    obtain ⟨e', f', g4, g5, -, g6⟩ := hL2.slot j co 0 b _ hb hr (by omega) (by rcases hbB with rfl | rfl <;> decide)
    rw [hw] at g6
    refine ⟨co * a.sendWidth nByFa, e, f, e', f', _, _, ?_, g1, g2, g4, g5, g3, g6⟩
    show co * a.sendWidth nByFa + a.sendWidth nByFa ≤ a.n * a.sendWidth nByFa
    rw [← Nat.succ_mul]
    exact Nat.mul_le_mul_right _ hco

/-- **C16** (distinct tags). Two messages of a rank, sent to or received from the same rank, with the same tag belong
to the same pair of time groups. -/
theorem C16_tags_distinct (nTgs nElFas nEls nByFa nBuf : Nat) (chs : List Chan)
    (sendFa sendEl recvFa recvEl : List Nat) (d : D) (hb : nBuf = 1 ∨ nBuf = 2)
    (hs : FacesOk nEls nElFas (nFaces chs) sendEl sendFa) (hr : FacesOk nEls nElFas (nFaces chs) recvEl recvFa)
    (hd : init nTgs nElFas nEls nByFa (encode chs) sendFa sendEl recvFa recvEl nBuf = some d)
    (htg : ∀ c ∈ chs, c.tg < nTgs ∧ c.tgAd < nTgs)
    (hdist : (chs.map (fun c => (c.tg, c.rank, c.tgAd))).Nodup)
    (i j : Nat) :
    (∀ a b, d.sendMsgs[i]? = some a → d.sendMsgs[j]? = some b → a.rank = b.rank → a.tag = b.tag → i = j) ∧
    (∀ a b, d.recvMsgs[i]? = some a → d.recvMsgs[j]? = some b → a.rank = b.rank → a.tag = b.tag → i = j) := by
  obtain ⟨d1, -, -, h1, -, -, -, -, -, -, hsm, hrm, -⟩ := init_spec (nTgs := nTgs) (nByFa := nByFa) hb hs hr
  rw [hd] at h1; obtain rfl := Option.some.inj h1
  have key : ∀ {a b : Chan}, chs[i]? = some a → chs[j]? = some b → a.rank = b.rank → a.tg = b.tg → a.tgAd = b.tgAd →
      i = j := by
    intro a b ha hb h1 h2 h3
    obtain ⟨hi, ei⟩ := List.getElem?_eq_some_iff.1 ha
    obtain ⟨hj, ej⟩ := List.getElem?_eq_some_iff.1 hb
    have hi' : i < (chs.map (fun c => (c.tg, c.rank, c.tgAd))).length := by simpa using hi
    have hj' : j < (chs.map (fun c => (c.tg, c.rank, c.tgAd))).length := by simpa using hj
    exact (List.getElem_inj (h₀ := hi') (h₁ := hj') hdist).1 (by simp [ei, ej, h1, h2, h3])
  refine ⟨?_, ?_⟩
  · intro a b ha hb' hrk htag
    rw [hsm, List.getElem?_mapIdx, Option.map_eq_some_iff] at ha hb'
    obtain ⟨ca, ha, rfl⟩ := ha
    obtain ⟨cb, hb', rfl⟩ := hb'
    obtain ⟨e1, e2⟩ := idx_inj (htg _ (List.mem_of_getElem? ha)).2 (htg _ (List.mem_of_getElem? hb')).2 htag
    exact key ha hb' hrk e1 e2
  · intro a b ha hb' hrk htag
    rw [hrm, List.getElem?_mapIdx, Option.map_eq_some_iff] at ha hb'
    obtain ⟨ca, ha, rfl⟩ := ha
    obtain ⟨cb, hb', rfl⟩ := hb'
    obtain ⟨e1, e2⟩ := idx_inj (htg _ (List.mem_of_getElem? ha)).1 (htg _ (List.mem_of_getElem? hb')).1 htag
    exact key ha hb' hrk e2 e1

/-- The demo channels seen from rank 2 (the demo is rank 7). -/
def demoChsB : List Chan := [⟨0, 7, 0, 2⟩, ⟨0, 7, 1, 2⟩, ⟨1, 7, 0, 1⟩]

example : Mirror 7 2 ⟨0, 2, 1, 1⟩ ⟨1, 7, 0, 1⟩ ∧ (∀ c ∈ demoChs, c.tg < 2 ∧ c.tgAd < 2) ∧
    (demoChs.map (fun c => (c.tg, c.rank, c.tgAd))).Nodup := by unfold Mirror; decide

/-! ### C17 -/

/-- `lt` is a strict total order (doubles without NaN). -/
structure StrictTotal {α : Type _} (lt : α → α → Bool) : Prop where
  irrefl : ∀ a, lt a a = false
  trans : ∀ a b c, lt a b = true → lt b c = true → lt a c = true
  total : ∀ a b, lt a b = true ∨ a = b ∨ lt b a = true

theorem foldl_min {α : Type _} {lt : α → α → Bool} (h : StrictTotal lt) (as : List α) (a : α) :
    let m := as.foldl (fun m x => if lt x m then x else m) a
    (m = a ∨ m ∈ as) ∧ lt a m = false ∧ ∀ x ∈ as, lt x m = false := by
  induction as generalizing a with
  | nil => simp [h.irrefl]
  | cons b as ih =>
    intro m
    have := ih (if lt b a then b else a)
    simp only at this
    obtain ⟨h1, h2, h3⟩ := this
    have hm : m = as.foldl (fun m x => if lt x m then x else m) (if lt b a then b else a) := rfl
    rw [← hm] at h1 h2 h3
    by_cases hb : lt b a = true
    · simp only [hb, if_true] at h1 h2
      refine ⟨?_, ?_, ?_⟩
      · rcases h1 with h1 | h1
        · right; rw [h1]; simp
        · right; simp [h1]
      · cases hc : lt a m with
        | false => rfl
        | true => exact absurd (h.trans _ _ _ hb hc) (by simp [h2])
      · intro x hx
        rcases List.mem_cons.1 hx with rfl | hx
        · exact h2
        · exact h3 x hx
    · rw [if_neg hb] at h1 h2
      refine ⟨?_, h2, ?_⟩
      · rcases h1 with h1 | h1
        · left; exact h1
        · right; simp [h1]
      · intro x hx
        rcases List.mem_cons.1 hx with rfl | hx
        · cases hc : lt x m with
          | false => rfl
          | true =>
            rcases h.total x a with h' | h' | h'
            · exact absurd h' hb
            · subst h'; rw [hc] at h2; exact absurd h2 (by simp)
            · exact absurd (h.trans _ _ _ h' hc) (by simp [h2])
        · exact h3 x hx

theorem allMin_spec {α : Type _} {lt : α → α → Bool} (h : StrictTotal lt) {l : List α} (hl : l ≠ []) :
    ∃ m, allMin lt l = some m ∧ m ∈ l ∧ ∀ x ∈ l, lt x m = false := by
  cases l with
  | nil => exact absurd rfl hl
  | cons a as =>
    obtain ⟨h1, h2, h3⟩ := foldl_min h as a
    refine ⟨_, rfl, ?_, ?_⟩
    · rcases h1 with h1 | h1
      · rw [h1]; simp
      · simp [h1]
    · intro x hx
      rcases List.mem_cons.1 hx with rfl | hx
      · exact h2
      · exact h3 x hx

theorem natStrictTotal : StrictTotal (fun a b : Nat => decide (a < b)) :=
  ⟨by simp, by intro a b c; simp; omega, by intro a b; simp; omega⟩

/-- **C17**. The distributed minimum over the values `vals` (one per rank) elects exactly one rank `o`, the smallest
among the ranks whose value is minimal. -/
theorem C17_one_owner {α : Type _} [DecidableEq α] (lt : α → α → Bool) (hlt : StrictTotal lt) (vals : List α)
    (hne : vals ≠ []) (hlen : vals.length ≤ intMax) :
    ∃ res o v, minOne lt vals = some res ∧ vals[o]? = some v ∧
      (∀ (r : Nat) (x : α), vals[r]? = some x → lt x v = false) ∧
      (∀ (r : Nat) (x : α), r < o → vals[r]? = some x → lt v x = true) ∧
      res.length = vals.length ∧ ∀ r, r < vals.length → res[r]? = some (if r = o then 1 else 0) := by
  obtain ⟨g, hg, hgm, hgl⟩ := allMin_spec hlt hne
  have hbne : vals.mapIdx (fun r v => if v = g then r else intMax) ≠ [] := by
    intro h; apply hne; simpa using h
  obtain ⟨w, hw, hwm, hwl⟩ := allMin_spec natStrictTotal hbne
  obtain ⟨o', ho', he'⟩ := List.mem_iff_getElem.1 hgm
  have hwlt : w < vals.length := by
    have hm : o' ∈ vals.mapIdx (fun r v => if v = g then r else intMax) :=
      List.mem_iff_getElem.2 ⟨o', by simpa using ho', by simp [he']⟩
    have := hwl _ hm
    simp only [decide_eq_false_iff_not] at this
    omega
  have hwv : vals[w]? = some g := by
    obtain ⟨r, hr, he⟩ := List.mem_iff_getElem.1 hwm
    simp only [List.getElem_mapIdx] at he
    by_cases hv : vals[r]'(by simpa using hr) = g
    · rw [if_pos hv] at he
      subst he
      rw [List.getElem?_eq_getElem hwlt, hv]
    · rw [if_neg hv] at he
      omega
  refine ⟨vals.mapIdx (fun r _ => if w ≠ r then 0 else 1), w, g, ?_, hwv, ?_, ?_, by simp, ?_⟩
  · unfold minOne
    rw [hg]
    simp only [Option.bind_eq_bind, Option.bind_some, hw]
    rfl
  · intro r x hx
    exact hgl x (List.mem_of_getElem? hx)
  · intro r x hr hx
    rcases hlt.total g x with h | h | h
    · exact h
    · exfalso
      subst h
      obtain ⟨hr', hx'⟩ := List.getElem?_eq_some_iff.1 hx
      have hm : r ∈ vals.mapIdx (fun r v => if v = g then r else intMax) :=
        List.mem_iff_getElem.2 ⟨r, by simpa using hr', by simp [hx']⟩
      have := hwl _ hm
      simp only [decide_eq_false_iff_not] at this
      omega
    · exact absurd h (by simp [hgl x (List.mem_of_getElem? hx)])
  · intro r hr
    rw [List.getElem?_mapIdx, List.getElem?_eq_getElem hr]
    by_cases h : w = r
    · simp [h]
    · simp [h, Ne.symm h]

/-- **C17** for several values: every value has its own election. -/
theorem C17_all_values {α : Type _} [DecidableEq α] (lt : α → α → Bool) (hlt : StrictTotal lt) (nVals : Nat)
    (vals : List (List α)) (hne : vals ≠ []) (hlen : vals.length ≤ intMax) (hv : ∀ l ∈ vals, l.length = nVals) :
    ∃ res, minAll lt nVals vals = some res ∧ res.length = nVals ∧
      ∀ va, va < nVals → ∃ col, col.length = vals.length ∧
        (∀ (r : Nat) (l : List α), vals[r]? = some l → col[r]? = l[va]?) ∧ res[va]? = minOne lt col := by
  have hcol : ∀ va, va < nVals → ∃ col, vals.mapM (fun v => rd v va) = some col ∧ col.length = vals.length ∧
      ∀ (r : Nat) (l : List α), vals[r]? = some l → col[r]? = l[va]? := by
    intro va hva
    clear hne hlen
    induction vals with
    | nil => exact ⟨[], rfl, rfl, by simp⟩
    | cons l ls ih =>
      obtain ⟨col, h1, h2, h3⟩ := ih (fun l hl => hv l (by simp [hl]))
      have hl := hv l (by simp)
      refine ⟨l[va]'(by omega) :: col, ?_, by simp [h2], ?_⟩
      · rw [List.mapM_cons, rd_some (by omega : va < l.length), h1]; rfl
      · intro r l' hr
        cases r with
        | zero => simp at hr; subst hr; simp
        | succ r => simp at hr ⊢; exact h3 r l' hr
  obtain ⟨t, ht, h1, h2⟩ := forN_inv (n := nVals) (body := fun va (res : List (List Nat)) => do
      let col ← vals.mapM (fun v => rd v va)
      let o ← minOne lt col
      return res ++ [o]) (s := [])
    (P := fun m (res : List (List Nat)) => res.length = m ∧ ∀ va, va < m → ∃ col, col.length = vals.length ∧
      (∀ (r : Nat) (l : List α), vals[r]? = some l → col[r]? = l[va]?) ∧ res[va]? = minOne lt col)
    (by simp)
    (by
      rintro m t hm ⟨hl, hall⟩
      obtain ⟨col, c1, c2, c3⟩ := hcol m hm
      have hcne : col ≠ [] := by
        intro h; apply hne; rw [h] at c2; simpa using c2.symm
      obtain ⟨o, -, -, ho, -⟩ := C17_one_owner lt hlt col hcne (by omega)
      refine ⟨t ++ [o], by simp [c1, ho], by simp [hl], ?_⟩
      intro va hva
      by_cases e : va = m
      · subst e
        exact ⟨col, c2, c3, by rw [ho, List.getElem?_append_right (by omega)]; simp [hl]⟩
      · obtain ⟨col', d1, d2, d3⟩ := hall va (by omega)
        exact ⟨col', d1, d2, by rw [List.getElem?_append_left (by omega), d3]⟩)
  exact ⟨t, ht, h1, h2⟩

example : minAll (fun a b : Nat => decide (a < b)) 2 [[3, 9], [2, 9], [2, 5]] = some [[0, 1, 0], [0, 0, 1]] := by
  decide +kernel

/-! ### C19 -/

/-- Messages a rank sends through the channel within its first `k` steps after a synchronisation: step `s` asks for
less-than messages if `s` is odd (src/impl/seismic/inc/time/man_sched.inc:121). -/
def nSent (m : Msg) (k : Nat) : Nat := ((List.range k).filter (fun s => checkTgLt m (s % 2 == 1) m.tgL)).length

/-- Messages a rank receives through the channel for its first `k` steps: step `s` asks for less-than messages if `s`
is even (src/impl/seismic/inc/time/man_sched.inc:53, :172). -/
def nRecvd (m : Msg) (k : Nat) : Nat := ((List.range k).filter (fun s => checkTgLt m (s % 2 == 0) m.tgL)).length

/-- **C19** (selection). A channel takes part in a round of group `tg` iff it is one of the group and its remote group
is not slower, or the round is the designated one of the pair. -/
theorem C19_selection (m : Msg) (lt : Bool) (tg : Nat) :
    checkTgLt m lt tg = true ↔ m.tgL = tg ∧ (m.tgR ≤ m.tgL ∨ lt = true) := by
  unfold checkTgLt
  by_cases h : m.tgL < m.tgR
  · simp only [h, if_true, Bool.and_eq_true, beq_iff_eq]
    constructor
    · rintro ⟨h1, h2⟩; exact ⟨h1, Or.inr h2⟩
    · rintro ⟨h1, h2 | h2⟩
      · omega
      · exact ⟨h1, h2⟩
  · simp only [h, if_false, beq_iff_eq]
    constructor
    · intro h1; exact ⟨h1, Or.inl (by omega)⟩
    · exact fun h => h.1

theorem nSent_eq (m : Msg) : ∀ k, nSent m k = if m.tgL < m.tgR then k / 2 else k
  | 0 => by simp [nSent]
  | k + 1 => by
    have ih := nSent_eq m k
    unfold nSent at ih ⊢
    rw [List.range_succ, List.filter_append, List.length_append, ih]
    have hs := C19_selection m (k % 2 == 1) m.tgL
    by_cases h : m.tgL < m.tgR
    · simp only [h, if_true, List.filter_cons, List.filter_nil]
      by_cases hk : k % 2 = 1
      · rw [if_pos (hs.2 ⟨rfl, Or.inr (by simp [hk])⟩)]; simp; omega
      · rw [if_neg (fun hc => by rcases (hs.1 hc).2 with h' | h' <;> simp_all <;> omega)]; simp; omega
    · simp only [h, if_false, List.filter_cons, List.filter_nil]
      rw [if_pos (hs.2 ⟨rfl, Or.inl (by omega)⟩)]; simp

theorem nRecvd_eq (m : Msg) : ∀ k, nRecvd m k = if m.tgL < m.tgR then (k + 1) / 2 else k
  | 0 => by simp [nRecvd]
  | k + 1 => by
    have ih := nRecvd_eq m k
    unfold nRecvd at ih ⊢
    rw [List.range_succ, List.filter_append, List.length_append, ih]
    have hs := C19_selection m (k % 2 == 0) m.tgL
    by_cases h : m.tgL < m.tgR
    · simp only [h, if_true, List.filter_cons, List.filter_nil]
      by_cases hk : k % 2 = 0
      · rw [if_pos (hs.2 ⟨rfl, Or.inr (by simp [hk])⟩)]; simp; omega
      · rw [if_neg (fun hc => by rcases (hs.1 hc).2 with h' | h' <;> simp_all <;> omega)]; simp; omega
    · simp only [h, if_false, List.filter_cons, List.filter_nil]
      rw [if_pos (hs.2 ⟨rfl, Or.inl (by omega)⟩)]; simp

/-- **C19** (both ends keep pace). `s` is the message of the sending rank, `r` the one of the receiving rank. While the
sender completes `k` steps and the receiver the steps of the same span of time (as many if both have the same time step,
half if the receiver is slower, twice as many if it is faster), as many messages are sent as received. -/
theorem C19_sends_match_recvs (s r : Msg) (h1 : s.tgL = r.tgR) (h2 : s.tgR = r.tgL) (k : Nat) :
    (s.tgL = s.tgR → nSent s k = nRecvd r k) ∧
    (s.tgL < s.tgR → nSent s (2 * k) = nRecvd r k) ∧
    (s.tgR < s.tgL → nSent s k = nRecvd r (2 * k)) := by
  rw [nSent_eq, nSent_eq, nRecvd_eq, nRecvd_eq]
  refine ⟨?_, ?_, ?_⟩ <;> intro h
  · rw [if_neg (by omega), if_neg (by omega)]
  · rw [if_pos h, if_neg (by omega)]; omega
  · rw [if_neg (by omega), if_pos (by omega)]; omega

/-- **C19** (which message serves which step). Message `i` of the channel is sent after the local step `sendStep` and
asked for by the receiver's step `recvStep`, which starts when the data of `sendStep` ends being produced: in units of
the faster of both time steps the sender's data spans up to `sendStep + 1` local steps. -/
theorem C19_message_steps (s r : Msg) (h1 : s.tgL = r.tgR) (h2 : s.tgR = r.tgL) (i : Nat) :
    let sendStep := if s.tgL < s.tgR then 2 * i + 1 else i
    let recvStep := if r.tgL < r.tgR then 2 * i else i
    nSent s sendStep = i ∧ checkTgLt s (sendStep % 2 == 1) s.tgL = true ∧
    nRecvd r recvStep = i ∧ checkTgLt r (recvStep % 2 == 0) r.tgL = true := by
  intro sendStep recvStep
  refine ⟨?_, ?_, ?_, ?_⟩
  · rw [nSent_eq]; simp only [sendStep]; split <;> omega
  · rw [C19_selection]
    refine ⟨rfl, ?_⟩
    by_cases h : s.tgL < s.tgR
    · right; simp only [sendStep, h, if_true, beq_iff_eq]; omega
    · left; omega
  · rw [nRecvd_eq]; simp only [recvStep]; split <;> omega
  · rw [C19_selection]
    refine ⟨rfl, ?_⟩
    by_cases h : r.tgL < r.tgR
    · right; simp only [recvStep, h, if_true, beq_iff_eq]; omega
    · left; omega

example : nSent ⟨0, 1, 2, 1, 10, 0⟩ 6 = 3 ∧ nRecvd ⟨1, 0, 7, 1, 10, 0⟩ 3 = 3 ∧ nSent ⟨1, 0, 7, 2, 20, 0⟩ 3 = 3 ∧
    nRecvd ⟨0, 1, 2, 2, 20, 0⟩ 6 = 3 := by decide

end Edge.Dist
