import Verif.Dist.Spec
/-! Lemmas about `Distributed::init`. -/
namespace Edge.Dist
open Edge Edge.Sparse

theorem idx_inj {s p q k l : Nat} (hk : k < s) (hl : l < s) (h : p * s + k = q * s + l) : p = q ∧ k = l := by
  have hs : 0 < s := by omega
  have h1 : (p * s + k) / s = p := by
    rw [Nat.mul_comm, Nat.mul_add_div hs, Nat.div_eq_of_lt hk, Nat.add_zero]
  have h2 : (q * s + l) / s = q := by
    rw [Nat.mul_comm, Nat.mul_add_div hs, Nat.div_eq_of_lt hl, Nat.add_zero]
  have : p = q := by rw [← h1, ← h2, h]
  subst this
  exact ⟨rfl, by omega⟩

theorem idx_lt {s np p k : Nat} (hp : p < np) (hk : k < s) : p * s + k < s * np := by
  have : (p + 1) * s ≤ np * s := Nat.mul_le_mul_right s hp
  rw [Nat.mul_comm s np]
  rw [Nat.add_mul] at this
  omega

/-- Writes the entry `idx` of every pointer set. -/
def setPtrs (np stride idx : Nat) (val : Nat → Nat) (ptrs : List (Option Nat)) : Option (List (Option Nat)) :=
  forN np (fun po ptrs => wr ptrs (po * stride + idx) (some (val po))) ptrs

def sendVal (bufSize off po : Nat) : Nat := po % 2 * bufSize + off
def recvVal (bufSize : Nat) (ge : Bool) (off po : Nat) : Nat :=
  if ge then po % 2 * bufSize + off else po / 2 % 2 * bufSize + off

theorem setSend_eq (np stride idx bs off : Nat) (ptrs) :
    setSend np stride idx bs off ptrs = setPtrs np stride idx (sendVal bs off) ptrs := rfl

theorem setRecv_eq (np stride idx bs off tg tgAd : Nat) (ptrs) :
    setRecv np stride idx bs off tg tgAd ptrs = setPtrs np stride idx (recvVal bs (decide (tg ≥ tgAd)) off) ptrs := by
  unfold setRecv setPtrs recvVal
  congr 1
  funext po p
  by_cases h : tg ≥ tgAd <;> simp [h]

theorem setPtrs_spec {np stride idx : Nat} (val : Nat → Nat) {ptrs : List (Option Nat)}
    (hl : ptrs.length = stride * np) (hi : idx < stride) :
    ∃ ptrs', setPtrs np stride idx val ptrs = some ptrs' ∧ ptrs'.length = stride * np ∧
      ∀ po k, po < np → k < stride →
        ptrs'[po * stride + k]? = if k = idx then some (some (val po)) else ptrs[po * stride + k]? := by
  obtain ⟨t, ht, h1, h2⟩ := forN_inv (n := np) (body := fun po ptrs => wr ptrs (po * stride + idx) (some (val po)))
    (s := ptrs) (P := fun m (t : List (Option Nat)) => t.length = stride * np ∧
      ∀ po k, po < np → k < stride →
        t[po * stride + k]? = if k = idx ∧ po < m then some (some (val po)) else ptrs[po * stride + k]?)
    (by refine ⟨hl, fun po k _ _ => by simp⟩)
    (by
      rintro m t hm ⟨hl', h⟩
      have hb : m * stride + idx < t.length := by rw [hl']; exact idx_lt hm hi
      refine ⟨_, wr_some hb _, by simpa using hl', ?_⟩
      intro po k hp hk
      rw [List.getElem?_set]
      by_cases he : m * stride + idx = po * stride + k
      · obtain ⟨e1, e2⟩ := idx_inj hi hk he
        subst e1 e2
        simp [hb]
      · rw [if_neg he, h po k hp hk]
        by_cases hk' : k = idx
        · subst hk'
          have : po ≠ m := fun e => he (by rw [e])
          by_cases h' : po < m
          · rw [if_pos ⟨rfl, h'⟩, if_pos ⟨rfl, by omega⟩]
          · rw [if_neg (by simp [h']), if_neg (by rintro ⟨_, _⟩; omega)]
        · simp [hk'])
  refine ⟨t, ht, h1, fun po k hp hk => ?_⟩
  rw [h2 po k hp hk]
  simp [hp]

/-- The faces of the channels as lists of elements and local faces are within the mesh and distinct. -/
def FacesOk (nEls nElFas n : Nat) (els fas : List Nat) : Prop :=
  els.length = n ∧ fas.length = n ∧ (∀ e ∈ els, e < nEls) ∧ (∀ f ∈ fas, f < nElFas) ∧ (els.zip fas).Nodup

theorem FacesOk.key {nEls nElFas n : Nat} {els fas : List Nat} (h : FacesOk nEls nElFas n els fas) :
    ∃ key : Nat → Nat, (∀ j, j < n → ∃ e f, els[j]? = some e ∧ fas[j]? = some f ∧ key j = e * nElFas + f) ∧
      (∀ j, j < n → key j < nEls * nElFas) ∧
      (∀ i j, i < n → j < n → key i = key j → i = j) := by
  obtain ⟨h1, h2, h3, h4, h5⟩ := h
  refine ⟨fun j => els[j]?.getD 0 * nElFas + fas[j]?.getD 0, ?_, ?_, ?_⟩
  · intro j hj
    refine ⟨els[j], fas[j], by simp, by simp, ?_⟩
    simp [show j < els.length by omega, show j < fas.length by omega]
  · intro j hj
    have he : j < els.length := by omega
    have hf : j < fas.length := by omega
    simp only [he, hf, List.getElem?_eq_getElem, Option.getD_some]
    rw [Nat.mul_comm nEls]
    exact idx_lt (h3 _ (List.getElem_mem he)) (h4 _ (List.getElem_mem hf))
  · intro i j hi hj heq
    have he : j < els.length := by omega
    have hf : j < fas.length := by omega
    have he' : i < els.length := by omega
    have hf' : i < fas.length := by omega
    simp only [he, hf, he', hf', List.getElem?_eq_getElem, Option.getD_some] at heq
    obtain ⟨e1, e2⟩ := idx_inj (h4 _ (List.getElem_mem hf')) (h4 _ (List.getElem_mem hf)) heq
    have hi' : i < (els.zip fas).length := by simp; omega
    have hj' : j < (els.zip fas).length := by simp; omega
    exact (List.getElem_inj h5).1 (show (els.zip fas)[i] = (els.zip fas)[j] by simp [e1, e2])

/-- Pointer table after `m` faces were set. -/
def PtrInv (np stride : Nat) (key : Nat → Nat) (val : Nat → Nat → Nat) (m : Nat) (ptrs : List (Option Nat)) : Prop :=
  ptrs.length = stride * np ∧
  (∀ po j, po < np → j < m → ptrs[po * stride + key j]? = some (some (val j po))) ∧
  (∀ po k, po < np → k < stride → (∀ j, j < m → key j ≠ k) → ptrs[po * stride + k]? = some none)

theorem PtrInv.zero (np stride : Nat) (key val) : PtrInv np stride key val 0 (List.replicate (stride * np) none) := by
  refine ⟨by simp, by intro po j _ h; omega, ?_⟩
  intro po k hp hk _
  rw [List.getElem?_replicate, if_pos (idx_lt hp hk)]

theorem PtrInv.succ {np stride : Nat} {key : Nat → Nat} {val : Nat → Nat → Nat} {m n : Nat} {ptrs : List (Option Nat)}
    (h : PtrInv np stride key val m ptrs) (hm : m < n) (hlt : ∀ j, j < n → key j < stride)
    (hinj : ∀ i j, i < n → j < n → key i = key j → i = j) :
    ∃ ptrs', setPtrs np stride (key m) (val m) ptrs = some ptrs' ∧ PtrInv np stride key val (m + 1) ptrs' := by
  obtain ⟨h1, h2, h3⟩ := h
  obtain ⟨p', hp', hl, hg⟩ := setPtrs_spec (val m) h1 (hlt m hm)
  refine ⟨p', hp', hl, ?_, ?_⟩
  · intro po j hp hj
    rw [hg po _ hp (hlt j (by omega))]
    by_cases e : j = m
    · subst e; simp
    · rw [if_neg (fun e' => e (hinj _ _ (by omega) hm e')), h2 po j hp (by omega)]
  · intro po k hp hk hne
    rw [hg po k hp hk, if_neg (fun e => hne m (by omega) e.symm)]
    exact h3 po k hp hk (fun j hj => hne j (by omega))

/-- Expected messages. -/
def sendMsgOf (nTgs nByFa : Nat) (chs : List Chan) (ch : Nat) (c : Chan) : Msg :=
  { tgL := c.tg, tgR := c.tgAd, rank := c.rank, tag := c.tg * nTgs + c.tgAd, size := c.n * c.sendWidth nByFa,
    offL := offs (widths (Chan.sendWidth nByFa) chs) (firstFace chs ch) }

def recvMsgOf (nTgs nByFa : Nat) (chs : List Chan) (ch : Nat) (c : Chan) : Msg :=
  { tgL := c.tg, tgR := c.tgAd, rank := c.rank, tag := c.tgAd * nTgs + c.tg, size := c.n * c.recvWidth nByFa,
    offL := offs (widths (Chan.recvWidth nByFa) chs) (firstFace chs ch) }

theorem size_loop (nByFa : Nat) (chs : List Chan) :
    forN chs.length (fun ch (s : Nat × Nat × List Nat) => do
      let tg ← rd (encode chs) (1 + ch * 4 + 0)
      let tgAd ← rd (encode chs) (1 + ch * 4 + 2)
      let n ← rd (encode chs) (1 + ch * 4 + 3)
      return (s.1 + (if tg > tgAd then 2 * n * nByFa else n * nByFa),
              s.2.1 + (if tg < tgAd then 2 * n * nByFa else n * nByFa), s.2.2 ++ [n])) (0, 0, []) =
    some ((widths (Chan.sendWidth nByFa) chs).sum, (widths (Chan.recvWidth nByFa) chs).sum, chs.map (·.n)) := by
  obtain ⟨t, ht, h1, h2, h3⟩ := forN_inv (n := chs.length) (body := fun ch (s : Nat × Nat × List Nat) => do
      let tg ← rd (encode chs) (1 + ch * 4 + 0)
      let tgAd ← rd (encode chs) (1 + ch * 4 + 2)
      let n ← rd (encode chs) (1 + ch * 4 + 3)
      return (s.1 + (if tg > tgAd then 2 * n * nByFa else n * nByFa),
              s.2.1 + (if tg < tgAd then 2 * n * nByFa else n * nByFa), s.2.2 ++ [n])) (s := (0, 0, []))
    (P := fun m (s : Nat × Nat × List Nat) =>
      s.1 = offs (widths (Chan.sendWidth nByFa) chs) (firstFace chs m) ∧
      s.2.1 = offs (widths (Chan.recvWidth nByFa) chs) (firstFace chs m) ∧ s.2.2 = (chs.map (·.n)).take m)
    (by simp [firstFace, offs])
    (by
      rintro m ⟨a, b, l⟩ hm ⟨ha, hb, hl⟩
      obtain ⟨e0, -, e2, e3⟩ := encode_get hm
      refine ⟨_, by simp only [e0, e2, e3, Option.bind_eq_bind, Option.bind_some, Option.pure_def]; rfl, ?_, ?_, ?_⟩
      · rw [firstFace_succ hm, widths_block _ hm _ (Nat.le_refl _), ← ha]
        simp only [Chan.sendWidth]
        by_cases h : chs[m].tg > chs[m].tgAd <;> simp only [h, if_true, if_false]
        rw [Nat.mul_comm 2, Nat.mul_assoc, Nat.mul_comm 2]
      · rw [firstFace_succ hm, widths_block _ hm _ (Nat.le_refl _), ← hb]
        simp only [Chan.recvWidth]
        by_cases h : chs[m].tg < chs[m].tgAd <;> simp only [h, if_true, if_false]
        rw [Nat.mul_comm 2, Nat.mul_assoc, Nat.mul_comm 2]
      · dsimp only at hl ⊢
        rw [hl, ← List.take_append_getElem (by simpa using hm)]
        simp)
  rw [ht]
  obtain ⟨a, b, l⟩ := t
  dsimp only at h1 h2 h3
  rw [h1, h2, h3, firstFace_end, ← widths_total, ← widths_total, List.take_of_length_le (by simp)]

/-- Channel of a face. -/
def chanOf (chs : List Chan) (j : Nat) : Option Chan := (chs.flatMap (fun c => List.replicate c.n c))[j]?

theorem chanOf_get (chs : List Chan) : ∀ (ch co : Nat) (h : ch < chs.length), co < chs[ch].n →
    chanOf chs (firstFace chs ch + co) = some chs[ch] := by
  unfold chanOf firstFace
  induction chs with
  | nil => intro ch co h; simp at h
  | cons c chs ih =>
    intro ch co h hco
    rw [List.flatMap_cons]
    cases ch with
    | zero =>
      simp only [List.getElem_cons_zero] at hco ⊢
      rw [List.getElem?_append_left (by simp [offs]; omega)]
      simp [offs, hco]
    | succ ch =>
      simp only [List.getElem_cons_succ] at hco ⊢
      have e : offs ((c :: chs).map (·.n)) (ch + 1) = c.n + offs (chs.map (·.n)) ch := by simp [offs]
      rw [e, List.getElem?_append_right (by simp; omega)]
      have : c.n + offs (chs.map (·.n)) ch + co - (List.replicate c.n c).length = offs (chs.map (·.n)) ch + co := by
        simp; omega
      rw [this]
      exact ih ch co (by simpa using h) hco

/-- Buffer (0 or 1) a pointer set refers to on the receive side. -/
def recvBufOf (chs : List Chan) (j po : Nat) : Nat :=
  match chanOf chs j with
  | none => 0
  | some c => if c.tg ≥ c.tgAd then po % 2 else po / 2 % 2

def sVal (nByFa : Nat) (chs : List Chan) (j po : Nat) : Nat :=
  po % 2 * (widths (Chan.sendWidth nByFa) chs).sum + offs (widths (Chan.sendWidth nByFa) chs) j

def rVal (nByFa : Nat) (chs : List Chan) (j po : Nat) : Nat :=
  recvBufOf chs j po * (widths (Chan.recvWidth nByFa) chs).sum + offs (widths (Chan.recvWidth nByFa) chs) j

theorem init_spec {nTgs nElFas nEls nByFa nBuf : Nat} {chs : List Chan} {sendFa sendEl recvFa recvEl : List Nat}
    (hb : nBuf = 1 ∨ nBuf = 2) (hs : FacesOk nEls nElFas (nFaces chs) sendEl sendFa)
    (hr : FacesOk nEls nElFas (nFaces chs) recvEl recvFa) :
    ∃ d keyS keyR, init nTgs nElFas nEls nByFa (encode chs) sendFa sendEl recvFa recvEl nBuf = some d ∧
      d.nTgs = nTgs ∧ d.nChs = chs.length ∧ d.nBuf = nBuf ∧ d.nSeRe = chs.map (·.n) ∧
      d.sendSize = (widths (Chan.sendWidth nByFa) chs).sum ∧ d.recvSize = (widths (Chan.recvWidth nByFa) chs).sum ∧
      d.sendMsgs = chs.mapIdx (sendMsgOf nTgs nByFa chs) ∧ d.recvMsgs = chs.mapIdx (recvMsgOf nTgs nByFa chs) ∧
      (∀ j, j < nFaces chs → ∃ e f, sendEl[j]? = some e ∧ sendFa[j]? = some f ∧ keyS j = e * nElFas + f) ∧
      (∀ j, j < nFaces chs → ∃ e f, recvEl[j]? = some e ∧ recvFa[j]? = some f ∧ keyR j = e * nElFas + f) ∧
      PtrInv nBuf (nEls * nElFas) keyS (sVal nByFa chs) (nFaces chs) d.sendPtrs ∧
      PtrInv (if nBuf = 2 then 4 else 1) (nEls * nElFas) keyR (rVal nByFa chs) (nFaces chs) d.recvPtrs := by
  obtain ⟨kS, hkS, hkSl, hkSi⟩ := hs.key
  obtain ⟨kR, hkR, hkRl, hkRi⟩ := hr.key
  have hck : check (nBuf == 1 || nBuf == 2) = some () := by rcases hb with rfl | rfl <;> rfl
  have hn : nChsOf (encode chs) = chs.length := rfl
  unfold init
  simp only [hck, hn, Option.bind_eq_bind, Option.bind_some, Option.pure_def]
  have hsz := size_loop nByFa chs
  simp only [Option.bind_eq_bind, Option.pure_def] at hsz
  rw [hsz]
  simp only [Option.bind_some]
  generalize hP : (fun (ch : Nat) (l : L) => _ : Nat → L → Option L) = body
  obtain ⟨l, hl, h1, h2, h3, h4, h5, h6, h7⟩ := forN_inv (n := chs.length) (body := body)
    (s := { sendMsgs := [], recvMsgs := [], sendPtrs := List.replicate (nEls * nElFas * nBuf) none,
            recvPtrs := List.replicate (nEls * nElFas * (if nBuf = 2 then 4 else 1)) none,
            offSend := 0, offRecv := 0, first := 0 })
    (P := fun m (l : L) => l.first = firstFace chs m ∧
      l.offSend = offs (widths (Chan.sendWidth nByFa) chs) (firstFace chs m) ∧
      l.offRecv = offs (widths (Chan.recvWidth nByFa) chs) (firstFace chs m) ∧
      l.sendMsgs = (chs.mapIdx (sendMsgOf nTgs nByFa chs)).take m ∧
      l.recvMsgs = (chs.mapIdx (recvMsgOf nTgs nByFa chs)).take m ∧
      PtrInv nBuf (nEls * nElFas) kS (sVal nByFa chs) (firstFace chs m) l.sendPtrs ∧
      PtrInv (if nBuf = 2 then 4 else 1) (nEls * nElFas) kR (rVal nByFa chs) (firstFace chs m) l.recvPtrs)
    (by
      refine ⟨by simp [firstFace, offs], by simp [firstFace, offs], by simp [firstFace, offs], by simp, by simp, ?_, ?_⟩
      · have := PtrInv.zero nBuf (nEls * nElFas) kS (sVal nByFa chs)
        simpa [firstFace, offs] using this
      · have := PtrInv.zero (if nBuf = 2 then 4 else 1) (nEls * nElFas) kR (rVal nByFa chs)
        simpa [firstFace, offs] using this)
    (by
      rintro m l hm ⟨hf, ho, hr', hsm, hrm, hps, hpr⟩
      obtain ⟨e0, e1, e2, e3⟩ := encode_get hm
      subst hP
      simp only [e0, e1, e2, e3, Option.bind_some]
      generalize hL : L.mk (l.sendMsgs ++ _) _ _ _ _ _ _ = l0
      have hsm0 : l0.sendMsgs = (chs.mapIdx (sendMsgOf nTgs nByFa chs)).take (m + 1) := by
        subst hL
        dsimp only
        rw [hsm, ← List.take_append_getElem (by simpa using hm), List.append_cancel_left_eq]
        simp only [List.getElem_mapIdx, sendMsgOf, Chan.sendWidth, ho, List.cons.injEq, Msg.mk.injEq, and_true, true_and]
        by_cases h : chs[m].tg > chs[m].tgAd <;> simp [h, Nat.mul_assoc]
      have hrm0 : l0.recvMsgs = (chs.mapIdx (recvMsgOf nTgs nByFa chs)).take (m + 1) := by
        subst hL
        dsimp only
        rw [hrm, ← List.take_append_getElem (by simpa using hm), List.append_cancel_left_eq]
        simp only [List.getElem_mapIdx, recvMsgOf, Chan.recvWidth, hr', List.cons.injEq, Msg.mk.injEq, and_true,
          true_and]
        by_cases h : chs[m].tg < chs[m].tgAd <;> simp [h, Nat.mul_assoc]
      have hf0 : l0.first = firstFace chs m := by subst hL; exact hf
      have ho0 : l0.offSend = offs (widths (Chan.sendWidth nByFa) chs) (firstFace chs m) := by subst hL; exact ho
      have hr0 : l0.offRecv = offs (widths (Chan.recvWidth nByFa) chs) (firstFace chs m) := by subst hL; exact hr'
      have hps0 : PtrInv nBuf (nEls * nElFas) kS (sVal nByFa chs) (firstFace chs m) l0.sendPtrs := by
        subst hL; exact hps
      have hpr0 : PtrInv (if nBuf = 2 then 4 else 1) (nEls * nElFas) kR (rVal nByFa chs) (firstFace chs m)
        l0.recvPtrs := by subst hL; exact hpr
      clear hL hsm hrm hf ho hr' hps hpr l
      generalize hQ : (fun (co : Nat) (l : L) => _ : Nat → L → Option L) = body
      obtain ⟨t, ht, g1, g2, g3, g4, g5, g6, g7⟩ := forN_inv (n := chs[m].n) (body := body) (s := l0)
        (P := fun co (l : L) => l.first = firstFace chs m ∧
          l.offSend = offs (widths (Chan.sendWidth nByFa) chs) (firstFace chs m + co) ∧
          l.offRecv = offs (widths (Chan.recvWidth nByFa) chs) (firstFace chs m + co) ∧
          l.sendMsgs = (chs.mapIdx (sendMsgOf nTgs nByFa chs)).take (m + 1) ∧
          l.recvMsgs = (chs.mapIdx (recvMsgOf nTgs nByFa chs)).take (m + 1) ∧
          PtrInv nBuf (nEls * nElFas) kS (sVal nByFa chs) (firstFace chs m + co) l.sendPtrs ∧
          PtrInv (if nBuf = 2 then 4 else 1) (nEls * nElFas) kR (rVal nByFa chs) (firstFace chs m + co) l.recvPtrs)
        ⟨hf0, ho0, hr0, hsm0, hrm0, hps0, hpr0⟩
        (by
          rintro co l hco ⟨q1, q2, q3, q4, q5, q6, q7⟩
          have hj : firstFace chs m + co < nFaces chs := by
            have := firstFace_le chs (m + 1)
            rw [firstFace_succ hm] at this
            omega
          obtain ⟨se, sf, hse, hsf, hks⟩ := hkS _ hj
          obtain ⟨re, rf, hre, hrf, hkr⟩ := hkR _ hj
          obtain ⟨sp, hsp, hsp'⟩ := q6.succ hj hkSl hkSi
          obtain ⟨rp, hrp, hrp'⟩ := q7.succ hj hkRl hkRi
          subst hQ
          simp only [q1, rd, hse, hsf, hre, hrf, Option.bind_some, setSend_eq, setRecv_eq]
          have v1 : sendVal (widths (Chan.sendWidth nByFa) chs).sum l.offSend =
              sVal nByFa chs (firstFace chs m + co) := by
            funext po; simp only [sendVal, sVal, q2]
          have v2 : recvVal (widths (Chan.recvWidth nByFa) chs).sum (decide (chs[m].tg ≥ chs[m].tgAd)) l.offRecv =
              rVal nByFa chs (firstFace chs m + co) := by
            funext po
            simp only [recvVal, rVal, q3, recvBufOf, chanOf_get chs m co hm hco]
            by_cases h : chs[m].tg ≥ chs[m].tgAd <;> simp [h]
          rw [← hks, ← hkr, v1, v2, hsp, Option.bind_some, hrp, Option.bind_some]
          refine ⟨_, rfl, rfl, ?_, ?_, q4, q5, hsp', hrp'⟩
          · dsimp only
            rw [widths_step _ hm hco, q2]; rfl
          · dsimp only
            rw [widths_step _ hm hco, q3]; rfl)
      rw [ht]
      refine ⟨_, rfl, ?_, ?_, ?_, g4, g5, ?_, ?_⟩
      · dsimp only; rw [g1, firstFace_succ hm]
      · dsimp only; rw [g2, firstFace_succ hm]
      · dsimp only; rw [g3, firstFace_succ hm]
      · dsimp only; rw [firstFace_succ hm]; exact g6
      · dsimp only; rw [firstFace_succ hm]; exact g7)
  rw [hl]
  refine ⟨_, kS, kR, rfl, rfl, rfl, rfl, rfl, rfl, rfl, ?_, ?_, hkS, hkR, ?_, ?_⟩
  · dsimp only; rw [h4, List.take_of_length_le (by simp)]
  · dsimp only; rw [h5, List.take_of_length_le (by simp)]
  · rw [firstFace_end] at h6; exact h6
  · rw [firstFace_end] at h7; exact h7

end Edge.Dist
