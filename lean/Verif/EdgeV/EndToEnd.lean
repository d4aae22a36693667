import Verif.EdgeV.CommProps
import Verif.Dist.Props
/-!
From EDGE-V's communication structures to the solver's message buffers (C68): the structures of two partitions,
handed to `Distributed::init` on two ranks, connect the two sides of the same mesh faces.
-/
namespace Edge.EdgeV
open Edge

/-- The channels as the solver's communication layer reads them. -/
def chansOf (trs : List TimeRegion) : List Dist.Chan :=
  (channels trs).map (fun c => { tg := c.1, rank := c.2.1, tgAd := c.2.2.1, n := c.2.2.2 })

theorem encode_chansOf (trs : List TimeRegion) : Dist.encode (chansOf trs) = encode (channels trs) := by
  simp [Dist.encode, encode, chansOf, List.flatMap_map]

/-- Messages of a partition in order: time group, send and receive message. -/
def msgs (trs : List TimeRegion) : List (Nat × Message × Option Message) :=
  trs.flatMap (fun r => (r.send.zip r.recv).map (fun p => (r.tg, p.1, p.2)))

/-- Element-face pairs of a message. -/
def facesOf (m : Message) : List (Nat × Nat) := m.entries.map (fun q => (q.1, q.2.1))

theorem zip_flatMap_left {α β γ : Type _} (f : α → List γ) : ∀ (l : List α) (l' : List β), l'.length = l.length →
    l.flatMap f = (l.zip l').flatMap (fun p => f p.1)
  | [], _, _ => by simp
  | a :: l, [], h => by simp at h
  | a :: l, b :: l', h => by
    simp only [List.flatMap_cons, List.zip_cons_cons]
    rw [zip_flatMap_left f l l' (by simpa using h)]

theorem zip_flatMap_right {α β γ : Type _} (f : β → List γ) : ∀ (l : List α) (l' : List β), l'.length = l.length →
    l'.flatMap f = (l.zip l').flatMap (fun p => f p.2)
  | [], [], _ => by simp
  | [], b :: l', h => by simp at h
  | a :: l, [], h => by simp at h
  | a :: l, b :: l', h => by
    simp only [List.flatMap_cons, List.zip_cons_cons]
    rw [zip_flatMap_right f l l' (by simpa using h)]

theorem msgs_faces {trs : List TimeRegion} (h : ∀ r ∈ trs, r.recv.length = r.send.length) :
    sendFaces trs = (msgs trs).flatMap (fun x => facesOf x.2.1) ∧
    recvFaces trs = (msgs trs).flatMap (fun x => x.2.2.elim [] facesOf) ∧
    channels trs = (msgs trs).map (fun x => (x.1, x.2.1.pa, x.2.1.tg, x.2.1.el.length)) := by
  induction trs with
  | nil => exact ⟨rfl, rfl, rfl⟩
  | cons r trs ih =>
    obtain ⟨h1, h2, h3⟩ := ih (fun r hr => h r (by simp [hr]))
    have hl := h r (by simp)
    refine ⟨?_, ?_, ?_⟩
    · simp only [sendFaces, msgs, List.flatMap_cons, List.flatMap_append] at h1 ⊢
      rw [h1, zip_flatMap_left _ r.send r.recv hl, List.flatMap_map]
      rfl
    · simp only [recvFaces, msgs, List.flatMap_cons, List.flatMap_append] at h2 ⊢
      rw [h2, zip_flatMap_right _ r.send r.recv hl, List.flatMap_map]
      rfl
    · simp only [channels, msgs, List.flatMap_cons, List.map_append, List.map_map] at h3 ⊢
      rw [h3]
      congr 1
      have : r.send = (r.send.zip r.recv).map Prod.fst := by rw [List.map_fst_zip]; omega
      conv => lhs; rw [this]
      rw [List.map_map]
      rfl

/-- Position within a concatenation. -/
theorem flatMap_get {α β : Type _} (f : α → List β) : ∀ (l : List α) (i co : Nat) (a : α), l[i]? = some a →
    co < (f a).length → (l.flatMap f)[((l.take i).map (fun a => (f a).length)).sum + co]? = (f a)[co]?
  | [], i, co, a, h, _ => by simp at h
  | b :: l, 0, co, a, h, hc => by
    simp at h; subst h
    simp only [List.take_zero, List.map_nil, List.sum_nil, Nat.zero_add, List.flatMap_cons]
    rw [List.getElem?_append_left hc]
  | b :: l, i + 1, co, a, h, hc => by
    simp only [List.getElem?_cons_succ] at h
    have ih := flatMap_get f l i co a h hc
    simp only [List.take_succ_cons, List.map_cons, List.sum_cons, List.flatMap_cons]
    rw [List.getElem?_append_right (by omega), ← ih]
    congr 1
    omega

theorem length_facesOf {m : Message} (h : m.Even) : (facesOf m).length = m.el.length := by
  obtain ⟨z1, z2, z3⟩ := h
  simp only [facesOf, Message.entries, List.length_map, List.length_zip]; omega

theorem mem_msgs {trs : List TimeRegion} {x : Nat × Message × Option Message} (h : x ∈ msgs trs) :
    ∃ r ∈ trs, ∃ i : Nat, r.tg = x.1 ∧ r.send[i]? = some x.2.1 ∧ r.recv[i]? = some x.2.2 := by
  simp only [msgs, List.mem_flatMap, List.mem_map] at h
  obtain ⟨r, hr, p, hp, rfl⟩ := h
  obtain ⟨i, hi⟩ := List.getElem?_of_mem hp
  rw [List.getElem?_zip_eq_some] at hi
  exact ⟨r, hr, i, rfl, hi⟩

theorem msgs_of {trs : List TimeRegion} {r : TimeRegion} (hr : r ∈ trs) {i : Nat} {m : Message} {o : Option Message}
    (h1 : r.send[i]? = some m) (h2 : r.recv[i]? = some o) : (r.tg, m, o) ∈ msgs trs := by
  simp only [msgs, List.mem_flatMap, List.mem_map]
  refine ⟨r, hr, (m, o), ?_, rfl⟩
  apply List.mem_of_getElem? (i := i)
  rw [List.getElem?_zip_eq_some]
  exact ⟨h1, h2⟩

section
variable {elFaEl : List (Option Nat)} {nElFas nEls : Nat} {elPa elTg nPaEls : List Nat} {st : List (List TimeRegion)}

/-- The receive message of a partition comes from the one send message which goes the other way. -/
theorem counterpart (hM : MeshOk elFaEl nElFas nEls) (hp : elPa.length = nEls) (ht : elTg.length = nEls)
    (hO : Ordered elFaEl nElFas nEls elPa elTg) (h : getStruct nElFas nEls elFaEl elPa elTg = some st)
    {pa : Nat} {trs : List TimeRegion} (hpa : st[pa]? = some trs) {x : Nat × Message × Option Message}
    (hx : x ∈ msgs trs) :
    ∃ trs' y m', st[x.2.1.pa]? = some trs' ∧ y ∈ msgs trs' ∧ y.1 = x.2.1.tg ∧ y.2.1.pa = pa ∧ y.2.1.tg = x.1 ∧
      y.2.1.el.length = x.2.1.el.length ∧ y.2.2 = some m' ∧ m'.Even ∧ m'.el.length = x.2.1.el.length ∧
      m'.entries = x.2.1.entries.map swapEntry := by
  obtain ⟨r, hr, i, h1, h2, h3⟩ := mem_msgs hx
  have hmm := (C36_messages hM hp ht hO h hpa)
  have hme := (hmm.2 r hr).2.2 _ (List.mem_of_getElem? h2)
  obtain ⟨m', a1, a2, a3, a4, a5, trs', r', s, b1, b2, b3, b4, b5, b6, b7, _⟩ :=
    (C35_mirrored hM hp ht hO h hpa hr).2 i _ h2
  -- the other direction
  obtain ⟨k, hk⟩ := List.getElem?_of_mem b4
  obtain ⟨s', c1, c2, c3, c4, c5, trs2, r2, s2, d1, d2, d3, d4, d5, d6, d7, _⟩ :=
    (C35_mirrored hM hp ht hO h b1 b2).2 k s hk
  have hse := ((C36_messages hM hp ht hO h b1).2 r' b2).2.2 s b4
  rw [b5, hpa] at d1; cases d1
  -- the same region and the same message
  have hr2 : r2 = r := by
    apply Classical.byContradiction
    intro hne
    have hlt : r2.tg < r.tg ∨ r.tg < r2.tg := by
      obtain ⟨p, hpi⟩ := List.getElem?_of_mem d2
      obtain ⟨q, hq⟩ := List.getElem?_of_mem hr
      obtain ⟨hp1, e1⟩ := List.getElem?_eq_some_iff.1 hpi
      obtain ⟨hq1, e2⟩ := List.getElem?_eq_some_iff.1 hq
      have hpw := List.pairwise_iff_getElem.1 hmm.1
      rcases Nat.lt_trichotomy p q with hh | hh | hh
      · left; have := hpw p q hp1 hq1 hh; rw [e1, e2] at this; exact this
      · subst hh; exact absurd (e1.symm.trans e2) hne
      · right; have := hpw q p hq1 hp1 hh; rw [e1, e2] at this; exact this
    omega
  subst hr2
  have hs2 : s2 = x.2.1 := by
    apply Classical.byContradiction
    intro hne
    obtain ⟨p, hpi⟩ := List.getElem?_of_mem d4
    obtain ⟨hp1, e1⟩ := List.getElem?_eq_some_iff.1 hpi
    obtain ⟨hq1, e2⟩ := List.getElem?_eq_some_iff.1 h2
    have hpw := List.pairwise_iff_getElem.1 (hmm.2 r2 hr).2.1
    rcases Nat.lt_trichotomy p i with hh | hh | hh
    · have := hpw p i hp1 hq1 hh; rw [e1, e2] at this; omega
    · subst hh; exact hne (e1.symm.trans e2)
    · have := hpw i p hq1 hp1 hh; rw [e1, e2] at this; omega
  subst hs2
  have hlen : s.el.length = x.2.1.el.length := by
    rw [← length_facesOf hse.2.1, ← a5, ← length_facesOf a4, facesOf, facesOf, List.length_map, List.length_map, b7,
      List.length_map]
  refine ⟨trs', (r'.tg, s, some s'), s', b1, msgs_of b2 hk c1, b3, b5, b6.trans h1, hlen, rfl, c4, c5.trans hlen, d7⟩

/-- Faces of a partition as the solver's communication layer expects them. -/
theorem facesOk (hM : MeshOk elFaEl nElFas nEls) (hU : OneFace elFaEl nElFas nEls) (ht : elTg.length = nEls)
    (hpa : elPaOf nEls nPaEls = some elPa) (hO : Ordered elFaEl nElFas nEls elPa elTg)
    (h : getStruct nElFas nEls elFaEl elPa elTg = some st) {pa n : Nat} {trs : List TimeRegion}
    (hst : st[pa]? = some trs) {es : List (Nat × Nat × Nat × Nat)}
    (h1 : es.map (fun e => (e.2.1 + (nPaEls.take pa).sum, e.1)) = sendFaces trs)
    (h2 : es.map (fun e => (e.2.2.2 + (nPaEls.take pa).sum, e.2.2.1)) = recvFaces trs)
    (h3 : ∀ e ∈ es, e.2.1 < n ∧ e.2.2.2 < n) :
    Dist.FacesOk n nElFas (Dist.nFaces (chansOf trs)) (es.map (·.2.1)) (es.map (·.1)) ∧
    Dist.FacesOk n nElFas (Dist.nFaces (chansOf trs)) (es.map (·.2.2.2)) (es.map (·.2.2.1)) := by
  obtain ⟨hp, _, _⟩ := elPaOf_spec hpa
  have hmm := C36_messages hM hp ht hO h hst
  have hrec : ∀ r ∈ trs, r.recv.length = r.send.length := fun r hr => (C35_mirrored hM hp ht hO h hst hr).1
  obtain ⟨f1, f2, f3⟩ := msgs_faces hrec
  -- number of faces
  have hlen : es.length = Dist.nFaces (chansOf trs) := by
    have : es.length = (sendFaces trs).length := by rw [← h1, List.length_map]
    rw [this, f1, Dist.nFaces, chansOf, f3, List.length_flatMap]
    simp only [List.map_map]
    congr 1
    apply List.map_congr_left
    intro x hx
    obtain ⟨r, hr, i, _, g2, _⟩ := mem_msgs hx
    have := ((hmm.2 r hr).2.2 _ (List.mem_of_getElem? g2)).2.1
    rw [length_facesOf this]
    rfl
  obtain ⟨hnd, hmem⟩ := (C36_faces hM hp ht hO h).2 pa trs hst
  obtain ⟨hperm, hnd'⟩ := C64_received hM hU hp ht hO h hst
  have hzip : ∀ (a b : Nat × Nat × Nat × Nat → Nat), (es.map a).zip (es.map b) = es.map (fun e => (a e, b e)) := by
    intro a b
    rw [List.zip_map']
  constructor
  · refine ⟨by simp [hlen], by simp [hlen], ?_, ?_, ?_⟩
    · intro e he
      obtain ⟨x, hx, rfl⟩ := List.mem_map.1 he
      exact (h3 x hx).1
    · intro f hf
      obtain ⟨x, hx, rfl⟩ := List.mem_map.1 hf
      have : (x.2.1 + (nPaEls.take pa).sum, x.1) ∈ sendFaces trs := by rw [← h1]; exact List.mem_map.2 ⟨x, hx, rfl⟩
      exact ((hmem _ _).1 this).2.1
    · rw [hzip, List.Nodup, List.pairwise_map]
      rw [← h1, List.Nodup, List.pairwise_map] at hnd
      refine hnd.imp (fun hne e => hne ?_)
      simp only [Prod.mk.injEq] at e ⊢
      omega
  · refine ⟨by simp [hlen], by simp [hlen], ?_, ?_, ?_⟩
    · intro e he
      obtain ⟨x, hx, rfl⟩ := List.mem_map.1 he
      exact (h3 x hx).2
    · intro f hf
      obtain ⟨x, hx, rfl⟩ := List.mem_map.1 hf
      have : (x.2.2.2 + (nPaEls.take pa).sum, x.2.2.1) ∈ recvFaces trs := by rw [← h2]; exact List.mem_map.2 ⟨x, hx, rfl⟩
      exact ((hmem _ _).1 (hperm.mem_iff.1 this)).2.1
    · rw [hzip, List.Nodup, List.pairwise_map]
      rw [← h2, List.Nodup, List.pairwise_map] at hnd'
      refine hnd'.imp (fun hne e => hne ?_)
      simp only [Prod.mk.injEq] at e ⊢
      omega

/-- Face `co` of message `i` in the order of the solver. -/
theorem face_at (hM : MeshOk elFaEl nElFas nEls) (hp : elPa.length = nEls) (ht : elTg.length = nEls)
    (hO : Ordered elFaEl nElFas nEls elPa elTg) (h : getStruct nElFas nEls elFaEl elPa elTg = some st)
    {pa : Nat} {trs : List TimeRegion} (hst : st[pa]? = some trs) {i co : Nat} {x : Nat × Message × Option Message}
    (hx : (msgs trs)[i]? = some x) (hc : co < x.2.1.el.length) :
    (sendFaces trs)[Dist.firstFace (chansOf trs) i + co]? = (facesOf x.2.1)[co]? ∧
    (recvFaces trs)[Dist.firstFace (chansOf trs) i + co]? = (x.2.2.elim [] facesOf)[co]? := by
  have hmm := C36_messages hM hp ht hO h hst
  have hrec : ∀ r ∈ trs, r.recv.length = r.send.length := fun r hr => (C35_mirrored hM hp ht hO h hst hr).1
  obtain ⟨f1, f2, f3⟩ := msgs_faces hrec
  have hev : ∀ y ∈ msgs trs, (facesOf y.2.1).length = y.2.1.el.length ∧
      (y.2.2.elim [] facesOf).length = y.2.1.el.length := by
    intro y hy
    obtain ⟨r, hr, i, _, g2, g3⟩ := mem_msgs hy
    refine ⟨length_facesOf ((hmm.2 r hr).2.2 _ (List.mem_of_getElem? g2)).2.1, ?_⟩
    obtain ⟨m', a1, _, _, a4, a5, _⟩ := (C35_mirrored hM hp ht hO h hst hr).2 i _ g2
    rw [g3] at a1
    rw [Option.some.inj a1]
    simp only [Option.elim_some]
    rw [length_facesOf a4, a5]
  have hff : ∀ (F : Nat × Message × Option Message → List (Nat × Nat)), (∀ y ∈ msgs trs, (F y).length = y.2.1.el.length) →
      (((msgs trs).take i).map (fun a => (F a).length)).sum = Dist.firstFace (chansOf trs) i := by
    intro F hF
    rw [Dist.firstFace, Sparse.offs, chansOf, f3, ← List.map_take, ← List.map_take, ← List.map_take, List.map_map, List.map_map]
    congr 1
    apply List.map_congr_left
    intro y hy
    exact hF y (List.mem_of_mem_take hy)
  have hxm := List.mem_of_getElem? hx
  constructor
  · rw [f1, ← hff (fun x => facesOf x.2.1) (fun y hy => (hev y hy).1)]
    exact flatMap_get (fun x => facesOf x.2.1) (msgs trs) i co x hx (by rw [(hev x hxm).1]; exact hc)
  · rw [f2, ← hff (fun x => x.2.2.elim [] facesOf) (fun y hy => (hev y hy).2)]
    exact flatMap_get (fun x => x.2.2.elim [] facesOf) (msgs trs) i co x hx (by rw [(hev x hxm).2]; exact hc)

/-- C68: the structures of EDGE-V initialise the communication layer of every rank; a channel of rank `pa` to rank `pa'`
has its counterpart there, the message sent by `pa` and the one received by `pa'` agree in tag and size, and the slot
which `pa` fills for its side of a face is the one which `pa'` reads for the other side of the same face. -/
theorem C68_exchange (hM : MeshOk elFaEl nElFas nEls) (hU : OneFace elFaEl nElFas nEls) (ht : elTg.length = nEls)
    (hpa : elPaOf nEls nPaEls = some elPa) (hO : Ordered elFaEl nElFas nEls elPa elTg)
    (h : getStruct nElFas nEls elFaEl elPa elTg = some st) (hlen : st.length ≤ nPaEls.length)
    {out : List (List (Nat × Nat × Nat × Nat))} (hout : setSeReElFa nPaEls st = some out) (nTgs nByFa nBuf : Nat)
    (hb : nBuf = 1 ∨ nBuf = 2) {pa n : Nat} {trs : List TimeRegion} {es : List (Nat × Nat × Nat × Nat)}
    (hst : st[pa]? = some trs) (hn : nPaEls[pa]? = some n) (hes : out[pa]? = some es) :
    ∃ d : Dist.D, Dist.init nTgs nElFas n nByFa (encode (channels trs)) (es.map (·.1)) (es.map (·.2.1)) (es.map (·.2.2.1))
        (es.map (·.2.2.2)) nBuf = some d ∧
      ∀ (i : Nat) (tg pa' tg' m : Nat), (channels trs)[i]? = some (tg, pa', tg', m) →
        ∃ (trs' : List TimeRegion) (n' : Nat) (es' : List (Nat × Nat × Nat × Nat)) (d' : Dist.D) (j : Nat) (s r : Dist.Msg), st[pa']? = some trs' ∧ nPaEls[pa']? = some n' ∧ out[pa']? = some es' ∧
          Dist.init nTgs nElFas n' nByFa (encode (channels trs')) (es'.map (·.1)) (es'.map (·.2.1)) (es'.map (·.2.2.1))
            (es'.map (·.2.2.2)) nBuf = some d' ∧
          (channels trs')[j]? = some (tg', pa, tg, m) ∧
          d.sendMsgs[i]? = some s ∧ d'.recvMsgs[j]? = some r ∧ s.tag = r.tag ∧ s.size = r.size ∧ s.rank = pa' ∧
          r.rank = pa ∧
          ∀ co, co < m → ∃ slot e f e' f' bA bB, slot + (if tg > tg' then nByFa * 2 else nByFa) ≤ s.size ∧
            (sendFaces trs)[Dist.firstFace (chansOf trs) i + co]? = some (e + (nPaEls.take pa).sum, f) ∧
            elFaEl[(e + (nPaEls.take pa).sum) * nElFas + f]? = some (some (e' + (nPaEls.take pa').sum)) ∧
            elFaEl[(e' + (nPaEls.take pa').sum) * nElFas + f']? = some (some (e + (nPaEls.take pa).sum)) ∧
            Dist.entry n nElFas d.sendPtrs 0 e f = some (some (bA * d.sendSize + (s.offL + slot))) ∧
            Dist.entry n' nElFas d'.recvPtrs 0 e' f' = some (some (bB * d'.recvSize + (r.offL + slot))) := by
  obtain ⟨hp, _, hblk⟩ := elPaOf_spec hpa
  obtain ⟨out', o1, o2, o3⟩ := C67_local hM ht hpa hO h hlen
  rw [hout] at o1; cases o1
  obtain ⟨n0, es0, p1, p2, p3, p4, p5⟩ := o3 pa trs hst
  rw [hn] at p1; cases p1
  rw [hes] at p2; cases p2
  obtain ⟨hsA, hrA⟩ := facesOk hM hU ht hpa hO h hst p3 p4 p5
  obtain ⟨d, _, _, hd, _⟩ := Dist.init_spec (nTgs := nTgs) (nByFa := nByFa) hb hsA hrA
  rw [encode_chansOf] at hd
  refine ⟨d, hd, fun i tg pa' tg' m hch => ?_⟩
  have hrec : ∀ r ∈ trs, r.recv.length = r.send.length := fun r hr => (C35_mirrored hM hp ht hO h hst hr).1
  obtain ⟨_, _, f3⟩ := msgs_faces hrec
  have hch' := hch
  rw [f3, List.getElem?_map] at hch'
  obtain ⟨x, hx, e⟩ := Option.map_eq_some_iff.1 hch'
  simp only [Prod.mk.injEq] at e
  obtain ⟨rfl, rfl, rfl, rfl⟩ := e
  have hxm := List.mem_of_getElem? hx
  obtain ⟨trs', y, m', c1, c2, c3, c4, c5, c6, c7, c8, c9, c10⟩ := counterpart hM hp ht hO h hst hxm
  obtain ⟨j, hj⟩ := List.getElem?_of_mem c2
  obtain ⟨n', es', q1, q2, q3, q4, q5⟩ := o3 _ trs' c1
  obtain ⟨hsB, hrB⟩ := facesOk hM hU ht hpa hO h c1 q3 q4 q5
  obtain ⟨d', _, _, hd', _⟩ := Dist.init_spec (nTgs := nTgs) (nByFa := nByFa) hb hsB hrB
  rw [encode_chansOf] at hd'
  have hrec' : ∀ r ∈ trs', r.recv.length = r.send.length := fun r hr => (C35_mirrored hM hp ht hO h c1 hr).1
  obtain ⟨_, _, f3'⟩ := msgs_faces hrec'
  have hchB : (channels trs')[j]? = some (x.2.1.tg, pa, x.1, x.2.1.el.length) := by
    rw [f3', List.getElem?_map, hj]
    simp only [Option.map_some]
    rw [c3, c4, c5, c6]
  have hA' : (chansOf trs)[i]? = some ⟨x.1, x.2.1.pa, x.2.1.tg, x.2.1.el.length⟩ := by
    rw [chansOf, List.getElem?_map, hch]; rfl
  have hB' : (chansOf trs')[j]? = some ⟨x.2.1.tg, pa, x.1, x.2.1.el.length⟩ := by
    rw [chansOf, List.getElem?_map, hchB]; rfl
  obtain ⟨s, r, t1, t2, t3, t4, t5, t6, _, _, t7⟩ := Dist.C16_ends_agree nTgs nElFas n nElFas n' nByFa nBuf nBuf pa
    x.2.1.pa (chansOf trs) (chansOf trs') _ _ _ _ _ _ _ _ d d' hb hb hsA hrA hsB hrB
    (by rw [encode_chansOf]; exact hd) (by rw [encode_chansOf]; exact hd') i j _ _ hA' hB' ⟨rfl, rfl, rfl, rfl, rfl⟩
  refine ⟨trs', n', es', d', j, s, r, c1, q1, q2, hd', hchB, t1, t2, t3, t4, t5, t6, fun co hco => ?_⟩
  obtain ⟨slot, e, f, e', f', bA, bB, u1, u2, u3, u4, u5, u6, u7⟩ := t7 co hco
  refine ⟨slot, e, f, e', f', bA, bB, u1, ?_⟩
  -- the entry of the message
  obtain ⟨g1, _⟩ := face_at hM hp ht hO h hst hx hco
  obtain ⟨_, g2⟩ := face_at hM hp ht hO h c1 hj (co := co) (by rw [c6]; exact hco)
  obtain ⟨rr, hr, ii, _, v2, _⟩ := mem_msgs hxm
  have hme := ((C36_messages hM hp ht hO h hst).2 rr hr).2.2 _ (List.mem_of_getElem? v2)
  have hel : x.2.1.entries.length = x.2.1.el.length := by
    have := length_facesOf hme.2.1; rwa [facesOf, List.length_map] at this
  have hq := List.getElem?_eq_getElem (show co < x.2.1.entries.length by omega)
  have hqm := List.getElem_mem (show co < x.2.1.entries.length by omega)
  generalize x.2.1.entries[co]'(by omega) = q at hq hqm
  obtain ⟨w1, w2, w3, w4⟩ := q
  have hadj := hme.2.2.2 _ _ _ _ hqm
  rw [facesOf, List.getElem?_map, hq] at g1
  rw [c7, Option.elim_some, facesOf, c10, List.map_map, List.getElem?_map, hq] at g2
  simp only [Option.map_some, Function.comp, swapEntry] at g1 g2
  -- local ids
  rw [← p3, List.getElem?_map] at g1
  rw [← q4, List.getElem?_map] at g2
  obtain ⟨ea, ha1, ha2⟩ := Option.map_eq_some_iff.1 g1
  obtain ⟨eb, hb1, hb2⟩ := Option.map_eq_some_iff.1 g2
  rw [List.getElem?_map, ha1] at u2 u3
  rw [List.getElem?_map, hb1] at u4 u5
  simp only [Option.map_some, Option.some.injEq] at u2 u3 u4 u5
  simp only [Prod.mk.injEq] at ha2 hb2
  subst u2; subst u3; subst u4; subst u5
  exact ⟨by rw [← p3, List.getElem?_map, ha1]; rfl, by rw [ha2.1, ha2.2, hb2.1]; exact hadj.2.2.2.2.2.2.1, by rw [ha2.1, hb2.2, hb2.1]; exact hadj.2.2.2.2.2.2.2,
    u6, u7⟩

/-- C68: the same, seen from a face of the mesh: whenever face `f` of element `e` of partition `pa` leads to an element of
another partition `pa'`, the slot which `pa` fills for it is the one which `pa'` reads for the other side. -/
theorem C68_face (hM : MeshOk elFaEl nElFas nEls) (hU : OneFace elFaEl nElFas nEls) (ht : elTg.length = nEls)
    (hpa : elPaOf nEls nPaEls = some elPa) (hO : Ordered elFaEl nElFas nEls elPa elTg)
    (h : getStruct nElFas nEls elFaEl elPa elTg = some st) (hlen : st.length ≤ nPaEls.length)
    {out : List (List (Nat × Nat × Nat × Nat))} (hout : setSeReElFa nPaEls st = some out) (nTgs nByFa nBuf : Nat)
    (hb : nBuf = 1 ∨ nBuf = 2) {pa n : Nat} {trs : List TimeRegion} {es : List (Nat × Nat × Nat × Nat)}
    (hst : st[pa]? = some trs) (hn : nPaEls[pa]? = some n) (hes : out[pa]? = some es)
    {g f g' pa' : Nat} (hg : elPa[g]? = some pa) (hf : f < nElFas) (hg' : elFaEl[g * nElFas + f]? = some (some g'))
    (hpg : elPa[g']? = some pa') (hne : pa ≠ pa') :
    ∃ (d : Dist.D) (n' : Nat) (trs' : List TimeRegion) (es' : List (Nat × Nat × Nat × Nat)) (d' : Dist.D)
      (e e' f' i j slot bA bB : Nat) (s r : Dist.Msg),
      g = e + (nPaEls.take pa).sum ∧ g' = e' + (nPaEls.take pa').sum ∧ elFaEl[g' * nElFas + f']? = some (some g) ∧
      st[pa']? = some trs' ∧ nPaEls[pa']? = some n' ∧ out[pa']? = some es' ∧
      Dist.init nTgs nElFas n nByFa (encode (channels trs)) (es.map (·.1)) (es.map (·.2.1)) (es.map (·.2.2.1))
        (es.map (·.2.2.2)) nBuf = some d ∧
      Dist.init nTgs nElFas n' nByFa (encode (channels trs')) (es'.map (·.1)) (es'.map (·.2.1)) (es'.map (·.2.2.1))
        (es'.map (·.2.2.2)) nBuf = some d' ∧
      d.sendMsgs[i]? = some s ∧ d'.recvMsgs[j]? = some r ∧ s.tag = r.tag ∧ s.size = r.size ∧ s.rank = pa' ∧
      r.rank = pa ∧ slot + nByFa ≤ s.size ∧
      Dist.entry n nElFas d.sendPtrs 0 e f = some (some (bA * d.sendSize + (s.offL + slot))) ∧
      Dist.entry n' nElFas d'.recvPtrs 0 e' f' = some (some (bB * d'.recvSize + (r.offL + slot))) := by
  obtain ⟨hp, _, hblk⟩ := elPaOf_spec hpa
  obtain ⟨d, hd, hall⟩ := C68_exchange hM hU ht hpa hO h hlen hout nTgs nByFa nBuf hb hst hn hes
  have hmm := C36_messages hM hp ht hO h hst
  have hrec : ∀ r ∈ trs, r.recv.length = r.send.length := fun r hr => (C35_mirrored hM hp ht hO h hst hr).1
  obtain ⟨f1, _, f3⟩ := msgs_faces hrec
  have hmem : (g, f) ∈ sendFaces trs := (((C36_faces hM hp ht hO h).2 pa trs hst).2 g f).2
    ⟨by have := (List.getElem?_eq_some_iff.1 hg).1; omega, hf, hg, g', pa', hg', hpg, fun e => hne e.symm⟩
  rw [f1, List.mem_flatMap] at hmem
  obtain ⟨x, hx, hgx⟩ := hmem
  obtain ⟨i, hi⟩ := List.getElem?_of_mem hx
  obtain ⟨co, hco⟩ := List.getElem?_of_mem hgx
  obtain ⟨rr, hr, ii, _, v2, _⟩ := mem_msgs hx
  have hme := ((C36_messages hM hp ht hO h hst).2 rr hr).2.2 _ (List.mem_of_getElem? v2)
  have hcl : co < x.2.1.el.length := by
    rw [← length_facesOf hme.2.1]; exact (List.getElem?_eq_some_iff.1 hco).1
  have hch : (channels trs)[i]? = some (x.1, x.2.1.pa, x.2.1.tg, x.2.1.el.length) := by
    rw [f3, List.getElem?_map, hi]; rfl
  obtain ⟨trs', n', es', d', j, s, r, a1, a2, a3, a4, _, a5, a6, a7, a8, a9, a10, a11⟩ := hall i _ _ _ _ hch
  obtain ⟨slot, e, f0, e', f', bA, bB, b1, b2, b3, b4, b5, b6⟩ := a11 co hcl
  rw [(face_at hM hp ht hO h hst hi hcl).1, hco] at b2
  simp only [Option.some.injEq, Prod.mk.injEq] at b2
  obtain ⟨c1, c2⟩ := b2
  subst c2
  rw [← c1] at b3 b4
  rw [hg'] at b3
  simp only [Option.some.injEq] at b3
  rw [← b3] at b4
  have hpe : x.2.1.pa = pa' := by
    simp only [facesOf, List.mem_map] at hgx
    obtain ⟨q, hq, hqe⟩ := hgx
    obtain ⟨w1, w2, w3, w4⟩ := q
    simp only [Prod.mk.injEq] at hqe
    have hq' := hme.2.2.2 _ _ _ _ hq
    rw [hqe.1, hqe.2, hg'] at hq'
    have e3 : g' = w3 := by simpa using hq'.2.2.2.2.2.2.1
    have := hq'.2.2.1
    rw [← e3, hpg] at this
    exact (Option.some.inj this).symm
  rw [hpe] at a1 a2 a3 a9 b3
  exact ⟨d, n', trs', es', d', e, e', f', i, j, slot, bA, bB, s, r, c1, b3, b4, a1, a2, a3, hd, a4, a5, a6, a7, a8, a9, a10,
    by split at b1 <;> omega, b5, b6⟩

end

/-- The example mesh meets the hypotheses: the communication layer of rank 0 has one message, to rank 1. -/
example : (Dist.init 2 2 2 8 [1, 0, 1, 0, 1] [1] [1] [1] [1] 1).map (fun d => d.sendMsgs.map (fun m => (m.rank, m.tag, m.size)))
    = some [(1, 0, 8)] := by decide

end Edge.EdgeV
