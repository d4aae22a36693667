import Verif.Dist.Props
/-!
C60: `Distributed::syncData` (src/parallel/Distributed.cpp:293-343), all ranks together.

MPI is modelled as follows: all messages are sent before any receive is matched (the call waits for all requests);
the `k`-th receive of a rank with a given source and tag gets the `k`-th message of this source, destination and tag, in
the order of the channels; a message longer than the posted size, or no message at all, gives `none`.
-/
namespace Edge.Dist
open Edge Edge.Sparse

/-- A message in flight. -/
structure Flight where
  src : Nat
  dst : Nat
  tag : Nat
  bytes : List Nat
deriving Repr, DecidableEq

/-- The `MPI_Isend`s of rank `me` (src/parallel/Distributed.cpp:305-328): offset in the data and messages so far. -/
def syncSends (nByCh nByFa me : Nat) (d : D) (data : List Nat) : Option (Nat × List Flight) :=
  forN d.nChs (fun ch (s : Nat × List Flight) => do
    let n ← rd d.nSeRe ch
    let m ← rd d.sendMsgs ch
    let size := n * nByFa + nByCh
    check (decide (s.1 + size ≤ data.length))
    return (s.1 + size, s.2 ++ [{ src := me, dst := m.rank, tag := m.tag, bytes := (data.drop s.1).take size }])) (0, [])

/-- Number of receives with the given source and tag among the first `ch` channels. -/
def earlier (d : D) (ch rank tag : Nat) : Nat :=
  ((d.recvMsgs.take ch).filter (fun m => m.rank == rank && m.tag == tag)).length

/-- Writes `bytes` to `out` at `off`. -/
def blit (out : List Nat) (off : Nat) (bytes : List Nat) : List Nat :=
  out.take off ++ bytes ++ out.drop (off + bytes.length)

/-- The `MPI_Irecv`s of rank `me` and the wait for them, given the messages of all ranks. -/
def syncRecvs (nByCh nByFa me : Nat) (d : D) (net : List Flight) (out : List Nat) : Option (Nat × List Nat) :=
  forN d.nChs (fun ch (s : Nat × List Nat) => do
    let n ← rd d.nSeRe ch
    let m ← rd d.recvMsgs ch
    let size := n * nByFa + nByCh
    check (decide (s.1 + size ≤ out.length))
    let f ← (net.filter (fun f => f.src == m.rank && f.dst == me && f.tag == m.tag))[earlier d ch m.rank m.tag]?
    check (decide (f.bytes.length ≤ size))
    return (s.1 + size, blit s.2 s.1 f.bytes)) (0, out)

/-- `syncData` on all ranks: `data[r]` is `i_sendData` and `out[r]` the initial `o_recvData` of rank `r`. -/
def syncAll (nByCh nByFa : Nat) (ds : List D) (data out : List (List Nat)) : Option (List (List Nat)) := do
  let net ← forN ds.length (fun r net => do
    let d ← rd ds r
    let x ← rd data r
    let s ← syncSends nByCh nByFa r d x
    return net ++ s.2) []
  forN ds.length (fun r res => do
    let d ← rd ds r
    let o ← rd out r
    let s ← syncRecvs nByCh nByFa r d net o
    return res ++ [s.2]) []

/-- `d` was set up by the initialisation for the channels `chs`. -/
def IsInit (nTgs : Nat) (chs : List Chan) (d : D) : Prop :=
  ∃ nElFas nEls nByFa nBuf sendFa sendEl recvFa recvEl, (nBuf = 1 ∨ nBuf = 2) ∧
    FacesOk nEls nElFas (nFaces chs) sendEl sendFa ∧ FacesOk nEls nElFas (nFaces chs) recvEl recvFa ∧
    init nTgs nElFas nEls nByFa (encode chs) sendFa sendEl recvFa recvEl nBuf = some d

/-- The channels of all ranks fit together: time groups exist, a rank describes every channel once and every channel has
its other end. -/
structure Fits (nTgs : Nat) (world : List (List Chan)) : Prop where
  tgs : ∀ chs ∈ world, ∀ c ∈ chs, c.tg < nTgs ∧ c.tgAd < nTgs
  once : ∀ chs ∈ world, (chs.map (fun c => (c.tg, c.rank, c.tgAd))).Nodup
  other : ∀ (a i : Nat) (chs : List Chan) (c : Chan), world[a]? = some chs → chs[i]? = some c →
    ∃ (chs' : List Chan) (j : Nat) (c' : Chan), world[c.rank]? = some chs' ∧ chs'[j]? = some c' ∧ Mirror a c.rank c c'

/-- Sizes of the blocks of the channels in the data. -/
def blocks (nByCh nByFa : Nat) (chs : List Chan) : List Nat := chs.map (fun c => c.n * nByFa + nByCh)

/-- Block of channel `ch` in the data. -/
def block (nByCh nByFa : Nat) (chs : List Chan) (ch : Nat) (l : List Nat) : List Nat :=
  (l.drop (offs (blocks nByCh nByFa chs) ch)).take (offs (blocks nByCh nByFa chs) (ch + 1) - offs (blocks nByCh nByFa chs) ch)

theorem IsInit.msgs {nTgs : Nat} {chs : List Chan} {d : D} (h : IsInit nTgs chs d) :
    d.nChs = chs.length ∧ d.nSeRe = chs.map (·.n) ∧
    (∀ (ch : Nat) (c : Chan), chs[ch]? = some c →
      (∃ m, d.sendMsgs[ch]? = some m ∧ m.rank = c.rank ∧ m.tag = c.tg * nTgs + c.tgAd) ∧
      (∃ m, d.recvMsgs[ch]? = some m ∧ m.rank = c.rank ∧ m.tag = c.tgAd * nTgs + c.tg)) ∧
    d.recvMsgs.length = chs.length := by
  obtain ⟨_, _, nByFa, _, _, _, _, _, hb, hs, hr, hi⟩ := h
  obtain ⟨d1, -, -, h1, -, h2, -, h3, -, -, h4, h5, -⟩ := init_spec (nTgs := nTgs) (nByFa := nByFa) hb hs hr
  rw [hi] at h1; obtain rfl := Option.some.inj h1
  refine ⟨h2, h3, ?_, by rw [h5]; simp⟩
  intro ch c hc
  refine ⟨⟨_, by rw [h4, List.getElem?_mapIdx, hc]; rfl, rfl, rfl⟩, ⟨_, by rw [h5, List.getElem?_mapIdx, hc]; rfl, rfl, rfl⟩⟩

theorem blocks_length (nByCh nByFa : Nat) (chs : List Chan) : (blocks nByCh nByFa chs).length = chs.length := by
  simp [blocks]

theorem blocks_succ {nByCh nByFa : Nat} {chs : List Chan} {ch : Nat} (h : ch < chs.length) :
    offs (blocks nByCh nByFa chs) (ch + 1) = offs (blocks nByCh nByFa chs) ch + (chs[ch].n * nByFa + nByCh) := by
  rw [offs_succ (by rw [blocks_length]; exact h)]
  simp [blocks]

theorem block_eq {nByCh nByFa : Nat} {chs : List Chan} {ch : Nat} (h : ch < chs.length) (l : List Nat) :
    block nByCh nByFa chs ch l = (l.drop (offs (blocks nByCh nByFa chs) ch)).take (chs[ch].n * nByFa + nByCh) := by
  unfold block
  rw [blocks_succ h]
  congr 1
  omega

theorem blocks_le {nByCh nByFa : Nat} {chs : List Chan} {ch : Nat} (h : ch ≤ chs.length) :
    offs (blocks nByCh nByFa chs) ch ≤ (blocks nByCh nByFa chs).sum := by
  have h1 : offs (blocks nByCh nByFa chs) ch ≤ offs (blocks nByCh nByFa chs) chs.length := offs_mono h
  have h2 : offs (blocks nByCh nByFa chs) chs.length = (blocks nByCh nByFa chs).sum := by
    unfold offs; rw [List.take_of_length_le (by rw [blocks_length]; exact Nat.le_refl _)]
  omega

theorem syncSends_spec {nTgs nByCh nByFa me : Nat} {chs : List Chan} {d : D} (hi : IsInit nTgs chs d) {data : List Nat}
    (hd : data.length = (blocks nByCh nByFa chs).sum) :
    ∃ o fl, syncSends nByCh nByFa me d data = some (o, fl) ∧
      (∀ f ∈ fl, ∃ (ch : Nat) (c : Chan), chs[ch]? = some c ∧ f = ⟨me, c.rank, c.tg * nTgs + c.tgAd, block nByCh nByFa chs ch data⟩) ∧
      (∀ (ch : Nat) (c : Chan), chs[ch]? = some c → (⟨me, c.rank, c.tg * nTgs + c.tgAd, block nByCh nByFa chs ch data⟩ : Flight) ∈ fl) := by
  obtain ⟨h1, h2, h3, -⟩ := hi.msgs
  unfold syncSends
  rw [h1]
  obtain ⟨⟨o, fl⟩, ht, -, g1, g2⟩ := forN_inv (n := chs.length) (body := fun ch (s : Nat × List Flight) => do
      let n ← rd d.nSeRe ch
      let m ← rd d.sendMsgs ch
      let size := n * nByFa + nByCh
      check (decide (s.1 + size ≤ data.length))
      return (s.1 + size, s.2 ++ [{ src := me, dst := m.rank, tag := m.tag, bytes := (data.drop s.1).take size }]))
    (s := (0, []))
    (P := fun k (s : Nat × List Flight) => s.1 = offs (blocks nByCh nByFa chs) k ∧
      (∀ f ∈ s.2, ∃ (ch : Nat) (c : Chan), chs[ch]? = some c ∧
        f = ⟨me, c.rank, c.tg * nTgs + c.tgAd, block nByCh nByFa chs ch data⟩) ∧
      (∀ (ch : Nat) (c : Chan), ch < k → chs[ch]? = some c →
        (⟨me, c.rank, c.tg * nTgs + c.tgAd, block nByCh nByFa chs ch data⟩ : Flight) ∈ s.2))
    (by refine ⟨by simp [offs], by simp, by intro ch c h; omega⟩)
    (by
      rintro k ⟨o, fl⟩ hk ⟨q1, q2, q3⟩
      obtain ⟨⟨m, hm, hmr, hmt⟩, -⟩ := h3 k chs[k] (List.getElem?_eq_getElem hk)
      have hn : rd d.nSeRe k = some chs[k].n := by rw [h2]; simp [rd, hk]
      have hm' : rd d.sendMsgs k = some m := hm
      dsimp only at q1 q2 q3
      have hle : o + (chs[k].n * nByFa + nByCh) ≤ data.length := by
        rw [hd, q1, ← blocks_succ hk]; exact blocks_le hk
      refine ⟨(o + (chs[k].n * nByFa + nByCh),
        fl ++ [⟨me, m.rank, m.tag, (data.drop o).take (chs[k].n * nByFa + nByCh)⟩]), ?_, ?_, ?_, ?_⟩
      · simp only [hn, hm', Option.bind_eq_bind, Option.bind_some, decide_eq_true hle, check_true, Option.pure_def]
      · dsimp only; rw [q1, blocks_succ hk]
      · intro f hf
        rcases List.mem_append.1 hf with hf | hf
        · exact q2 f hf
        · refine ⟨k, chs[k], List.getElem?_eq_getElem hk, ?_⟩
          rw [List.mem_singleton.1 hf, hmr, hmt, block_eq hk, q1]
      · intro ch c hch hc
        apply List.mem_append.2
        by_cases e : ch = k
        · right
          subst e
          rw [List.getElem?_eq_getElem hk] at hc
          obtain rfl := Option.some.inj hc
          rw [List.mem_singleton, hmr, hmt, block_eq hk, q1]
        · exact Or.inl (q3 ch c (by omega) hc))
  exact ⟨o, fl, ht, g1, fun ch c hc => g2 ch c (List.getElem?_eq_some_iff.1 hc).1 hc⟩

theorem blit_block {nByCh nByFa : Nat} {chs : List Chan} {ch : Nat} (h : ch < chs.length) {l b : List Nat}
    (hl : l.length = (blocks nByCh nByFa chs).sum) (hb : b.length = chs[ch].n * nByFa + nByCh) :
    (blit l (offs (blocks nByCh nByFa chs) ch) b).length = l.length ∧
    block nByCh nByFa chs ch (blit l (offs (blocks nByCh nByFa chs) ch) b) = b ∧
    ∀ ch', ch' < ch → block nByCh nByFa chs ch' (blit l (offs (blocks nByCh nByFa chs) ch) b) = block nByCh nByFa chs ch' l := by
  have h1 : offs (blocks nByCh nByFa chs) ch + (chs[ch].n * nByFa + nByCh) ≤ l.length := by
    rw [hl, ← blocks_succ h]; exact blocks_le h
  have htk : (l.take (offs (blocks nByCh nByFa chs) ch)).length = offs (blocks nByCh nByFa chs) ch := by
    rw [List.length_take]; omega
  refine ⟨?_, ?_, ?_⟩
  · unfold blit; simp only [List.length_append, List.length_take, List.length_drop]; omega
  · rw [block_eq h]
    unfold blit
    rw [List.append_assoc, List.drop_append_of_le_length (by omega), List.drop_of_length_le (by omega), List.nil_append,
      List.take_append_of_le_length (by omega), List.take_of_length_le (by omega)]
  · intro ch' hlt
    have h2 : ch' < chs.length := by omega
    have h3 := blocks_succ (nByCh := nByCh) (nByFa := nByFa) h2
    have h4 : offs (blocks nByCh nByFa chs) (ch' + 1) ≤ offs (blocks nByCh nByFa chs) ch := offs_mono hlt
    rw [block_eq h2, block_eq h2]
    unfold blit
    rw [List.append_assoc, List.drop_append_of_le_length (by omega), List.take_append_of_le_length
      (by rw [List.length_drop]; omega), List.drop_take, List.take_take, Nat.min_eq_left (by omega)]

theorem block_length {nByCh nByFa : Nat} {chs : List Chan} {ch : Nat} (h : ch < chs.length) {l : List Nat}
    (hl : l.length = (blocks nByCh nByFa chs).sum) : (block nByCh nByFa chs ch l).length = chs[ch].n * nByFa + nByCh := by
  rw [block_eq h, List.length_take, List.length_drop]
  have h1 : offs (blocks nByCh nByFa chs) ch + (chs[ch].n * nByFa + nByCh) ≤ l.length := by
    rw [hl, ← blocks_succ h]; exact blocks_le h
  omega

/-- **C60**. After the exchange, the block of every channel on the receiving rank holds the block the rank at the other
end of the channel provided for it. -/
theorem C60_sync_data (nTgs nByCh nByFa : Nat) (world : List (List Chan)) (ds : List D) (data out : List (List Nat))
    (hfit : Fits nTgs world) (hlen : ds.length = world.length)
    (hinit : ∀ (r : Nat) (chs : List Chan) (d : D), world[r]? = some chs → ds[r]? = some d → IsInit nTgs chs d)
    (hdl : data.length = world.length) (hol : out.length = world.length)
    (hdata : ∀ (r : Nat) (chs : List Chan) (x : List Nat), world[r]? = some chs → data[r]? = some x →
      x.length = (blocks nByCh nByFa chs).sum)
    (hout : ∀ (r : Nat) (chs : List Chan) (x : List Nat), world[r]? = some chs → out[r]? = some x →
      x.length = (blocks nByCh nByFa chs).sum) :
    ∃ res, syncAll nByCh nByFa ds data out = some res ∧ res.length = world.length ∧
      ∀ (a i b j : Nat) (chsA chsB : List Chan) (c c' : Chan) (x y : List Nat), world[a]? = some chsA →
        chsA[i]? = some c → world[b]? = some chsB → chsB[j]? = some c' → Mirror a b c c' →
        data[a]? = some x → res[b]? = some y → block nByCh nByFa chsB j y = block nByCh nByFa chsA i x := by
  -- sends
  have hsend : ∃ net, forN ds.length (fun r (net : List Flight) => do
        let d ← rd ds r
        let x ← rd data r
        let s ← syncSends nByCh nByFa r d x
        return net ++ s.2) [] = some net ∧
      (∀ f ∈ net, ∃ (a i : Nat) (chs : List Chan) (c : Chan) (x : List Nat), world[a]? = some chs ∧ chs[i]? = some c ∧
        data[a]? = some x ∧ f = ⟨a, c.rank, c.tg * nTgs + c.tgAd, block nByCh nByFa chs i x⟩) ∧
      (∀ (a i : Nat) (chs : List Chan) (c : Chan) (x : List Nat), world[a]? = some chs → chs[i]? = some c →
        data[a]? = some x → (⟨a, c.rank, c.tg * nTgs + c.tgAd, block nByCh nByFa chs i x⟩ : Flight) ∈ net) := by
    obtain ⟨net, h, h1, h2⟩ := forN_inv (n := ds.length) (body := fun r (net : List Flight) => do
        let d ← rd ds r
        let x ← rd data r
        let s ← syncSends nByCh nByFa r d x
        return net ++ s.2) (s := [])
      (P := fun k (net : List Flight) =>
        (∀ f ∈ net, ∃ (a i : Nat) (chs : List Chan) (c : Chan) (x : List Nat), world[a]? = some chs ∧ chs[i]? = some c ∧
          data[a]? = some x ∧ f = ⟨a, c.rank, c.tg * nTgs + c.tgAd, block nByCh nByFa chs i x⟩) ∧
        (∀ (a i : Nat) (chs : List Chan) (c : Chan) (x : List Nat), a < k → world[a]? = some chs → chs[i]? = some c →
          data[a]? = some x → (⟨a, c.rank, c.tg * nTgs + c.tgAd, block nByCh nByFa chs i x⟩ : Flight) ∈ net))
      (by refine ⟨by simp, by intro a i chs c x h; omega⟩)
      (by
        rintro k net hk ⟨q1, q2⟩
        have e1 : rd ds k = some ds[k] := rd_some hk
        have e2 : rd data k = some (data[k]'(by omega)) := rd_some (by omega)
        have hw : world[k]? = some (world[k]'(by omega)) := List.getElem?_eq_getElem _
        have hdk : data[k]? = some (data[k]'(by omega)) := List.getElem?_eq_getElem _
        obtain ⟨o, fl, e3, e4, e5⟩ := syncSends_spec (nByCh := nByCh) (nByFa := nByFa) (me := k)
          (hinit k _ _ hw (List.getElem?_eq_getElem hk)) (hdata k _ _ hw hdk)
        refine ⟨net ++ fl, by simp only [e1, e2, e3, Option.bind_eq_bind, Option.bind_some, Option.pure_def], ?_, ?_⟩
        · intro f hf
          rcases List.mem_append.1 hf with hf | hf
          · exact q1 f hf
          · obtain ⟨i, c, hc, rfl⟩ := e4 f hf
            exact ⟨k, i, _, c, _, hw, hc, hdk, rfl⟩
        · intro a i chs c x ha hwa hc hx
          apply List.mem_append.2
          by_cases e : a = k
          · subst e
            rw [hw] at hwa; rw [hdk] at hx
            obtain rfl := Option.some.inj hwa
            obtain rfl := Option.some.inj hx
            exact Or.inr (e5 i c hc)
          · exact Or.inl (q2 a i chs c x (by omega) hwa hc hx))
    refine ⟨net, h, h1, fun a i chs c x hw hc hx => h2 a i chs c x ?_ hw hc hx⟩
    rw [hlen]; exact (List.getElem?_eq_some_iff.1 hw).1
  obtain ⟨net, hnet, hn1, hn2⟩ := hsend
  -- receive of one rank
  have hrecv : ∀ (b : Nat) (hb : b < ds.length) (o : List Nat), out[b]? = some o →
      ∃ s, syncRecvs nByCh nByFa b ds[b] net o = some s ∧
        ∀ (j a i : Nat) (chsA chsB : List Chan) (c c' : Chan) (x : List Nat), world[b]? = some chsB → chsB[j]? = some c' →
          world[a]? = some chsA → chsA[i]? = some c → data[a]? = some x → Mirror a b c c' →
          block nByCh nByFa chsB j s.2 = block nByCh nByFa chsA i x := by
    intro b hb o ho
    have hwb : world[b]? = some (world[b]'(by omega)) := List.getElem?_eq_getElem _
    obtain ⟨h1, h2, h3, h3'⟩ := (hinit b _ _ hwb (List.getElem?_eq_getElem hb)).msgs
    have holen := hout b _ _ hwb ho
    generalize hchs : world[b]'(by omega) = chs at *
    have honce := hfit.once chs (List.mem_of_getElem? hwb)
    have htgs := hfit.tgs chs (List.mem_of_getElem? hwb)
    have inj : ∀ {chs : List Chan} {i j : Nat} {a b : Chan}, (chs.map (fun c => (c.tg, c.rank, c.tgAd))).Nodup →
        chs[i]? = some a → chs[j]? = some b → a.rank = b.rank → a.tg = b.tg → a.tgAd = b.tgAd → i = j := by
      intro chs i j a b hnd ha hb h1 h2 h3
      obtain ⟨hi, ei⟩ := List.getElem?_eq_some_iff.1 ha
      obtain ⟨hj, ej⟩ := List.getElem?_eq_some_iff.1 hb
      have hi' : i < (chs.map (fun c => (c.tg, c.rank, c.tgAd))).length := by simpa using hi
      have hj' : j < (chs.map (fun c => (c.tg, c.rank, c.tgAd))).length := by simpa using hj
      exact (List.getElem_inj (h₀ := hi') (h₁ := hj') hnd).1 (by simp [ei, ej, h1, h2, h3])
    unfold syncRecvs
    rw [h1]
    obtain ⟨s, hs, g1, g2, g3⟩ := forN_inv (n := chs.length) (body := fun ch (s : Nat × List Nat) => do
        let n ← rd ds[b].nSeRe ch
        let m ← rd ds[b].recvMsgs ch
        let size := n * nByFa + nByCh
        check (decide (s.1 + size ≤ o.length))
        let f ← (net.filter (fun f => f.src == m.rank && f.dst == b && f.tag == m.tag))[earlier ds[b] ch m.rank m.tag]?
        check (decide (f.bytes.length ≤ size))
        return (s.1 + size, blit s.2 s.1 f.bytes)) (s := (0, o))
      (P := fun k (s : Nat × List Nat) => s.1 = offs (blocks nByCh nByFa chs) k ∧
        s.2.length = (blocks nByCh nByFa chs).sum ∧
        ∀ (j a i : Nat) (chsA : List Chan) (c c' : Chan) (x : List Nat), j < k → chs[j]? = some c' →
          world[a]? = some chsA → chsA[i]? = some c → data[a]? = some x → Mirror a b c c' →
          block nByCh nByFa chs j s.2 = block nByCh nByFa chsA i x)
      ⟨by simp [offs], holen, by intro j a i chsA c c' x h; omega⟩
      (by
        rintro k ⟨off, y⟩ hk ⟨q1, q2, q3⟩
        dsimp only at q1 q2 q3
        have hck : chs[k]? = some chs[k] := List.getElem?_eq_getElem hk
        obtain ⟨-, m, hm, hmr, hmt⟩ := h3 k _ hck
        have hn : rd ds[b].nSeRe k = some chs[k].n := by rw [h2]; simp [rd, hk]
        have hm' : rd ds[b].recvMsgs k = some m := hm
        have hle : off + (chs[k].n * nByFa + nByCh) ≤ o.length := by
          rw [holen, q1, ← blocks_succ hk]; exact blocks_le hk
        -- no earlier receive has the same source and tag
        have hear : earlier ds[b] k m.rank m.tag = 0 := by
          unfold earlier
          rw [List.length_eq_zero_iff, List.filter_eq_nil_iff]
          intro m2 hm2 hp
          obtain ⟨k2, hk2, he2⟩ := List.mem_iff_getElem.1 hm2
          have hk2' : k2 < k := by rw [List.length_take] at hk2; omega
          rw [List.getElem_take] at he2
          obtain ⟨-, m3, hm3, hr3, ht3⟩ := h3 k2 _ (List.getElem?_eq_getElem (show k2 < chs.length by omega))
          have : m3 = m2 := by
            rw [List.getElem?_eq_getElem (by rw [h3']; omega), he2] at hm3
            exact (Option.some.inj hm3).symm
          subst this
          simp only [Bool.and_eq_true, beq_iff_eq] at hp
          obtain ⟨hp1, hp2⟩ := hp
          rw [hr3, hmr] at hp1
          rw [ht3, hmt] at hp2
          obtain ⟨e1, e2⟩ := idx_inj (htgs _ (List.getElem_mem (show k2 < chs.length by omega))).1
            (htgs _ (List.getElem_mem hk)).1 hp2
          have := inj honce (List.getElem?_eq_getElem (show k2 < chs.length by omega)) hck hp1 e2 e1
          omega
        -- the message of the other end is in flight, and it is the only candidate
        obtain ⟨chsA, i, c, hwa, hci, hmir⟩ := hfit.other b k chs chs[k] hwb hck
        have hxa : chs[k].rank < data.length := by rw [hdl]; exact (List.getElem?_eq_some_iff.1 hwa).1
        have hx : data[chs[k].rank]? = some data[chs[k].rank] := List.getElem?_eq_getElem hxa
        obtain ⟨r1, r2, r3, r4, r5⟩ := hmir
        have hmem := hn2 _ i chsA c _ hwa hci hx
        generalize hp : (fun f : Flight => f.src == m.rank && f.dst == b && f.tag == m.tag) = p
        have hpm : p ⟨chs[k].rank, c.rank, c.tg * nTgs + c.tgAd, block nByCh nByFa chsA i data[chs[k].rank]⟩ = true := by
          subst hp
          simp [hmr, hmt, r2, r3, r4]
        have hfm : (⟨chs[k].rank, c.rank, c.tg * nTgs + c.tgAd, block nByCh nByFa chsA i data[chs[k].rank]⟩ : Flight) ∈
            net.filter p := List.mem_filter.2 ⟨hmem, hpm⟩
        have hpos : 0 < (net.filter p).length := List.length_pos_of_mem hfm
        -- first candidate
        have huniq : ∀ f ∈ net.filter p, f.bytes = block nByCh nByFa chsA i data[chs[k].rank] := by
          intro f hf
          obtain ⟨hfn, hfp⟩ := List.mem_filter.1 hf
          obtain ⟨a2, i2, chs2, c2, x2, w1, w2, w3, rfl⟩ := hn1 f hfn
          subst hp
          simp only [Bool.and_eq_true, beq_iff_eq] at hfp
          obtain ⟨⟨p1, p2⟩, p3⟩ := hfp
          rw [hmr] at p1
          subst p1
          rw [hwa] at w1
          obtain rfl := Option.some.inj w1
          rw [hx] at w3
          obtain rfl := Option.some.inj w3
          rw [hmt] at p3
          have t2 := hfit.tgs chsA (List.mem_of_getElem? hwa) c2 (List.mem_of_getElem? w2)
          obtain ⟨e1, e2⟩ := idx_inj t2.2 (htgs _ (List.getElem_mem hk)).1 p3
          have := inj (hfit.once chsA (List.mem_of_getElem? hwa)) w2 hci (by rw [p2, r2]) (by rw [e1, r4]) (by rw [e2, r3])
          subst this
          rfl
        have hget : (net.filter p)[0]? = some (net.filter p)[0] := List.getElem?_eq_getElem hpos
        have hbytes := huniq _ (List.getElem_mem hpos)
        have hiA : i < chsA.length := (List.getElem?_eq_some_iff.1 hci).1
        have hcA : chsA[i] = c := (List.getElem?_eq_some_iff.1 hci).2
        have hblen : (net.filter p)[0].bytes.length = chs[k].n * nByFa + nByCh := by
          rw [hbytes, block_length hiA (hdata _ _ _ hwa hx), hcA, r5]
        obtain ⟨b1, b2, b3⟩ := blit_block hk q2 hblen
        refine ⟨(off + (chs[k].n * nByFa + nByCh), blit y off (net.filter p)[0].bytes), ?_, ?_, ?_, ?_⟩
        · simp only [hn, hm', Option.bind_eq_bind, Option.bind_some, decide_eq_true hle, check_true, hp, hear, hget,
            hblen, Nat.le_refl, decide_true, Option.pure_def]
        · dsimp only; rw [q1, blocks_succ hk]
        · dsimp only; rw [q1, b1, q2]
        · intro j a i2 chs2 c2 c' x2 hj hc' hw2 hc2 hx2 hm2
          dsimp only
          rw [q1]
          by_cases e : j = k
          · subst e
            rw [hck] at hc'
            obtain rfl := Option.some.inj hc'
            obtain ⟨s1, s2, s3, s4, s5⟩ := hm2
            rw [b2, hbytes]
            subst s2
            rw [hwa] at hw2; obtain rfl := Option.some.inj hw2
            rw [hx] at hx2; obtain rfl := Option.some.inj hx2
            have := inj (hfit.once chsA (List.mem_of_getElem? hwa)) hci hc2 (by rw [r2, s1]) (by rw [← r4, s3])
              (by rw [← r3, s4])
            rw [this]
          · rw [b3 j (by omega)]
            exact q3 j a i2 chs2 c2 c' x2 (by omega) hc' hw2 hc2 hx2 hm2)
    refine ⟨s, hs, ?_⟩
    intro j a i chsA chsB c c' x hwB hcj hwA hci hx hmir
    rw [hwb] at hwB
    obtain rfl := Option.some.inj hwB
    exact g3 j a i chsA c c' x (List.getElem?_eq_some_iff.1 hcj).1 hcj hwA hci hx hmir
  -- all ranks
  obtain ⟨res, hres, f1, f2⟩ := forN_inv (n := ds.length) (body := fun r (res : List (List Nat)) => do
      let d ← rd ds r
      let o ← rd out r
      let s ← syncRecvs nByCh nByFa r d net o
      return res ++ [s.2]) (s := [])
    (P := fun k (res : List (List Nat)) => res.length = k ∧
      ∀ (b j a i : Nat) (chsA chsB : List Chan) (c c' : Chan) (x y : List Nat), world[b]? = some chsB → chsB[j]? = some c' →
        world[a]? = some chsA → chsA[i]? = some c → data[a]? = some x → Mirror a b c c' → res[b]? = some y →
        block nByCh nByFa chsB j y = block nByCh nByFa chsA i x)
    ⟨rfl, by intro b j a i chsA chsB c c' x y _ _ _ _ _ _ h; simp at h⟩
    (by
      rintro k res hk ⟨q1, q2⟩
      have e1 : rd ds k = some ds[k] := rd_some hk
      have e2 : rd out k = some (out[k]'(by omega)) := rd_some (by omega)
      obtain ⟨s, hs, hs'⟩ := hrecv k hk _ (List.getElem?_eq_getElem (show k < out.length by omega))
      refine ⟨res ++ [s.2], by simp only [e1, e2, hs, Option.bind_eq_bind, Option.bind_some, Option.pure_def],
        by simp [q1], ?_⟩
      intro b j a i chsA chsB c c' x y hwb hcj hwa hci hx hm hy
      by_cases e : b = k
      · subst e
        rw [List.getElem?_append_right (by omega)] at hy
        simp [q1] at hy
        subst hy
        exact hs' j a i chsA chsB c c' x hwb hcj hwa hci hx hm
      · refine q2 b j a i chsA chsB c c' x y hwb hcj hwa hci hx hm ?_
        have hlt := (List.getElem?_eq_some_iff.1 hy).1
        rw [List.length_append, q1] at hlt
        simp at hlt
        rwa [List.getElem?_append_left (by omega)] at hy)
  refine ⟨res, ?_, by rw [f1, hlen], ?_⟩
  · unfold syncAll
    rw [Option.bind_eq_bind, hnet, Option.bind_some]
    exact hres
  · intro a i b j chsA chsB c c' x y hwa hci hwb hcj hm hx hy
    exact f2 b j a i chsA chsB c c' x y hwb hcj hwa hci hx hm hy

/-- Two ranks, connected by three channels. -/
def demoWorld : List (List Chan) := [[⟨0, 1, 0, 2⟩, ⟨0, 1, 1, 1⟩, ⟨1, 1, 0, 2⟩], [⟨0, 0, 0, 2⟩, ⟨0, 0, 1, 2⟩, ⟨1, 0, 0, 1⟩]]

example : Fits 2 demoWorld where
  tgs := by decide
  once := by decide
  other := by
    intro a i chs c hw hc
    match a, hw with
    | 0, hw =>
      obtain rfl := Option.some.inj hw
      match i, hc with
      | 0, hc => obtain rfl := Option.some.inj hc; exact ⟨_, 0, _, rfl, rfl, by unfold Mirror; decide⟩
      | 1, hc => obtain rfl := Option.some.inj hc; exact ⟨_, 2, _, rfl, rfl, by unfold Mirror; decide⟩
      | 2, hc => obtain rfl := Option.some.inj hc; exact ⟨_, 1, _, rfl, rfl, by unfold Mirror; decide⟩
    | 1, hw =>
      obtain rfl := Option.some.inj hw
      match i, hc with
      | 0, hc => obtain rfl := Option.some.inj hc; exact ⟨_, 0, _, rfl, rfl, by unfold Mirror; decide⟩
      | 1, hc => obtain rfl := Option.some.inj hc; exact ⟨_, 2, _, rfl, rfl, by unfold Mirror; decide⟩
      | 2, hc => obtain rfl := Option.some.inj hc; exact ⟨_, 1, _, rfl, rfl, by unfold Mirror; decide⟩

/-- The exchange on these two ranks: one byte per channel, one per face; the faces are elements 0 to 4, face 0. -/
example : (do
    let a ← init 2 1 5 8 (encode (demoWorld[0])) [0, 0, 0, 0, 0] [0, 1, 2, 3, 4] [0, 0, 0, 0, 0] [0, 1, 2, 3, 4] 1
    let b ← init 2 1 5 8 (encode (demoWorld[1])) [0, 0, 0, 0, 0] [0, 1, 2, 3, 4] [0, 0, 0, 0, 0] [0, 1, 2, 3, 4] 1
    syncAll 1 1 [a, b] [[1, 2, 3, 4, 5, 6, 7, 8], [11, 12, 13, 14, 15, 16, 17, 18]]
      [List.replicate 8 0, List.replicate 8 0]) =
    some [[11, 12, 13, 17, 18, 14, 15, 16], [1, 2, 3, 6, 7, 8, 4, 5]] := by decide +kernel

end Edge.Dist
