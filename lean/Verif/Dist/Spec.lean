import Verif.Dist.Model
import Verif.Sparse.Lemmas
/-! Specification of the communication structure: channels instead of the flat array. -/
namespace Edge.Dist
open Edge Edge.Sparse

/-- A communication channel: local time group, adjacent rank, adjacent time group, number of faces. -/
structure Chan where
  tg : Nat
  rank : Nat
  tgAd : Nat
  n : Nat
deriving Repr, DecidableEq

/-- The flat array describing the channels (src/parallel/Distributed.cpp:139-152): their number, then four entries per
channel. -/
def encode (chs : List Chan) : List Nat := chs.length :: chs.flatMap (fun c => [c.tg, c.rank, c.tgAd, c.n])

/-- Bytes a face occupies in a message of the channel sent by the local rank: twice as many if the adjacent group is
faster. -/
def Chan.sendWidth (nByFa : Nat) (c : Chan) : Nat := if c.tg > c.tgAd then nByFa * 2 else nByFa

/-- Bytes a face occupies in a message of the channel received by the local rank. -/
def Chan.recvWidth (nByFa : Nat) (c : Chan) : Nat := if c.tg < c.tgAd then nByFa * 2 else nByFa

/-- The communicating faces of all channels in order: their widths. -/
def widths (w : Chan → Nat) (chs : List Chan) : List Nat := chs.flatMap (fun c => List.replicate c.n (w c))

/-- Number of communicating faces before channel `ch`. -/
def firstFace (chs : List Chan) (ch : Nat) : Nat := offs (chs.map (·.n)) ch

/-- Number of communicating faces. -/
def nFaces (chs : List Chan) : Nat := (chs.map (·.n)).sum

theorem encode_length (chs : List Chan) : (encode chs).length = 1 + chs.length * 4 := by
  unfold encode
  rw [List.length_cons, Nat.add_comm]
  congr 1
  induction chs with
  | nil => rfl
  | cons c chs ih => simp only [List.flatMap_cons, List.length_append, ih, List.length_cons, List.length_nil]; omega

theorem flat_get (chs : List Chan) : ∀ (ch j : Nat) (h : ch < chs.length) (_ : j < 4),
    (chs.flatMap (fun c => [c.tg, c.rank, c.tgAd, c.n]))[ch * 4 + j]? =
      [chs[ch].tg, chs[ch].rank, chs[ch].tgAd, chs[ch].n][j]? := by
  induction chs with
  | nil => intro ch j h; simp at h
  | cons c chs ih =>
    intro ch j h hj
    rw [List.flatMap_cons]
    cases ch with
    | zero =>
      rw [List.getElem?_append_left (by simp; omega)]
      simp
    | succ ch =>
      rw [List.getElem?_append_right (by simp; omega)]
      have : (ch + 1) * 4 + j - [c.tg, c.rank, c.tgAd, c.n].length = ch * 4 + j := by simp; omega
      rw [this, ih ch j (by simpa using h) hj]
      simp

theorem encode_get {chs : List Chan} {ch : Nat} (h : ch < chs.length) :
    rd (encode chs) (1 + ch * 4 + 0) = some chs[ch].tg ∧ rd (encode chs) (1 + ch * 4 + 1) = some chs[ch].rank ∧
    rd (encode chs) (1 + ch * 4 + 2) = some chs[ch].tgAd ∧ rd (encode chs) (1 + ch * 4 + 3) = some chs[ch].n := by
  have key : ∀ j, j < 4 → rd (encode chs) (1 + ch * 4 + j) =
      [chs[ch].tg, chs[ch].rank, chs[ch].tgAd, chs[ch].n][j]? := by
    intro j hj
    unfold rd encode
    rw [show 1 + ch * 4 + j = (ch * 4 + j) + 1 by omega, List.getElem?_cons_succ]
    exact flat_get chs ch j h hj
  refine ⟨by simpa using key 0 (by omega), by simpa using key 1 (by omega), by simpa using key 2 (by omega),
    by simpa using key 3 (by omega)⟩

theorem widths_length (w : Chan → Nat) (chs : List Chan) : (widths w chs).length = nFaces chs := by
  unfold widths nFaces
  induction chs with
  | nil => rfl
  | cons c chs ih => simp [List.flatMap_cons, ih]

theorem firstFace_succ {chs : List Chan} {ch : Nat} (h : ch < chs.length) :
    firstFace chs (ch + 1) = firstFace chs ch + chs[ch].n := by
  unfold firstFace
  rw [offs_succ (by simpa using h)]
  simp

theorem firstFace_le (chs : List Chan) (ch : Nat) : firstFace chs ch ≤ nFaces chs := by
  unfold firstFace nFaces
  rcases Nat.le_total ch (chs.map (·.n)).length with h | h
  · have := offs_mono (l := chs.map (·.n)) h
    unfold offs at this ⊢
    rwa [List.take_length] at this
  · unfold offs; rw [List.take_of_length_le h]; exact Nat.le_refl _

theorem firstFace_end (chs : List Chan) : firstFace chs chs.length = nFaces chs := by
  unfold firstFace nFaces offs
  rw [List.take_of_length_le (by simp)]

theorem firstFace_mono {chs : List Chan} {a b : Nat} (h : a ≤ b) : firstFace chs a ≤ firstFace chs b := offs_mono h

theorem widths_get (w : Chan → Nat) (chs : List Chan) : ∀ (ch co : Nat) (h : ch < chs.length), co < chs[ch].n →
    (widths w chs)[firstFace chs ch + co]? = some (w chs[ch]) := by
  unfold widths firstFace
  induction chs with
  | nil => intro ch co h; simp at h
  | cons c chs ih =>
    intro ch co h hco
    rw [List.flatMap_cons]
    cases ch with
    | zero =>
      simp only [List.getElem_cons_zero] at hco ⊢
      rw [List.getElem?_append_left (by simp [offs]; omega)]
      simp [offs, hco]
    | succ ch =>
      simp only [List.getElem_cons_succ] at hco ⊢
      have e : offs ((c :: chs).map (·.n)) (ch + 1) = c.n + offs (chs.map (·.n)) ch := by simp [offs]
      rw [e, List.getElem?_append_right (by simp; omega)]
      have : c.n + offs (chs.map (·.n)) ch + co - (List.replicate c.n (w c)).length = offs (chs.map (·.n)) ch + co := by
        simp; omega
      rw [this]
      exact ih ch co (by simpa using h) hco

theorem widths_step (w : Chan → Nat) {chs : List Chan} {ch co : Nat} (h : ch < chs.length) (hco : co < chs[ch].n) :
    offs (widths w chs) (firstFace chs ch + (co + 1)) = offs (widths w chs) (firstFace chs ch + co) + w chs[ch] := by
  have hg := widths_get w chs ch co h hco
  obtain ⟨hl, he⟩ := List.getElem?_eq_some_iff.1 hg
  rw [← Nat.add_assoc, offs_succ hl, he]

theorem widths_block (w : Chan → Nat) {chs : List Chan} {ch : Nat} (h : ch < chs.length) : ∀ co, co ≤ chs[ch].n →
    offs (widths w chs) (firstFace chs ch + co) = offs (widths w chs) (firstFace chs ch) + co * w chs[ch]
  | 0, _ => by simp
  | co + 1, hc => by
    rw [widths_step w h (by omega), widths_block w h co (by omega), Nat.add_mul]
    omega

/-- Every face belongs to a channel. -/
theorem face_chan {chs : List Chan} {j : Nat} (hj : j < nFaces chs) :
    ∃ ch co, ∃ h : ch < chs.length, co < chs[ch].n ∧ j = firstFace chs ch + co := by
  have key : ∀ k, k ≤ chs.length → j < firstFace chs k →
      ∃ ch co, ∃ h : ch < chs.length, co < chs[ch].n ∧ j = firstFace chs ch + co := by
    intro k
    induction k with
    | zero => intro _ h; simp [firstFace, offs] at h
    | succ k ih =>
      intro hk h
      rcases Nat.lt_or_ge j (firstFace chs k) with h' | h'
      · exact ih (by omega) h'
      · rw [firstFace_succ (show k < chs.length by omega)] at h
        exact ⟨k, j - firstFace chs k, by omega, by omega, by omega⟩
  exact key chs.length (Nat.le_refl _) (by rw [firstFace_end]; exact hj)

theorem widths_total (w : Chan → Nat) (chs : List Chan) : (widths w chs).sum = offs (widths w chs) (nFaces chs) := by
  unfold offs; rw [List.take_of_length_le (by rw [widths_length]; exact Nat.le_refl _)]

end Edge.Dist
