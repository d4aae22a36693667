import Verif.Work.Spec
import Verif.Shared.Props
import Verif.Lts.Props
/-!
The work packages of the shared memory parallelization distribute the elements to the workers.
-/
namespace Edge.Work
open Edge Edge.Sched Edge.Shared Edge.Lts

/-- Registrations of the work regions of the inner (`se = 0`) or send elements (`se = 1`), from time group `g` on (src/impl/seismic/setup.inc:334-396); `l` are the numbers of elements and of point sources of
the groups, `de` and `src` the counters `l_firstDe` and `l_firstSrc`, `prio` the priority of group 0, `rcv` and `chars` the sparse type of receivers and the sparse types of the elements. -/
def regions (se rcv : Nat) (chars : List Nat) (prio : Int) : Nat → Nat → Nat → List (Nat × Nat) → List Reg
  | _, _, _, [] => []
  | g, de, src, n :: l =>
    [⟨g, 0, g * 8 + (0 + se), de, n.1, prio - g, [rcv], chars⟩,
     ⟨g, 1, g * 8 + (2 + se), src, n.2, prio - g, [], []⟩,
     ⟨g, 2, g * 8 + (4 + se), de, n.1, prio - g, [], []⟩] ++ regions se rcv chars prio (g + 1) (de + n.1) (src + n.2) l

/-- Registrations of all regions (src/impl/seismic/setup.inc:334-396). -/
def setupRegs (rcv : Nat) (chars : List Nat) (inn snd : List (Nat × Nat)) : List Reg :=
  regions 0 rcv chars inn.length 0 0 0 inn ++ regions 1 rcv chars (inn.length * 2 : Nat) 0 ((inn.map (·.1)).sum) ((inn.map (·.2)).sum) snd

/-- Elements of the package of worker `w` in region `r` of group `g`: the range which `getWrkTd` returns (src/parallel/Shared.cpp:142-164). -/
def shareOf (s : Sh) (g r w : Nat) : List Nat :=
  match s.pkgOf (g * 8 + r) w with
  | some k => List.range' k.first k.size
  | none => []

theorem mem_regions {se rcv : Nat} {chars : List Nat} {prio : Int} {l : List (Nat × Nat)} {g de src i : Nat} (hi : i < l.length) {r : Nat} (hr : r = 0 ∨ r = 4) :
    ∃ x ∈ regions se rcv chars prio g de src l, x.id = (g + i) * 8 + (r + se) ∧ x.first = de + ((l.map (·.1)).take i).sum ∧ x.size = l[i].1 := by
  induction l generalizing g de src i with
  | nil => simp at hi
  | cons n l ih =>
    cases i with
    | zero =>
      rcases hr with rfl | rfl
      · exact ⟨_, List.mem_append_left _ List.mem_cons_self, rfl, by simp, rfl⟩
      · exact ⟨_, List.mem_append_left _ (List.mem_cons_of_mem _ (List.mem_cons_of_mem _ List.mem_cons_self)), rfl, by simp, rfl⟩
    | succ i =>
      obtain ⟨x, h1, h2, h3, h4⟩ := ih (g := g + 1) (de := de + n.1) (src := src + n.2) (i := i) (by simpa using hi)
      refine ⟨x, List.mem_append_right _ h1, by rw [h2]; congr 2; omega, ?_, h4⟩
      rw [h3]
      simp [Nat.add_assoc]

variable {A : Arith} {sep : Bool} {n : Nat} {st : Nat → Nat → Shared.Status} {s : Sh} {rcv : Nat} {chars : List Nat} {inn snd : List (Nat × Nat)} {p : Params} {tg : Nat → Nat}

theorem take_succ_sum {l : List (Nat × Nat)} {i : Nat} (hi : i < l.length) : ((l.map (·.1)).take (i + 1)).sum = ((l.map (·.1)).take i).sum + l[i].1 := by
  rw [take_sum_succ (by simpa using hi)]
  simp

/-- Packages of a region with the elements of a group. -/
theorem share_region (hz : 0 < A.zeroTime) (h : Shared.Reach A sep n (setupRegs rcv chars inn snd) st s) {g r : Nat} (hr : r < 2 ∨ 4 ≤ r ∧ r < 6) (hin : g < inn.length) (hse : snd.length = inn.length) :
    ∃ a b, (if r % 2 = 0 then a = ((inn.map (·.1)).take g).sum ∧ b = ((inn.map (·.1)).take (g + 1)).sum
        else a = (inn.map (·.1)).sum + ((snd.map (·.1)).take g).sum ∧ b = (inn.map (·.1)).sum + ((snd.map (·.1)).take (g + 1)).sum) ∧
      (∀ el, (a ≤ el ∧ el < b ↔ ∃ w < s.nWrks, el ∈ shareOf s g r w)) ∧ ∀ el w w', w < s.nWrks → w' < s.nWrks → el ∈ shareOf s g r w → el ∈ shareOf s g r w' → w = w' := by
  have key : ∀ x ∈ setupRegs rcv chars inn snd, x.id = g * 8 + r → (∀ el, (x.first ≤ el ∧ el < x.first + x.size ↔ ∃ w < s.nWrks, el ∈ shareOf s g r w)) ∧
      ∀ el w w', w < s.nWrks → w' < s.nWrks → el ∈ shareOf s g r w → el ∈ shareOf s g r w' → w = w' := by
    intro x hx hid
    obtain ⟨pkg, h1, -, -, -, h5, h6⟩ := C13_partition hz h hx
    have hm : ∀ el w, w < s.nWrks → (el ∈ shareOf s g r w ↔ (pkg w).first ≤ el ∧ el < (pkg w).first + (pkg w).size) := by
      intro el w hw
      rw [shareOf, ← hid, h1 w hw, List.mem_range'_1]
    refine ⟨fun el => (h5 el).trans ⟨?_, ?_⟩, fun el w w' hw hw' a b => h6 el w w' hw hw' ((hm el w hw).1 a) ((hm el w' hw').1 b)⟩
    · rintro ⟨w, hw, hh⟩
      exact ⟨w, hw, (hm el w hw).2 hh⟩
    · rintro ⟨w, hw, hh⟩
      exact ⟨w, hw, (hm el w hw).1 hh⟩
  have hcase : ∃ r0, (r0 = 0 ∨ r0 = 4) ∧ (r = r0 + 0 ∨ r = r0 + 1) := by
    have : r = 0 ∨ r = 1 ∨ r = 4 ∨ r = 5 := by omega
    rcases this with rfl | rfl | rfl | rfl
    · exact ⟨0, Or.inl rfl, Or.inl rfl⟩
    · exact ⟨0, Or.inl rfl, Or.inr rfl⟩
    · exact ⟨4, Or.inr rfl, Or.inl rfl⟩
    · exact ⟨4, Or.inr rfl, Or.inr rfl⟩
  obtain ⟨r0, h0, hr01⟩ := hcase
  have hev : r0 % 2 = 0 := by omega
  rcases hr01 with rfl | rfl
  · obtain ⟨x, a1, a2, a3, a4⟩ := mem_regions (se := 0) (rcv := rcv) (chars := chars) (prio := inn.length) (g := 0) (de := 0) (src := 0) hin h0
    refine ⟨x.first, x.first + x.size, ?_, key x (List.mem_append_left _ a1) (by rw [a2, Nat.zero_add, Nat.add_zero])⟩
    rw [if_pos (by omega), take_succ_sum hin, a3, a4, Nat.zero_add]
    exact ⟨rfl, rfl⟩
  · have hin' : g < snd.length := by omega
    obtain ⟨x, a1, a2, a3, a4⟩ := mem_regions (se := 1) (rcv := rcv) (chars := chars) (prio := (inn.length * 2 : Nat)) (g := 0) (de := (inn.map (·.1)).sum) (src := (inn.map (·.2)).sum) hin' h0
    refine ⟨x.first, x.first + x.size, ?_, key x (List.mem_append_right _ a1) (by rw [a2, Nat.zero_add])⟩
    rw [if_neg (by omega), take_succ_sum hin', a3, a4]
    exact ⟨rfl, by omega⟩

/-- C103: after the set up and any number of load balancings the packages of the workers distribute the elements: every element is updated by one worker in each of the steps. -/
theorem C103_packages (hz : 0 < A.zeroTime) (h : Shared.Reach A sep n (setupRegs rcv chars inn snd) st s) (hse : snd.length = inn.length) (hT : p.nTgs = inn.length) (hW : p.nWrk = s.nWrks) {N : Nat}
    (hN : N = (inn.map (·.1)).sum + (snd.map (·.1)).sum) (htg : ∀ el < N, InTg (inn.map (·.1)) (snd.map (·.1)) el (tg el)) : Shares p tg N (shareOf s) := by
  have hlt : ∀ el < N, tg el < inn.length := by
    intro el hel
    rcases htg el hel with ⟨h, -⟩ | ⟨h, -⟩
    · simpa using h
    · rw [List.length_map] at h; omega
  have hmem : ∀ g r w el, g < p.nTgs → w < p.nWrk → (r < 2 ∨ 4 ≤ r ∧ r < 6) → el ∈ shareOf s g r w →
      InTg (inn.map (·.1)) (snd.map (·.1)) el g ∧ el < N ∧ (r % 2 = 0 ↔ el < (inn.map (·.1)).sum) := by
    intro g r w el hg hw hr hel
    obtain ⟨a, b, h1, h2, -⟩ := share_region hz h hr (hT ▸ hg) hse
    obtain ⟨l1, l2⟩ := (h2 el).2 ⟨w, hW ▸ hw, hel⟩
    by_cases e : r % 2 = 0
    · rw [if_pos e] at h1
      obtain ⟨rfl, rfl⟩ := h1
      have := take_sum_le (inn.map (·.1)) (g + 1)
      exact ⟨Or.inl ⟨by simpa using hT ▸ hg, l1, l2⟩, by omega, by omega⟩
    · rw [if_neg e] at h1
      obtain ⟨rfl, rfl⟩ := h1
      have := take_sum_le (snd.map (·.1)) (g + 1)
      exact ⟨Or.inr ⟨by rw [List.length_map]; omega, l1, l2⟩, by omega, by omega⟩
  have hex : ∀ el < N, ∀ k, k = 0 ∨ k = 4 → ∃ r, k ≤ r ∧ r < k + 2 ∧ ∃ w < p.nWrk, el ∈ shareOf s (tg el) r w := by
    intro el hel k hk
    have hg := hlt el hel
    rcases htg el hel with ⟨-, l1, l2⟩ | ⟨-, l1, l2⟩
    · obtain ⟨a, b, h1, h2, -⟩ := share_region (g := tg el) (r := k) hz h (by omega) hg hse
      rw [if_pos (by omega)] at h1
      obtain ⟨rfl, rfl⟩ := h1
      rw [hW]
      exact ⟨k, le_rfl, by omega, (h2 el).1 ⟨l1, l2⟩⟩
    · obtain ⟨a, b, h1, h2, -⟩ := share_region (g := tg el) (r := k + 1) hz h (by omega) hg hse
      rw [if_neg (by omega)] at h1
      obtain ⟨rfl, rfl⟩ := h1
      rw [hW]
      exact ⟨k + 1, by omega, by omega, (h2 el).1 ⟨l1, l2⟩⟩
  refine ⟨fun el hel => hT ▸ hlt el hel, fun g r w => ?_, fun g r w el hg hw hr hel => ?_, fun el hel => ?_, fun el hel => ?_, fun g r r' w w' el hg hw hw' hr hel hel' => ?_⟩
  · unfold shareOf
    split
    · exact List.nodup_range'
    · exact List.nodup_nil
  · obtain ⟨a, b, -⟩ := hmem g r w el hg hw hr hel
    exact ⟨b, (htg el b).unique a⟩
  · obtain ⟨r, -, h2, h3⟩ := hex el hel 0 (Or.inl rfl)
    exact ⟨r, h2, h3⟩
  · obtain ⟨r, h1, h2, h3⟩ := hex el hel 4 (Or.inr rfl)
    exact ⟨r, h1, h2, h3⟩
  · have a := (hmem g r w el hg hw (by omega) hel).2.2
    have b := (hmem g r' w' el hg hw' (by omega) hel').2.2
    have hrr : r = r' := by omega
    subst hrr
    obtain ⟨_, _, -, -, h3⟩ := share_region (g := g) (r := r) hz h (by omega) (hT ▸ hg) hse
    exact ⟨rfl, h3 el w w' (hW ▸ hw) (hW ▸ hw') hel hel'⟩

end Edge.Work
