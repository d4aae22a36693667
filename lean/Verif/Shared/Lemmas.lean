import Verif.Shared.Model
import Verif.Sparse.Props
/-! Lemmas about load balancing. -/
namespace Edge.Shared
open Edge.Sparse

theorem shrinkPass_ok (tgt : Nat) : ∀ (ss : List Nat) (d : Nat), tgt < d →
    (shrinkPass tgt ss d).1.length = ss.length ∧
    (shrinkPass tgt ss d).1.sum + (d - (shrinkPass tgt ss d).2) = ss.sum ∧
    tgt ≤ (shrinkPass tgt ss d).2 ∧ (shrinkPass tgt ss d).2 ≤ d ∧
    (0 < ss.sum → (shrinkPass tgt ss d).2 < d)
  | [], d, h => by simp [shrinkPass]; omega
  | s :: ss, d, h => by
    unfold shrinkPass
    by_cases hs : s > 0
    · simp only [hs, if_true]
      by_cases he : d - 1 = tgt
      · simp only [he, if_true, List.length_cons, List.sum_cons, true_and, Nat.le_refl]; omega
      · simp only [he, if_false, List.length_cons, List.sum_cons]
        obtain ⟨a, b, c, e, f⟩ := shrinkPass_ok tgt ss (d - 1) (by omega)
        refine ⟨by omega, by omega, by omega, by omega, by omega⟩
    · simp only [hs, if_false]
      have hne : d ≠ tgt := by omega
      simp only [hne, if_false, List.length_cons, List.sum_cons]
      obtain ⟨a, b, c, e, f⟩ := shrinkPass_ok tgt ss d h
      have : s = 0 := by omega
      subst this
      refine ⟨by omega, by omega, by omega, by omega, fun h' => f (by omega)⟩

theorem growPass_ok (tgt : Nat) : ∀ (ss : List Nat) (d : Nat), d < tgt →
    (growPass tgt ss d).1.length = ss.length ∧
    (growPass tgt ss d).1.sum + d = ss.sum + (growPass tgt ss d).2 ∧
    (growPass tgt ss d).2 ≤ tgt ∧ d ≤ (growPass tgt ss d).2 ∧
    (0 < ss.length → d < (growPass tgt ss d).2)
  | [], d, h => by simp [growPass]; omega
  | s :: ss, d, h => by
    unfold growPass
    by_cases he : d + 1 = tgt
    · simp only [he, if_true, List.length_cons, List.sum_cons, true_and, Nat.le_refl]; omega
    · simp only [he, if_false, List.length_cons, List.sum_cons]
      obtain ⟨a, b, c, e, f⟩ := growPass_ok tgt ss (d + 1) (by omega)
      refine ⟨by omega, by omega, by omega, by omega, by omega⟩

theorem shrink_some (tgt : Nat) : ∀ (fuel : Nat) (s : List Nat × Nat), s.1.sum = s.2 → s.2 - tgt ≤ fuel →
    ∃ t, shrink tgt fuel s = some t
  | 0, s, _, h => ⟨s, by unfold shrink; rw [if_neg (by omega)]⟩
  | fuel + 1, s, hs, h => by
    unfold shrink
    by_cases hd : s.2 > tgt
    · rw [if_pos hd]
      obtain ⟨a, b, c, e, f⟩ := shrinkPass_ok tgt s.1 s.2 hd
      have := f (by omega)
      exact shrink_some tgt fuel _ (by omega) (by omega)
    · rw [if_neg hd]; exact ⟨s, rfl⟩

theorem shrink_post (tgt : Nat) : ∀ (fuel : Nat) (s t : List Nat × Nat), shrink tgt fuel s = some t →
    s.1.sum = s.2 → t.1.sum = t.2 ∧ t.2 ≤ tgt ∧ t.1.length = s.1.length
  | 0, s, t, h, hs => by
    unfold shrink at h
    split at h
    · simp at h
    · cases h; exact ⟨hs, by omega, rfl⟩
  | fuel + 1, s, t, h, hs => by
    unfold shrink at h
    split at h
    · rename_i hd
      obtain ⟨a, b, c, e, f⟩ := shrinkPass_ok tgt s.1 s.2 hd
      have := shrink_post tgt fuel _ t h (by omega)
      exact ⟨this.1, this.2.1, by omega⟩
    · cases h; exact ⟨hs, by omega, rfl⟩

theorem grow_some (tgt : Nat) : ∀ (fuel : Nat) (s : List Nat × Nat), 0 < s.1.length → tgt - s.2 ≤ fuel →
    ∃ t, grow tgt fuel s = some t
  | 0, s, _, h => ⟨s, by unfold grow; rw [if_neg (by omega)]⟩
  | fuel + 1, s, hs, h => by
    unfold grow
    by_cases hd : s.2 < tgt
    · rw [if_pos hd]
      obtain ⟨a, b, c, e, f⟩ := growPass_ok tgt s.1 s.2 hd
      have := f hs
      exact grow_some tgt fuel _ (by omega) (by omega)
    · rw [if_neg hd]; exact ⟨s, rfl⟩

theorem grow_post (tgt : Nat) : ∀ (fuel : Nat) (s t : List Nat × Nat), grow tgt fuel s = some t →
    s.1.sum = s.2 → s.2 ≤ tgt → t.1.sum = tgt ∧ t.1.length = s.1.length
  | 0, s, t, h, hs, hle => by
    unfold grow at h
    split at h
    · simp at h
    · cases h; exact ⟨by omega, rfl⟩
  | fuel + 1, s, t, h, hs, hle => by
    unfold grow at h
    split at h
    · rename_i hd
      obtain ⟨a, b, c, e, f⟩ := growPass_ok tgt s.1 s.2 hd
      have := grow_post tgt fuel _ t h (by omega) c
      exact ⟨this.1, by omega⟩
    · cases h; exact ⟨by omega, rfl⟩

theorem throughputs_ok : ∀ (s : List Nat) (e : List Rat), s.length = e.length → (∀ x, x ∈ e → x ≠ 0) →
    ∃ t, throughputs s e = some t ∧ t.length = s.length
  | [], [], _, _ => ⟨[], rfl, rfl⟩
  | [], _ :: _, h, _ => by simp at h
  | _ :: _, [], h, _ => by simp at h
  | s :: ss, e :: es, h, hne => by
    obtain ⟨t, ht, hl⟩ := throughputs_ok ss es (by simpa using h) (fun x hx => hne x (List.mem_cons_of_mem _ hx))
    have : e ≠ 0 := hne e List.mem_cons_self
    exact ⟨s / e :: t, by simp [throughputs, this, ht], by simp [hl]⟩

theorem throughputs_length : ∀ (s : List Nat) (e t : List Rat), throughputs s e = some t → t.length = s.length
  | [], [], t, h => by simp [throughputs] at h; simp [← h]
  | [], _ :: _, t, h => by simp [throughputs] at h
  | _ :: _, [], t, h => by simp [throughputs] at h
  | s :: ss, e :: es, t, h => by
    simp only [throughputs, Option.bind_eq_bind, Option.bind_eq_some_iff, Option.pure_def, Option.some.injEq] at h
    obtain ⟨_, _, r, hr, rfl⟩ := h
    simp [throughputs_length ss es r hr]

theorem rawSizes_length (A : Arith) (tot : Rat) (size : Nat) : ∀ (w : Nat) (t : List Rat),
    (rawSizes A tot size w t).length = t.length
  | _, [] => rfl
  | w, t :: ts => by simp [rawSizes, rawSizes_length A tot size (w + 1) ts]

theorem setFirsts_ok : ∀ (f : Nat) (ss : List Nat) (ps : List Pkg), ss.length = ps.length →
    ∃ qs, setFirsts f ss ps = some qs ∧ qs.length = ps.length ∧ qs.map (·.size) = ss ∧
      qs.map (·.firstSp) = ps.map (·.firstSp) ∧
      ∀ i (h : i < qs.length), qs[i].first = f + offs ss i
  | f, [], [], _ => ⟨[], rfl, rfl, rfl, rfl, by simp⟩
  | _, [], _ :: _, h => by simp at h
  | _, _ :: _, [], h => by simp at h
  | f, s :: ss, p :: ps, h => by
    obtain ⟨qs, h1, h2, h3, h4, h5⟩ := setFirsts_ok (f + s) ss ps (by simpa using h)
    refine ⟨{ p with first := f, size := s } :: qs, by simp [setFirsts, h1], by simp [h2], by simp [h3],
      by simp [h4], ?_⟩
    intro i hi
    cases i with
    | zero => simp
    | succ i =>
      simp only [List.getElem_cons_succ]
      rw [h5 i (by simpa using hi)]
      simp [offs]; omega

/-- The packages partition `[first, first+size)` consecutively. -/
def Part (first size : Nat) (pkgs : List Pkg) : Prop :=
  (∀ i (h : i < pkgs.length), pkgs[i].first = first + offs (pkgs.map (·.size)) i) ∧
  (pkgs.map (·.size)).sum = size

theorem filter_rank (p : Nat → Bool) {n e : Nat} (he : e < n) (hp : p e = true) :
    ((List.range n).filter p)[rank p e]? = some e := by
  induction n with
  | zero => omega
  | succ n ih =>
    rw [List.range_succ, List.filter_append]
    by_cases h : e < n
    · have := ih h
      rw [List.getElem?_append_left (List.getElem?_eq_some_iff.mp this).1, this]
    · have : e = n := by omega
      subst this
      rw [List.getElem?_append_right (by simp [rank])]
      simp [rank, hp]

theorem filter_length (p : Nat → Bool) (n : Nat) : ((List.range n).filter p).length = rank p n := rfl

theorem spDe_lt (p : Nat → Bool) (first n m j : Nat)
    (hj : j < (((List.range n).filter p).map (· + first)).length) :
    (((List.range n).filter p).map (· + first))[j] < first + m ↔ j < rank p m := by
  have hj' : j < rank p n := by rw [List.length_map] at hj; exact hj
  obtain ⟨e, he, hp, hr⟩ := rank_surj p n j hj'
  have h1 := filter_rank p he hp
  rw [hr] at h1
  have h2 : (((List.range n).filter p).map (· + first))[j] = e + first := by
    rw [List.getElem_map]
    congr 1
    exact (List.getElem?_eq_some_iff.mp h1).2
  rw [h2, ← hr]
  constructor
  · intro h; exact rank_lt p (by omega) hp
  · intro h
    apply Nat.lt_of_not_le
    intro h'
    have := rank_mono p (show m ≤ e by omega)
    omega

theorem adv_eq (spDe : List Nat) (e sp : Nat) : adv spDe e sp =
    if h : sp < spDe.length then (if spDe[sp] < e then adv spDe e (sp + 1) else sp) else sp := by
  unfold adv
  by_cases h : sp < spDe.length
  · rw [dif_pos h, List.drop_eq_getElem_cons h]
    simp [adv.go]
  · rw [dif_neg h, List.drop_eq_nil_of_le (by omega)]
    simp [adv.go]

theorem adv_ok (p : Nat → Bool) (first n m : Nat) (hm : m ≤ n) : ∀ (k sp : Nat), rank p m - sp = k →
    sp ≤ rank p m → adv (((List.range n).filter p).map (· + first)) (first + m) sp = rank p m := by
  intro k
  induction k with
  | zero =>
    intro sp hk hle
    have : sp = rank p m := by omega
    subst this
    rw [adv_eq]
    split
    · rename_i h
      rw [if_neg]
      rw [spDe_lt p first n m _ h]
      omega
    · rfl
  | succ k ih =>
    intro sp hk hle
    have hlt : sp < rank p m := by omega
    have hl : sp < (((List.range n).filter p).map (· + first)).length := by
      have := rank_mono p hm
      rw [List.length_map, filter_length]; omega
    rw [adv_eq]
    rw [dif_pos hl, if_pos ((spDe_lt p first n m _ hl).2 hlt)]
    exact ih (sp + 1) (by omega) (by omega)

/-- The sparse tables of a region are those of the given types and characteristics. -/
def Tables (types chars : List Nat) (r : Rgn) : Prop :=
  r.firstSp.length = types.length ∧ r.spDe.length = types.length ∧
  ∀ ty (h : ty < types.length), r.firstSp[ty]? = some (rank (isSp chars types[ty]) r.first) ∧
    r.spDe[ty]? = some (((List.range r.size).filter (fun i => isSp chars types[ty] (r.first + i))).map (· + r.first))

theorem rank_shift (p : Nat → Bool) (first n : Nat) :
    rank p first + rank (fun i => p (first + i)) n = rank p (first + n) := by
  rw [rank_add]; rfl

theorem offs_total {l : List Nat} : offs l l.length = l.sum := by simp [offs]

theorem offs_le_sum {l : List Nat} (i : Nat) : offs l i ≤ l.sum := by
  rcases Nat.le_total i l.length with h | h
  · rw [← offs_total]; exact offs_mono h
  · unfold offs; rw [List.take_of_length_le h]; exact Nat.le_refl _

/-- Inner loop of `resolveSpEn`. -/
theorem resolveInner_ok {first size ty : Nat} {pkgs : List Pkg} (p : Nat → Bool) (hpart : Part first size pkgs)
    (hty : ∀ q, q ∈ pkgs → ty < q.firstSp.length) (f : Nat) :
    ∃ s, forN pkgs.length (fun wp (s : Nat × List Pkg) => do
      let q ← rd s.2 wp
      let fs ← wr q.firstSp ty (f + s.1)
      let pkgs ← wr s.2 wp { q with firstSp := fs }
      return (adv (((List.range size).filter p).map (· + first)) (q.first + q.size) s.1, pkgs)) (0, pkgs) = some s ∧
    (s.1 = rank p (offs (pkgs.map (·.size)) pkgs.length) ∧ s.2.length = pkgs.length ∧
      ∀ i, (i < pkgs.length → s.2[i]? = (pkgs[i]?).map (fun q =>
        { q with firstSp := q.firstSp.set ty (f + rank p (offs (pkgs.map (·.size)) i)) })) ∧
      (pkgs.length ≤ i → s.2[i]? = pkgs[i]?)) := by
  refine forN_inv (fun n (s : Nat × List Pkg) => s.1 = rank p (offs (pkgs.map (·.size)) n) ∧
    s.2.length = pkgs.length ∧ ∀ i, (i < n → s.2[i]? = (pkgs[i]?).map (fun q =>
        { q with firstSp := q.firstSp.set ty (f + rank p (offs (pkgs.map (·.size)) i)) })) ∧
      (n ≤ i → s.2[i]? = pkgs[i]?)) (by simp) ?_
  rintro i ⟨sp, ps⟩ hi ⟨a1, a2, a3⟩
  simp only at a1 a2 a3
  have hl : i < ps.length := by omega
  have hq : ps[i] = pkgs[i] := by
    have := (a3 i).2 (Nat.le_refl _)
    simpa [hl, hi] using this
  have hil : i < (pkgs.map (·.size)).length := by simpa using hi
  have hoff := offs_succ hil
  have hle := offs_le_sum (l := pkgs.map (·.size)) (i + 1)
  rw [hpart.2] at hle
  have hend : pkgs[i].first + pkgs[i].size = first + offs (pkgs.map (·.size)) (i + 1) := by
    rw [hpart.1 i hi, hoff]; simp; omega
  have hadv := adv_ok p first size (offs (pkgs.map (·.size)) (i + 1)) hle _ sp rfl
    (by rw [a1]; exact rank_mono p (offs_mono (Nat.le_succ i)))
  refine ⟨(rank p (offs (pkgs.map (·.size)) (i + 1)), ps.set i { pkgs[i] with firstSp := pkgs[i].firstSp.set ty (f + sp) }),
    ?_, rfl, by simpa using a2, ?_⟩
  · simp only [rd_some hl, hq, Option.bind_eq_bind, Option.bind_some, wr_some (hty _ (List.getElem_mem hi)),
      wr_some hl, hend, hadv]
    rfl
  · intro j
    constructor
    · intro hj
      simp only
      by_cases h : j = i
      · subst h; simp [hl, hi, a1]
      · rw [List.getElem?_set_ne (by omega)]; exact (a3 j).1 (by omega)
    · intro hj
      simp only
      rw [List.getElem?_set_ne (by omega)]; exact (a3 j).2 (by omega)

theorem part_congr {first size : Nat} {ps qs : List Pkg} (h : Part first size ps) (h1 : qs.length = ps.length)
    (h2 : qs.map (·.size) = ps.map (·.size)) (h3 : qs.map (·.first) = ps.map (·.first)) : Part first size qs := by
  refine ⟨?_, by rw [h2]; exact h.2⟩
  intro i hi
  have := congrArg (fun l => l[i]?) h3
  simp only [List.getElem?_map, List.getElem?_eq_getElem hi, List.getElem?_eq_getElem (show i < ps.length by omega),
    Option.map_some, Option.some.injEq] at this
  rw [this, h2]
  exact h.1 i (by omega)

/-- What the load balancing maintains for a region registered with the given types and characteristics. -/
structure RInv (nWrks : Nat) (types chars : List Nat) (r : Rgn) : Prop where
  len : r.pkgs.length = nWrks
  part : Part r.first r.size r.pkgs
  tab : Tables types chars r
  flen : ∀ q, q ∈ r.pkgs → q.firstSp.length = types.length
  sp : ∀ q, q ∈ r.pkgs → ∀ ty (h : ty < types.length),
    q.firstSp[ty]? = some (rank (isSp chars types[ty]) q.first)

theorem resolveSpEn_ok {nWrks : Nat} {types chars : List Nat} {r : Rgn} (hlen : r.pkgs.length = nWrks)
    (hpart : Part r.first r.size r.pkgs) (htab : Tables types chars r)
    (hf : ∀ q, q ∈ r.pkgs → q.firstSp.length = types.length) :
    ∃ r', resolveSpEn r = some r' ∧ (r'.first = r.first ∧ r'.size = r.size ∧
      r'.pkgs.map (·.size) = r.pkgs.map (·.size) ∧ r'.pkgs.map (·.first) = r.pkgs.map (·.first) ∧
      RInv nWrks types chars r') := by
  unfold resolveSpEn
  obtain ⟨r', h', b1, b2, b3, b4, b5, b6, b7, b8⟩ : ∃ r', forN r.firstSp.length (fun ty r => do
    let spDe ← rd r.spDe ty
    let f ← rd r.firstSp ty
    let s ← forN r.pkgs.length (fun wp (s : Nat × List Pkg) => do
      let p ← rd s.2 wp
      let fs ← wr p.firstSp ty (f + s.1)
      let pkgs ← wr s.2 wp { p with firstSp := fs }
      return (adv spDe (p.first + p.size) s.1, pkgs)) (0, r.pkgs)
    check (s.1 == spDe.length)
    return { r with pkgs := s.2 }) r = some r' ∧
    (r'.first = r.first ∧ r'.size = r.size ∧ r'.firstSp = r.firstSp ∧ r'.spDe = r.spDe ∧
      r'.pkgs.map (·.size) = r.pkgs.map (·.size) ∧ r'.pkgs.map (·.first) = r.pkgs.map (·.first) ∧
      (∀ q, q ∈ r'.pkgs → q.firstSp.length = types.length) ∧
      ∀ q, q ∈ r'.pkgs → ∀ ty (h : ty < types.length), ty < r.firstSp.length →
        q.firstSp[ty]? = some (rank (isSp chars types[ty]) q.first)) := by
    refine forN_inv (fun n (r' : Rgn) => r'.first = r.first ∧ r'.size = r.size ∧ r'.firstSp = r.firstSp ∧
      r'.spDe = r.spDe ∧ r'.pkgs.map (·.size) = r.pkgs.map (·.size) ∧
      r'.pkgs.map (·.first) = r.pkgs.map (·.first) ∧
      (∀ q, q ∈ r'.pkgs → q.firstSp.length = types.length) ∧
      ∀ q, q ∈ r'.pkgs → ∀ ty (h : ty < types.length), ty < n →
        q.firstSp[ty]? = some (rank (isSp chars types[ty]) q.first))
      ⟨rfl, rfl, rfl, rfl, rfl, rfl, hf, by intro _ _ _ _ h; omega⟩ ?_
    rintro ty t hty ⟨a1, a2, a3, a4, a5, a6, a7, a8⟩
    have hty' : ty < types.length := by rw [← htab.1]; exact hty
    obtain ⟨t1, t2⟩ := htab.2.2 ty hty'
    have hl : t.pkgs.length = r.pkgs.length := by
      have := congrArg List.length a5; simpa using this
    have hpart' : Part r.first r.size t.pkgs := part_congr hpart hl a5 a6
    obtain ⟨s, hs, s1, s2, s3⟩ := resolveInner_ok (ty := ty) (fun i => isSp chars types[ty] (r.first + i)) hpart'
      (fun q hq => by rw [a7 q hq]; exact hty') (rank (isSp chars types[ty]) r.first)
    simp only [rd, a3, a4, t1, t2, Option.bind_eq_bind, Option.bind_some]
    simp only [rd, Option.bind_eq_bind] at hs
    rw [hs]
    have hsum : offs (t.pkgs.map (·.size)) t.pkgs.length = r.size := by
      have h1 := offs_total (l := t.pkgs.map (·.size))
      rw [hpart'.2, List.length_map] at h1
      exact h1
    rw [hsum] at s1
    have hck : (s.1 == (((List.range r.size).filter (fun i => isSp chars types[ty] (r.first + i))).map
        (· + r.first)).length) = true := by
      rw [List.length_map, filter_length, s1]; simp
    simp only [hck, check_true, Option.bind_some]
    have hmem : ∀ q, q ∈ s.2 → ∃ i, ∃ h : i < t.pkgs.length, q =
        { t.pkgs[i] with firstSp := t.pkgs[i].firstSp.set ty (rank (isSp chars types[ty]) t.pkgs[i].first) } := by
      intro q hq
      obtain ⟨i, hi, rfl⟩ := List.getElem_of_mem hq
      have hi' : i < t.pkgs.length := by omega
      refine ⟨i, hi', ?_⟩
      have := (s3 i).1 hi'
      rw [List.getElem?_eq_getElem hi, List.getElem?_eq_getElem hi', Option.map_some] at this
      rw [Option.some.inj this, rank_shift, ← hpart'.1 i hi']
    have hmap : ∀ {β : Type} (g : Pkg → β), (∀ (q : Pkg) l, g { q with firstSp := l } = g q) →
        s.2.map g = t.pkgs.map g := by
      intro β g hg
      apply List.ext_getElem?
      intro i
      rw [List.getElem?_map, List.getElem?_map]
      rcases Nat.lt_or_ge i t.pkgs.length with h | h
      · rw [(s3 i).1 h]
        cases t.pkgs[i]? with
        | none => rfl
        | some q => simp [hg]
      · rw [(s3 i).2 h]
    refine ⟨_, rfl, a1, a2, rfl, rfl, ?_, ?_, ?_, ?_⟩
    · rw [← a5]; exact hmap (·.size) (fun _ _ => rfl)
    · rw [← a6]; exact hmap (·.first) (fun _ _ => rfl)
    · intro q hq
      obtain ⟨i, hi, rfl⟩ := hmem q hq
      simpa using a7 _ (List.getElem_mem hi)
    · intro q hq ty' hty2 hlt
      obtain ⟨i, hi, rfl⟩ := hmem q hq
      have h7 := a7 _ (List.getElem_mem hi)
      simp only
      by_cases h : ty' = ty
      · subst h; simp [h7, hty2]
      · rw [List.getElem?_set_ne (by omega)]
        exact a8 _ (List.getElem_mem hi) ty' hty2 (by omega)
  have hl : r'.pkgs.length = r.pkgs.length := by
    have := congrArg List.length b5; simpa using this
  refine ⟨r', h', b1, b2, b5, b6, ⟨by omega, ?_, ?_, b7, ?_⟩⟩
  · rw [b1, b2]; exact part_congr hpart hl b5 b6
  · unfold Tables; rw [b1, b2, b3, b4]; exact htab
  · intro q hq ty hty
    exact b8 q hq ty hty (by rw [htab.1]; exact hty)

theorem foldMin_le (l : List Rat) (b : Rat) :
    (l.foldl (fun m e => if e < m then e else m) b) ≤ b ∧
    ∀ x, x ∈ l → (l.foldl (fun m e => if e < m then e else m) b) ≤ x := by
  induction l generalizing b with
  | nil => simp
  | cons a l ih =>
    simp only [List.foldl_cons]
    obtain ⟨h1, h2⟩ := ih (if a < b then a else b)
    have ha : (if a < b then a else b) ≤ a := by
      split
      · exact Rat.le_refl
      · rename_i h; exact Rat.not_lt.mp h
    have hb : (if a < b then a else b) ≤ b := by
      split
      · rename_i h; exact Rat.le_of_lt h
      · exact Rat.le_refl
    refine ⟨Rat.le_trans h1 hb, ?_⟩
    intro x hx
    rcases List.mem_cons.mp hx with h | h
    · subst h; exact Rat.le_trans h1 ha
    · exact h2 x h

theorem lt_of_le_of_lt' {a b c : Rat} (h1 : a ≤ b) (h2 : b < c) : a < c := by
  apply Rat.not_le.mp
  intro h
  exact Rat.not_le.mpr h2 (Rat.le_trans h h1)

/-- The shape of a region before it is balanced. -/
structure Shape (nWrks : Nat) (types chars : List Nat) (r : Rgn) : Prop where
  len : r.pkgs.length = nWrks
  tab : Tables types chars r
  flen : ∀ q, q ∈ r.pkgs → q.firstSp.length = types.length

/-- Whether the measured times make `balanceWrkRgn` distribute anew by pseudo-data. -/
def Fresh (A : Arith) (ela : List Rat) : Prop :=
  ela.foldl (fun m e => if e < m then e else m) A.big < A.zeroTime

instance (A : Arith) (ela : List Rat) : Decidable (Fresh A ela) := by unfold Fresh; exact inferInstance

/-- Balancing maintains the invariant: total correctness for enough fuel. -/
theorem balance_ok {A : Arith} {nWrks : Nat} {types chars : List Nat} {ela : List Rat} {r : Rgn}
    (hz : 0 < A.zeroTime) (hn : 0 < nWrks) (he : ela.length = nWrks) (hsh : Shape nWrks types chars r)
    (hi : RInv nWrks types chars r ∨ Fresh A ela) :
    (∃ N, ∀ fuel, N ≤ fuel → ∃ r', balanceWrkRgn A fuel ela r = some r') ∧
    ∀ fuel r', balanceWrkRgn A fuel ela r = some r' →
      r'.first = r.first ∧ r'.size = r.size ∧ RInv nWrks types chars r' ∧
      (Fresh A ela → ∃ t s1 s2, throughputs (r.pkgs.map (fun _ => 1)) (ela.map (fun _ => (3343 : Rat))) = some t ∧
        shrink r.size fuel (rawSizes A (t.foldl (· + ·) 0) r.size 0 t,
          (rawSizes A (t.foldl (· + ·) 0) r.size 0 t).sum) = some s1 ∧
        grow r.size fuel s1 = some s2 ∧ r'.pkgs.map (·.size) = s2.1) := by
  obtain ⟨hlen, htab, hf⟩ := hsh
  have hc1 : (ela.length == r.pkgs.length) = true := by simp [he, hlen]
  have hc2 : r.pkgs.length ≠ 0 := by omega
  have hden : ∀ x : Rat, (if x < A.zeroTime then A.zeroTime else x) ≠ 0 := by
    intro x h
    split at h
    · rw [h] at hz; exact Rat.lt_irrefl hz
    · rename_i hx
      rw [h] at hx
      exact hx hz
  have hunf : ∀ fuel, balanceWrkRgn A fuel ela r =
      (if ¬ Fresh A ela ∧ (ela.foldl (fun m e => if m < e then e else m) (-A.big) -
          ela.foldl (fun m e => if e < m then e else m) A.big) /
          (if ela.foldl (· + ·) 0 / (r.pkgs.length : Rat) < A.zeroTime then A.zeroTime
            else ela.foldl (· + ·) 0 / (r.pkgs.length : Rat)) < A.maxImb then some r
      else do
        let ela' := if Fresh A ela then ela.map (fun _ => (3343 : Rat)) else ela
        let sizes := if Fresh A ela then r.pkgs.map (fun _ => 1) else r.pkgs.map (·.size)
        let through ← throughputs sizes ela'
        let raw := rawSizes A (through.foldl (· + ·) 0) r.size 0 through
        let s ← shrink r.size fuel (raw, raw.sum)
        let s ← grow r.size fuel s
        let pkgs ← setFirsts r.first s.1 r.pkgs
        let last ← rd pkgs (pkgs.length - 1)
        check (last.first + last.size == r.first + r.size)
        resolveSpEn { r with pkgs := pkgs }) := by
    intro fuel
    unfold balanceWrkRgn
    simp only [hc1, hc2, check_true, ne_eq, not_false_eq_true, decide_true, Option.bind_eq_bind, Option.bind_some,
      hden]
    rfl
  by_cases hret : ¬ Fresh A ela ∧ (ela.foldl (fun m e => if m < e then e else m) (-A.big) -
          ela.foldl (fun m e => if e < m then e else m) A.big) /
          (if ela.foldl (· + ·) 0 / (r.pkgs.length : Rat) < A.zeroTime then A.zeroTime
            else ela.foldl (· + ·) 0 / (r.pkgs.length : Rat)) < A.maxImb
  · have hr : ∀ fuel, balanceWrkRgn A fuel ela r = some r := fun fuel => by rw [hunf, if_pos hret]
    refine ⟨⟨0, fun fuel _ => ⟨r, hr fuel⟩⟩, ?_⟩
    intro fuel r' h
    rw [hr] at h
    cases h
    exact ⟨rfl, rfl, hi.resolve_right hret.1, fun h => absurd h hret.1⟩
  · -- times and sizes used
    have hthr : ∃ t, throughputs (if Fresh A ela then r.pkgs.map (fun _ => 1) else r.pkgs.map (·.size))
        (if Fresh A ela then ela.map (fun _ => (3343 : Rat)) else ela) = some t ∧ t.length = nWrks := by
      by_cases hfr : Fresh A ela
      · simp only [hfr, if_true]
        obtain ⟨t, h1, h2⟩ := throughputs_ok (r.pkgs.map (fun _ => 1)) (ela.map (fun _ => (3343 : Rat)))
          (by simp [he, hlen]) (by
            intro x hx
            simp only [List.mem_map] at hx
            obtain ⟨_, _, rfl⟩ := hx
            decide)
        exact ⟨t, h1, by rw [h2]; simpa using hlen⟩
      · simp only [hfr, if_false]
        obtain ⟨t, h1, h2⟩ := throughputs_ok (r.pkgs.map (·.size)) ela (by simp [he, hlen]) (by
            intro x hx h0
            subst h0
            have := (foldMin_le ela A.big).2 0 hx
            exact hfr (lt_of_le_of_lt' this hz))
        exact ⟨t, h1, by rw [h2]; simpa using hlen⟩
    obtain ⟨t, ht, htl⟩ := hthr
    have hrest : ∀ (fuel : Nat) (s2 : List Nat × Nat), s2.1.sum = r.size → s2.1.length = nWrks →
        ∃ r', ((setFirsts r.first s2.1 r.pkgs).bind fun pkgs => (rd pkgs (pkgs.length - 1)).bind fun last =>
          (check (last.first + last.size == r.first + r.size)).bind fun _ =>
            resolveSpEn { r with pkgs := pkgs }) = some r' ∧
          r'.first = r.first ∧ r'.size = r.size ∧ RInv nWrks types chars r' ∧ r'.pkgs.map (·.size) = s2.1 := by
      intro fuel s2 hsum hl2
      obtain ⟨qs, q1, q2, q3, q4, q5⟩ := setFirsts_ok r.first s2.1 r.pkgs (by omega)
      have hq0 : qs.length - 1 < qs.length := by omega
      have hlast : qs[qs.length - 1].first + qs[qs.length - 1].size = r.first + r.size := by
        have h1 : qs.length - 1 < s2.1.length := by omega
        have h2 := offs_succ h1
        rw [show qs.length - 1 + 1 = s2.1.length by omega, offs_total, hsum] at h2
        have h3 : qs[qs.length - 1].size = s2.1[qs.length - 1] := by
          have := congrArg (fun l => l[qs.length - 1]?) q3
          simpa [hq0, h1] using this
        rw [q5 _ hq0, h3]; omega
      have hpart : Part r.first r.size qs := ⟨fun i hi => by rw [q5 i hi, q3], by rw [q3]; exact hsum⟩
      obtain ⟨r', e1, e2, e3, e5, _, e4⟩ := resolveSpEn_ok (nWrks := nWrks) (types := types) (chars := chars)
        (r := { r with pkgs := qs }) (by simp only; omega) hpart htab (by
          intro q hq
          obtain ⟨i, hi, rfl⟩ := List.getElem_of_mem hq
          simp only at hi ⊢
          have hir : i < r.pkgs.length := by omega
          have := congrArg (fun l => l[i]?) q4
          simp only [List.getElem?_map, List.getElem?_eq_getElem hi, List.getElem?_eq_getElem hir,
            Option.map_some, Option.some.injEq] at this
          rw [this]
          exact hf _ (List.getElem_mem hir))
      refine ⟨r', ?_, e2, e3, e4, by rw [e5]; exact q3⟩
      simp only [q1, Option.bind_some, rd_some hq0, hlast, BEq.rfl, check_true]
      exact e1
    have hrawl := rawSizes_length A (t.foldl (· + ·) 0) r.size 0 t
    constructor
    · refine ⟨(rawSizes A (t.foldl (· + ·) 0) r.size 0 t).sum + r.size, ?_⟩
      intro fuel hfuel
      obtain ⟨s1, hs1⟩ := shrink_some r.size fuel
        (rawSizes A (t.foldl (· + ·) 0) r.size 0 t, (rawSizes A (t.foldl (· + ·) 0) r.size 0 t).sum) rfl
        (by simp only; omega)
      obtain ⟨p1, p2, p3⟩ := shrink_post r.size fuel _ _ hs1 rfl
      simp only at p3
      obtain ⟨s2, hs2⟩ := grow_some r.size fuel s1 (by omega) (by omega)
      obtain ⟨g1, g2⟩ := grow_post r.size fuel _ _ hs2 p1 p2
      obtain ⟨r', hr', _⟩ := hrest fuel s2 g1 (by omega)
      refine ⟨r', ?_⟩
      rw [hunf, if_neg hret]
      simp only [ht, Option.bind_eq_bind, Option.bind_some, hs1, hs2]
      exact hr'
    · intro fuel r' h
      rw [hunf, if_neg hret] at h
      simp only [ht, Option.bind_eq_bind, Option.bind_some] at h
      rw [Option.bind_eq_some_iff] at h
      obtain ⟨s1, hs1, h⟩ := h
      rw [Option.bind_eq_some_iff] at h
      obtain ⟨s2, hs2, h⟩ := h
      obtain ⟨p1, p2, p3⟩ := shrink_post r.size fuel _ _ hs1 rfl
      simp only at p3
      obtain ⟨g1, g2⟩ := grow_post r.size fuel _ _ hs2 p1 p2
      obtain ⟨r'', hr'', hh⟩ := hrest fuel s2 g1 (by omega)
      rw [hr''] at h
      cases h
      refine ⟨hh.1, hh.2.1, hh.2.2.1, fun hfr => ⟨t, s1, s2, ?_, hs1, hs2, hh.2.2.2⟩⟩
      simpa only [hfr, if_true] using ht

theorem shrinkPass_rep (tgt v : Nat) (hv : 0 < v) : ∀ (n d : Nat), tgt < d →
    (shrinkPass tgt (List.replicate n v) d = (List.replicate n (v - 1), d - n) ∧ n ≤ d) ∨
    ((shrinkPass tgt (List.replicate n v) d).2 = tgt ∧
      ∀ x, x ∈ (shrinkPass tgt (List.replicate n v) d).1 → x = v - 1 ∨ x = v)
  | 0, d, _ => by simp [shrinkPass]
  | n + 1, d, h => by
    simp only [List.replicate_succ]
    unfold shrinkPass
    simp only [gt_iff_lt, hv, if_true]
    by_cases he : d - 1 = tgt
    · simp only [he, if_true]
      right
      refine ⟨trivial, ?_⟩
      intro x hx
      simp only [List.mem_cons, List.mem_replicate] at hx
      omega
    · simp only [he, if_false]
      rcases shrinkPass_rep tgt v hv n (d - 1) (by omega) with ⟨h1, h2⟩ | ⟨h1, h2⟩
      · left; rw [h1]; refine ⟨?_, by omega⟩; simp only [Prod.mk.injEq, true_and]; omega
      · right
        refine ⟨h1, ?_⟩
        intro x hx
        rcases List.mem_cons.1 hx with h | h
        · exact Or.inl h
        · exact h2 x h

theorem growPass_rep (tgt v : Nat) : ∀ (n d : Nat), d < tgt →
    (growPass tgt (List.replicate n v) d = (List.replicate n (v + 1), d + n)) ∨
    ((growPass tgt (List.replicate n v) d).2 = tgt ∧
      ∀ x, x ∈ (growPass tgt (List.replicate n v) d).1 → x = v + 1 ∨ x = v)
  | 0, d, _ => by simp [growPass]
  | n + 1, d, h => by
    simp only [List.replicate_succ]
    unfold growPass
    by_cases he : d + 1 = tgt
    · simp only [he, if_true]
      right
      refine ⟨trivial, ?_⟩
      intro x hx
      simp only [List.mem_cons, List.mem_replicate] at hx
      omega
    · simp only [he, if_false]
      rcases growPass_rep tgt v n (d + 1) (by omega) with h1 | ⟨h1, h2⟩
      · left; rw [h1]; simp only [Prod.mk.injEq, true_and]; omega
      · right
        refine ⟨h1, ?_⟩
        intro x hx
        rcases List.mem_cons.1 hx with h | h
        · exact Or.inl h
        · exact h2 x h

/-- All sizes equal, or the target is met and sizes differ by at most one. -/
def Even (tgt n : Nat) (s : List Nat × Nat) : Prop :=
  (∃ v, s = (List.replicate n v, n * v)) ∨ (s.2 = tgt ∧ ∀ x y, x ∈ s.1 → y ∈ s.1 → x ≤ y + 1)

theorem shrink_even (tgt n : Nat) : ∀ (fuel : Nat) (s t : List Nat × Nat), Even tgt n s →
    shrink tgt fuel s = some t → Even tgt n t
  | 0, s, t, he, h => by
    unfold shrink at h
    split at h
    · simp at h
    · cases h; exact he
  | fuel + 1, s, t, he, h => by
    unfold shrink at h
    split at h
    · rename_i hgt
      refine shrink_even tgt n fuel _ t ?_ h
      rcases he with ⟨v, rfl⟩ | ⟨h1, _⟩
      · simp only at hgt ⊢
        have hv : 0 < v := by
          rcases Nat.eq_zero_or_pos v with h0 | h0
          · subst h0; simp at hgt
          · exact h0
        rcases shrinkPass_rep tgt v hv n (n * v) hgt with ⟨h1, h2⟩ | ⟨h1, h2⟩
        · left
          refine ⟨v - 1, ?_⟩
          rw [h1, Nat.mul_sub_one]
        · right
          refine ⟨h1, ?_⟩
          intro x y hx hy
          have := h2 x hx
          have := h2 y hy
          omega
      · omega
    · cases h; exact he

theorem grow_even (tgt n : Nat) : ∀ (fuel : Nat) (s t : List Nat × Nat), Even tgt n s →
    grow tgt fuel s = some t → Even tgt n t
  | 0, s, t, he, h => by
    unfold grow at h
    split at h
    · simp at h
    · cases h; exact he
  | fuel + 1, s, t, he, h => by
    unfold grow at h
    split at h
    · rename_i hgt
      refine grow_even tgt n fuel _ t ?_ h
      rcases he with ⟨v, rfl⟩ | ⟨h1, _⟩
      · simp only at hgt ⊢
        rcases growPass_rep tgt v n (n * v) hgt with h1 | ⟨h1, h2⟩
        · left
          refine ⟨v + 1, ?_⟩
          rw [h1, Nat.mul_add_one]
        · right
          refine ⟨h1, ?_⟩
          intro x y hx hy
          have := h2 x hx
          have := h2 y hy
          omega
      · omega
    · cases h; exact he

theorem throughputs_rep : ∀ (ps : List Pkg) (e : List Rat) (t : List Rat),
    throughputs (ps.map (fun _ => 1)) (e.map (fun _ => (3343 : Rat))) = some t →
    t = List.replicate ps.length ((1 : Nat) / (3343 : Rat))
  | [], [], t, h => by simp [throughputs] at h; simp [← h]
  | [], _ :: _, t, h => by simp [throughputs] at h
  | _ :: _, [], t, h => by simp [throughputs] at h
  | s :: ss, e :: es, t, h => by
    simp only [List.map_cons, throughputs, Option.bind_eq_bind, Option.bind_eq_some_iff, Option.pure_def,
      Option.some.injEq] at h
    obtain ⟨_, _, r, hr, rfl⟩ := h
    rw [throughputs_rep ss es r hr]
    simp [List.replicate_succ]

theorem rawSizes_rep (A : Arith) (hA : ∀ w w' x, A.trunc w x = A.trunc w' x) (tot : Rat) (size : Nat) (c : Rat) :
    ∀ (w n : Nat), rawSizes A tot size w (List.replicate n c) =
      List.replicate n (if tot = 0 then 0 else A.trunc 0 (c / tot * (size : Rat)))
  | _, 0 => rfl
  | w, n + 1 => by
    simp only [List.replicate_succ, rawSizes, rawSizes_rep A hA tot size c (w + 1) n]
    rw [hA w 0]

end Edge.Shared
