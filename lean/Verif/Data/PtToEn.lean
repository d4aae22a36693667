import Verif.Data.Model
import Verif.Dist.Props
/-!
C26: assignment of points to entities.
-/
namespace Edge.Data
open Edge Edge.Dist

/-- Vertex coordinates of an entity, dimension by dimension, in a buffer of 24 values. -/
def vertsOf {R : Type _} (nVe : Nat) (m : RankMesh R) (en : Nat) : List (Option R) :=
  (List.range 24).map (fun i => if i < 3 * nVe then
    ((m.enVe[en * nVe + i % nVe]?).bind (fun v => m.coords[v]?)).bind (fun c => c[i / nVe]?) else none)

/-- Every entity of the rank has `nVe` (at most eight) vertices with three coordinates. -/
structure MeshOk {R : Type _} (nVe : Nat) (m : RankMesh R) : Prop where
  le : nVe ≤ 8
  len : m.nEns * nVe ≤ m.enVe.length
  ve : ∀ v ∈ m.enVe, v < m.coords.length
  dim : ∀ c ∈ m.coords, c.length = 3

theorem gather_spec {R : Type _} {nVe : Nat} {m : RankMesh R} (hm : MeshOk nVe m) {en : Nat} (hen : en < m.nEns) :
    gather nVe m.enVe m.coords en = some (vertsOf nVe m en) := by
  obtain ⟨h8, hlen, hve, hdim⟩ := hm
  have hix : ∀ ve, ve < nVe → en * nVe + ve < m.enVe.length := by
    intro ve h
    calc en * nVe + ve < (en + 1) * nVe := by rw [Nat.add_mul]; omega
      _ ≤ m.nEns * nVe := Nat.mul_le_mul_right _ hen
      _ ≤ _ := hlen
  -- coordinate `di` of local vertex `ve`
  let X : Nat → Nat → Option R := fun di ve =>
    ((m.enVe[en * nVe + ve]?).bind (fun v => m.coords[v]?)).bind (fun c => c[di]?)
  have hlt3 : ∀ di ve, di < 3 → ve < nVe → di * nVe + ve < 3 * nVe := by
    intro di ve h1 h2
    calc di * nVe + ve < (di + 1) * nVe := by rw [Nat.add_mul]; omega
      _ ≤ 3 * nVe := Nat.mul_le_mul_right _ h1
  have hinj : ∀ d v d' v', v < nVe → v' < nVe → d * nVe + v = d' * nVe + v' → d = d' ∧ v = v' := by
    intro d v d' v' h1 h2 h
    have hd : d = d' := by
      have a := Nat.mul_add_div (show 0 < nVe by omega) d v
      have b := Nat.mul_add_div (show 0 < nVe by omega) d' v'
      rw [Nat.mul_comm, h, Nat.mul_comm, b, Nat.div_eq_of_lt h1, Nat.div_eq_of_lt h2] at a
      omega
    subst hd
    exact ⟨rfl, by omega⟩
  unfold gather
  rw [show check (decide (nVe ≤ 8)) = some () by simp [check, h8]]
  obtain ⟨t, ht, t1, t2, t3⟩ := forN_inv (n := nVe) (s := List.replicate 24 none)
    (body := fun ve (tmp : List (Option R)) => do
      let veId ← rd m.enVe (en * nVe + ve)
      forN 3 (fun di (tmp : List (Option R)) => do
        let cs ← rd m.coords veId
        let x ← rd cs di
        wr tmp (di * nVe + ve) (some x)) tmp)
    (P := fun k (tmp : List (Option R)) => tmp.length = 24 ∧
      (∀ di ve, di < 3 → ve < k → tmp[di * nVe + ve]? = some (X di ve)) ∧
      ∀ i, 3 * nVe ≤ i → i < 24 → tmp[i]? = some none)
    ⟨by simp, by intro di ve _ h; omega, by intro i _ h; rw [List.getElem?_replicate, if_pos h]⟩
    (by
      rintro k tmp hk ⟨h1, h2, h3⟩
      have hv := rd_some (hix k hk)
      have hvl := hve _ (List.getElem_mem (hix k hk))
      have hdl := hdim _ (List.getElem_mem hvl)
      obtain ⟨u, hu, u1, u2, u3, u4⟩ := forN_inv (n := 3) (s := tmp)
        (body := fun di (tmp : List (Option R)) => do
          let cs ← rd m.coords (m.enVe[en * nVe + k]'(hix k hk))
          let x ← rd cs di
          wr tmp (di * nVe + k) (some x))
        (P := fun d (tmp : List (Option R)) => tmp.length = 24 ∧
          (∀ di ve, di < 3 → ve < k → tmp[di * nVe + ve]? = some (X di ve)) ∧
          (∀ di, di < d → tmp[di * nVe + k]? = some (X di k)) ∧
          ∀ i, 3 * nVe ≤ i → i < 24 → tmp[i]? = some none)
        ⟨h1, h2, by intro di h; omega, h3⟩
        (by
          rintro d tmp hd ⟨g1, g2, g3, g4⟩
          have hl := hlt3 d k hd hk
          have hx : X d k = some ((m.coords[m.enVe[en * nVe + k]'(hix k hk)]'hvl)[d]'(by omega)) := by
            simp only [X]
            rw [List.getElem?_eq_getElem (hix k hk), Option.bind_some, List.getElem?_eq_getElem hvl, Option.bind_some,
              List.getElem?_eq_getElem]
          refine ⟨tmp.set (d * nVe + k) (X d k), ?_, by simp [g1], ?_, ?_, ?_⟩
          · simp only [rd_some hvl, Option.bind_eq_bind, Option.bind_some]
            rw [rd_some (by omega), Option.bind_some, wr_some (by omega), hx]
          · intro di ve h h'
            rw [List.getElem?_set_ne]
            · exact g2 di ve h h'
            · intro e; have := hinj _ _ _ _ hk (by omega) e; omega
          · intro di h
            by_cases e : di = d
            · subst e; rw [List.getElem?_set_self (by omega)]
            · rw [List.getElem?_set_ne]
              · exact g3 di (by omega)
              · intro e'; have := hinj _ _ _ _ hk hk e'; omega
          · intro i h h'
            rw [List.getElem?_set_ne (by omega)]
            exact g4 i h h')
      refine ⟨u, by simp only [hv, Option.bind_eq_bind, Option.bind_some] at hu ⊢; exact hu, u1, ?_, u4⟩
      intro di ve hdi hve'
      by_cases e : ve = k
      · subst e; exact u3 di hdi
      · exact u2 di ve hdi (by omega))
  simp only [Option.bind_eq_bind, Option.bind_some] at ht ⊢
  rw [ht]
  congr 1
  apply List.ext_getElem?
  intro i
  by_cases hi : i < 24
  · simp only [vertsOf, List.getElem?_map, List.getElem?_range hi, Option.map_some]
    by_cases hi3 : i < 3 * nVe
    · rw [if_pos hi3]
      have hpos : 0 < nVe := by omega
      have e : i = (i / nVe) * nVe + i % nVe := by rw [Nat.mul_comm]; exact (Nat.div_add_mod i nVe).symm
      have := t2 (i / nVe) (i % nVe) (by rw [Nat.div_lt_iff_lt_mul hpos]; exact hi3) (Nat.mod_lt _ hpos)
      rw [← e] at this
      exact this
    · rw [if_neg hi3]
      exact t3 i (by omega) hi
  · rw [List.getElem?_eq_none (by omega), List.getElem?_eq_none (by simp [vertsOf]; omega)]

variable {R D : Type _} {lt : D → D → Bool} {top : D} {dist : List (Option R) → List R → D} {nVe : Nat}

/-- The result `(en, d)` of the search over the entities with distances `f`: either there is no entity, or `en` is the
first entity of minimal distance `d`. -/
def Nearest (lt : D → D → Bool) (top : D) (f : Nat → D) (n : Nat) : Option Nat × D → Prop
  | (none, d) => d = top ∧ n = 0
  | (some en, d) => en < n ∧ d = f en ∧ (∀ j, j < n → lt (f j) d = false) ∧ ∀ j, j < en → lt d (f j) = true

theorem loc_spec (hlt : StrictTotal lt) {m : RankMesh R} (hm : MeshOk nVe m) (pt : List R)
    (htop : ∀ en, en < m.nEns → lt (dist (vertsOf nVe m en) pt) top = true) :
    ∃ x, ptToEnLoc lt top dist nVe m.nEns m.enVe m.coords pt = some x ∧
      Nearest lt top (fun en => dist (vertsOf nVe m en) pt) m.nEns x := by
  unfold ptToEnLoc
  refine forN_inv (P := fun k (s : Option Nat × D) => Nearest lt top (fun en => dist (vertsOf nVe m en) pt) k s)
    ⟨rfl, rfl⟩ ?_
  rintro k ⟨b, d⟩ hk hn
  simp only [gather_spec hm hk, Option.bind_eq_bind, Option.bind_some]
  by_cases hc : lt (dist (vertsOf nVe m k) pt) d = true
  · refine ⟨(some k, dist (vertsOf nVe m k) pt), by rw [if_pos hc]; rfl, by omega, rfl, ?_, ?_⟩
    · intro j hj
      by_cases e : j = k
      · subst e; exact hlt.irrefl _
      · cases b with
        | none => have := hn.2; omega
        | some en =>
          obtain ⟨h1, h2, h3, h4⟩ := hn
          have hj' := h3 j (by omega)
          cases hh : lt (dist (vertsOf nVe m j) pt) (dist (vertsOf nVe m k) pt) with
          | false => rfl
          | true => rw [hlt.trans _ _ _ hh hc] at hj'; exact absurd hj' (by simp)
    · intro j hj
      cases b with
      | none => have := hn.2; omega
      | some en =>
        obtain ⟨h1, h2, h3, h4⟩ := hn
        have hj' := h3 j (by omega)
        rcases hlt.total d (dist (vertsOf nVe m j) pt) with h | h | h
        · exact hlt.trans _ _ _ hc h
        · simp only; rw [← h]; exact hc
        · rw [hj'] at h; exact absurd h (by simp)
  · refine ⟨(b, d), by rw [if_neg hc]; rfl, ?_⟩
    cases b with
    | none =>
      obtain ⟨h1, h2⟩ := hn
      subst h2
      rw [h1] at hc
      exact absurd (htop 0 hk) hc
    | some en =>
      obtain ⟨h1, h2, h3, h4⟩ := hn
      refine ⟨by omega, h2, ?_, h4⟩
      intro j hj
      by_cases e : j = k
      · subst e; simpa using hc
      · exact h3 j (by omega)

theorem own_spec (nPts : Nat) (own : List Nat) (de : List (Option Nat)) (h1 : own.length = nPts)
    (h2 : de.length = nPts) :
    ∃ de', ptToEnOwn nPts own de = some (de', (own.filter (· == 1)).length) ∧ de'.length = nPts ∧
      ∀ (k o : Nat), own[k]? = some o → de'[k]? = if o = 1 then de[k]? else some none := by
  unfold ptToEnOwn
  obtain ⟨⟨t, n⟩, ht, t1, t2, t3, t4⟩ := forN_inv (n := nPts) (s := (de, 0))
    (body := fun pt (s : List (Option Nat) × Nat) => do
      let o ← rd own pt
      if o ≠ 1 then do
        let de ← wr s.1 pt none
        return (de, s.2)
      else return (s.1, s.2 + 1))
    (P := fun k (s : List (Option Nat) × Nat) => s.1.length = nPts ∧ s.2 = ((own.take k).filter (· == 1)).length ∧
      (∀ (j o : Nat), j < k → own[j]? = some o → s.1[j]? = if o = 1 then de[j]? else some none) ∧
      ∀ (j : Nat), k ≤ j → s.1[j]? = de[j]?)
    ⟨h2, by simp, by intro j o h; omega, by intros; rfl⟩
    (by
      rintro k ⟨s, c⟩ hk ⟨g1, g2, g3, g4⟩
      simp only at g1 g2 g3 g4
      have hko : own[k]? = some (own[k]'(by omega)) := List.getElem?_eq_getElem (by omega)
      have htk : (own.take (k + 1)).filter (· == 1) = (own.take k).filter (· == 1) ++
          if own[k]'(by omega) = 1 then [own[k]'(by omega)] else [] := by
        rw [List.take_add_one, hko, List.filter_append]
        simp only [Option.toList, List.filter_cons, List.filter_nil, beq_iff_eq]
      simp only [rd, hko, Option.bind_eq_bind, Option.bind_some]
      by_cases ho : own[k]'(by omega) = 1
      · refine ⟨(s, c + 1), by simp [ho], g1, by simp only; rw [htk]; simp [ho, g2], ?_, ?_⟩
        · intro j o hj hjo
          by_cases e : j = k
          · subst e
            rw [hko] at hjo
            cases hjo
            rw [if_pos ho]
            exact g4 j (Nat.le_refl _)
          · exact g3 j o (by omega) hjo
        · intro j hj; exact g4 j (by omega)
      · refine ⟨(s.set k none, c), by simp [ho, wr_some (show k < s.length by omega)], by simp [g1],
          by simp only; rw [htk]; simp [ho, g2], ?_, ?_⟩
        · intro j o hj hjo
          by_cases e : j = k
          · subst e
            rw [hko] at hjo
            cases hjo
            rw [if_neg ho]
            simp [g1, hk]
          · simp only [List.getElem?_set_ne (Ne.symm e)]
            exact g3 j o (by omega) hjo
        · intro j hj
          simp only [List.getElem?_set_ne (show k ≠ j by omega)]
          exact g4 j (by omega))
  simp only at t1 t2 t3 t4
  rw [← h1, List.take_length] at t2
  refine ⟨t, by rw [ht, t2], t1, ?_⟩
  intro k o hk
  exact t3 k o (by rw [← h1]; exact (List.getElem?_eq_some_iff.1 hk).1) hk

theorem mapM_some {α β : Type _} (f : α → Option β) (l : List α) (Q : α → β → Prop)
    (h : ∀ a ∈ l, ∃ b, f a = some b ∧ Q a b) :
    ∃ l', l.mapM f = some l' ∧ l'.length = l.length ∧
      ∀ (i : Nat) (a : α), l[i]? = some a → ∃ b, l'[i]? = some b ∧ Q a b := by
  induction l with
  | nil => exact ⟨[], rfl, rfl, by simp⟩
  | cons a as ih =>
    obtain ⟨b, hb, hq⟩ := h a (by simp)
    obtain ⟨l', h1, h2, h3⟩ := ih (fun a ha => h a (by simp [ha]))
    refine ⟨b :: l', by rw [List.mapM_cons, hb, h1]; rfl, by simp [h2], ?_⟩
    intro i x hx
    cases i with
    | zero => simp at hx; subst hx; exact ⟨b, rfl, hq⟩
    | succ i => simp at hx ⊢; exact h3 i x hx

/-- Distance of entity `en` of a rank to a point. -/
def distOf (dist : List (Option R) → List R → D) (nVe : Nat) (m : RankMesh R) (pt : List R) (en : Nat) : D :=
  dist (vertsOf nVe m en) pt

theorem own_sum {own : List (List Nat)} {nR : Nat}
    (h : ∀ col ∈ own, col.length = nR ∧ ∃ o, o < nR ∧ ∀ r, r < nR → col[r]? = some (if r = o then 1 else 0)) :
    ((List.range nR).map (fun r => (own.filter (fun col => col[r]? == some 1)).length)).sum = own.length := by
  induction own with
  | nil => induction nR with
    | zero => rfl
    | succ n ih => rw [List.range_succ, List.map_append, List.sum_append, ih (by simp)]; rfl
  | cons col cols ih =>
    have ih' := ih (fun c hc => h c (by simp [hc]))
    obtain ⟨-, o, ho, hc⟩ := h col (by simp)
    have : ∀ n, n ≤ nR → ((List.range n).map (fun r => ((col :: cols).filter (fun col => col[r]? == some 1)).length)).sum =
        ((List.range n).map (fun r => (cols.filter (fun col => col[r]? == some 1)).length)).sum +
          if o < n then 1 else 0 := by
      intro n
      induction n with
      | zero => intro _; rfl
      | succ n ih2 =>
        intro hn
        rw [List.range_succ, List.map_append, List.map_append, List.sum_append, List.sum_append, ih2 (by omega)]
        simp only [List.map_cons, List.map_nil, List.sum_cons, List.sum_nil, Nat.add_zero]
        rw [List.filter_cons, hc n (by omega)]
        by_cases e : n = o
        · subst e; simp; omega
        · rw [if_neg e]
          have : (o < n + 1) ↔ o < n := by omega
          simp only [this]
          simp
          omega
    rw [this nR (Nat.le_refl _), ih', if_pos ho, List.length_cons]

/-- **C26**. All ranks (at least one) call the search with the same points. Then for every point for which any rank has
entities, exactly one rank `o` gets an entity: an entity whose distance to the point is minimal among all entities of
all ranks. Of the nearest entities it is the one of the lowest rank, and on it that of the lowest id. All other ranks
get the undefined marker. The returned numbers of owned points sum up to the number of points. -/
theorem C26_nearest [DecidableEq D] (hlt : StrictTotal lt) (pts : List (List R)) (ranks : List (RankMesh R))
    (hne : ranks ≠ []) (hlen : ranks.length ≤ intMax) (hm : ∀ m ∈ ranks, MeshOk nVe m)
    (htop : ∀ m ∈ ranks, ∀ pt ∈ pts, ∀ en, en < m.nEns → lt (distOf dist nVe m pt en) top = true) :
    ∃ res, ptToEn lt top dist nVe pts ranks = some res ∧ res.length = ranks.length ∧
      (∀ x ∈ res, x.1.length = pts.length) ∧ (res.map (·.2)).sum = pts.length ∧
      ∀ (k : Nat) (pt : List R), pts[k]? = some pt →
        -- no entities at all: everybody gets the marker
        ((∀ m ∈ ranks, m.nEns = 0) → ∀ (r : Nat) (x : List (Option Nat) × Nat), res[r]? = some x →
          x.1[k]? = some none) ∧
        ((∃ m ∈ ranks, 0 < m.nEns) →
          ∃ o m en, ranks[o]? = some m ∧ en < m.nEns ∧
            (∀ (r : Nat) (x : List (Option Nat) × Nat), res[r]? = some x →
              x.1[k]? = some (if r = o then some en else none)) ∧
            (∀ m' ∈ ranks, ∀ j, j < m'.nEns → lt (distOf dist nVe m' pt j) (distOf dist nVe m pt en) = false) ∧
            (∀ j, j < en → lt (distOf dist nVe m pt en) (distOf dist nVe m pt j) = true) ∧
            (∀ (r : Nat) (m' : RankMesh R), r < o → ranks[r]? = some m' → ∀ j, j < m'.nEns →
              lt (distOf dist nVe m pt en) (distOf dist nVe m' pt j) = true)) := by
  obtain ⟨loc, l1, l2, l3⟩ := mapM_some (fun m => pts.mapM (fun pt => ptToEnLoc lt top dist nVe m.nEns m.enVe m.coords pt))
    ranks (fun m l => l.length = pts.length ∧ ∀ (k : Nat) (pt : List R), pts[k]? = some pt → ∃ x, l[k]? = some x ∧
      Nearest lt top (fun en => distOf dist nVe m pt en) m.nEns x)
    (by
      intro m hmr
      obtain ⟨l, h1, h2, h3⟩ := mapM_some (fun pt => ptToEnLoc lt top dist nVe m.nEns m.enVe m.coords pt) pts
        (fun pt x => Nearest lt top (fun en => distOf dist nVe m pt en) m.nEns x)
        (fun pt hpt => loc_spec hlt (hm m hmr) pt (htop m hmr pt hpt))
      exact ⟨l, h1, h2, h3⟩)
  have hloc : ∀ l ∈ loc, l.length = pts.length := by
    intro l hl
    obtain ⟨i, hi⟩ := List.getElem?_of_mem hl
    have hir : i < ranks.length := by rw [← l2]; exact (List.getElem?_eq_some_iff.1 hi).1
    obtain ⟨b, hb, hb1, -⟩ := l3 i _ (List.getElem?_eq_getElem hir)
    rw [hi] at hb
    cases hb
    exact hb1
  obtain ⟨own, w1, w2, w3⟩ := C17_all_values lt hlt pts.length (loc.map (fun l => l.map (·.2)))
    (by simp; intro h; rw [h] at l2; exact hne (List.length_eq_zero_iff.1 l2.symm)) (by simp [l2, hlen])
    (by simp; exact hloc)
  -- election for each point
  have hown : ∀ k, k < pts.length → ∃ (col : List D) (o : Nat) (v : D) (oc : List Nat), own[k]? = some oc ∧
      (∀ (r : Nat) (l : List (Option Nat × D)), loc[r]? = some l → col[r]? = (l[k]?).map (·.2)) ∧
      col.length = ranks.length ∧ col[o]? = some v ∧
      (∀ (r : Nat) (x : D), col[r]? = some x → lt x v = false) ∧
      (∀ (r : Nat) (x : D), r < o → col[r]? = some x → lt v x = true) ∧ o < ranks.length ∧
      oc.length = ranks.length ∧ ∀ r, r < ranks.length → oc[r]? = some (if r = o then 1 else 0) := by
    intro k hk
    obtain ⟨col, c1, c2, c3⟩ := w3 k hk
    simp only [List.length_map] at c1
    have hcne : col ≠ [] := by
      intro h; rw [h] at c1; simp at c1; rw [← c1] at l2; exact hne (List.length_eq_zero_iff.1 l2.symm)
    obtain ⟨oc, o, v, e1, e2, e3, e4, e5, e6⟩ := C17_one_owner lt hlt col hcne (by omega)
    refine ⟨col, o, v, oc, by rw [c3, e1], ?_, by omega, e2, e3, e4, ?_, by omega, ?_⟩
    · intro r l hl
      rw [c2 r (l.map (·.2)) (by simp [hl]), List.getElem?_map]
    · have := (List.getElem?_eq_some_iff.1 e2).1; omega
    · intro r hr; exact e6 r (by omega)
  have hcols : ∀ col ∈ own, col.length = ranks.length ∧ ∃ o, o < ranks.length ∧
      ∀ r, r < ranks.length → col[r]? = some (if r = o then 1 else 0) := by
    intro c hc
    obtain ⟨k, hk⟩ := List.getElem?_of_mem hc
    obtain ⟨col, o, v, oc, e1, -, -, -, -, -, e2, e3, e4⟩ := hown k (by rw [← w2]; exact (List.getElem?_eq_some_iff.1 hk).1)
    rw [hk] at e1
    cases e1
    exact ⟨e3, o, e2, e4⟩
  have hrow : ∀ r, r < ranks.length → ∃ ow, own.mapM (fun col => rd col r) = some ow ∧ ow.length = pts.length ∧
      ow.filter (· == 1) = (own.filter (fun col => col[r]? == some 1)).map (fun _ => 1) ∧
      ∀ (k : Nat) (col : List Nat), own[k]? = some col → ow[k]? = col[r]? := by
    intro r hr
    rw [← w2]
    clear w1 w2 w3 hown
    induction own with
    | nil => exact ⟨[], rfl, rfl, rfl, by simp⟩
    | cons c cs ih =>
      obtain ⟨ow, a1, a2, a3, a4⟩ := ih (fun c hc => hcols c (by simp [hc]))
      have hc := (hcols c (by simp)).1
      refine ⟨c[r]'(by omega) :: ow, ?_, by simp [a2], ?_, ?_⟩
      · rw [List.mapM_cons, rd_some (by omega : r < c.length), a1]; rfl
      · rw [List.filter_cons, List.filter_cons, List.getElem?_eq_getElem (by omega : r < c.length), a3]
        by_cases e : c[r]'(by omega) = 1
        · simp [e]
        · simp [e]
      · intro k col hk
        cases k with
        | zero => simp at hk; subst hk; simp [List.getElem?_eq_getElem (by omega : r < c.length)]
        | succ k => simp at hk ⊢; exact a4 k col hk
  have hres : ∃ res, forN ranks.length (fun r (res : List (List (Option Nat) × Nat)) => do
      let l ← rd loc r
      let o ← own.mapM (fun col => rd col r)
      let x ← ptToEnOwn pts.length o (l.map (·.1))
      return res ++ [x]) [] = some res ∧ res.length = ranks.length ∧
      ∀ (r : Nat) (x : List (Option Nat) × Nat), res[r]? = some x → x.1.length = pts.length ∧
        x.2 = (own.filter (fun col => col[r]? == some 1)).length ∧
        ∀ (k : Nat) (oc : List Nat) (l : List (Option Nat × D)), own[k]? = some oc → loc[r]? = some l →
          x.1[k]? = if oc[r]? = some 1 then (l[k]?).map (·.1) else some none := by
    refine forN_inv (P := fun m (res : List (List (Option Nat) × Nat)) => res.length = m ∧
      ∀ (r : Nat) (x : List (Option Nat) × Nat), res[r]? = some x → x.1.length = pts.length ∧
        x.2 = (own.filter (fun col => col[r]? == some 1)).length ∧
        ∀ (k : Nat) (oc : List Nat) (l : List (Option Nat × D)), own[k]? = some oc → loc[r]? = some l →
          x.1[k]? = if oc[r]? = some 1 then (l[k]?).map (·.1) else some none) (by simp) ?_
    rintro r res hr ⟨h1, h2⟩
    have hl : rd loc r = some (loc[r]'(by omega)) := rd_some (by omega)
    obtain ⟨ow, a1, a2, a3, a4⟩ := hrow r hr
    obtain ⟨de, d1, d2, d3⟩ := own_spec pts.length ow ((loc[r]'(by omega)).map (·.1)) a2
      (by simp [hloc _ (List.getElem_mem _)])
    refine ⟨res ++ [(de, (ow.filter (· == 1)).length)], ?_, by simp [h1], ?_⟩
    · simp only [hl, a1, d1, Option.bind_eq_bind, Option.bind_some, Option.pure_def]
    · intro r' x hx
      by_cases e : r' < res.length
      · rw [List.getElem?_append_left e] at hx
        exact h2 r' x hx
      · rw [List.getElem?_append_right (by omega)] at hx
        have hlt' := (List.getElem?_eq_some_iff.1 hx).1
        simp only [List.length_singleton] at hlt'
        obtain rfl : r' = r := by omega
        simp [h1] at hx
        subst hx
        refine ⟨d2, by rw [a3]; simp, ?_⟩
        intro k oc l hk hl'
        rw [List.getElem?_eq_getElem (by omega : r' < loc.length)] at hl'
        cases hl'
        obtain ⟨q1, o, q2, q3⟩ := hcols oc (List.mem_of_getElem? hk)
        have hok : ow[k]? = some (if r' = o then 1 else 0) := by rw [a4 k oc hk, q3 r' hr]
        simp only
        rw [d3 k _ hok, q3 r' hr, List.getElem?_map]
        by_cases e2 : r' = o
        · simp [e2]
        · simp [e2]
  obtain ⟨res, r1, r2, r3⟩ := hres
  refine ⟨res, ?_, r2, ?_, ?_, ?_⟩
  · unfold ptToEn
    simp only [l1, w1, Option.bind_eq_bind, Option.bind_some]
    simpa using r1
  · intro x hx
    obtain ⟨r, hr⟩ := List.getElem?_of_mem hx
    exact (r3 r x hr).1
  · have : res.map (·.2) = (List.range ranks.length).map (fun r => (own.filter (fun col => col[r]? == some 1)).length) := by
      apply List.ext_getElem?
      intro r
      by_cases hr : r < ranks.length
      · rw [List.getElem?_map, List.getElem?_map, List.getElem?_range hr,
          List.getElem?_eq_getElem (by omega : r < res.length)]
        simp only [Option.map_some]
        rw [(r3 r _ (List.getElem?_eq_getElem (by omega))).2.1]
      · rw [List.getElem?_eq_none (by simp; omega), List.getElem?_eq_none (by simp; omega)]
    rw [this, own_sum hcols, w2]
  · intro k pt hpt
    have hk := (List.getElem?_eq_some_iff.1 hpt).1
    obtain ⟨col, o, v, oc, e1, e2, e3, e4, e5, e6, e7, e8, e9⟩ := hown k hk
    refine ⟨?_, ?_⟩
    · intro hz r x hx
      have hr : r < ranks.length := by rw [← r2]; exact (List.getElem?_eq_some_iff.1 hx).1
      obtain ⟨l, hl, -, hl2⟩ := l3 r _ (List.getElem?_eq_getElem hr)
      obtain ⟨y, hy, hn⟩ := hl2 k pt hpt
      rw [(r3 r x hx).2.2 k oc l e1 hl, hy]
      obtain ⟨b, d⟩ := y
      cases b with
      | none => simp
      | some en => have := hn.1; rw [hz _ (List.getElem_mem _)] at this; omega
    · rintro ⟨m0, hm0, hpos⟩
      -- the winner has entities
      obtain ⟨lo, hlo, -, hlo2⟩ := l3 o _ (List.getElem?_eq_getElem e7)
      obtain ⟨⟨b, d⟩, hy, hn⟩ := hlo2 k pt hpt
      have hdv : d = v := by
        have := e2 o lo hlo
        rw [hy, e4] at this
        simpa using this.symm
      subst hdv
      have hall : ∀ m' ∈ ranks, ∀ j, j < m'.nEns → lt (distOf dist nVe m' pt j) d = false := by
        intro m' hm' j hj
        obtain ⟨r, hr⟩ := List.getElem?_of_mem hm'
        obtain ⟨l, hl, -, hl2⟩ := l3 r m' hr
        obtain ⟨⟨b', d'⟩, hy', hn'⟩ := hl2 k pt hpt
        have hc : col[r]? = some d' := by rw [e2 r l hl, hy']; rfl
        have h5 := e5 r d' hc
        cases b' with
        | none => have := hn'.2; omega
        | some en' =>
          have h6 := hn'.2.2.1 j hj
          cases hh : lt (distOf dist nVe m' pt j) d with
          | false => rfl
          | true =>
            rcases hlt.total d' (distOf dist nVe m' pt j) with q | q | q
            · rw [hlt.trans _ _ _ q hh] at h5; exact absurd h5 (by simp)
            · rw [← q] at hh; rw [hh] at h5; exact absurd h5 (by simp)
            · simp only at h6; rw [q] at h6; exact absurd h6 (by simp)
      cases b with
      | none =>
        exfalso
        have h0 := hn.1
        have := hall m0 hm0 0 hpos
        rw [h0, htop m0 hm0 pt (List.mem_of_getElem? hpt) 0 hpos] at this
        exact absurd this (by simp)
      | some en =>
        obtain ⟨n1, n2, n3, n4⟩ := hn
        simp only at n2
        refine ⟨o, ranks[o], en, List.getElem?_eq_getElem e7, n1, ?_, ?_, ?_, ?_⟩
        · intro r x hx
          have hr : r < ranks.length := by rw [← r2]; exact (List.getElem?_eq_some_iff.1 hx).1
          obtain ⟨l, hl, -, hl2⟩ := l3 r _ (List.getElem?_eq_getElem hr)
          rw [(r3 r x hx).2.2 k oc l e1 hl, e9 r hr]
          by_cases e : r = o
          · subst e
            rw [hlo] at hl
            cases hl
            rw [hy]; simp
          · simp [e]
        · intro m' hm' j hj
          rw [← n2]; exact hall m' hm' j hj
        · intro j hj
          rw [← n2]; exact n4 j hj
        · intro r m' hro hr j hj
          obtain ⟨l, hl, -, hl2⟩ := l3 r m' hr
          obtain ⟨⟨b', d'⟩, hy', hn'⟩ := hl2 k pt hpt
          have hc : col[r]? = some d' := by rw [e2 r l hl, hy']; rfl
          have h6 := e6 r d' hro hc
          cases b' with
          | none => have := hn'.2; omega
          | some en' =>
            have h7 := hn'.2.2.1 j hj
            simp only at h7
            rw [← n2]
            rcases hlt.total d' (distOf dist nVe m' pt j) with q | q | q
            · exact hlt.trans _ _ _ h6 q
            · rw [← q]; exact h6
            · rw [q] at h7; exact absurd h7 (by simp)

/-- Two ranks with line elements on an axis (two vertices), points as single coordinates: distances are measured to the
first vertex. The second point has the same distance to both ranks. -/
def exRanks : List (RankMesh Nat) :=
  [⟨2, [0, 1, 1, 2], [[0, 0, 0], [10, 0, 0], [20, 0, 0]]⟩, ⟨1, [0, 1], [[30, 0, 0], [40, 0, 0]]⟩]

def exDist (tmp : List (Option Nat)) (pt : List Nat) : Nat :=
  match tmp, pt with
  | some x :: _, p :: _ => (x - p) + (p - x)
  | _, _ => 0

example : (∀ m ∈ exRanks, MeshOk 2 m) ∧
    ptToEn (fun a b => decide (a < b)) 1000 exDist 2 [[12, 0, 0], [20, 0, 0], [26, 0, 0]] exRanks =
      some [([some 1, some 1, none], 2), ([none, none, some 0], 1)] := by
  refine ⟨?_, by decide⟩
  intro m hm
  simp [exRanks] at hm
  rcases hm with rfl | rfl <;> constructor <;> simp

end Edge.Data
