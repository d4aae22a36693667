import Verif.Mesh.Adj
/-!
Periodic boundaries of the mesh interface and the complete constructor: C80.
-/
namespace Edge.Mesh
open Edge

/-! ### Model -/

section
variable {K : Type _} [Field K] [LinearOrder K]

/-- Coordinate of a point. -/
def V3.crd (p : V3 K) : Nat → K
  | 0 => p.x
  | 1 => p.y
  | _ => p.z

/-- Are two coordinates equal up to the tolerance (tools/edge_v/src/mesh/Mesh.cpp:198-199)? -/
def near (tol a b : K) : Bool := decide (|a - b| < tol)

/-- Vertices of a face (tools/edge_v/src/mesh/Mesh.cpp:195-196). -/
def faCrds (veCrds : List (V3 K)) (faVe : List (List Nat)) (f : Nat) : Option (List (V3 K)) := do
  let row ← rd faVe f
  row.mapM (fun v => rd veCrds v)

/-- Lambda `l_eqDi` (tools/edge_v/src/mesh/Mesh.cpp:185-207): first dimension in which `limit` pairs of vertices have the same
coordinate; `none` is `std::numeric_limits< unsigned short >::max()`. The nested loops are written as a count of pairs. -/
def eqDi (tol : K) (nDis limit : Nat) (p q : List (V3 K)) : Option Nat :=
  (List.range nDis).find? (fun di =>
    (p.product q).countP (fun ab => near tol (ab.1.crd di) (ab.2.crd di)) == limit)

/-- Lambda `l_maVes` (tools/edge_v/src/mesh/Mesh.cpp:210-232): number of pairs of vertices which have the same coordinates in
`nDis - 1` dimensions different from `fixed`. -/
def maVes (tol : K) (nDis : Nat) (fixed : Option Nat) (p q : List (V3 K)) : Nat :=
  (p.product q).countP (fun ab =>
    (List.range nDis).countP (fun di => decide (some di ≠ fixed) && near tol (ab.1.crd di) (ab.2.crd di)) == nDis - 1)

/-- Do two boundary faces match (tools/edge_v/src/mesh/Mesh.cpp:239-248, without the comparison `l_f0 != l_f1`)? -/
def faMatch (tol : K) (nDis nFaVes : Nat) (veCrds : List (V3 K)) (faVe : List (List Nat)) (f g : Nat) : Option Bool := do
  let p ← faCrds veCrds faVe f
  let q ← faCrds veCrds faVe g
  let d0 := eqDi tol nDis (nFaVes * nFaVes) p p
  let d1 := eqDi tol nDis (nFaVes * nFaVes) q q
  return decide (d0 = d1) && (maVes tol nDis d0 p q == nFaVes)

end

/-- Faces at the periodic boundary (tools/edge_v/src/mesh/Mesh.cpp:170-177). -/
def bndFas (nFas peTy : Nat) (spType : List Nat) (faEl : List (Option Nat)) : Option (List Nat) :=
  forN nFas (fun fa l => do
    let t ← rd spType fa
    if t = peTy then do
      let o ← rd faEl (fa * 2 + 1)
      check o.isNone
      return l ++ [fa]
    else return l) []

/-- Partners of one face (tools/edge_v/src/mesh/Mesh.cpp:240-256). -/
def pairStep (mt : Nat → Nat → Option Bool) (n f0 : Nat) (l : List (Option Nat)) : Option (List (Option Nat)) := do
  let l ← forN n (fun f1 l => do
    let m ← mt f0 f1
    return if f0 ≠ f1 ∧ m = true then l ++ [some f1] else l) l
  return if l.length ≠ f0 + 1 then l ++ [none] else l

/-- Pairs of faces and the checks on them (tools/edge_v/src/mesh/Mesh.cpp:237-265). -/
def facePairs (mt : Nat → Nat → Option Bool) (n : Nat) : Option (List (Option Nat)) := do
  let l ← forN n (pairStep mt n) []
  check (decide (l.length = n))
  forN l.length (fun fa (_ : Unit) => do
    let o ← rd l fa
    match o with
    | none => some ()
    | some p => do
      let q ← rd l p
      check (decide (q = some fa))) ()
  return l

/-- Elements of the faces, neighbours of the elements, periodic faces whose first element has the larger id. -/
structure PSt where
  faEl : List (Option Nat)
  elFaEl : List (Option Nat)
  gt : List Nat

/-- Insertion of the neighbour behind one face (tools/edge_v/src/mesh/Mesh.cpp:269-291). -/
def insertAd (n : Nat) (elFa bnd : List Nat) (prs : List (Option Nat)) (f0 : Nat) (s : PSt) : Option PSt := do
  let o ← rd prs f0
  match o with
  | none => some s
  | some f1 => do
    let f0Id ← rd bnd f0
    let f1Id ← rd bnd f1
    let o0 ← rd s.faEl (f0Id * 2)
    let el0 ← o0
    let o1 ← rd s.faEl (f1Id * 2)
    let el1 ← o1
    let faEl ← wr s.faEl (f0Id * 2 + 1) (some el1)
    let elFaEl ← forN n (fun ad a => do
      let id ← rd elFa (el0 * n + ad)
      if id = f0Id then wr a (el0 * n + ad) (some el1) else return a) s.elFaEl
    return { faEl := faEl, elFaEl := elFaEl, gt := if el1 < el0 then s.gt ++ [f0Id] else s.gt }

/-- `setPeriodicBnds` (tools/edge_v/src/mesh/Mesh.cpp:157-286). Parameter `mt`: which faces match. -/
def setPeriodic (mt : Nat → Nat → Option Bool) (n peTy : Nat) (spType : List Nat) (c : Conn) : Option (Conn × List Nat) := do
  let bnd ← bndFas c.nFas peTy spType c.faEl
  let prs ← facePairs (fun i j => do
    let f ← rd bnd i
    let g ← rd bnd j
    mt f g) bnd.length
  let s ← forN prs.length (insertAd n c.elFa bnd prs) { faEl := c.faEl, elFaEl := c.elFaEl, gt := [] }
  return ({ c with faEl := s.faEl, elFaEl := s.elFaEl }, s.gt)

/-! ### Pairs -/

theorem pairInner {mt : Nat → Nat → Option Bool} {n f0 : Nat} {l l' : List (Option Nat)}
    (h : forN n (fun f1 l => do
      let m ← mt f0 f1
      return if f0 ≠ f1 ∧ m = true then l ++ [some f1] else l) l = some l') :
    ∃ ms : List Nat, l' = l ++ ms.map some ∧ ms.Nodup ∧
      ∀ f1, f1 ∈ ms ↔ f1 < n ∧ f0 ≠ f1 ∧ mt f0 f1 = some true := by
  have := forN_post (P := fun i (t : List (Option Nat)) => ∃ ms : List Nat, t = l ++ ms.map some ∧ ms.Nodup ∧
      ∀ f1, f1 ∈ ms ↔ f1 < i ∧ f0 ≠ f1 ∧ mt f0 f1 = some true)
    ⟨[], by simp, List.nodup_nil, by simp⟩
    (by
      rintro i t t' hi ⟨ms, rfl, hnd, hms⟩ hb
      simp only [Option.bind_eq_bind, Option.bind_eq_some_iff, Option.pure_def, Option.some.injEq] at hb
      obtain ⟨m, hm, rfl⟩ := hb
      by_cases hc : f0 ≠ i ∧ m = true
      · refine ⟨ms ++ [i], by rw [if_pos hc]; simp, ?_, fun f1 => ?_⟩
        · rw [List.nodup_append]
          refine ⟨hnd, by simp, ?_⟩
          intro a ha b hb
          rw [List.mem_singleton] at hb; subst hb
          have := ((hms a).1 ha).1
          omega
        · rw [List.mem_append, hms, List.mem_singleton]
          constructor
          · rintro (⟨h1, h2⟩ | rfl)
            · exact ⟨by omega, h2⟩
            · exact ⟨by omega, hc.1, by rw [hm, hc.2]⟩
          · rintro ⟨h1, h2⟩
            by_cases he : f1 = i
            · exact Or.inr he
            · exact Or.inl ⟨by omega, h2⟩
      · refine ⟨ms, by rw [if_neg hc], hnd, fun f1 => ?_⟩
        rw [hms]
        constructor
        · rintro ⟨h1, h2⟩; exact ⟨by omega, h2⟩
        · rintro ⟨h1, h2⟩
          refine ⟨?_, h2⟩
          rcases Nat.lt_succ_iff_lt_or_eq.1 h1 with h | h
          · exact h
          · subst h; rw [hm] at h2; exact absurd ⟨h2.1, Option.some.inj h2.2⟩ hc) h
  exact this

/-- The entry of a face is its only match, or there is no match. -/
def PairsOk (mt : Nat → Nat → Option Bool) (n : Nat) (l : List (Option Nat)) : Prop :=
  l.length = n ∧ ∀ f0 < n, ∃ o, l[f0]? = some o ∧ ∀ f1, o = some f1 ↔ f1 < n ∧ f0 ≠ f1 ∧ mt f0 f1 = some true

theorem facePairs_spec {mt : Nat → Nat → Option Bool} {n : Nat} {l : List (Option Nat)} (h : facePairs mt n = some l) :
    PairsOk mt n l ∧ ∀ f g : Nat, l[f]? = some (some g) → l[g]? = some (some f) := by
  simp only [facePairs, Option.bind_eq_bind, Option.bind_eq_some_iff, check_some, decide_eq_true_eq, Option.pure_def,
    Option.some.injEq] at h
  obtain ⟨t, ht, _, hlen, _, hchk, rfl⟩ := h
  have hp := forN_post (P := fun i (t : List (Option Nat)) =>
      (t.length = i ∧ ∀ f0 < i, ∃ o, t[f0]? = some o ∧ ∀ f1, o = some f1 ↔ f1 < n ∧ f0 ≠ f1 ∧ mt f0 f1 = some true)
      ∨ i + 2 ≤ t.length) (Or.inl ⟨rfl, fun _ h => by omega⟩)
    (by
      intro i t t' hi hinv hb
      simp only [pairStep, Option.bind_eq_bind, Option.bind_eq_some_iff, Option.pure_def, Option.some.injEq] at hb
      obtain ⟨u, hu, rfl⟩ := hb
      obtain ⟨ms, rfl, hnd, hms⟩ := pairInner hu
      rcases hinv with ⟨h1, h2⟩ | hbad
      · match ms, hms, hnd with
        | [], hms, _ =>
          left
          rw [if_pos (by simp [h1])]
          refine ⟨by simp [h1], fun f0 hf0 => ?_⟩
          by_cases he : f0 = i
          · subst he
            refine ⟨none, by simp [← h1], fun f1 => ?_⟩
            constructor
            · intro h; cases h
            · intro h; have := (hms f1).2 h; cases this
          · obtain ⟨o, ho, ho2⟩ := h2 f0 (by omega)
            refine ⟨o, ?_, ho2⟩
            simp only [List.map_nil, List.append_nil]
            rw [List.getElem?_append_left (by omega)]; exact ho
        | [m], hms, _ =>
          left
          rw [if_neg (by simp [h1])]
          refine ⟨by simp [h1], fun f0 hf0 => ?_⟩
          by_cases he : f0 = i
          · subst he
            refine ⟨some m, by simp [← h1], fun f1 => ?_⟩
            rw [← hms]; simp [eq_comm]
          · obtain ⟨o, ho, ho2⟩ := h2 f0 (by omega)
            refine ⟨o, ?_, ho2⟩
            rw [List.getElem?_append_left (by omega)]; exact ho
        | a :: b :: ms, _, _ =>
          right
          rw [if_pos (by simp [h1])]
          simp [h1]; omega
      · right
        rw [if_pos (by simp; omega)]
        simp; omega) ht
  rcases hp with ⟨_, hp⟩ | hbad
  · refine ⟨⟨hlen, hp⟩, fun f g hfg => ?_⟩
    have hf : f < t.length := (List.getElem?_eq_some_iff.1 hfg).1
    -- every iteration of the checking loop succeeded
    have hall : ∀ k, ∀ u, forN k (fun fa (_ : Unit) => do
        let o ← rd t fa
        match o with
        | none => some ()
        | some p => do
          let q ← rd t p
          check (decide (q = some fa))) () = some u → ∀ f < k, ∀ g, t[f]? = some (some g) → t[g]? = some (some f) := by
      intro k u hk
      refine forN_post (P := fun i (_ : Unit) => ∀ f < i, ∀ g, t[f]? = some (some g) → t[g]? = some (some f))
        (fun _ h => by omega) ?_ hk
      intro i _ _ hi hinv hb f hf g hfg
      by_cases he : f = i
      · subst he
        simp only [rd, hfg, Option.bind_eq_bind, Option.bind_some, Option.bind_eq_some_iff, check_some,
          decide_eq_true_eq] at hb
        obtain ⟨q, hq, rfl⟩ := hb
        exact hq
      · exact hinv f (by omega) g hfg
    exact hall _ _ hchk f hf g hfg
  · omega

/-! ### Boundary faces -/

theorem bndFas_spec {nFas peTy : Nat} {spType : List Nat} {faEl : List (Option Nat)} {l : List Nat}
    (h : bndFas nFas peTy spType faEl = some l) :
    (l.Nodup ∧ ∀ f, f ∈ l ↔ f < nFas ∧ spType[f]? = some peTy) ∧ ∀ f ∈ l, faEl[f * 2 + 1]? = some none := by
  have := forN_post (P := fun i (l : List Nat) => (l.Nodup ∧ ∀ f, f ∈ l ↔ f < i ∧ spType[f]? = some peTy) ∧
      ∀ f ∈ l, faEl[f * 2 + 1]? = some none)
    ⟨⟨List.nodup_nil, by simp⟩, by simp⟩
    (by
      rintro i t t' hi ⟨⟨hnd, hms⟩, hb0⟩ hb
      simp only [rd, Option.bind_eq_bind, Option.bind_eq_some_iff] at hb
      obtain ⟨ty, hty, hb⟩ := hb
      by_cases hc : ty = peTy
      · rw [if_pos hc] at hb
        simp only [Option.bind_eq_some_iff, check_some, Option.pure_def, Option.some.injEq, Option.isNone_iff_eq_none] at hb
        obtain ⟨o, ho, _, rfl, rfl⟩ := hb
        refine ⟨⟨?_, fun f => ?_⟩, fun f hf => ?_⟩
        · rw [List.nodup_append]
          refine ⟨hnd, by simp, ?_⟩
          intro a ha b hb
          rw [List.mem_singleton] at hb; subst hb
          have := ((hms a).1 ha).1
          omega
        · rw [List.mem_append, hms, List.mem_singleton]
          constructor
          · rintro (⟨h1, h2⟩ | rfl)
            · exact ⟨by omega, h2⟩
            · exact ⟨by omega, by rw [hty, hc]⟩
          · rintro ⟨h1, h2⟩
            by_cases he : f = i
            · exact Or.inr he
            · exact Or.inl ⟨by omega, h2⟩
        · rw [List.mem_append, List.mem_singleton] at hf
          rcases hf with hf | rfl
          · exact hb0 f hf
          · exact ho
      · rw [if_neg hc] at hb
        cases hb
        refine ⟨⟨hnd, fun f => ?_⟩, hb0⟩
        rw [hms]
        constructor
        · rintro ⟨h1, h2⟩; exact ⟨by omega, h2⟩
        · rintro ⟨h1, h2⟩
          refine ⟨?_, h2⟩
          rcases Nat.lt_succ_iff_lt_or_eq.1 h1 with h | h
          · exact h
          · subst h; rw [hty] at h2; exact absurd (Option.some.inj h2) hc) h
  exact this

/-! ### Insertion of the neighbours -/

/-- Faces paired by the first `i` entries. -/
def ParUp (bnd : List Nat) (prs : List (Option Nat)) (i f g : Nat) : Prop :=
  ∃ f0 f1 : Nat, f0 < i ∧ bnd[f0]? = some f ∧ prs[f0]? = some (some f1) ∧ bnd[f1]? = some g

/-- State after the first `i` insertions. -/
structure InsInv (n : Nat) (c : Conn) (R : Nat → Nat → Prop) (s : PSt) : Prop where
  faEl_len : s.faEl.length = c.faEl.length
  elFaEl_len : s.elFaEl.length = c.elFaEl.length
  fst : ∀ f : Nat, s.faEl[f * 2]? = c.faEl[f * 2]?
  snd : ∀ f g : Nat, R f g → ∃ ow : Nat, c.faEl[g * 2]? = some (some ow) ∧ s.faEl[f * 2 + 1]? = some (some ow)
  snd_rest : ∀ f : Nat, (¬ ∃ g, R f g) → s.faEl[f * 2 + 1]? = c.faEl[f * 2 + 1]?
  ad : ∀ el fa f g : Nat, fa < n → c.elFa[el * n + fa]? = some f → R f g → c.faEl[f * 2]? = some (some el) →
    ∃ ow : Nat, c.faEl[g * 2]? = some (some ow) ∧ s.elFaEl[el * n + fa]? = some (some ow)
  ad_rest : ∀ el fa f : Nat, fa < n → c.elFa[el * n + fa]? = some f →
    ((¬ ∃ g, R f g) ∨ c.faEl[f * 2]? ≠ some (some el)) → s.elFaEl[el * n + fa]? = c.elFaEl[el * n + fa]?
  gt : ∀ f, f ∈ s.gt ↔ ∃ g a b : Nat, R f g ∧ c.faEl[f * 2]? = some (some a) ∧ c.faEl[g * 2]? = some (some b) ∧ b < a
  gt_nodup : s.gt.Nodup

theorem insInner {n el0 el1 f0Id : Nat} {elFa : List Nat} {a a' : List (Option Nat)}
    (h : forN n (fun ad a => do
      let id ← rd elFa (el0 * n + ad)
      if id = f0Id then wr a (el0 * n + ad) (some el1) else return a) a = some a') :
    a'.length = a.length ∧ (∀ fa, fa < n → elFa[el0 * n + fa]? = some f0Id → a'[el0 * n + fa]? = some (some el1)) ∧
      (∀ p, (∀ fa, fa < n → elFa[el0 * n + fa]? = some f0Id → p ≠ el0 * n + fa) → a'[p]? = a[p]?) := by
  have := forN_post (P := fun i (t : List (Option Nat)) => t.length = a.length ∧
      (∀ fa, fa < i → elFa[el0 * n + fa]? = some f0Id → t[el0 * n + fa]? = some (some el1)) ∧
      (∀ p, (∀ fa, fa < i → elFa[el0 * n + fa]? = some f0Id → p ≠ el0 * n + fa) → t[p]? = a[p]?))
    ⟨rfl, fun _ h => by omega, fun _ _ => rfl⟩
    (by
      rintro i t t' hi ⟨h1, h2, h3⟩ hb
      simp only [rd, Option.bind_eq_bind, Option.bind_eq_some_iff] at hb
      obtain ⟨id, hid, hb⟩ := hb
      by_cases hc : id = f0Id
      · rw [if_pos hc] at hb
        simp only [wr] at hb
        split at hb
        · rename_i hlt
          cases hb
          refine ⟨by simpa using h1, fun fa hfa he => ?_, fun p hp => ?_⟩
          · by_cases e : fa = i
            · subst e; rw [List.getElem?_set_self hlt]
            · rw [List.getElem?_set_ne (by omega)]; exact h2 fa (by omega) he
          · rw [List.getElem?_set_ne (Ne.symm (hp i (by omega) (by rw [hid, hc])))]
            exact h3 p fun fa hfa he => hp fa (by omega) he
        · cases hb
      · rw [if_neg hc] at hb
        cases hb
        refine ⟨h1, fun fa hfa he => ?_, fun p hp => h3 p fun fa hfa he => hp fa (by omega) he⟩
        by_cases e : fa = i
        · subst e; rw [hid] at he; exact absurd (Option.some.inj he) hc
        · exact h2 fa (by omega) he) h
  exact this

theorem insertAd_spec {n i : Nat} {c : Conn} {bnd : List Nat} {prs : List (Option Nat)} {s s' : PSt} (hnd : bnd.Nodup)
    (hinv : InsInv n c (ParUp bnd prs i) s) (h : insertAd n c.elFa bnd prs i s = some s') :
    InsInv n c (ParUp bnd prs (i + 1)) s' := by
  simp only [insertAd, rd, Option.bind_eq_bind, Option.bind_eq_some_iff] at h
  obtain ⟨o, ho, h⟩ := h
  cases o with
  | none =>
    cases h
    have hR : ∀ f g, ParUp bnd prs (i + 1) f g ↔ ParUp bnd prs i f g := by
      intro f g
      constructor
      · rintro ⟨f0, f1, h1, h2, h3, h4⟩
        refine ⟨f0, f1, ?_, h2, h3, h4⟩
        rcases Nat.lt_succ_iff_lt_or_eq.1 h1 with h | h
        · exact h
        · subst h; rw [ho] at h3; cases h3
      · rintro ⟨f0, f1, h1, h2, h3, h4⟩; exact ⟨f0, f1, by omega, h2, h3, h4⟩
    have : ParUp bnd prs (i + 1) = ParUp bnd prs i := by funext f g; exact propext (hR f g)
    rw [this]; exact hinv
  | some f1 =>
    simp only [Option.bind_eq_some_iff] at h
    obtain ⟨f, hf, g, hg, o0, h0, el0, rfl, o1, h1, el1, rfl, faEl, hw, a, ha, h⟩ := h
    cases h
    rw [hinv.fst] at h0 h1
    have hR : ∀ x y, ParUp bnd prs (i + 1) x y ↔ ParUp bnd prs i x y ∨ (x = f ∧ y = g) := by
      intro x y
      constructor
      · rintro ⟨a, b, k1, k2, k3, k4⟩
        rcases Nat.lt_succ_iff_lt_or_eq.1 k1 with h | h
        · exact Or.inl ⟨a, b, h, k2, k3, k4⟩
        · subst h
          rw [ho] at k3; cases k3
          rw [hf] at k2; cases k2
          rw [hg] at k4; cases k4
          exact Or.inr ⟨rfl, rfl⟩
      · rintro (⟨a, b, k1, k2, k3, k4⟩ | ⟨rfl, rfl⟩)
        · exact ⟨a, b, by omega, k2, k3, k4⟩
        · exact ⟨i, f1, by omega, hf, ho, hg⟩
    have hnf : ∀ y, ¬ ParUp bnd prs i f y := by
      rintro y ⟨a, b, k1, k2, k3, k4⟩
      have hl : a < bnd.length := (List.getElem?_eq_some_iff.1 k2).1
      have := (List.getElem?_inj hl hnd).1 (k2.trans hf.symm)
      omega
    simp only [wr] at hw
    split at hw
    case isFalse => cases hw
    rename_i hlt
    cases hw
    obtain ⟨i1, i2, i3⟩ := insInner ha
    refine ⟨by simpa using hinv.faEl_len, i1.trans hinv.elFaEl_len, fun x => ?_, fun x y hxy => ?_, fun x hx => ?_,
      fun el fa x y hfa hx hxy how => ?_, fun el fa x hfa hx hc => ?_, fun x => ?_, ?_⟩
    · show (s.faEl.set _ _)[x * 2]? = _
      rw [List.getElem?_set_ne (by omega)]; exact hinv.fst x
    · show ∃ ow, _ ∧ (s.faEl.set _ _)[x * 2 + 1]? = _
      rcases (hR x y).1 hxy with hxy' | ⟨rfl, rfl⟩
      · have hne : x ≠ f := by rintro rfl; exact hnf y hxy'
        rw [List.getElem?_set_ne (by omega)]; exact hinv.snd x y hxy'
      · exact ⟨el1, h1, by rw [List.getElem?_set_self hlt]⟩
    · show (s.faEl.set _ _)[x * 2 + 1]? = _
      have hne : x ≠ f := by rintro rfl; exact hx ⟨g, (hR x g).2 (Or.inr ⟨rfl, rfl⟩)⟩
      rw [List.getElem?_set_ne (by omega)]
      exact hinv.snd_rest x fun ⟨y, hy⟩ => hx ⟨y, (hR x y).2 (Or.inl hy)⟩
    · show ∃ ow, _ ∧ a[el * n + fa]? = _
      rcases (hR x y).1 hxy with hxy' | ⟨rfl, rfl⟩
      · have hne : x ≠ f := by rintro rfl; exact hnf y hxy'
        rw [i3]
        · exact hinv.ad el fa x y hfa hx hxy' how
        · intro k hk hk2 heq
          rw [← heq, hx] at hk2; exact hne (Option.some.inj hk2)
      · rw [h0] at how; cases how
        exact ⟨el1, h1, i2 fa hfa hx⟩
    · show a[el * n + fa]? = _
      rw [i3]
      · refine hinv.ad_rest el fa x hfa hx ?_
        rcases hc with hc | hc
        · exact Or.inl fun ⟨y, hy⟩ => hc ⟨y, (hR x y).2 (Or.inl hy)⟩
        · exact Or.inr hc
      · intro k hk hk2 heq
        rw [← heq, hx] at hk2; cases hk2
        rcases hc with hc | hc
        · exact hc ⟨g, (hR f g).2 (Or.inr ⟨rfl, rfl⟩)⟩
        · have : el = el0 := by
            by_contra hne
            exact idx_ne hfa hk hne heq
          subst this; exact hc h0
    · show x ∈ (if el1 < el0 then s.gt ++ [f] else s.gt) ↔ _
      constructor
      · intro hx
        have : x ∈ s.gt ∨ (x = f ∧ el1 < el0) := by
          split at hx
          · rename_i hlt'
            rw [List.mem_append, List.mem_singleton] at hx
            rcases hx with hx | hx
            · exact Or.inl hx
            · exact Or.inr ⟨hx, hlt'⟩
          · exact Or.inl hx
        rcases this with hx | ⟨rfl, hlt'⟩
        · obtain ⟨y, p, q, k1, k2⟩ := (hinv.gt x).1 hx
          exact ⟨y, p, q, (hR x y).2 (Or.inl k1), k2⟩
        · exact ⟨g, el0, el1, (hR x g).2 (Or.inr ⟨rfl, rfl⟩), h0, h1, hlt'⟩
      · rintro ⟨y, p, q, k1, k2, k3, k4⟩
        rcases (hR x y).1 k1 with k1 | ⟨rfl, rfl⟩
        · have := (hinv.gt x).2 ⟨y, p, q, k1, k2, k3, k4⟩
          split
          · exact List.mem_append_left _ this
          · exact this
        · rw [h0] at k2; cases k2
          rw [h1] at k3; cases k3
          rw [if_pos k4]; simp
    · show (if el1 < el0 then s.gt ++ [f] else s.gt).Nodup
      split
      · rw [List.nodup_append]
        refine ⟨hinv.gt_nodup, by simp, ?_⟩
        intro u hu v hv
        rw [List.mem_singleton] at hv; subst hv
        rintro rfl
        obtain ⟨y, _, _, k1, _⟩ := (hinv.gt u).1 hu
        exact hnf y k1
      · exact hinv.gt_nodup

/-! ### Result -/

/-- Faces `f` and `g` are partners: different faces of the periodic boundary which match. -/
def Par (mt : Nat → Nat → Option Bool) (peTy : Nat) (spType : List Nat) (nFas f g : Nat) : Prop :=
  f < nFas ∧ g < nFas ∧ spType[f]? = some peTy ∧ spType[g]? = some peTy ∧ f ≠ g ∧ mt f g = some true

/-- C80: every face of the periodic boundary has at most one partner, partners are mutual; behind a face with a partner is the
element of the partner, and all other entries are unchanged. -/
theorem C80_periodic {mt : Nat → Nat → Option Bool} {n peTy : Nat} {spType : List Nat} {c c' : Conn} {gt : List Nat}
    (h : setPeriodic mt n peTy spType c = some (c', gt)) :
    (∀ f, f < c.nFas → spType[f]? = some peTy → c.faEl[f * 2 + 1]? = some none) ∧
    (∀ f g g', Par mt peTy spType c.nFas f g → Par mt peTy spType c.nFas f g' → g = g') ∧
    (∀ f g, Par mt peTy spType c.nFas f g → Par mt peTy spType c.nFas g f) ∧
    c'.nFas = c.nFas ∧ c'.faVe = c.faVe ∧ c'.elFa = c.elFa ∧
    InsInv n c (Par mt peTy spType c.nFas) { faEl := c'.faEl, elFaEl := c'.elFaEl, gt := gt } := by
  simp only [setPeriodic, Option.bind_eq_bind, Option.bind_eq_some_iff, Option.pure_def, Option.some.injEq,
    Prod.mk.injEq] at h
  obtain ⟨bnd, hb, prs, hp, s, hs, rfl, rfl⟩ := h
  obtain ⟨⟨b1, b2⟩, b3⟩ := bndFas_spec hb
  obtain ⟨⟨p1, p2⟩, p3⟩ := facePairs_spec hp
  -- partners are the pairs of positions
  have hR : ∀ f g, Par mt peTy spType c.nFas f g ↔ ParUp bnd prs prs.length f g := by
    intro f g
    constructor
    · rintro ⟨h1, h2, h3, h4, h5, h6⟩
      obtain ⟨f0, hf0⟩ := List.getElem?_of_mem ((b2 f).2 ⟨h1, h3⟩)
      obtain ⟨f1, hf1⟩ := List.getElem?_of_mem ((b2 g).2 ⟨h2, h4⟩)
      have l0 := (List.getElem?_eq_some_iff.1 hf0).1
      have l1 := (List.getElem?_eq_some_iff.1 hf1).1
      obtain ⟨o, ho, ho2⟩ := p2 f0 l0
      refine ⟨f0, f1, by omega, hf0, ?_, hf1⟩
      rw [ho, (ho2 f1).2 ⟨l1, ?_, by simp [rd, hf0, hf1, h6]⟩]
      rintro rfl
      rw [hf0] at hf1; exact h5 (Option.some.inj hf1)
    · rintro ⟨f0, f1, k1, k2, k3, k4⟩
      obtain ⟨o, ho, ho2⟩ := p2 f0 (by omega)
      rw [k3] at ho; cases ho
      obtain ⟨q1, q2, q3⟩ := (ho2 f1).1 rfl
      obtain ⟨m1, m2⟩ := (b2 f).1 (List.mem_of_getElem? k2)
      obtain ⟨m3, m4⟩ := (b2 g).1 (List.mem_of_getElem? k4)
      refine ⟨m1, m3, m2, m4, ?_, by simpa [rd, k2, k4] using q3⟩
      rintro rfl
      exact q2 ((List.getElem?_inj (List.getElem?_eq_some_iff.1 k2).1 b1).1 (k2.trans k4.symm))
  have hR' : Par mt peTy spType c.nFas = ParUp bnd prs prs.length := by
    funext f g; exact propext (hR f g)
  have hrefl : InsInv n c (ParUp bnd prs 0) { faEl := c.faEl, elFaEl := c.elFaEl, gt := [] } :=
    { faEl_len := rfl
      elFaEl_len := rfl
      fst := fun _ => rfl
      snd := fun _ _ ⟨_, _, h, _⟩ => by omega
      snd_rest := fun _ _ => rfl
      ad := fun _ _ _ _ _ _ ⟨_, _, h, _⟩ => by omega
      ad_rest := fun _ _ _ _ _ _ => rfl
      gt := fun f => ⟨fun h => (by simp at h), fun ⟨_, _, _, ⟨_, _, h, _⟩, _⟩ => (by omega)⟩
      gt_nodup := List.nodup_nil }
  refine ⟨fun f h1 h2 => b3 f ((b2 f).2 ⟨h1, h2⟩), fun f g g' h1 h2 => ?_, fun f g h1 => ?_, rfl, rfl, rfl, ?_⟩
  · rw [hR] at h1 h2
    obtain ⟨a, b, -, k2, k3, k4⟩ := h1
    obtain ⟨a', b', -, k2', k3', k4'⟩ := h2
    have := (List.getElem?_inj (List.getElem?_eq_some_iff.1 k2).1 b1).1 (k2.trans k2'.symm)
    subst this
    rw [k3] at k3'; cases k3'
    rw [k4] at k4'; exact Option.some.inj k4'
  · rw [hR] at h1 ⊢
    obtain ⟨a, b, -, k2, k3, k4⟩ := h1
    have := p3 a b k3
    exact ⟨b, a, (List.getElem?_eq_some_iff.1 this).1, k4, this, k2⟩
  · rw [hR']
    exact forN_post (P := fun i s => InsInv n c (ParUp bnd prs i) s) hrefl
      (fun i t t' _ hinv hb => insertAd_spec b1 hinv hb) hs

end Edge.Mesh
