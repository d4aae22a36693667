import Verif.EdgeV.GroupsModel
import Verif.Util.Rat
/-!
Time groups of EDGE-V: C29 (stability), C30 (normalisation), C31 (group sizes).
-/
namespace Edge.EdgeV
open Edge

/-! ## Specification -/

/-- Adjacency information of a mesh: every face of every element has an entry, which is a neighbour or empty. -/
def AdOk (elFaEl : List (Option Nat)) (nElFas nEls : Nat) : Prop :=
  ∀ el fa : Nat, el < nEls → fa < nElFas →
    ∃ o : Option Nat, elFaEl[el * nElFas + fa]? = some o ∧ ∀ ad, o = some ad → ad < nEls

/-- Element `ad` is behind one of the faces of `el`. -/
def Nb (elFaEl : List (Option Nat)) (nElFas el ad : Nat) : Prop :=
  ∃ fa, fa < nElFas ∧ elFaEl[el * nElFas + fa]? = some (some ad)

/-- No element is more than one group above one of its neighbours. -/
def Smooth (elFaEl : List (Option Nat)) (nElFas : Nat) (tg : List Nat) : Prop :=
  ∀ el ad a b : Nat, Nb elFaEl nElFas el ad → tg[el]? = some a → tg[ad]? = some b → a ≤ b + 1

/-- Entry-wise order of two assignments of the same elements. -/
def Below (u v : List Nat) : Prop :=
  u.length = v.length ∧ ∀ i a b : Nat, u[i]? = some a → v[i]? = some b → a ≤ b

/-- Every entry of the interval list is the previous one times the rate. -/
def IsIntervals (rates : List Rat) (funDt big : Rat) (is : List Rat) : Prop :=
  is.length = rates.length + 2 ∧ is[0]? = some funDt ∧ is[rates.length + 1]? = some big ∧
  (∀ (i : Nat) (a r : Rat), rates[i]? = some r → is[i]? = some a → is[i + 1]? = some (a * r))

/-! ## Lemmas -/

theorem below_refl (u : List Nat) : Below u u :=
  ⟨rfl, fun i a b h h' => by rw [h] at h'; cases h'; exact Nat.le_refl _⟩

theorem below_get {u v : List Nat} (h : Below u v) {i b : Nat} (hb : v[i]? = some b) :
    ∃ a, u[i]? = some a ∧ a ≤ b := by
  have hi := (List.getElem?_eq_some_iff.1 hb).1
  have hi' : i < u.length := by rw [h.1]; exact hi
  exact ⟨u[i], List.getElem?_eq_getElem hi', h.2 i _ _ (List.getElem?_eq_getElem hi') hb⟩

theorem below_trans {u v w : List Nat} (h : Below u v) (h' : Below v w) : Below u w := by
  refine ⟨h.1.trans h'.1, fun i a b ha hb => ?_⟩
  obtain ⟨c, hc, hcb⟩ := below_get h' hb
  exact Nat.le_trans (h.2 i a c ha hc) hcb

theorem below_antisymm {u v : List Nat} (h : Below u v) (h' : Below v u) : u = v := by
  apply List.ext_getElem h.1
  intro i h1 h2
  exact Nat.le_antisymm (h.2 i _ _ (List.getElem?_eq_getElem h1) (List.getElem?_eq_getElem h2))
    (h'.2 i _ _ (List.getElem?_eq_getElem h2) (List.getElem?_eq_getElem h1))

theorem sum_set_lt : ∀ (l : List Nat) (i : Nat) (v x : Nat), l[i]? = some x → v < x → (l.set i v).sum < l.sum
  | [], i, v, x, h, _ => by simp at h
  | a :: l, 0, v, x, h, hv => by simp at h; simp; omega
  | a :: l, i + 1, v, x, h, hv => by
      simp at h
      have := sum_set_lt l i v x h hv
      simp; omega

theorem below_set {l : List Nat} {i v x : Nat} (h : l[i]? = some x) (hv : v ≤ x) : Below (l.set i v) l := by
  refine ⟨by simp, fun j a b ha hb => ?_⟩
  rw [List.getElem?_set] at ha
  split at ha
  · rename_i hij; subst hij
    split at ha
    · simp at ha; rw [h] at hb; cases hb; omega
    · simp at ha
  · rw [ha] at hb; cases hb; exact Nat.le_refl _

theorem set_self {l : List Nat} {i x : Nat} (h : l[i]? = some x) : l.set i x = l := by
  apply List.ext_getElem?
  intro j
  rw [List.getElem?_set]
  split
  · rename_i hij; subst hij
    have := (List.getElem?_eq_some_iff.1 h).1
    rw [h]; simp [this]
  · rfl

/-- One face of the normalisation: nothing to do, or the entry of the element is lowered. -/
theorem normFace_spec {elFaEl : List (Option Nat)} {nElFas nEls : Nat} (hA : AdOk elFaEl nElFas nEls)
    {el fa tgEl : Nat} (hel : el < nEls) (hfa : fa < nElFas) (s : List Nat × Nat) (hl : s.1.length = nEls) :
    (normFace elFaEl nElFas el tgEl fa s = some s ∧
      ∀ ad b, elFaEl[el * nElFas + fa]? = some (some ad) → s.1[ad]? = some b → tgEl ≤ b + 1) ∨
    (∃ ad b, elFaEl[el * nElFas + fa]? = some (some ad) ∧ s.1[ad]? = some b ∧ b + 1 < tgEl ∧
      normFace elFaEl nElFas el tgEl fa s = some (s.1.set el (b + 1), s.2 + 1)) := by
  obtain ⟨o, ho, hb⟩ := hA el fa hel hfa
  cases o with
  | none => left; constructor
            · simp [normFace, rd, ho]
            · intro ad b h; rw [ho] at h; cases h
  | some ad =>
    have hadlt := hb ad rfl
    have had : ad < s.1.length := by omega
    by_cases hc : tgEl > s.1[ad] + 1
    · right
      refine ⟨ad, s.1[ad], ho, List.getElem?_eq_getElem had, hc, ?_⟩
      simp [normFace, rd, ho, List.getElem?_eq_getElem had, hc, wr, hl, hel]
    · left; constructor
      · simp [normFace, rd, ho, List.getElem?_eq_getElem had, hc]
      · intro ad' b h h'
        rw [ho] at h; cases h
        rw [List.getElem?_eq_getElem had] at h'; cases h'
        omega

/-- One element of the normalisation. -/
theorem normEl_spec {elFaEl : List (Option Nat)} {nElFas nEls : Nat} (hA : AdOk elFaEl nElFas nEls)
    {el tgEl : Nat} (hel : el < nEls) (l : List Nat) (c : Nat) (hl : l.length = nEls) (hx : l[el]? = some tgEl) :
    ∃ v c', forN nElFas (fun fa (s : List Nat × Nat) => normFace elFaEl nElFas el tgEl fa s) (l, c)
        = some (l.set el v, c') ∧
      ((c' = c ∧ v = tgEl ∧ ∀ ad b, Nb elFaEl nElFas el ad → l[ad]? = some b → tgEl ≤ b + 1) ∨
       (c < c' ∧ v < tgEl)) ∧
      (∀ u, Smooth elFaEl nElFas u → Below u l → Below u (l.set el v)) := by
  obtain ⟨t, ht, hp⟩ := forN_inv (n := nElFas)
    (body := fun fa (s : List Nat × Nat) => normFace elFaEl nElFas el tgEl fa s) (s := (l, c))
    (fun i (s : List Nat × Nat) => ∃ v, s.1 = l.set el v ∧
      ((s.2 = c ∧ v = tgEl ∧ ∀ fa, fa < i → ∀ ad b, elFaEl[el * nElFas + fa]? = some (some ad) →
          l[ad]? = some b → tgEl ≤ b + 1) ∨ (c < s.2 ∧ v < tgEl)) ∧
      (∀ u, Smooth elFaEl nElFas u → Below u l → Below u (l.set el v)))
    ⟨tgEl, (set_self hx).symm, Or.inl ⟨rfl, rfl, fun fa h => by omega⟩,
      fun u _ h => by rw [set_self hx]; exact h⟩
    (by
      rintro i ⟨l', c'⟩ hi ⟨v, hv, hor, hu⟩
      simp only at hv hor; subst hv
      have hlen : (l.set el v).length = nEls := by simp [hl]
      rcases normFace_spec hA hel hi (l.set el v, c') hlen (tgEl := tgEl) with ⟨h1, h2⟩ | ⟨ad, b, h1, h2, h3, h4⟩
      · refine ⟨_, h1, v, rfl, ?_, hu⟩
        rcases hor with ⟨ha, hb, hc⟩ | h
        · left
          refine ⟨ha, hb, fun fa hfa ad b hnb hlb => ?_⟩
          by_cases hf : fa < i
          · exact hc fa hf ad b hnb hlb
          · have : fa = i := by omega
            subst this
            apply h2 ad b hnb
            simp only [hb]
            rw [set_self hx]; exact hlb
        · exact Or.inr h
      · refine ⟨_, h4, b + 1, by simp, Or.inr ⟨?_, h3⟩, ?_⟩
        · rcases hor with ⟨ha, _⟩ | ⟨h, _⟩
          · simp [ha]
          · simp; omega
        · intro u hs hbel
          have hbel' := hu u hs hbel
          refine ⟨by simp [hbel.1], fun j a b' ha hb' => ?_⟩
          rw [List.getElem?_set] at hb'
          split at hb'
          · rename_i hij; subst hij
            split at hb'
            · simp at hb'; subst hb'
              obtain ⟨x, hx1, hx2⟩ := below_get hbel' h2
              have := hs el ad a x ⟨i, hi, h1⟩ ha hx1
              omega
            · simp at hb'
          · exact hbel.2 j a b' ha hb')
  obtain ⟨v, hv, hor, hu⟩ := hp
  refine ⟨v, t.2, ?_, ?_, hu⟩
  · rw [ht, ← hv]
  · rcases hor with ⟨ha, hb, hc⟩ | h
    · exact Or.inl ⟨ha, hb, fun ad b ⟨fa, hfa, hn⟩ => hc fa hfa ad b hn⟩
    · exact Or.inr h

/-- One sweep: without changes if the assignment is smooth; otherwise the groups get smaller. -/
theorem normSweep_spec {elFaEl : List (Option Nat)} {nElFas nEls : Nat} (hA : AdOk elFaEl nElFas nEls)
    (tg : List Nat) (hl : tg.length = nEls) :
    ∃ out c, normSweep elFaEl nElFas nEls tg = some (out, c) ∧ Below out tg ∧
      (c = 0 → out = tg ∧ Smooth elFaEl nElFas tg) ∧ (0 < c → out.sum < tg.sum) ∧
      (∀ u, Smooth elFaEl nElFas u → Below u tg → Below u out) := by
  obtain ⟨t, ht, h1, h2, h3, h4⟩ := forN_inv (n := nEls)
    (body := fun el (s : List Nat × Nat) => do
      let tgEl ← rd s.1 el
      forN nElFas (fun fa (s : List Nat × Nat) => normFace elFaEl nElFas el tgEl fa s) s) (s := (tg, 0))
    (fun i (s : List Nat × Nat) => Below s.1 tg ∧
      (s.2 = 0 → s.1 = tg ∧ ∀ el, el < i → ∀ ad a b, Nb elFaEl nElFas el ad → tg[el]? = some a →
          tg[ad]? = some b → a ≤ b + 1) ∧
      (0 < s.2 → s.1.sum < tg.sum) ∧ (∀ u, Smooth elFaEl nElFas u → Below u tg → Below u s.1))
    ⟨below_refl _, fun _ => ⟨rfl, fun el h => by omega⟩, fun h => absurd h (by simp), fun u _ h => h⟩
    (by
      rintro i ⟨l, c⟩ hi ⟨g1, g2, g3, g4⟩
      simp only at g1 g2 g3 g4
      have hll : l.length = nEls := by rw [g1.1, hl]
      have hil : i < l.length := by omega
      have hx : l[i]? = some l[i] := List.getElem?_eq_getElem hil
      obtain ⟨v, c', hf, hor, hu⟩ := normEl_spec hA hi l c hll hx
      refine ⟨(l.set i v, c'), by simp [rd, hx, hf], ?_, ?_, ?_, ?_⟩
      · refine below_trans (below_set hx ?_) g1
        rcases hor with ⟨_, h, _⟩ | ⟨_, h⟩ <;> omega
      · simp only; intro h0
        rcases hor with ⟨ha, hb, hc⟩ | ⟨h, _⟩
        · obtain ⟨e1, e2⟩ := g2 (by omega)
          refine ⟨?_, fun el hel ad a b hn h1 h2 => ?_⟩
          · rw [hb, set_self hx]; exact e1
          · by_cases hei : el < i
            · exact e2 el hei ad a b hn h1 h2
            · have : el = i := by omega
              subst this
              rw [← e1] at h1 h2
              have := hc ad b hn h2
              rw [hx] at h1; cases h1; exact this
        · omega
      · simp only; intro h0
        rcases hor with ⟨ha, hb, hc⟩ | ⟨_, h⟩
        · rw [hb, set_self hx]; exact g3 (by omega)
        · have := sum_set_lt l i v _ hx h
          by_cases hc0 : c = 0
          · have e := (g2 hc0).1
            subst e; exact this
          · have := g3 (by omega); omega
      · intro u hs hb
        exact hu u hs (g4 u hs hb))
  refine ⟨t.1, t.2, ht, h1, fun h0 => ⟨(h2 h0).1, ?_⟩, h3, h4⟩
  intro el ad a b hn ha hb
  have := (List.getElem?_eq_some_iff.1 ha).1
  exact (h2 h0).2 el (by omega) ad a b hn ha hb

theorem normalize_total {elFaEl : List (Option Nat)} {nElFas nEls : Nat} (hA : AdOk elFaEl nElFas nEls) :
    ∀ (fuel : Nat) (tg : List Nat) (all : Nat), tg.length = nEls → tg.sum < fuel →
      ∃ out n, normalize elFaEl nElFas nEls fuel tg all = some (out, n)
  | 0, _, _, _, h => by omega
  | fuel + 1, tg, all, hl, h => by
      obtain ⟨out, c, h1, h2, h3, h4, _⟩ := normSweep_spec hA tg hl
      simp only [normalize, h1, Option.bind_eq_bind, Option.bind_some]
      by_cases hc : c = 0
      · simp [hc]
      · simp only [hc, if_false]
        exact normalize_total hA fuel out _ (by rw [h2.1, hl]) (by have := h4 (by omega); omega)

theorem normalize_mono {elFaEl : List (Option Nat)} {nElFas nEls : Nat} :
    ∀ (fuel k : Nat) (tg : List Nat) (all : Nat) (r : List Nat × Nat),
      normalize elFaEl nElFas nEls fuel tg all = some r → normalize elFaEl nElFas nEls (fuel + k) tg all = some r
  | 0, _, _, _, _, h => by simp [normalize] at h
  | fuel + 1, k, tg, all, r, h => by
      rw [show fuel + 1 + k = (fuel + k) + 1 from by omega]
      simp only [normalize, Option.bind_eq_bind] at h ⊢
      cases hs : normSweep elFaEl nElFas nEls tg with
      | none => rw [hs] at h; simp at h
      | some p =>
        rw [hs] at h
        simp only [Option.bind_some] at h ⊢
        by_cases hc : p.2 = 0
        · simpa [hc] using h
        · simp only [hc, if_false] at h ⊢
          exact normalize_mono fuel k _ _ r h

theorem normalize_post {elFaEl : List (Option Nat)} {nElFas nEls : Nat} (hA : AdOk elFaEl nElFas nEls) :
    ∀ (fuel : Nat) (tg : List Nat) (all : Nat) (out : List Nat) (n : Nat), tg.length = nEls →
      normalize elFaEl nElFas nEls fuel tg all = some (out, n) →
      Below out tg ∧ Smooth elFaEl nElFas out ∧ (∀ u, Smooth elFaEl nElFas u → Below u tg → Below u out) ∧
      all ≤ n ∧ (n = all ↔ out = tg)
  | 0, _, _, _, _, _, h => by simp [normalize] at h
  | fuel + 1, tg, all, out, n, hl, h => by
      obtain ⟨o, c, h1, h2, h3, h4, h5⟩ := normSweep_spec hA tg hl
      simp only [normalize, h1, Option.bind_eq_bind, Option.bind_some] at h
      by_cases hc : c = 0
      · simp [hc] at h
        obtain ⟨e1, e2⟩ := h3 hc
        obtain ⟨ho, hn⟩ := h
        subst ho; subst hn; rw [e1]
        exact ⟨below_refl _, e2, fun u _ h => h, Nat.le_refl _, by simp⟩
      · simp only [hc, if_false] at h
        obtain ⟨g1, g2, g3, g4, g5⟩ := normalize_post hA fuel o (all + c) out n (by rw [h2.1, hl]) h
        refine ⟨below_trans g1 h2, g2, fun u hs hb => g3 u hs (h5 u hs hb), by omega, ?_⟩
        constructor
        · intro e; omega
        · intro e
          exfalso
          have hlt := h4 (by omega)
          have : o = tg := below_antisymm h2 (e ▸ g1)
          rw [this] at hlt; omega

/-! ## C30 -/

/-- C30: the normalisation terminates on every mesh and for every assignment, without an access outside of the arrays:
some number of sweeps suffices, and more sweeps do not change the result. -/
theorem C30_terminates {elFaEl : List (Option Nat)} {nElFas nEls : Nat} (hA : AdOk elFaEl nElFas nEls)
    (tg : List Nat) (hl : tg.length = nEls) :
    ∃ out n, ∀ fuel, tg.sum < fuel → normalize elFaEl nElFas nEls fuel tg 0 = some (out, n) := by
  obtain ⟨out, n, h⟩ := normalize_total hA (tg.sum + 1) tg 0 hl (by omega)
  refine ⟨out, n, fun fuel hf => ?_⟩
  have := normalize_mono (tg.sum + 1) (fuel - (tg.sum + 1)) tg 0 _ h
  rwa [show tg.sum + 1 + (fuel - (tg.sum + 1)) = fuel from by omega] at this

/-- C30: the result has no element more than one group above a neighbour, raises no element, and is the largest
assignment with these two properties. -/
theorem C30_largest {elFaEl : List (Option Nat)} {nElFas nEls : Nat} (hA : AdOk elFaEl nElFas nEls)
    {tg out : List Nat} {fuel n : Nat} (hl : tg.length = nEls)
    (h : normalize elFaEl nElFas nEls fuel tg 0 = some (out, n)) :
    Smooth elFaEl nElFas out ∧ Below out tg ∧
    ∀ u, Smooth elFaEl nElFas u → Below u tg → Below u out :=
  let p := normalize_post hA fuel tg 0 out n hl h
  ⟨p.2.1, p.1, p.2.2.1⟩

/-- C30: on a mesh, where being a neighbour is mutual, neighbours end up at most one group apart. -/
theorem C30_neighbours {elFaEl : List (Option Nat)} {nElFas nEls : Nat} (hA : AdOk elFaEl nElFas nEls)
    (hsym : ∀ el ad, Nb elFaEl nElFas el ad → Nb elFaEl nElFas ad el)
    {tg out : List Nat} {fuel n : Nat} (hl : tg.length = nEls)
    (h : normalize elFaEl nElFas nEls fuel tg 0 = some (out, n))
    {el ad a b : Nat} (hn : Nb elFaEl nElFas el ad) (ha : out[el]? = some a) (hb : out[ad]? = some b) :
    a ≤ b + 1 ∧ b ≤ a + 1 :=
  let p := (C30_largest hA hl h).1
  ⟨p el ad a b hn ha hb, p ad el b a (hsym el ad hn) hb ha⟩

/-- C30: the result does not depend on the order of elements and faces: for a renumbering `p` (with inverse `q`) of the
elements, and any order of the faces, an element ends up in the same group. -/
theorem C30_order {elFaEl elFaEl' : List (Option Nat)} {nElFas nElFas' nEls : Nat} (hA : AdOk elFaEl nElFas nEls)
    (hA' : AdOk elFaEl' nElFas' nEls) (p q : Nat → Nat) (hp : ∀ i, i < nEls → p i < nEls ∧ q (p i) = i)
    (hq : ∀ i, i < nEls → q i < nEls ∧ p (q i) = i)
    (hn : ∀ el ad, el < nEls → ad < nEls → (Nb elFaEl nElFas el ad ↔ Nb elFaEl' nElFas' (p el) (p ad)))
    {tg tg' out out' : List Nat} (hl : tg.length = nEls) (hl' : tg'.length = nEls)
    (ht : ∀ i, i < nEls → tg'[p i]? = tg[i]?) {fuel fuel' n n' : Nat}
    (h : normalize elFaEl nElFas nEls fuel tg 0 = some (out, n))
    (h' : normalize elFaEl' nElFas' nEls fuel' tg' 0 = some (out', n')) (i : Nat) (hi : i < nEls) :
    out'[p i]? = out[i]? := by
  -- transport of an assignment along the renumbering
  obtain ⟨s1, b1, m1⟩ := C30_largest hA hl h
  obtain ⟨s2, b2, m2⟩ := C30_largest hA' hl' h'
  have ho : out.length = nEls := by rw [b1.1, hl]
  have ho' : out'.length = nEls := by rw [b2.1, hl']
  have key : ∀ (u : List Nat) (f : Nat → Nat), u.length = nEls → (∀ j, j < nEls → f j < nEls) →
      ∃ w : List Nat, w.length = nEls ∧ ∀ j : Nat, j < nEls → w[j]? = u[f j]? := by
    intro u f hu hf
    refine ⟨(List.range nEls).map (fun j => u[f j]?.getD 0), by simp, fun j hj => ?_⟩
    have : f j < u.length := by rw [hu]; exact hf j hj
    simp [hj, List.getElem?_eq_getElem this]
  have lt_of : ∀ {l : List Nat} {j x : Nat}, l[j]? = some x → j < l.length :=
    fun h => (List.getElem?_eq_some_iff.1 h).1
  -- out' seen on the first numbering
  obtain ⟨w, hw, hwg⟩ := key out' p ho' (fun j hj => (hp j hj).1)
  obtain ⟨w', hw', hwg'⟩ := key out q ho (fun j hj => (hq j hj).1)
  have c1 : Below w out := by
    apply m1
    · intro el ad a b hnb ha hb
      have h1 := lt_of ha; have h2 := lt_of hb; rw [hw] at h1 h2
      rw [hwg el h1] at ha; rw [hwg ad h2] at hb
      exact s2 (p el) (p ad) a b ((hn el ad h1 h2).1 hnb) ha hb
    · refine ⟨by rw [hw, hl], fun j a b ha hb => ?_⟩
      have h1 := lt_of hb; rw [hl] at h1
      rw [hwg j h1] at ha; rw [← ht j h1] at hb
      exact b2.2 _ a b ha hb
  have c2 : Below w' out' := by
    apply m2
    · intro el ad a b hnb ha hb
      have h1 := lt_of ha; have h2 := lt_of hb; rw [hw'] at h1 h2
      rw [hwg' el h1] at ha; rw [hwg' ad h2] at hb
      refine s1 (q el) (q ad) a b ((hn (q el) (q ad) (hq el h1).1 (hq ad h2).1).2 ?_) ha hb
      rw [(hq el h1).2, (hq ad h2).2]; exact hnb
    · refine ⟨by rw [hw', hl'], fun j a b ha hb => ?_⟩
      have h1 := lt_of hb; rw [hl'] at h1
      rw [hwg' j h1] at ha
      have := ht (q j) (hq j h1).1
      rw [(hq j h1).2] at this; rw [this] at hb
      exact b1.2 _ a b ha hb
  have hpi := (hp i hi).1
  have e1 : out[i]? = some (out[i]'(by omega)) := List.getElem?_eq_getElem _
  have e2 : out'[p i]? = some (out'[p i]'(by omega)) := List.getElem?_eq_getElem _
  have f1 := c1.2 i _ _ (by rw [hwg i hi]; exact e2) e1
  have f2 := c2.2 (p i) _ _ (by rw [hwg' _ hpi, (hp i hi).2]; exact e1) e2
  rw [e1, e2]; congr 1; omega

theorem exAdOk : AdOk [none, some 1, some 0, some 2, some 1, none] 2 3 := by
  intro el fa h1 h2
  have h : el = 0 ∨ el = 1 ∨ el = 2 := by omega
  have h' : fa = 0 ∨ fa = 1 := by omega
  rcases h with rfl | rfl | rfl <;> rcases h' with rfl | rfl <;> simp

/-- C63 (finding): the returned value is documented as the number of normalised elements but counts changes: in a chain
of three elements in groups 7, 2 and 0 two elements end up in a different group, 3 is returned. -/
theorem C63_count_refuted : ∃ (elFaEl : List (Option Nat)) (nElFas nEls : Nat) (tg out : List Nat) (n : Nat),
    AdOk elFaEl nElFas nEls ∧ tg.length = nEls ∧ normalize elFaEl nElFas nEls 20 tg 0 = some (out, n) ∧
    ((tg.zip out).filter (fun p => p.1 ≠ p.2)).length < n :=
  ⟨_, 2, 3, [7, 2, 0], [2, 1, 0], 3, exAdOk, rfl, by decide, by decide⟩

/-- C63: at least, the returned value is zero exactly if no element was changed. -/
theorem C63_count_partial {elFaEl : List (Option Nat)} {nElFas nEls : Nat} (hA : AdOk elFaEl nElFas nEls)
    {tg out : List Nat} {fuel n : Nat} (hl : tg.length = nEls)
    (h : normalize elFaEl nElFas nEls fuel tg 0 = some (out, n)) : n = 0 ↔ out = tg :=
  (normalize_post hA fuel tg 0 out n hl h).2.2.2.2

/-- Hypotheses met: a chain of three elements in groups 9, 1 and 5, as neighbours of each other. -/
example : AdOk [none, some 1, some 0, some 2, some 1, none] 2 3 ∧
    normalize [none, some 1, some 0, some 2, some 1, none] 2 3 20 [9, 1, 5] 0 = some ([2, 1, 2], 2) ∧
    Nb [none, some 1, some 0, some 2, some 1, none] 2 0 1 :=
  ⟨exAdOk, by decide, 1, by decide, by decide⟩

/-! ## C29 -/

theorem findTg_spec {nGroups : Nat} {is : List Rat} (hl : is.length = nGroups + 1) (ts : Rat) :
    ∃ r, findTg nGroups is ts = some r ∧
      (∀ k, r = some k → k < nGroups ∧ (∀ x, is[k + 1]? = some x → ts < x) ∧
        ∀ j x, j < k → is[j + 1]? = some x → x ≤ ts) ∧
      (r = none → ∀ (j : Nat) (x : Rat), j < nGroups → is[j + 1]? = some x → x ≤ ts) := by
  refine forN_inv (n := nGroups) (s := none) (body := fun tg (r : Option Nat) =>
    if r.isSome then some r
    else do
      let g ← rd is (tg + 1)
      if ts < g then return some tg else return none)
    (fun i (r : Option Nat) => (∀ k, r = some k → k < i ∧ (∀ x, is[k + 1]? = some x → ts < x) ∧
        ∀ j x, j < k → is[j + 1]? = some x → x ≤ ts) ∧
      (r = none → ∀ (j : Nat) (x : Rat), j < i → is[j + 1]? = some x → x ≤ ts)) ⟨by simp, fun _ j x h => by omega⟩ ?_
  rintro i r hi ⟨h1, h2⟩
  cases r with
  | some k =>
    refine ⟨some k, by simp, fun k' hk' => ?_, by simp⟩
    cases hk'
    obtain ⟨a, b⟩ := h1 k rfl
    exact ⟨by omega, b⟩
  | none =>
    have hlt : i + 1 < is.length := by omega
    have hx := List.getElem?_eq_getElem hlt
    by_cases hc : ts < is[i + 1]
    · refine ⟨some i, by simp [rd, hx, hc], fun k hk => ?_, by simp⟩
      cases hk
      refine ⟨by omega, fun x hx' => ?_, fun j x hj hx' => h2 rfl j x hj hx'⟩
      rw [hx] at hx'; cases hx'; exact hc
    · refine ⟨none, by simp [rd, hx, hc], by simp, fun _ j x hj hx' => ?_⟩
      by_cases hji : j < i
      · exact h2 rfl j x hji hx'
      · have : j = i := by omega
        subst this
        rw [hx] at hx'; cases hx'; exact not_lt.1 hc

theorem setElTg_spec {nEls nGroups : Nat} {is ts : List Rat} (hl : is.length = nGroups + 1) (ht : ts.length = nEls) :
    ∃ out, setElTg nEls nGroups is ts = some out ∧ out.length = nEls ∧
      ∀ (el : Nat) (t : Rat), ts[el]? = some t → ∃ r, findTg nGroups is t = some r ∧ out[el]? = some r := by
  obtain ⟨out, h, h1, h2, h3⟩ := forN_inv (n := nEls) (s := List.replicate nEls none)
    (body := fun el (out : List (Option Nat)) => do
      let ts ← rd ts el
      let r ← findTg nGroups is ts
      if r.isSome then wr out el r else return out)
    (fun i (out : List (Option Nat)) => out.length = nEls ∧
      (∀ (el : Nat) (t : Rat), el < i → ts[el]? = some t → ∃ r, findTg nGroups is t = some r ∧ out[el]? = some r) ∧
      (∀ el : Nat, i ≤ el → el < nEls → out[el]? = some none))
    ⟨by simp, fun el t h => by omega, fun el _ h => by simp [h]⟩
    (by
      rintro i out hi ⟨h1, h2, h3⟩
      have hti : i < ts.length := by omega
      have htx := List.getElem?_eq_getElem hti
      obtain ⟨r, hr, _⟩ := findTg_spec hl ts[i]
      cases r with
      | none =>
        refine ⟨out, by simp [rd, htx, hr], h1, fun el t he hte => ?_, fun el h4 h5 => h3 el (by omega) h5⟩
        by_cases hei : el < i
        · exact h2 el t hei hte
        · have : el = i := by omega
          subst this
          rw [htx] at hte; cases hte
          exact ⟨none, hr, h3 el (by omega) hi⟩
      | some k =>
        refine ⟨out.set i (some k), by simp [rd, htx, hr, wr, h1, hi], by simp [h1], fun el t he hte => ?_,
          fun el h4 h5 => ?_⟩
        · by_cases hei : el < i
          · obtain ⟨r', e1, e2⟩ := h2 el t hei hte
            exact ⟨r', e1, by rw [List.getElem?_set_ne (by omega)]; exact e2⟩
          · have : el = i := by omega
            subst this
            rw [htx] at hte; cases hte
            exact ⟨some k, hr, by simp [h1, hi]⟩
        · rw [List.getElem?_set_ne (by omega)]; exact h3 el (by omega) h5)
  refine ⟨out, h, h1, fun el t he => ?_⟩
  exact h2 el t (by have := (List.getElem?_eq_some_iff.1 he).1; omega) he

theorem intervals_spec {rates : List Rat} {funDt big : Rat} :
    (∀ r ∈ rates, 1 < r ∧ r ≤ 2) → 0 < funDt → funDt ≤ 1 →
    ∃ is, intervals rates funDt big = some is ∧ IsIntervals rates funDt big is := by
  intro hr h0 h1
  obtain ⟨_, hchk, -⟩ := forN_inv (n := rates.length) (s := ()) (body := fun ra (_ : Unit) => do
      let r ← rd rates ra
      check (decide (r > 1))
      check (decide (r ≤ 2))) (fun _ (_ : Unit) => True) trivial
    (by
      rintro i _ hi -
      obtain ⟨a, b⟩ := hr rates[i] (List.getElem_mem hi)
      exact ⟨(), by simp [rd, List.getElem?_eq_getElem hi, a, b], trivial⟩)
  obtain ⟨is, hf, h2, h3, h4, h5⟩ := forN_inv (n := rates.length)
    (s := ((List.replicate (rates.length + 2) 0).set 0 funDt).set (rates.length + 1) big)
    (body := fun ra (is : List Rat) => do
      let a ← rd is ra
      let r ← rd rates ra
      wr is (ra + 1) (a * r))
    (fun i (is : List Rat) => is.length = rates.length + 2 ∧ is[0]? = some funDt ∧ is[rates.length + 1]? = some big ∧
      (∀ (j : Nat) (a r : Rat), j < i → rates[j]? = some r → is[j]? = some a → is[j + 1]? = some (a * r)))
    ⟨by simp, by simp, by simp, fun j a r h => by omega⟩
    (by
      rintro i is hi ⟨h2, h3, h4, h5⟩
      have hii : i < is.length := by omega
      refine ⟨is.set (i + 1) (is[i] * rates[i]), ?_, by simp [h2], ?_, ?_, ?_⟩
      · simp [rd, List.getElem?_eq_getElem hii, List.getElem?_eq_getElem hi, wr, h2, show i < rates.length + 1 by omega]
      · rw [List.getElem?_set_ne (by omega)]; exact h3
      · rw [List.getElem?_set_ne (by omega)]; exact h4
      · intro j a r hj hrj haj
        rw [List.getElem?_set_ne (by omega)] at haj
        by_cases hji : j < i
        · rw [List.getElem?_set_ne (by omega)]; exact h5 j a r hji hrj haj
        · have : j = i := by omega
          subst this
          rw [List.getElem?_eq_getElem hi] at hrj; cases hrj
          rw [List.getElem?_eq_getElem hii] at haj; cases haj
          exact List.getElem?_set_self (by omega))
  refine ⟨is, ?_, h2, h3, h4, fun j a r hj => h5 j a r (List.getElem?_eq_some_iff.1 hj).1 hj⟩
  simp only [intervals, Option.bind_eq_bind]
  rw [show (forN rates.length (fun ra (_ : Unit) => (rd rates ra).bind fun r =>
    (check (decide (r > 1))).bind fun _ => check (decide (r ≤ 2))) ()) = some () from hchk]
  simp [h0, h1, wr]
  exact hf

/-- The checks of the constructor are needed: whenever intervals are computed they hold. -/
theorem intervals_checks {rates : List Rat} {funDt big : Rat} {is : List Rat}
    (h : intervals rates funDt big = some is) : (∀ r ∈ rates, 1 < r ∧ r ≤ 2) ∧ 0 < funDt ∧ funDt ≤ 1 := by
  simp only [intervals, Option.bind_eq_bind, Option.bind_eq_some_iff] at h
  obtain ⟨u, hu, _, h0, _, h1, _⟩ := h
  rw [check_some] at h0 h1
  refine ⟨fun r hr => ?_, by simpa using h0, by simpa using h1⟩
  obtain ⟨i, hi, rfl⟩ := List.getElem_of_mem hr
  have := forN_post (n := rates.length) (s := ()) (t := u) (body := fun ra (_ : Unit) => (rd rates ra).bind fun r =>
    (check (decide (r > 1))).bind fun _ => check (decide (r ≤ 2)))
    (fun k (_ : Unit) => ∀ (j : Nat) (hj : j < rates.length), j < k → 1 < rates[j] ∧ rates[j] ≤ 2)
    (fun j _ h => by omega)
    (fun k _ _ hk ih hb j hj hjk => by
      by_cases hjk' : j < k
      · exact ih j hj hjk'
      · have : j = k := by omega
        subst this
        simp only [Option.bind_eq_some_iff] at hb
        obtain ⟨r, hr, _, c1, c2⟩ := hb
        rw [rd_some hj] at hr; cases hr
        rw [check_some] at c1 c2
        exact ⟨by simpa using c1, by simpa using c2⟩) hu
  exact this i hi hi

/-- The intervals up to the last group are positive and increase. -/
theorem intervals_mono {rates : List Rat} {funDt big : Rat} {is : List Rat} (hr : ∀ r ∈ rates, 1 < r ∧ r ≤ 2)
    (h0 : 0 < funDt) (hI : IsIntervals rates funDt big is) :
    ∀ (k : Nat) (x : Rat), k ≤ rates.length → is[k]? = some x → funDt ≤ x ∧
      ∀ (j : Nat) (y : Rat), j ≤ k → is[j]? = some y → y ≤ x := by
  intro k
  induction k with
  | zero =>
    intro x _ hx
    rw [hI.2.1] at hx; cases hx
    refine ⟨le_refl _, fun j y hj hy => ?_⟩
    have : j = 0 := by omega
    subst this
    rw [hI.2.1] at hy; cases hy; exact le_refl _
  | succ k ih =>
    intro x hk hx
    have hk' : k < is.length := by rw [hI.1]; omega
    have hkr : k < rates.length := by omega
    have e := List.getElem?_eq_getElem hk'
    have er := List.getElem?_eq_getElem hkr
    obtain ⟨a1, a2⟩ := ih _ (by omega) e
    have hx' := hI.2.2.2 k _ _ er e
    rw [hx] at hx'; simp at hx'
    obtain ⟨r1, r2⟩ := hr rates[k] (List.getElem_mem hkr)
    have hle : is[k] ≤ x := by rw [hx']; nlinarith
    refine ⟨le_trans a1 hle, fun j y hj hy => ?_⟩
    by_cases hjk : j = k + 1
    · subst hjk; rw [hx] at hy; cases hy; exact le_refl _
    · exact le_trans (a2 j y (by omega) hy) hle

theorem mapM_id_some {l : List (Option Nat)} {out : List Nat} (h : l.mapM id = some out) :
    out.length = l.length ∧ ∀ (i a : Nat), out[i]? = some a ↔ l[i]? = some (some a) := by
  induction l generalizing out with
  | nil => simp at h; subst h; simp
  | cons o l ih =>
    simp only [List.mapM_cons, id, Option.bind_eq_bind, Option.bind_eq_some_iff] at h
    obtain ⟨a, ha, t, ht, he⟩ := h
    simp at he; subst he
    obtain ⟨h1, h2⟩ := ih ht
    refine ⟨by simp [h1], fun i b => ?_⟩
    cases i with
    | zero => simp [ha]
    | succ i => simpa using h2 i b

theorem mapM_id_total {l : List (Option Nat)} (h : ∀ o ∈ l, o ≠ none) : ∃ out, l.mapM id = some out := by
  induction l with
  | nil => exact ⟨[], rfl⟩
  | cons o l ih =>
    obtain ⟨t, ht⟩ := ih (fun o' ho => h o' (by simp [ho]))
    cases o with
    | none => exact absurd rfl (h none (by simp))
    | some a => exact ⟨a :: t, by simp [ht]⟩

/-- C29 (before normalisation): an element whose time step is at least the fundamental one, and below the largest
double, is put into the one group `k` whose step does not exceed it while the step of the next group does. -/
theorem C29_initial {rates : List Rat} {funDt big : Rat} {is ts : List Rat} {nEls : Nat} (ht : ts.length = nEls)
    (h : intervals rates funDt big = some is)
    (hts : ∀ t ∈ ts, funDt ≤ t ∧ t < big) :
    ∃ out, setElTg nEls (rates.length + 1) is ts = some out ∧ out.length = nEls ∧
      ∀ (el : Nat) (t : Rat), ts[el]? = some t → ∃ (k : Nat) (lo hi : Rat), out[el]? = some (some k) ∧
        k ≤ rates.length ∧ is[k]? = some lo ∧ is[k + 1]? = some hi ∧ lo ≤ t ∧ t < hi := by
  obtain ⟨hr, h0, h1⟩ := intervals_checks h
  obtain ⟨is', his', hI⟩ := intervals_spec (big := big) hr h0 h1
  rw [h] at his'; cases his'
  obtain ⟨out, ho, hlen, hf⟩ := setElTg_spec (nEls := nEls) (nGroups := rates.length + 1) (is := is) (ts := ts)
    (by rw [hI.1]) ht
  refine ⟨out, ho, hlen, fun el t het => ?_⟩
  obtain ⟨r, hr1, hr2⟩ := hf el t het
  obtain ⟨r', hr1', hs, hn⟩ := findTg_spec (nGroups := rates.length + 1) (is := is) (by rw [hI.1]) t
  rw [hr1] at hr1'; cases hr1'
  have htb := hts t (List.mem_of_getElem? het)
  cases r with
  | none =>
    have := hn rfl rates.length big (by omega) hI.2.2.1
    exact absurd (lt_of_lt_of_le htb.2 this) (lt_irrefl _)
  | some k =>
    obtain ⟨a, b, c⟩ := hs k rfl
    have hk : k < is.length := by rw [hI.1]; omega
    have hk' : k + 1 < is.length := by rw [hI.1]; omega
    refine ⟨k, is[k], is[k + 1], hr2, by omega, List.getElem?_eq_getElem hk, List.getElem?_eq_getElem hk', ?_,
      b _ (List.getElem?_eq_getElem hk')⟩
    cases k with
    | zero =>
      have : is[0] = funDt := by
        have := hI.2.1; rw [List.getElem?_eq_getElem hk] at this; simpa using this
      rw [this]; exact htb.1
    | succ k => exact c k _ (by omega) (List.getElem?_eq_getElem hk)

/-- C29: the step of the group an element finally belongs to does not exceed the time step of the element, provided
every element's step is at least the fundamental one and below the largest double. -/
theorem C29_stable {nElFas nEls : Nat} {elFaEl : List (Option Nat)} {rates : List Rat} {funDt big : Rat}
    {ts : List Rat} {fuel : Nat} {g : Groups} (hA : AdOk elFaEl nElFas nEls) (ht : ts.length = nEls)
    (hts : ∀ t ∈ ts, funDt ≤ t ∧ t < big) (h : mkGroups nElFas nEls elFaEl rates funDt big ts fuel = some g) :
    g.elTg.length = nEls ∧ ∀ (el : Nat) (t : Rat), ts[el]? = some t →
      ∃ (k : Nat) (dt : Rat), g.elTg[el]? = some k ∧ k < rates.length + 1 ∧ g.intervals[k]? = some dt ∧ dt ≤ t := by
  simp only [mkGroups, Option.bind_eq_bind, Option.bind_eq_some_iff] at h
  obtain ⟨is, his, tg0, htg0, l, hl, _, _, ⟨out, n⟩, hn, _, _, _, _, hg⟩ := h
  simp at hg; subst hg
  obtain ⟨hr, h0, h1⟩ := intervals_checks his
  obtain ⟨is', his', hI⟩ := intervals_spec (big := big) hr h0 h1
  rw [his] at his'; cases his'
  obtain ⟨o, ho, holen, hcl⟩ := C29_initial ht his hts
  rw [htg0] at ho; cases ho
  obtain ⟨m1, m2⟩ := mapM_id_some hl
  have hll : l.length = nEls := by rw [m1, holen]
  obtain ⟨_, hb, _⟩ := C30_largest hA hll hn
  refine ⟨by rw [hb.1, hll], fun el t het => ?_⟩
  obtain ⟨k, lo, hi, c1, c2, c3, _, c5, _⟩ := hcl el t het
  obtain ⟨k', d1, d2⟩ := below_get hb ((m2 el k).2 c1)
  have hk' : k' < is.length := by rw [hI.1]; omega
  refine ⟨k', is[k'], d1, by omega, List.getElem?_eq_getElem hk', ?_⟩
  exact le_trans ((intervals_mono hr h0 hI k lo c2 c3).2 k' _ d2 (List.getElem?_eq_getElem hk')) c5

/-! ## C31 -/

/-- Number of elements `el` in `[first, first+n)` with `elTg[el] = g`. -/
def cntTg (elTg : List Nat) (first n g : Nat) : Nat :=
  ((List.range n).filter (fun i => decide (elTg[first + i]? = some g))).length

theorem cntTg_succ (elTg : List Nat) (first n g : Nat) :
    cntTg elTg first (n + 1) g = cntTg elTg first n g + if elTg[first + n]? = some g then 1 else 0 := by
  simp only [cntTg, List.range_succ, List.filter_append, List.length_append]
  by_cases h : elTg[first + n]? = some g <;> simp [h]

theorem sum_set_succ : ∀ (l : List Nat) (i x : Nat), l[i]? = some x → (l.set i (x + 1)).sum = l.sum + 1
  | [], i, x, h => by simp at h
  | a :: l, 0, x, h => by simp at h; simp; omega
  | a :: l, i + 1, x, h => by
      simp at h
      have := sum_set_succ l i x h
      simp; omega

/-- C31: for every assignment to existing groups, the histogram of a range of elements reports for each group the
number of elements of the range in it, and the reported numbers add up to the size of the range. -/
theorem C31_sizes {first nEls nGroups : Nat} {elTg : List Nat} (hl : first + nEls ≤ elTg.length)
    (hg : ∀ g ∈ elTg, g < nGroups) :
    ∃ out, nGroupEls first nEls nGroups elTg = some out ∧ out.length = nGroups ∧
      (∀ g, g < nGroups → out[g]? = some (cntTg elTg first nEls g)) ∧ out.sum = nEls := by
  refine forN_inv (n := nEls) (s := List.replicate nGroups 0) (body := fun i (out : List Nat) => do
    let tg ← rd elTg (first + i)
    let n ← rd out tg
    wr out tg (n + 1))
    (fun i (out : List Nat) => out.length = nGroups ∧
      (∀ g, g < nGroups → out[g]? = some (cntTg elTg first i g)) ∧ out.sum = i)
    ⟨by simp, fun g h => by simp [h, cntTg], by simp⟩ ?_
  rintro i out hi ⟨h1, h2, h3⟩
  have hlt : first + i < elTg.length := by omega
  have he := List.getElem?_eq_getElem hlt
  have hgl : elTg[first + i] < nGroups := hg _ (List.getElem_mem hlt)
  have ho := h2 _ hgl
  refine ⟨out.set elTg[first + i] (cntTg elTg first i elTg[first + i] + 1), ?_, by simp [h1], fun g hg' => ?_, ?_⟩
  · simp only [Option.bind_eq_bind, rd, he, ho, Option.bind_some, wr, h1, hgl, if_true]
  · rw [cntTg_succ, he, List.getElem?_set]
    by_cases hc : elTg[first + i] = g
    · subst hc; simp [h1, hgl]
    · simp [hc, h2 g hg']
  · rw [sum_set_succ _ _ _ ho, h3]

/-- Hypotheses met: two groups, the range of elements 1 to 3. -/
example : nGroupEls 1 3 2 [1, 0, 1, 1, 0] = some [1, 2] ∧ cntTg [1, 0, 1, 1, 0] 1 3 1 = 2 := by decide

/-! ## The constructor as a whole, and the loads -/

theorem getLoads_spec {nEls : Nat} {ts is : List Rat} {tg : List Nat} (ht : ts.length = nEls) (hg : tg.length = nEls)
    (hp : ∀ t ∈ ts, 0 < t) (hi : ∀ k ∈ tg, ∃ x, is[k]? = some x ∧ 0 < x) :
    ∃ l, getLoads nEls ts is tg = some l ∧ l.1 = nEls ∧
      l.2.1 = ((List.range nEls).map (fun el => match tg[el]? with
        | some k => (match is[k]? with | some x => 1 / x | none => 0) | none => 0)).sum ∧
      l.2.2 = ((List.range nEls).map (fun el => match ts[el]? with | some t => 1 / t | none => 0)).sum := by
  refine forN_inv (n := nEls) (s := ((nEls : Rat), 0, 0)) (body := fun el (s : Rat × Rat × Rat) => do
    let tg ← rd tg el
    let g ← rd is tg
    let t ← rd ts el
    check (decide (g ≠ 0))
    check (decide (t ≠ 0))
    return (s.1, s.2.1 + 1 / g, s.2.2 + 1 / t))
    (fun i (l : Rat × Rat × Rat) => l.1 = nEls ∧
      l.2.1 = ((List.range i).map (fun el => match tg[el]? with
        | some k => (match is[k]? with | some x => 1 / x | none => 0) | none => 0)).sum ∧
      l.2.2 = ((List.range i).map (fun el => match ts[el]? with | some t => 1 / t | none => 0)).sum)
    ⟨rfl, by simp, by simp⟩ ?_
  rintro i ⟨a, b, c⟩ hi' ⟨h1, h2, h3⟩
  simp only at h1 h2 h3
  have l1 : i < tg.length := by omega
  have l2 : i < ts.length := by omega
  obtain ⟨x, hx, hx0⟩ := hi tg[i] (List.getElem_mem l1)
  have ht0 := hp ts[i] (List.getElem_mem l2)
  refine ⟨(a, b + 1 / x, c + 1 / ts[i]), ?_, h1, ?_, ?_⟩
  · simp [rd, List.getElem?_eq_getElem l1, List.getElem?_eq_getElem l2, hx, ne_of_gt hx0, ne_of_gt ht0]
  · simp [List.range_succ, h2, List.getElem?_eq_getElem l1, hx]
  · simp [List.range_succ, h3, List.getElem?_eq_getElem l2]

theorem sum_le_of {n : Nat} {f g : Nat → Rat} (h : ∀ i, i < n → f i ≤ g i) :
    ((List.range n).map f).sum ≤ ((List.range n).map g).sum := by
  induction n with
  | zero => simp
  | succ n ih =>
    have := ih (fun i hi => h i (by omega))
    have := h n (by omega)
    simp [List.range_succ]; linarith

/-- C61: with all elements at or above the fundamental step, the constructor completes for every mesh (given enough
sweeps), the reported loads are those of the groups, and grouping never beats local time stepping per element,
normalisation never reduces the load, and no load exceeds that of stepping everything with the fundamental step. -/
theorem C61_loads {nElFas nEls : Nat} {elFaEl : List (Option Nat)} {rates : List Rat} {funDt big : Rat}
    {ts : List Rat} (hA : AdOk elFaEl nElFas nEls) (ht : ts.length = nEls)
    (hr : ∀ r ∈ rates, 1 < r ∧ r ≤ 2) (h0 : 0 < funDt) (h1 : funDt ≤ 1)
    (hts : ∀ t ∈ ts, funDt ≤ t ∧ t < big) :
    ∃ (N : Nat) (g : Groups), (∀ fuel, N ≤ fuel → mkGroups nElFas nEls elFaEl rates funDt big ts fuel = some g) ∧
      g.gts = nEls ∧ g.loadEl = (ts.map (1 / ·)).sum ∧
      (∃ dts : List Rat, dts.length = nEls ∧ (∀ el k : Nat, g.elTg[el]? = some k → dts[el]? = g.intervals[k]?) ∧
        g.loadNorm = (dts.map (1 / ·)).sum) ∧
      g.loadEl ≤ g.loadGroups ∧ g.loadGroups ≤ g.loadNorm ∧ g.loadNorm ≤ g.gts / funDt ∧
      g.nGroupEls.length = rates.length + 1 ∧ g.nGroupEls.sum = nEls ∧
      (∀ k, k < rates.length + 1 → g.nGroupEls[k]? = some (cntTg g.elTg 0 nEls k)) := by
  obtain ⟨is, his, hI⟩ := intervals_spec (big := big) hr h0 h1
  obtain ⟨o, ho, holen, hcl⟩ := C29_initial ht his hts
  have htp : ∀ t ∈ ts, 0 < t := fun t h => lt_of_lt_of_le h0 (hts t h).1
  obtain ⟨tg, hm⟩ := mapM_id_total (l := o) (by
    intro x hx hn
    obtain ⟨i, hi, rfl⟩ := List.getElem_of_mem hx
    have hi' : i < ts.length := by omega
    obtain ⟨k, _, _, hk, _⟩ := hcl i ts[i] (List.getElem?_eq_getElem hi')
    rw [List.getElem?_eq_getElem hi, hn] at hk; simp at hk)
  obtain ⟨m1, m2⟩ := mapM_id_some hm
  have htl : tg.length = nEls := by rw [m1, holen]
  obtain ⟨out, n, hN⟩ := C30_terminates hA tg htl
  have hout := hN (tg.sum + 1) (by omega)
  obtain ⟨_, hb, _⟩ := C30_largest hA htl hout
  have hol : out.length = nEls := by rw [hb.1, htl]
  -- groups of both assignments exist
  have hk0 : ∀ el, el < nEls → ∃ (t : Rat) (k k' : Nat) (lo lo' : Rat), ts[el]? = some t ∧ tg[el]? = some k ∧
      out[el]? = some k' ∧ is[k]? = some lo ∧ is[k']? = some lo' ∧ lo ≤ t ∧ lo' ≤ lo ∧ funDt ≤ lo' ∧
      k' ≤ rates.length ∧ k ≤ rates.length := by
    intro el hel
    have l2 : el < ts.length := by omega
    obtain ⟨k, lo, hi, c1, c2, c3, _, c5, _⟩ := hcl el ts[el] (List.getElem?_eq_getElem l2)
    have c1' := (m2 el k).2 c1
    obtain ⟨k', d1, d2⟩ := below_get hb c1'
    have hk' : k' < is.length := by rw [hI.1]; omega
    have e := List.getElem?_eq_getElem hk'
    exact ⟨ts[el], k, k', lo, is[k'], List.getElem?_eq_getElem l2, c1', d1, c3, e, c5,
      (intervals_mono hr h0 hI k lo c2 c3).2 k' _ d2 e, (intervals_mono hr h0 hI k' _ (by omega) e).1, by omega, c2⟩
  have hg0 : ∀ k ∈ tg, ∃ x, is[k]? = some x ∧ 0 < x := by
    intro k hk
    obtain ⟨i, hi, rfl⟩ := List.getElem_of_mem hk
    obtain ⟨t, k, k', lo, lo', _, b, _, d, _, _, f1, f2, _⟩ := hk0 i (by omega)
    rw [List.getElem?_eq_getElem hi] at b; cases b
    exact ⟨lo, d, by linarith⟩
  have hg1 : ∀ k ∈ out, (∃ x, is[k]? = some x ∧ 0 < x) ∧ k < rates.length + 1 := by
    intro k hk
    obtain ⟨i, hi, rfl⟩ := List.getElem_of_mem hk
    obtain ⟨t, k, k', lo, lo', _, _, b, _, d, _, f1, f2, f3, _⟩ := hk0 i (by omega)
    rw [List.getElem?_eq_getElem hi] at b; cases b
    exact ⟨⟨lo', d, by linarith⟩, by omega⟩
  obtain ⟨l0, hl0, a1, a2, a3⟩ := getLoads_spec ht htl htp hg0
  obtain ⟨l1, hl1, b1, b2, b3⟩ := getLoads_spec ht hol htp (fun k hk => (hg1 k hk).1)
  obtain ⟨ns, hns, n1, n2, n3⟩ := C31_sizes (first := 0) (nEls := nEls) (nGroups := rates.length + 1) (elTg := out)
    (by omega) (fun k hk => (hg1 k hk).2)
  refine ⟨tg.sum + 1, ⟨is, out, ns, l1.1, l0.2.1, l1.2.1, l1.2.2⟩, fun fuel hf => ?_, b1, ?_, ?_, ?_, ?_, ?_, n1, n3, n2⟩
  · simp [mkGroups, his, ho, hm, hl0, hN fuel (by omega), hns, hl1]
  · simp only [b3]
    congr 1
    apply List.ext_getElem (by simp [ht])
    intro i h1 h2
    simp at h1 h2
    simp [List.getElem?_eq_getElem h2]
  · refine ⟨(List.range nEls).map (fun el => match out[el]? with
        | some k => (match is[k]? with | some x => x | none => 0) | none => 0), by simp, fun el k hk => ?_, ?_⟩
    · simp only at hk ⊢
      have hel := (List.getElem?_eq_some_iff.1 hk).1
      rw [hol] at hel
      obtain ⟨t, k1, k', lo, lo', c1, c2, c3, c4, c5, _⟩ := hk0 el hel
      rw [hk] at c3; cases c3
      simp [hel, hk, c5]
    · simp only [b2, List.map_map]
      congr 1
      apply List.map_congr_left
      intro el hel
      obtain ⟨t, k, k', lo, lo', c1, c2, c3, c4, c5, _⟩ := hk0 el (by simpa using hel)
      simp [c3, c5]
  · simp only [b3, a2]
    apply sum_le_of
    intro el hel
    obtain ⟨t, k, k', lo, lo', c1, c2, c3, c4, c5, c6, c7, c8, _⟩ := hk0 el hel
    simp only [c1, c2, c4]
    exact one_div_le_one_div_of_le (by linarith) c6
  · simp only [b2, a2]
    apply sum_le_of
    intro el hel
    obtain ⟨t, k, k', lo, lo', c1, c2, c3, c4, c5, c6, c7, c8, _⟩ := hk0 el hel
    simp only [c2, c3, c4, c5]
    exact one_div_le_one_div_of_le (by linarith) c7
  · simp only [b1, b2]
    have : ∀ m : Nat, ((List.range m).map (fun _ => 1 / funDt)).sum = (m : Rat) / funDt := by
      intro m
      induction m with
      | zero => simp
      | succ m ih => simp [List.range_succ] at ih ⊢; rw [add_div, ← ih]; simp
    rw [← this]
    apply sum_le_of
    intro el hel
    obtain ⟨t, k, k', lo, lo', c1, c2, c3, c4, c5, c6, c7, c8, _⟩ := hk0 el hel
    simp only [c3, c5]
    exact one_div_le_one_div_of_le h0 c8

/-- Hypotheses met: three elements in a chain, two rates of 2. -/
example : (mkGroups 2 3 [none, some 1, some 0, some 2, some 1, none] [2, 2] 1 100 [9, 1, 3] 20).map
    (fun g => (g.elTg, g.intervals, g.nGroupEls)) = some ([1, 0, 1], [1, 2, 4, 100], [1, 2, 0]) := by decide +kernel

end Edge.EdgeV
