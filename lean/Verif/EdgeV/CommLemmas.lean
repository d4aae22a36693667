import Verif.EdgeV.CommModel
import Verif.EdgeV.Part
/-!
Communication structures of EDGE-V: lemmas on regions, time groups and messages.
-/
namespace Edge.EdgeV
open Edge

/-- A mesh: neighbours exist, and being a neighbour is mutual. -/
structure MeshOk (elFaEl : List (Option Nat)) (nElFas nEls : Nat) : Prop where
  ad : AdOk elFaEl nElFas nEls
  sym : ∀ el a, el < nEls → Nb elFaEl nElFas el a → Nb elFaEl nElFas a el

/-- Element behind a face. -/
def adOf (elFaEl : List (Option Nat)) (nElFas : Nat) (x : Nat × Nat) : Option Nat :=
  (elFaEl[x.1 * nElFas + x.2]?).join

/-- Partition and time group of the element behind a face. -/
def keyOf (elFaEl : List (Option Nat)) (nElFas : Nat) (elPa elTg : List Nat) (x : Nat × Nat) : Option (Nat × Nat) :=
  (adOf elFaEl nElFas x).bind fun ad => (elPa[ad]?).bind fun p => (elTg[ad]?).bind fun t => some (p, t)

/-- Partition and time group behind a face, if the partition differs from `pa`. -/
def cutOf (elFaEl : List (Option Nat)) (nElFas : Nat) (elPa elTg : List Nat) (pa : Nat) (x : Nat × Nat) :
    Option (Nat × Nat) :=
  (keyOf elFaEl nElFas elPa elTg x).bind fun k => if k.1 = pa then none else some k

/-- Element-face pairs of the elements `[first, first+size)` in order. -/
def regPairs (first size nElFas : Nat) : List (Nat × Nat) := (pairs size nElFas).map (fun x => (first + x.1, x.2))

theorem mem_regPairs {first size nElFas : Nat} {x : Nat × Nat} :
    x ∈ regPairs first size nElFas ↔ first ≤ x.1 ∧ x.1 < first + size ∧ x.2 < nElFas := by
  simp only [regPairs, List.mem_map, mem_pairs]
  constructor
  · rintro ⟨y, ⟨h1, h2⟩, rfl⟩; exact ⟨by simp, by simp; omega, h2⟩
  · rintro ⟨h1, h2, h3⟩; exact ⟨(x.1 - first, x.2), ⟨by simp; omega, h3⟩, by ext <;> simp; omega⟩

theorem forN_reg {σ : Type _} (first size m : Nat) (body : Nat → Nat → σ → Option σ) (s : σ) :
    forN size (fun i s => forN m (fun j s => body (first + i) j s) s) s
      = (regPairs first size m).foldlM (fun s p => body p.1 p.2 s) s := by
  rw [forN_pairs size m (fun i j s => body (first + i) j s), regPairs, foldlM_map']

theorem adOf_some {elFaEl : List (Option Nat)} {nElFas nEls : Nat} (hA : AdOk elFaEl nElFas nEls) {x : Nat × Nat}
    (h1 : x.1 < nEls) (h2 : x.2 < nElFas) :
    elFaEl[x.1 * nElFas + x.2]? = some (adOf elFaEl nElFas x) ∧
      ∀ ad, adOf elFaEl nElFas x = some ad → ad < nEls ∧ Nb elFaEl nElFas x.1 ad := by
  obtain ⟨o, ho, hb⟩ := hA x.1 x.2 h1 h2
  have e : adOf elFaEl nElFas x = o := by simp [adOf, ho]
  rw [e]
  exact ⟨ho, fun ad h => ⟨hb ad h, x.2, h2, by rw [ho, h]⟩⟩

/-! ### Pairs -/

theorem pairLt_iff {a b : Nat × Nat} : pairLt a b = true ↔ a.1 < b.1 ∨ (a.1 = b.1 ∧ a.2 < b.2) := by
  simp [pairLt]

theorem pairLt_trans {a b c : Nat × Nat} (h : pairLt a b = true) (h' : pairLt b c = true) : pairLt a c = true := by
  rw [pairLt_iff] at *; omega

theorem mem_setInsert {x y : Nat × Nat} {l : List (Nat × Nat)} : y ∈ setInsert x l ↔ y = x ∨ y ∈ l := by
  induction l with
  | nil => simp [setInsert]
  | cons z l ih =>
    simp only [setInsert]
    split
    · simp
    · split
      · rename_i h; subst h; simp
      · simp only [List.mem_cons, ih]
        constructor
        · rintro (h | h | h) <;> simp [h]
        · rintro (h | h | h) <;> simp [h]

theorem setInsert_sorted {x : Nat × Nat} {l : List (Nat × Nat)} (h : l.Pairwise (fun a b => pairLt a b = true)) :
    (setInsert x l).Pairwise (fun a b => pairLt a b = true) := by
  induction l with
  | nil => simp [setInsert]
  | cons z l ih =>
    rw [List.pairwise_cons] at h
    simp only [setInsert]
    split
    · rename_i hx
      rw [List.pairwise_cons]
      refine ⟨fun y hy => ?_, List.pairwise_cons.2 h⟩
      rcases List.mem_cons.1 hy with rfl | hy
      · exact hx
      · exact pairLt_trans hx (h.1 y hy)
    · split
      · exact List.pairwise_cons.2 h
      · rename_i hx hxz
        rw [List.pairwise_cons]
        refine ⟨fun y hy => ?_, ih h.2⟩
        rcases mem_setInsert.1 hy with rfl | hy
        · have h1 := mt pairLt_iff.2 hx
          rw [pairLt_iff]
          have : y.1 ≠ z.1 ∨ y.2 ≠ z.2 := by
            by_cases h1 : y.1 = z.1
            · right; intro h2; exact hxz (Prod.ext h1 h2)
            · exact Or.inl h1
          omega
        · exact h.1 y hy

theorem getPaTgPairs_spec {elFaEl : List (Option Nat)} {nElFas nEls : Nat} (hA : AdOk elFaEl nElFas nEls)
    {elPa elTg : List Nat} (hp : elPa.length = nEls) (ht : elTg.length = nEls) {first size pa tg : Nat}
    (hs : 0 < size) (hle : first + size ≤ nEls)
    (hreg : ∀ el, first ≤ el → el < first + size → elPa[el]? = some pa ∧ elTg[el]? = some tg) :
    ∃ ps, getPaTgPairs nElFas first size elFaEl elPa elTg = some ps ∧ ps.Pairwise (fun a b => pairLt a b = true) ∧
      ∀ k, k ∈ ps ↔ ∃ x ∈ regPairs first size nElFas, cutOf elFaEl nElFas elPa elTg pa x = some k := by
  obtain ⟨t, h1, h2, h3⟩ := foldlM_inv (l := regPairs first size nElFas)
    (f := fun s (p : Nat × Nat) => paTgFace nElFas elFaEl elPa elTg pa p.1 p.2 s) (s := [])
    (fun pre (s : List (Nat × Nat)) => s.Pairwise (fun a b => pairLt a b = true) ∧
      ∀ k, k ∈ s ↔ ∃ x ∈ pre, cutOf elFaEl nElFas elPa elTg pa x = some k)
    ⟨List.Pairwise.nil, by simp⟩
    (by
      rintro pre x post s hl ⟨h1, h2⟩
      have hx : x ∈ regPairs first size nElFas := by rw [hl]; simp
      rw [mem_regPairs] at hx
      obtain ⟨e1, e2⟩ := adOf_some hA (x := x) (by omega) hx.2.2
      cases ha : adOf elFaEl nElFas x with
      | none =>
        refine ⟨s, by simp [paTgFace, rd, e1, ha], h1, fun k => ?_⟩
        rw [h2]
        have : cutOf elFaEl nElFas elPa elTg pa x = none := by simp [cutOf, keyOf, ha]
        simp [this]
      | some ad =>
        obtain ⟨hlt, _⟩ := e2 ad ha
        have g1 := List.getElem?_eq_getElem (show ad < elPa.length by omega)
        have g2 := List.getElem?_eq_getElem (show ad < elTg.length by omega)
        by_cases hne : pa = elPa[ad]
        · refine ⟨s, by simp [paTgFace, rd, e1, ha, g1, g2, hne], h1, fun k => ?_⟩
          rw [h2]
          have : cutOf elFaEl nElFas elPa elTg pa x = none := by simp [cutOf, keyOf, ha, g1, g2, hne]
          simp [this]
        · refine ⟨setInsert (elPa[ad], elTg[ad]) s, by simp [paTgFace, rd, e1, ha, g1, g2, hne], setInsert_sorted h1,
            fun k => ?_⟩
          have hne' : elPa[ad] ≠ pa := fun h => hne h.symm
          have : cutOf elFaEl nElFas elPa elTg pa x = some (elPa[ad], elTg[ad]) := by
            simp [cutOf, keyOf, ha, g1, g2, hne']
          rw [mem_setInsert, h2]
          simp only [List.mem_append, List.mem_singleton]
          constructor
          · rintro (rfl | ⟨y, hy, hk⟩)
            · exact ⟨x, Or.inr rfl, this⟩
            · exact ⟨y, Or.inl hy, hk⟩
          · rintro ⟨y, hy | rfl, hk⟩
            · exact Or.inr ⟨y, hy, hk⟩
            · rw [this] at hk; exact Or.inl (Option.some.inj hk).symm)
  refine ⟨t, ?_, h2, h3⟩
  have hf := hreg first (Nat.le_refl _) (by omega)
  simp only [getPaTgPairs, rd, hf.1, hf.2, Option.bind_eq_bind, Option.bind_some, hs, decide_true, check_true]
  rw [← h1, ← forN_reg first size nElFas (fun i j s => paTgFace nElFas elFaEl elPa elTg pa i j s)]
  apply forN_congr
  intro i s hi
  have hf := hreg (first + i) (by omega) (by omega)
  simp [hf.1, hf.2]

/-! ### Messages -/

/-- The face of the neighbour through which the element of `x` is reached, as the search returns it. -/
def backOf (elFaEl : List (Option Nat)) (nElFas : Nat) (x : Nat × Nat) : Option Nat :=
  (adOf elFaEl nElFas x).bind fun ad => (faceAd nElFas elFaEl x.1 ad).join

theorem faceAd_spec {elFaEl : List (Option Nat)} {nElFas nEls : Nat} (hA : AdOk elFaEl nElFas nEls) {el ad : Nat}
    (hel : ad < nEls) :
    ∃ r, faceAd nElFas elFaEl el ad = some r ∧
      (∀ f, r = some f → f < nElFas ∧ elFaEl[ad * nElFas + f]? = some (some el)) ∧
      (r = none → ¬ Nb elFaEl nElFas ad el) := by
  obtain ⟨r, hr, h1, h2⟩ := forN_inv (n := nElFas) (s := (none : Option Nat)) (body := fun fa (r : Option Nat) => do
    let o ← rd elFaEl (ad * nElFas + fa)
    if o = some el then return some fa else return r)
    (fun i (r : Option Nat) => (∀ f, r = some f → f < i ∧ elFaEl[ad * nElFas + f]? = some (some el)) ∧
      (r = none → ∀ f : Nat, f < i → elFaEl[ad * nElFas + f]? ≠ some (some el)))
    ⟨by simp, fun _ f h => by omega⟩
    (by
      rintro i r hi ⟨h1, h2⟩
      obtain ⟨o, ho, _⟩ := hA ad i hel hi
      by_cases hc : o = some el
      · refine ⟨some i, by simp [rd, ho, hc], fun f hf => ?_, by simp⟩
        cases hf; exact ⟨by omega, by rw [ho, hc]⟩
      · refine ⟨r, by simp [rd, ho, hc], fun f hf => ⟨by have := (h1 f hf).1; omega, (h1 f hf).2⟩, fun hn f hf => ?_⟩
        by_cases hfi : f = i
        · subst hfi; rw [ho]; simpa using hc
        · exact h2 hn f (by omega))
  refine ⟨r, hr, h1, fun hn => ?_⟩
  rintro ⟨f, hf, he⟩
  exact h2 hn f hf he

/-- Message with given entries. -/
def mkMsg (elFaEl : List (Option Nat)) (nElFas : Nat) (k : Nat × Nat) (E : List (Nat × Nat)) : Message :=
  { pa := k.1, tg := k.2, el := E.map (·.1), fa := E.map (·.2), elAd := E.map (fun x => (adOf elFaEl nElFas x).getD 0),
    faAd := E.map (fun x => (backOf elFaEl nElFas x).getD 0) }

theorem insertMsg_spec {elFaEl : List (Option Nat)} {nElFas : Nat} {x : Nat × Nat} {k : Nat × Nat} {ad f : Nat}
    (h1 : elFaEl[x.1 * nElFas + x.2]? = some (some ad)) (h2 : faceAd nElFas elFaEl x.1 ad = some (some f))
    (E : Nat × Nat → List (Nat × Nat)) :
    ∀ (ps : List (Nat × Nat)), ps.Pairwise (fun a b => pairLt a b = true) → k ∈ ps →
      insertMsg nElFas elFaEl x.1 x.2 k.1 k.2 (ps.map (fun p => mkMsg elFaEl nElFas p (E p)))
        = some (ps.map (fun p => mkMsg elFaEl nElFas p (if p = k then E p ++ [x] else E p)))
  | [], _, hk => by simp at hk
  | p :: ps, hs, hk => by
      rw [List.pairwise_cons] at hs
      have ha : adOf elFaEl nElFas x = some ad := by simp [adOf, h1]
      have hb : backOf elFaEl nElFas x = some f := by simp [backOf, ha, h2]
      by_cases hpk : p = k
      · subst hpk
        have hrest : ∀ q ∈ ps, q ≠ p := by
          intro q hq e
          have := hs.1 q hq
          rw [e, pairLt_iff] at this; omega
        have : ps.map (fun q => mkMsg elFaEl nElFas q (if q = p then E q ++ [x] else E q))
            = ps.map (fun q => mkMsg elFaEl nElFas q (E q)) := by
          apply List.map_congr_left
          intro q hq
          simp [hrest q hq]
        simp only [List.map_cons, this, insertMsg]
        simp [mkMsg, rd, h1, h2, ha, hb]
      · have hk' : k ∈ ps := by rcases List.mem_cons.1 hk with h | h; exact absurd h.symm hpk; exact h
        have ih := insertMsg_spec h1 h2 E ps hs.2 hk'
        have hne : ¬ ((mkMsg elFaEl nElFas p (E p)).pa = k.1 ∧ (mkMsg elFaEl nElFas p (E p)).tg = k.2) := by
          rintro ⟨a, b⟩; exact hpk (Prod.ext a b)
        have hnil : ps ≠ [] := by rintro rfl; simp at hk'
        simp only [List.map_cons, insertMsg, hne, if_false, ih]
        simp [hnil, hpk]

theorem getMsgsSend_spec {elFaEl : List (Option Nat)} {nElFas nEls : Nat} (hM : MeshOk elFaEl nElFas nEls)
    {elPa elTg : List Nat} (hp : elPa.length = nEls) (ht : elTg.length = nEls) {first size pa tg : Nat}
    (hs : 0 < size) (hle : first + size ≤ nEls)
    (hreg : ∀ el, first ≤ el → el < first + size → elPa[el]? = some pa ∧ elTg[el]? = some tg) :
    ∃ ps : List (Nat × Nat), ps.Pairwise (fun a b => pairLt a b = true) ∧
      (∀ k, k ∈ ps ↔ ∃ x ∈ regPairs first size nElFas, cutOf elFaEl nElFas elPa elTg pa x = some k) ∧
      getMsgsSend nElFas first size elFaEl elPa elTg = some (ps.map (fun p => mkMsg elFaEl nElFas p
        ((regPairs first size nElFas).filter (fun x => decide (cutOf elFaEl nElFas elPa elTg pa x = some p))))) := by
  obtain ⟨ps, hps, h1, h2⟩ := getPaTgPairs_spec hM.ad hp ht hs hle hreg
  refine ⟨ps, h1, h2, ?_⟩
  obtain ⟨t, k1, k2⟩ := foldlM_inv (l := regPairs first size nElFas)
    (f := fun s (p : Nat × Nat) => msgFace nElFas elFaEl elPa elTg pa p.1 p.2 s)
    (s := ps.map (fun p => mkMsg elFaEl nElFas p []))
    (fun pre (s : List Message) => s = ps.map (fun p => mkMsg elFaEl nElFas p
        (pre.filter (fun x => decide (cutOf elFaEl nElFas elPa elTg pa x = some p)))))
    (by simp)
    (by
      rintro pre x post s hl rfl
      have hx : x ∈ regPairs first size nElFas := by rw [hl]; simp
      have hx' := hx
      rw [mem_regPairs] at hx
      obtain ⟨e1, e2⟩ := adOf_some hM.ad (x := x) (by omega) hx.2.2
      have hskip : cutOf elFaEl nElFas elPa elTg pa x = none →
          ps.map (fun p => mkMsg elFaEl nElFas p
            ((pre ++ [x]).filter (fun x => decide (cutOf elFaEl nElFas elPa elTg pa x = some p))))
          = ps.map (fun p => mkMsg elFaEl nElFas p
            (pre.filter (fun x => decide (cutOf elFaEl nElFas elPa elTg pa x = some p)))) := by
        intro h
        apply List.map_congr_left
        intro p _
        simp [List.filter_append, h]
      cases ha : adOf elFaEl nElFas x with
      | none =>
        refine ⟨_, by simp [msgFace, rd, e1, ha], (hskip (by simp [cutOf, keyOf, ha])).symm⟩
      | some ad =>
        obtain ⟨hlt, hnb⟩ := e2 ad ha
        have g1 := List.getElem?_eq_getElem (show ad < elPa.length by omega)
        have g2 := List.getElem?_eq_getElem (show ad < elTg.length by omega)
        by_cases hne : elPa[ad] = pa
        · refine ⟨_, by simp [msgFace, rd, e1, ha, g1, g2, hne],
            (hskip (by simp [cutOf, keyOf, ha, g1, g2, hne])).symm⟩
        · have hc : cutOf elFaEl nElFas elPa elTg pa x = some (elPa[ad], elTg[ad]) := by
            simp [cutOf, keyOf, ha, g1, g2, hne]
          obtain ⟨r, hr, hr1, hr2⟩ := faceAd_spec hM.ad (el := x.1) hlt
          have hback : Nb elFaEl nElFas ad x.1 := hM.sym x.1 ad (by omega) hnb
          cases r with
          | none => exact absurd hback (hr2 rfl)
          | some f =>
            have hins := insertMsg_spec (k := (elPa[ad], elTg[ad])) (by rw [e1, ha]) hr
              (fun p => pre.filter (fun x => decide (cutOf elFaEl nElFas elPa elTg pa x = some p))) ps h1
              ((h2 _).2 ⟨x, hx', hc⟩)
            refine ⟨_, by simp [msgFace, rd, e1, ha, g1, g2, hne]; exact hins, ?_⟩
            apply List.map_congr_left
            intro p _
            congr 1
            rw [List.filter_append]
            by_cases hpk : p = (elPa[ad], elTg[ad])
            · subst hpk; simp [hc]
            · have : ¬ (elPa[ad], elTg[ad]) = p := fun h => hpk h.symm
              simp [hc, hpk, this])
  have hf := hreg first (Nat.le_refl _) (by omega)
  simp only [getMsgsSend, hps, rd, hf.1, Option.bind_eq_bind, Option.bind_some]
  rw [← k2, ← k1, ← forN_reg first size nElFas (fun i j s => msgFace nElFas elFaEl elPa elTg pa i j s)]
  rfl

/-! ### Time groups of a region -/

theorem incLast_append (l : List (Nat × Nat × Nat)) (r : Nat × Nat × Nat) :
    incLast (l ++ [r]) = some (l ++ [(r.1, r.2.1, r.2.2 + 1)]) := by
  induction l with
  | nil => rfl
  | cons a l ih =>
    cases l with
    | nil => rfl
    | cons b l => simp only [List.cons_append, incLast] at ih ⊢; rw [ih]; rfl

theorem getTgs_spec {elTg : List Nat} {first size : Nat} (hle : first + size ≤ elTg.length)
    (hmono : ∀ i j t u, first ≤ i → i < j → j < first + size → elTg[i]? = some t → elTg[j]? = some u → t ≤ u) :
    ∃ rs, getTgs first size elTg = some rs ∧ rs.Pairwise (fun a b => a.1 < b.1) ∧
      (∀ r ∈ rs, 0 < r.2.2 ∧ first ≤ r.2.1 ∧ r.2.1 + r.2.2 ≤ first + size ∧
        ∀ el, first ≤ el → el < first + size → (elTg[el]? = some r.1 ↔ r.2.1 ≤ el ∧ el < r.2.1 + r.2.2)) ∧
      (∀ el, first ≤ el → el < first + size → ∃ r ∈ rs, elTg[el]? = some r.1) := by
  obtain ⟨t, ht, h1, h2, h3, _⟩ := forN_inv (n := size) (s := ((none, []) : Option Nat × List (Nat × Nat × Nat)))
    (body := fun i (s : Option Nat × List (Nat × Nat × Nat)) => do
    let tg ← rd elTg (first + i)
    if s.1 ≠ some tg then return (some tg, s.2 ++ [(tg, first + i, 1)])
    else do
      let l ← incLast s.2
      return (s.1, l))
    (fun i (s : Option Nat × List (Nat × Nat × Nat)) => s.2.Pairwise (fun a b => a.1 < b.1) ∧
      (∀ r ∈ s.2, 0 < r.2.2 ∧ first ≤ r.2.1 ∧ r.2.1 + r.2.2 ≤ first + i ∧
        ∀ el, first ≤ el → el < first + i → (elTg[el]? = some r.1 ↔ r.2.1 ≤ el ∧ el < r.2.1 + r.2.2)) ∧
      (∀ el, first ≤ el → el < first + i → ∃ r ∈ s.2, elTg[el]? = some r.1) ∧
      ((i = 0 ∧ s = (none, [])) ∨ ∃ l r, s.2 = l ++ [r] ∧ s.1 = some r.1 ∧ r.2.1 + r.2.2 = first + i))
    ⟨List.Pairwise.nil, by simp, fun el h h' => by omega, Or.inl ⟨rfl, rfl⟩⟩
    (by
      rintro i ⟨cur, l⟩ hi ⟨h1, h2, h3, h4⟩
      simp only at h1 h2 h3 h4
      have hlt : first + i < elTg.length := by omega
      have hx := List.getElem?_eq_getElem hlt
      by_cases hc : cur = some elTg[first + i]
      · -- the run goes on
        rcases h4 with ⟨rfl, h4⟩ | ⟨l0, r, rfl, hcur, hend⟩
        · cases h4; simp at hc
        · rw [hcur] at hc
          have hr : r.1 = elTg[first + i] := Option.some.inj hc
          refine ⟨(some r.1, l0 ++ [(r.1, r.2.1, r.2.2 + 1)]), ?_, ?_, ?_, ?_, Or.inr ⟨l0, _, rfl, rfl, by simp; omega⟩⟩
          · simp [rd, hx, hcur, hr, incLast_append]
          · simp only [List.pairwise_append, List.pairwise_cons, List.Pairwise.nil, List.mem_singleton] at h1 ⊢
            refine ⟨h1.1, ⟨by simp, trivial⟩, fun a ha b hb => ?_⟩
            subst hb; exact h1.2.2 a ha r rfl
          · intro r' hr'
            rcases List.mem_append.1 hr' with hr' | hr'
            · obtain ⟨a, b, c, d⟩ := h2 r' (by simp [hr'])
              refine ⟨a, b, by omega, fun el g1 g2 => ?_⟩
              by_cases he : el < first + i
              · exact d el g1 he
              · have : el = first + i := by omega
                subst this
                have hlt' : r'.1 < r.1 := by
                  simp only [List.pairwise_append] at h1
                  exact h1.2.2 r' hr' r (by simp)
                rw [hx]
                constructor
                · intro h; simp at h; omega
                · intro h; omega
            · simp at hr'; subst hr'
              obtain ⟨a, b, c, d⟩ := h2 r (by simp)
              refine ⟨by simp, b, by simp; omega, fun el g1 g2 => ?_⟩
              by_cases he : el < first + i
              · have := d el g1 he
                simp only; rw [this]; omega
              · have : el = first + i := by omega
                subst this
                simp only [hx, hr, true_iff]; omega
          · intro el g1 g2
            by_cases he : el < first + i
            · obtain ⟨r', hr', e⟩ := h3 el g1 he
              rcases List.mem_append.1 hr' with hr' | hr'
              · exact ⟨r', by simp [hr'], e⟩
              · simp at hr'; subst hr'; exact ⟨(r'.1, r'.2.1, r'.2.2 + 1), by simp, e⟩
            · have : el = first + i := by omega
              subst this
              exact ⟨(r.1, r.2.1, r.2.2 + 1), by simp, by rw [hx, hr]⟩
      · -- a new run
        have hall : ∀ r ∈ l, r.1 < elTg[first + i] := by
          rcases h4 with ⟨rfl, h4⟩ | ⟨l0, r, rfl, hcur, hend⟩
          · cases h4; simp
          · have hrl : r.1 < elTg[first + i] := by
              obtain ⟨a, b, c, d⟩ := h2 r (by simp)
              have e := (d (r.2.1) b (by omega)).2 ⟨Nat.le_refl _, by omega⟩
              have := hmono r.2.1 (first + i) r.1 _ b (by omega) (by omega) e hx
              have : r.1 ≠ elTg[first + i] := by rintro h; exact hc (by rw [hcur, h])
              omega
            intro r' hr'
            rcases List.mem_append.1 hr' with hr' | hr'
            · simp only [List.pairwise_append] at h1
              have := h1.2.2 r' hr' r (by simp); omega
            · simp at hr'; subst hr'; exact hrl
        refine ⟨(some elTg[first + i], l ++ [(elTg[first + i], first + i, 1)]), by simp [rd, hx, hc], ?_, ?_, ?_,
          Or.inr ⟨l, _, rfl, rfl, by simp; omega⟩⟩
        · simp only [List.pairwise_append, List.pairwise_cons, List.Pairwise.nil, List.mem_singleton]
          refine ⟨h1, ⟨by simp, trivial⟩, fun a ha b hb => ?_⟩
          subst hb; exact hall a ha
        · intro r hr
          rcases List.mem_append.1 hr with hr | hr
          · obtain ⟨a, b, c, d⟩ := h2 r hr
            refine ⟨a, b, by omega, fun el g1 g2 => ?_⟩
            by_cases he : el < first + i
            · exact d el g1 he
            · have : el = first + i := by omega
              subst this
              have := hall r hr
              rw [hx]
              constructor
              · intro h; simp at h; omega
              · intro h; omega
          · simp at hr; subst hr
            refine ⟨by simp, by simp, by simp; omega, fun el g1 g2 => ?_⟩
            simp only
            by_cases he : el < first + i
            · obtain ⟨r', hr', e⟩ := h3 el g1 he
              have := hall r' hr'
              rw [e]
              constructor
              · intro h; simp at h; omega
              · intro h; omega
            · have : el = first + i := by omega
              subst this
              simp [hx]
        · intro el g1 g2
          by_cases he : el < first + i
          · obtain ⟨r', hr', e⟩ := h3 el g1 he
            exact ⟨r', by simp [hr'], e⟩
          · have : el = first + i := by omega
            subst this
            exact ⟨_, by simp; exact Or.inr rfl, hx⟩)
  exact ⟨t.2, by simp only [getTgs, Option.bind_eq_bind] at ht ⊢; rw [ht]; rfl, h1, h2, h3⟩

/-! ### Communication regions of the partitions -/

/-- Order of the elements as established by the reordering (C32): by partition, inner before send, by time group. -/
def Ordered (elFaEl : List (Option Nat)) (nElFas nEls : Nat) (elPa elTg : List Nat) : Prop :=
  ∀ i j p q t u : Nat, i < j → j < nEls → elPa[i]? = some p → elPa[j]? = some q → elTg[i]? = some t → elTg[j]? = some u →
    p < q ∨ (p = q ∧ ((¬ Cut elFaEl nElFas elPa i ∧ Cut elFaEl nElFas elPa j) ∨
      ((Cut elFaEl nElFas elPa i ↔ Cut elFaEl nElFas elPa j) ∧ t ≤ u)))

/-- Partitions with send elements have no gap. -/
def NoGap (elFaEl : List (Option Nat)) (nElFas nEls : Nat) (elPa : List Nat) : Prop :=
  ∀ e e' p q r : Nat, e < nEls → e' < nEls → Cut elFaEl nElFas elPa e → Cut elFaEl nElFas elPa e' →
    elPa[e]? = some p → elPa[e']? = some q → p < r → r < q →
    ∃ e'', e'' < nEls ∧ Cut elFaEl nElFas elPa e'' ∧ elPa[e'']? = some r

/-- Send elements seen so far. -/
def CommInv (elFaEl : List (Option Nat)) (nElFas nPas : Nat) (elPa : List Nat) (i : Nat)
    (s : Option Nat × List Nat × List Nat) : Prop :=
  s.2.1.length = nPas ∧ s.2.2.length = nPas ∧
  (∀ p f n : Nat, s.2.1[p]? = some f → s.2.2[p]? = some n → f + n ≤ i ∧
    ∀ el : Nat, el < i → ((Cut elFaEl nElFas elPa el ∧ elPa[el]? = some p) ↔ (f ≤ el ∧ el < f + n))) ∧
  (∀ r, s.1 = some r → (∃ el : Nat, el < i ∧ Cut elFaEl nElFas elPa el ∧ elPa[el]? = some r) ∧
    ∀ el p : Nat, el < i → Cut elFaEl nElFas elPa el → elPa[el]? = some p → p ≤ r) ∧
  (s.1 = none → ∀ el : Nat, el < i → ¬ Cut elFaEl nElFas elPa el)

theorem paElComm_step {elFaEl : List (Option Nat)} {nElFas nEls nPas : Nat} (hA : AdOk elFaEl nElFas nEls)
    {elPa elTg : List Nat} (hp : elPa.length = nEls) (ht : elTg.length = nEls)
    (hO : Ordered elFaEl nElFas nEls elPa elTg) (hmax : ∀ p ∈ elPa, p < nPas) {i : Nat} (hi : i < nEls)
    {s : Option Nat × List Nat × List Nat} (hP : CommInv elFaEl nElFas nPas elPa i s) :
    (paElCommBody nElFas elFaEl elPa i s = none ∧ ¬ NoGap elFaEl nElFas nEls elPa) ∨
    ∃ s', paElCommBody nElFas elFaEl elPa i s = some s' ∧ CommInv elFaEl nElFas nPas elPa (i + 1) s' := by
  obtain ⟨reg, F, S⟩ := s
  obtain ⟨h1, h2, h3, h4, h5⟩ := hP
  simp only at h1 h2 h3 h4 h5
  have hil : i < elPa.length := by omega
  have hpi := List.getElem?_eq_getElem hil
  have hpn : elPa[i] < nPas := hmax _ (List.getElem_mem hil)
  obtain ⟨b, hb, hbc⟩ := isComm_spec hA hp hi
  have tgs : ∀ j, j < nEls → ∃ t, elTg[j]? = some t := fun j hj =>
    ⟨_, List.getElem?_eq_getElem (show j < elTg.length by omega)⟩
  have pas : ∀ j, j < nEls → ∃ t, elPa[j]? = some t := fun j hj =>
    ⟨_, List.getElem?_eq_getElem (show j < elPa.length by omega)⟩
  -- partitions do not decrease
  have mono : ∀ j k p q, j < k → k < nEls → elPa[j]? = some p → elPa[k]? = some q → p ≤ q := by
    intro j k p q hjk hk hpj hpk
    obtain ⟨t, ht'⟩ := tgs j (by omega)
    obtain ⟨u, hu'⟩ := tgs k hk
    rcases hO j k p q t u hjk hk hpj hpk ht' hu' with h | ⟨h, _⟩ <;> omega
  cases b with
  | false =>
    have hnc : ¬ Cut elFaEl nElFas elPa i := by rw [← hbc]; simp
    right
    refine ⟨(reg, F, S), by simp [paElCommBody, hb, rd, hpi], h1, h2, ?_, ?_, ?_⟩
    · intro p f n hf hn
      obtain ⟨a, c⟩ := h3 p f n hf hn
      refine ⟨by omega, fun el hel => ?_⟩
      by_cases he : el < i
      · exact c el he
      · have : el = i := by omega
        subst this
        constructor
        · rintro ⟨h, _⟩; exact absurd h hnc
        · intro h; omega
    · intro r hr
      obtain ⟨⟨el, a, c⟩, d⟩ := h4 r hr
      refine ⟨⟨el, by omega, c⟩, fun el p hel hcut hpe => ?_⟩
      have : el ≠ i := by rintro rfl; exact hnc hcut
      exact d el p (by omega) hcut hpe
    · intro hr el hel hcut
      have : el ≠ i := by rintro rfl; exact hnc hcut
      exact h5 hr el (by omega) hcut
  | true =>
    have hcut : Cut elFaEl nElFas elPa i := hbc.1 rfl
    by_cases hreg : reg = some elPa[i]
    · -- the region goes on
      right
      obtain ⟨⟨e0, he0, hc0, hp0⟩, hle⟩ := h4 _ hreg
      have hSl : elPa[i] < S.length := by omega
      have hFl : elPa[i] < F.length := by omega
      have hS := List.getElem?_eq_getElem hSl
      have hF := List.getElem?_eq_getElem hFl
      obtain ⟨a0, c0⟩ := h3 _ _ _ hF hS
      -- the region ends at i
      have hend : F[elPa[i]] + S[elPa[i]] = i := by
        have hin := (c0 e0 he0).1 ⟨hc0, hp0⟩
        apply Classical.byContradiction
        intro hne
        have hlt : F[elPa[i]] + S[elPa[i]] < i := by omega
        generalize hk : F[elPa[i]] + S[elPa[i]] = k at *
        have hke : e0 < k := hin.2
        -- element k lies between e0 and i
        obtain ⟨pk, hpk⟩ := pas k (by omega)
        obtain ⟨tk, htk⟩ := tgs k (by omega)
        obtain ⟨t0, ht0⟩ := tgs e0 (by omega)
        have m1 := mono e0 k _ _ hke (by omega) hp0 hpk
        have m2 := mono k i _ _ hlt hi hpk hpi
        have hpk' : pk = elPa[i] := by omega
        have hck : Cut elFaEl nElFas elPa k := by
          rcases hO e0 k _ _ _ _ hke (by omega) hp0 hpk ht0 htk with h | ⟨_, ⟨h, _⟩ | ⟨h, _⟩⟩
          · omega
          · exact absurd hc0 h
          · exact h.1 hc0
        have := (c0 k hlt).1 ⟨hck, by rw [hpk, hpk']⟩
        omega
      refine ⟨(reg, F, S.set elPa[i] (S[elPa[i]] + 1)), ?_, h1, by simp [h2], ?_, ?_, ?_⟩
      · simp only [paElCommBody, hb, rd, hpi, Option.bind_eq_bind, Option.bind_some, hreg]
        simp only [ne_eq, not_true_eq_false, false_and, if_false, true_and, if_true, hS, Option.bind_some, wr, hSl]
        rfl
      · intro p f n hf hn
        by_cases hpp : p = elPa[i]
        · subst hpp
          simp only at hf hn
          rw [List.getElem?_set_self hSl] at hn
          rw [hF] at hf
          cases hf; cases hn
          refine ⟨by omega, fun el hel => ?_⟩
          by_cases he : el < i
          · rw [c0 el he]; omega
          · have : el = i := by omega
            subst this
            constructor
            · intro _; omega
            · intro _; exact ⟨hcut, hpi⟩
        · simp only at hf hn
          rw [List.getElem?_set_ne (fun h => hpp h.symm)] at hn
          obtain ⟨a, c⟩ := h3 p f n hf hn
          refine ⟨by omega, fun el hel => ?_⟩
          by_cases he : el < i
          · exact c el he
          · have : el = i := by omega
            subst this
            constructor
            · rintro ⟨_, h⟩; rw [hpi] at h; exact absurd (Option.some.inj h).symm hpp
            · intro h; omega
      · intro r hr
        simp only at hr
        obtain ⟨⟨el, a, c⟩, d⟩ := h4 r hr
        refine ⟨⟨el, by omega, c⟩, fun el p hel hcut hpe => ?_⟩
        by_cases he : el < i
        · exact d el p he hcut hpe
        · have : el = i := by omega
          subst this
          rw [hpi] at hpe; rw [hreg] at hr
          cases hpe; cases hr; exact Nat.le_refl _
      · intro hr; simp only at hr; rw [hreg] at hr; simp at hr
    · -- a new region
      have hSl : elPa[i] < S.length := by omega
      have hFl : elPa[i] < F.length := by omega
      have hS := List.getElem?_eq_getElem hSl
      have hF := List.getElem?_eq_getElem hFl
      -- no send element of the partition before
      have hnone : ∀ el, el < i → Cut elFaEl nElFas elPa el → elPa[el]? ≠ some elPa[i] := by
        intro el hel hc hpe
        cases hr : reg with
        | none => exact h5 hr el hel hc
        | some r =>
          obtain ⟨⟨e0, a, c, d⟩, g⟩ := h4 r hr
          have h1' := g el _ hel hc hpe
          have h2' := mono e0 i _ _ (by omega) hi d hpi
          exact hreg (by rw [hr]; congr 1; omega)
      by_cases hchk : reg = none ∨ reg.map (· + 1) = some elPa[i]
      · right
        refine ⟨(some elPa[i], F.set elPa[i] i, S.set elPa[i] 1), ?_, by simp [h1], by simp [h2], ?_, ?_, by simp⟩
        · simp only [paElCommBody, hb, rd, hpi, Option.bind_eq_bind, Option.bind_some]
          simp only [ne_eq, hreg, not_false_eq_true, true_and, if_true, hchk, decide_true, check_true, Option.bind_some,
            wr, hFl, hSl]
          rfl
        · intro p f n hf hn
          by_cases hpp : p = elPa[i]
          · subst hpp
            simp only at hf hn
            rw [List.getElem?_set_self hSl] at hn
            rw [List.getElem?_set_self hFl] at hf
            cases hf; cases hn
            refine ⟨by omega, fun el hel => ?_⟩
            by_cases he : el < i
            · constructor
              · rintro ⟨h, h'⟩; exact absurd h' (hnone el he h)
              · intro h; omega
            · have : el = i := by omega
              subst this
              constructor
              · intro _; omega
              · intro _; exact ⟨hcut, hpi⟩
          · simp only at hf hn
            rw [List.getElem?_set_ne (fun h => hpp h.symm)] at hn hf
            obtain ⟨a, c⟩ := h3 p f n hf hn
            refine ⟨by omega, fun el hel => ?_⟩
            by_cases he : el < i
            · exact c el he
            · have : el = i := by omega
              subst this
              constructor
              · rintro ⟨_, h⟩; rw [hpi] at h; exact absurd (Option.some.inj h).symm hpp
              · intro h; omega
        · intro r hr
          simp only at hr
          cases hr
          refine ⟨⟨i, by omega, hcut, hpi⟩, fun el p hel _ hpe => ?_⟩
          by_cases he : el < i
          · exact mono el i _ _ he hi hpe hpi
          · have : el = i := by omega
            subst this
            rw [hpi] at hpe; cases hpe; exact Nat.le_refl _
      · left
        constructor
        · simp only [paElCommBody, hb, rd, hpi, Option.bind_eq_bind, Option.bind_some]
          simp only [ne_eq, hreg, not_false_eq_true, true_and, if_true, hchk, decide_false]
          rfl
        · intro hgap
          have hr : ∃ r, reg = some r := by
            cases hreg' : reg with
            | none => exact absurd (Or.inl hreg') hchk
            | some r => exact ⟨r, rfl⟩
          obtain ⟨r, hr⟩ := hr
          obtain ⟨⟨e0, a, c, d⟩, g⟩ := h4 r hr
          have hle := mono e0 i _ _ (by omega) hi d hpi
          have hne1 : r ≠ elPa[i] := fun h => hreg (by rw [hr, h])
          have hne2 : r + 1 ≠ elPa[i] := fun h => hchk (Or.inr (by rw [hr]; simp [h]))
          obtain ⟨e2, a2, c2, d2⟩ := hgap e0 i r elPa[i] (r + 1) (by omega) hi c hcut d hpi (by omega) (by omega)
          rcases Nat.lt_trichotomy e2 i with h | h | h
          · have := g e2 _ h c2 d2; omega
          · subst h; rw [hpi] at d2; have := Option.some.inj d2; omega
          · have := mono i e2 _ _ h a2 hpi d2; omega

/-- The regions of send elements: exact if they are returned, and returned if there is no gap. -/
theorem getPaElComm_spec {elFaEl : List (Option Nat)} {nElFas nEls nPas : Nat} (hA : AdOk elFaEl nElFas nEls)
    {elPa elTg : List Nat} (hp : elPa.length = nEls) (ht : elTg.length = nEls)
    (hO : Ordered elFaEl nElFas nEls elPa elTg) (hmax : ∀ p ∈ elPa, p < nPas) :
    (∀ F S, getPaElComm nElFas nEls nPas elFaEl elPa = some (F, S) → F.length = nPas ∧ S.length = nPas ∧
      ∀ p f n : Nat, F[p]? = some f → S[p]? = some n → f + n ≤ nEls ∧
        ∀ el, el < nEls → ((Cut elFaEl nElFas elPa el ∧ elPa[el]? = some p) ↔ (f ≤ el ∧ el < f + n))) ∧
    (NoGap elFaEl nElFas nEls elPa → ∃ F S, getPaElComm nElFas nEls nPas elFaEl elPa = some (F, S)) := by
  have h0 : CommInv elFaEl nElFas nPas elPa 0 (none, List.replicate nPas 0, List.replicate nPas 0) := by
    refine ⟨by simp, by simp, fun p f n hf hn => ?_, by simp, fun _ el h => by omega⟩
    simp only [List.getElem?_replicate] at hf hn
    split at hf
    · simp at hf
      rename_i h; rw [if_pos h] at hn; simp at hn
      subst hf; subst hn
      exact ⟨by omega, fun el h => by omega⟩
    · simp at hf
  constructor
  · intro F S h
    simp only [getPaElComm, Option.bind_eq_bind, Option.bind_eq_some_iff] at h
    obtain ⟨s, hs, he⟩ := h
    have hinv := forN_post (n := nEls) (s := (none, List.replicate nPas 0, List.replicate nPas 0)) (t := s)
      (body := fun el (s : Option Nat × List Nat × List Nat) => paElCommBody nElFas elFaEl elPa el s)
      (fun i s => CommInv elFaEl nElFas nPas elPa i s) h0
      (fun i t t' hi hP hb => by
        rcases paElComm_step hA hp ht hO hmax hi hP with ⟨h, _⟩ | ⟨s', h, h'⟩
        · rw [h] at hb; simp at hb
        · rw [h] at hb; cases hb; exact h') hs
    simp at he
    obtain ⟨reg, F', S'⟩ := s
    cases he
    exact ⟨hinv.1, hinv.2.1, hinv.2.2.1⟩
  · intro hgap
    obtain ⟨s, hs, _⟩ := forN_inv (n := nEls) (s := (none, List.replicate nPas 0, List.replicate nPas 0))
      (body := fun el (s : Option Nat × List Nat × List Nat) => paElCommBody nElFas elFaEl elPa el s)
      (fun i s => CommInv elFaEl nElFas nPas elPa i s) h0
      (fun i t hi hP => by
        rcases paElComm_step hA hp ht hO hmax hi hP with ⟨_, h⟩ | h
        · exact absurd hgap h
        · exact h)
    exact ⟨s.2.1, s.2.2, by simp [getPaElComm, hs]⟩

end Edge.EdgeV
