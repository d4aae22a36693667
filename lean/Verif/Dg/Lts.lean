import Verif.Dg.Surf
import Mathlib.Analysis.SpecialFunctions.Integrals.Basic
/-!
Local time stepping (C57) and time integrals (C58).
-/
namespace Edge.Dg
open Edge Edge.Linalg Finset

section
variable {K : Type} [Field K] [LinearOrder K]

/-! ### Time integrated data of an element -/

/-- Summed integrals: reset in the first step of a pair, sum in the second one. -/
theorem localLts_lt {c : Cfg} {firstTs : Bool} {dt : K} {der : List (List K)} {t : TDofs K} {x : List K}
    {e s : Nat → Nat → Nat → K} (he : Rep c.nQtsE c.nMds c.nCrs t.eq e) (hx : t.lt = some x)
    (hs : Rep c.nQtsE c.nMds c.nCrs x s) {isGt : Bool} (hg : isGt = true → ∃ g g', t.gt = some g ∧
      integrate c (1 / 2 * dt) der g = some g') :
    ∃ t', localLts c true isGt firstTs dt der t = some t' ∧ t'.eq = t.eq ∧ ∃ x', t'.lt = some x' ∧
      Rep c.nQtsE c.nMds c.nCrs x' (fun q md r => (if firstTs then 0 else s q md r) + e q md r) := by
  obtain ⟨x0, a0, a1⟩ : ∃ x0, (if firstTs then
      loop3 c.nQtsE c.nMds c.nCrs (fun qt md cr (x : List K) => wr x (at3 c.nMds c.nCrs qt md cr) 0) x
      else some x) = some x0 ∧ Rep c.nQtsE c.nMds c.nCrs x0 (fun q md r => if firstTs then 0 else s q md r) := by
    cases firstTs with
    | false => exact ⟨x, rfl, hs.congr (by intros; simp)⟩
    | true =>
      obtain ⟨x0, h0, h1⟩ := loop3_spec hs le_rfl le_rfl (fun _ _ _ _ => (0 : K))
        (body := fun qt md cr (d : List K) => wr d (at3 c.nMds c.nCrs qt md cr) 0) (fun q md r l' _ _ _ hl _ => wr_some hl _)
      exact ⟨x0, h0, h1.congr fun q md r k1 k2 _ => by simp [k1, k2]⟩
  obtain ⟨x1, b0, b1⟩ := loop3_spec a1 le_rfl le_rfl (fun q md r y => y + e q md r) (body := fun qt md cr (x : List K) => do
      let a ← rd x (at3 c.nMds c.nCrs qt md cr)
      let b ← rd t.eq (at3 c.nMds c.nCrs qt md cr)
      wr x (at3 c.nMds c.nCrs qt md cr) (a + b)) (fun q md r l' k1 k2 k3 hl hx => by
    simp only [Option.bind_eq_bind]
    rw [rd, hx, Option.bind_some, he.rd k1 k2 k3, Option.bind_some, wr_some hl])
  have b1' : Rep c.nQtsE c.nMds c.nCrs x1 (fun q md r => (if firstTs then 0 else s q md r) + e q md r) :=
    b1.congr fun q md r k1 k2 _ => by simp [k1, k2]
  simp only [Option.bind_eq_bind] at b0
  cases isGt with
  | false =>
    refine ⟨⟨t.eq, some x1, t.gt⟩, ?_, rfl, x1, rfl, b1'⟩
    simp only [localLts, if_true, hx, Option.bind_eq_bind, Option.bind_some, Bool.false_eq_true, if_false]
    cases firstTs with
    | false =>
      obtain rfl : x = x0 := by simpa using a0
      simp only [Bool.false_eq_true, if_false, Option.bind_some]
      rw [b0, Option.bind_some]
    | true =>
      simp only [if_true] at a0 ⊢
      rw [a0, Option.bind_some, b0, Option.bind_some]
  | true =>
    obtain ⟨g, g', h1, h2⟩ := hg rfl
    refine ⟨⟨t.eq, some x1, some g'⟩, ?_, rfl, x1, rfl, b1'⟩
    simp only [localLts, if_true, hx, Option.bind_eq_bind, Option.bind_some]
    cases firstTs with
    | false =>
      obtain rfl : x = x0 := by simpa using a0
      simp only [Bool.false_eq_true, if_false, Option.bind_some]
      rw [b0, Option.bind_some, h1, Option.bind_some, h2, Option.bind_some]
    | true =>
      simp only [if_true] at a0 ⊢
      rw [a0, Option.bind_some, b0, Option.bind_some, h1, Option.bind_some, h2, Option.bind_some]

/-- C57: the data a slower element takes of a faster one after two steps of the faster element, the first one of a pair and the
second one, is the sum of the time integrals of the two steps, whatever the buffer held before. -/
theorem C57_slower {c : Cfg} {dt1 dt2 : K} {der1 der2 : List (List K)} {a b buf : List K} {A B : Nat → Nat → Nat → K}
    (ha : Rep c.nQtsE c.nMds c.nCrs a A) (hb : Rep c.nQtsE c.nMds c.nCrs b B)
    (hbuf : buf.length = c.nQtsE * c.nMds * c.nCrs) (firstTs : Bool) :
    ∃ t1 t2 x, localLts c true false true dt1 der1 ⟨a, some buf, none⟩ = some t1 ∧
      localLts c true false false dt2 der2 ⟨b, t1.lt, t1.gt⟩ = some t2 ∧
      assemble c false true firstTs t2 = some x ∧ Rep c.nQtsE c.nMds c.nCrs x (fun q md r => A q md r + B q md r) := by
  have hinh : Inhabited K := ⟨0⟩
  obtain ⟨t1, h1, -, x1, h2, h3⟩ := localLts_lt (c := c) (firstTs := true) (dt := dt1) (der := der1)
    (t := ⟨a, some buf, none⟩) (isGt := false) ha rfl (rep_of_length hbuf) (by simp)
  obtain ⟨t2, k1, -, x2, k2, k3⟩ := localLts_lt (c := c) (firstTs := false) (dt := dt2) (der := der2)
    (t := ⟨b, t1.lt, t1.gt⟩) (isGt := false) hb h2 h3 (by simp)
  obtain ⟨x, l0, l1⟩ := copy3 (t := List.replicate (c.nQtsE * c.nMds * c.nCrs) (0 : K)) (by simp) k3
  refine ⟨t1, t2, x, h1, k1, ?_, l1.congr (by intros; simp)⟩
  simp only [assemble, k2, Option.bind_eq_bind, Option.bind_some, if_true, Bool.false_eq_true, if_false]
  simpa only [Option.bind_eq_bind] using l0

/-- Half integrals. -/
theorem localLts_gt {c : Cfg} (hs : Sizes c) {firstTs : Bool} {dt : K} {der : List (List K)} {e g : List K} {lt : Option (List K)}
    {D : Nat → Nat → Nat → Nat → K} (hD : Ders c der D) (hg : g.length = c.nQtsE * c.nMds * c.nCrs)
    (hz : c.nRms = 0 → ∀ n < c.oTi, ∀ q md r, c.ck n ≤ md → md < c.nMds → D n q md r = 0) :
    ∃ g', localLts c false true firstTs dt der ⟨e, lt, some g⟩ = some ⟨e, lt, some g'⟩ ∧
      Rep c.nQtsE c.nMds c.nCrs g' (fun q md r => taylorInt c.oTi (1 / 2 * dt) (fun n => D n q md r)) := by
  obtain ⟨g', h0, h1⟩ := integrate_spec hs (dt := 1 / 2 * dt) hD hg
  refine ⟨g', ?_, h1.congr fun q md r k1 k2 k3 => ?_⟩
  · simp only [localLts, if_true, h0, Option.bind_eq_bind, Option.bind_some, Bool.false_eq_true, if_false]
  · simp only [taylorInt]
    refine sum_congr rfl fun n hn => ?_
    by_cases hc : c.nRms = 0 ∧ ¬ md < c.ck n
    · rw [if_pos hc, hz hc.1 n (mem_range.1 hn) q md r (by omega) k2]
    · rw [if_neg hc]

/-- What a faster element takes of a slower one in the first and the second step of a pair. -/
theorem assemble_half {c : Cfg} {e g : List K} {lt : Option (List K)} {E G : Nat → Nat → Nat → K}
    (he : Rep c.nQtsE c.nMds c.nCrs e E) (hg : Rep c.nQtsE c.nMds c.nCrs g G) (firstTs : Bool) :
    ∃ x, assemble c false false firstTs ⟨e, lt, some g⟩ = some x ∧
      Rep c.nQtsE c.nMds c.nCrs x (fun q md r => if firstTs then G q md r else E q md r - G q md r) := by
  cases firstTs with
  | true =>
    obtain ⟨x, l0, l1⟩ := copy3 (t := List.replicate (c.nQtsE * c.nMds * c.nCrs) (0 : K)) (by simp) hg
    refine ⟨x, ?_, l1.congr (by intros; simp)⟩
    simp only [assemble, Option.bind_eq_bind, Option.bind_some, if_true, Bool.false_eq_true, if_false]
    simpa only [Option.bind_eq_bind] using l0
  | false =>
    obtain ⟨x, l0, l1⟩ := loop3_spec (rep_replicate c.nQtsE c.nMds c.nCrs (0 : K)) le_rfl le_rfl
      (fun q md r _ => E q md r - G q md r) (body := fun qt md cr out => do
        let x ← rd e (at3 c.nMds c.nCrs qt md cr)
        let y ← rd g (at3 c.nMds c.nCrs qt md cr)
        wr out (at3 c.nMds c.nCrs qt md cr) (x - y)) (fun q md r l' k1 k2 k3 hl hx => by
      simp only [Option.bind_eq_bind]
      rw [he.rd k1 k2 k3, Option.bind_some, hg.rd k1 k2 k3, Option.bind_some, wr_some hl])
    refine ⟨x, ?_, l1.congr fun q md r k1 k2 _ => by simp [k1, k2]⟩
    simp only [assemble, Option.bind_eq_bind, Option.bind_some, Bool.false_eq_true, if_false]
    simpa only [Option.bind_eq_bind] using l0

theorem assemble_eq {c : Cfg} {t : TDofs K} {E : Nat → Nat → Nat → K}
    (he : Rep c.nQtsE c.nMds c.nCrs t.eq E) (adGt firstTs : Bool) :
    ∃ x, assemble c true adGt firstTs t = some x ∧ Rep c.nQtsE c.nMds c.nCrs x E := by
  obtain ⟨x, l0, l1⟩ := copy3 (t := List.replicate (c.nQtsE * c.nMds * c.nCrs) (0 : K)) (by simp) he
  refine ⟨x, ?_, l1⟩
  simp only [assemble, if_true]
  simpa only [Option.bind_eq_bind] using l0

theorem assemble_lt {c : Cfg} {t : TDofs K} {x : List K} {E : Nat → Nat → Nat → K} (hx : t.lt = some x)
    (he : Rep c.nQtsE c.nMds c.nCrs x E) (firstTs : Bool) :
    ∃ x, assemble c false true firstTs t = some x ∧ Rep c.nQtsE c.nMds c.nCrs x E := by
  obtain ⟨x, l0, l1⟩ := copy3 (t := List.replicate (c.nQtsE * c.nMds * c.nCrs) (0 : K)) (by simp) he
  refine ⟨x, ?_, l1⟩
  simp only [assemble, hx, Option.bind_eq_bind, Option.bind_some, if_true, Bool.false_eq_true, if_false]
  simpa only [Option.bind_eq_bind] using l0

/-! ### Messages -/

omit [LinearOrder K] in
theorem faceProj_sub (c : Cfg) (F : Nat → Nat → K) (t u : Nat → Nat → Nat → K) (q n r : Nat) :
    faceProj c F (fun q md r => t q md r - u q md r) q n r = faceProj c F t q n r - faceProj c F u q n r := by
  simp only [faceProj, sub_mul, sum_sub_distrib]

/-- The message of an element with a larger time step: both halves. -/
theorem sendFace_gt {c : Cfg} {fIntLN : List (List K)} {v fa : Nat} {mat : List K} {F : Nat → Nat → K}
    (hmat : rd fIntLN (fMatId c 65535 (some v) fa) = some mat) (hF : Mat c.nMds c.nMdsFa c.nMdsFa mat F) (firstTs : Bool)
    {e g buf : List K} {lt : Option (List K)} {E G : Nat → Nat → Nat → K} (he : Rep c.nQtsE c.nMds c.nCrs e E)
    (hg : Rep c.nQtsE c.nMds c.nCrs g G) (hb : buf.length = (c.nQtsE + c.nQtsE) * c.nMdsFa * c.nCrs) :
    ∃ b, sendFace c fIntLN (some v) fa false false firstTs ⟨e, lt, some g⟩ buf = some b ∧
      Rep (c.nQtsE + c.nQtsE) c.nMdsFa c.nCrs b (fun q n r => if q < c.nQtsE then faceProj c F G q n r
        else faceProj c F E (q - c.nQtsE) n r - faceProj c F G (q - c.nQtsE) n r) := by
  have hinh : Inhabited K := ⟨0⟩
  obtain ⟨b1, a0, a1⟩ := fluxInt_spec hg hF (rep_of_length hb) (by omega)
  have hlen : at3 c.nMdsFa c.nCrs c.nQtsE 0 0 = c.nQtsE * c.nMdsFa * c.nCrs := by simp [at3]
  have hl1 : b1.length = c.nQtsE * c.nMdsFa * c.nCrs + c.nQtsE * c.nMdsFa * c.nCrs := by rw [a1.1]; ring
  have hdl : (b1.drop (at3 c.nMdsFa c.nCrs c.nQtsE 0 0)).length = c.nQtsE * c.nMdsFa * c.nCrs := by
    rw [List.length_drop, hl1, hlen]; omega
  obtain ⟨b2, c0, c1⟩ := fluxInt_spec he hF (rep_of_length hdl) le_rfl
  -- both halves
  have h3 : Rep (c.nQtsE + c.nQtsE) c.nMdsFa c.nCrs (b1.take (at3 c.nMdsFa c.nCrs c.nQtsE 0 0) ++ b2)
      (fun q n r => if q < c.nQtsE then faceProj c F G q n r else faceProj c F E (q - c.nQtsE) n r) := by
    have htl : (b1.take (at3 c.nMdsFa c.nCrs c.nQtsE 0 0)).length = at3 c.nMdsFa c.nCrs c.nQtsE 0 0 := by
      rw [List.length_take, hl1, hlen]; omega
    refine ⟨?_, fun q n r k1 k2 k3 => ?_⟩
    · rw [List.length_append, htl, c1.1, hlen]; ring
    · beta_reduce
      by_cases hq : q < c.nQtsE
      · have hlt := at3_lt hq k2 k3
        rw [if_pos hq, List.getElem?_append_left (by rw [htl, hlen]; exact hlt), List.getElem?_take, if_pos (by rw [hlen]; exact hlt),
          a1.2 q n r k1 k2 k3]
        simp only [hq, if_true]
      · obtain ⟨q', rfl⟩ : ∃ q', q = c.nQtsE + q' := ⟨q - c.nQtsE, by omega⟩
        rw [if_neg hq, ← at3_off, List.getElem?_append_right (by rw [htl]; omega), htl, Nat.add_sub_cancel_left,
          c1.2 q' n r (by omega) k2 k3]
        have : q' < c.nQtsE := by omega
        simp only [this, if_true, Nat.add_sub_cancel_left]
  -- subtraction
  obtain ⟨b3, d0, d1⟩ := forN_inv (n := c.nQtsE)
    (s := b1.take (at3 c.nMdsFa c.nCrs c.nQtsE 0 0) ++ b2)
    (body := fun qt buf => forN c.nMdsFa (fun md buf => forN c.nCrs (fun cr (buf : List K) => do
      let x ← rd buf (at3 c.nMdsFa c.nCrs (c.nQtsE + qt) md cr)
      let y ← rd buf (at3 c.nMdsFa c.nCrs qt md cr)
      wr buf (at3 c.nMdsFa c.nCrs (c.nQtsE + qt) md cr) (x - y)) buf) buf)
    (fun i b => Rep (c.nQtsE + c.nQtsE) c.nMdsFa c.nCrs b (fun q n r => if q < c.nQtsE then faceProj c F G q n r
        else if q < c.nQtsE + i then faceProj c F E (q - c.nQtsE) n r - faceProj c F G (q - c.nQtsE) n r
        else faceProj c F E (q - c.nQtsE) n r)) (h3.congr (by
          intro q n r _ _ _
          by_cases hq : q < c.nQtsE <;> simp [hq])) (by
    intro i b hi hb
    obtain ⟨b', e0, e1⟩ := forN_inv (n := c.nMdsFa) (s := b) (body := fun md buf => forN c.nCrs (fun cr (buf : List K) => do
        let x ← rd buf (at3 c.nMdsFa c.nCrs (c.nQtsE + i) md cr)
        let y ← rd buf (at3 c.nMdsFa c.nCrs i md cr)
        wr buf (at3 c.nMdsFa c.nCrs (c.nQtsE + i) md cr) (x - y)) buf)
      (fun m b => Rep (c.nQtsE + c.nQtsE) c.nMdsFa c.nCrs b (fun q n r => if q < c.nQtsE then faceProj c F G q n r
        else if q < c.nQtsE + i ∨ (q = c.nQtsE + i ∧ n < m) then
          faceProj c F E (q - c.nQtsE) n r - faceProj c F G (q - c.nQtsE) n r
        else faceProj c F E (q - c.nQtsE) n r)) (hb.congr (by intro q n r _ _ _; simp)) (by
      intro m b hm hb
      obtain ⟨b', e0, e1⟩ := forN_inv (n := c.nCrs) (s := b) (body := fun cr (buf : List K) => do
        let x ← rd buf (at3 c.nMdsFa c.nCrs (c.nQtsE + i) m cr)
        let y ← rd buf (at3 c.nMdsFa c.nCrs i m cr)
        wr buf (at3 c.nMdsFa c.nCrs (c.nQtsE + i) m cr) (x - y))
        (fun k b => Rep (c.nQtsE + c.nQtsE) c.nMdsFa c.nCrs b (fun q n r => if q < c.nQtsE then faceProj c F G q n r
          else if q < c.nQtsE + i ∨ (q = c.nQtsE + i ∧ n < m) ∨ (q = c.nQtsE + i ∧ n = m ∧ r < k) then
            faceProj c F E (q - c.nQtsE) n r - faceProj c F G (q - c.nQtsE) n r
          else faceProj c F E (q - c.nQtsE) n r)) (hb.congr (by intro q n r _ _ _; simp)) (by
        intro k b hk hb
        have x1 := hb.rd (q := c.nQtsE + i) (by omega) hm hk
        have x2 := hb.rd (q := i) (by omega) hm hk
        have hlt := at3_lt (Q := c.nQtsE + c.nQtsE) (q := c.nQtsE + i) (by omega) hm hk
        rw [if_neg (by omega), if_neg (by omega)] at x1
        rw [if_pos hi] at x2
        refine ⟨b.set (at3 c.nMdsFa c.nCrs (c.nQtsE + i) m k) (faceProj c F E (c.nQtsE + i - c.nQtsE) m k - faceProj c F G i m k),
          ?_, by simp [hb.1], fun q n r k1 k2 k3 => ?_⟩
        · simp only [Option.bind_eq_bind]
          rw [x1, Option.bind_some, x2, Option.bind_some, wr_some (by rw [hb.1]; exact hlt)]
        · beta_reduce
          by_cases hc : q = c.nQtsE + i ∧ n = m ∧ r = k
          · obtain ⟨rfl, rfl, rfl⟩ := hc
            rw [List.getElem?_set_self (by rw [hb.1]; exact hlt), if_neg (by omega), if_pos (by omega), Nat.add_sub_cancel_left]
          · rw [List.getElem?_set_ne (fun e => by
              obtain ⟨y1, y2, y3⟩ := at3_inj e hm k2 hk k3
              exact hc ⟨y1.symm, y2.symm, y3.symm⟩), hb.2 q n r k1 k2 k3]
            congr 1
            beta_reduce
            by_cases hq : q < c.nQtsE
            · rw [if_pos hq, if_pos hq]
            · rw [if_neg hq, if_neg hq]
              by_cases hd : q < c.nQtsE + i ∨ (q = c.nQtsE + i ∧ n < m) ∨ (q = c.nQtsE + i ∧ n = m ∧ r < k)
              · rw [if_pos hd, if_pos (by omega)]
              · rw [if_neg hd, if_neg (by omega)])
      refine ⟨b', e0, e1.congr fun q n r _ _ k3 => ?_⟩
      by_cases hq : q < c.nQtsE
      · rw [if_pos hq, if_pos hq]
      · rw [if_neg hq, if_neg hq]
        by_cases hd : q < c.nQtsE + i ∨ (q = c.nQtsE + i ∧ n < m + 1)
        · rw [if_pos hd, if_pos (by omega)]
        · rw [if_neg hd, if_neg (by omega)])
    refine ⟨b', e0, e1.congr fun q n r _ k2 _ => ?_⟩
    by_cases hq : q < c.nQtsE
    · rw [if_pos hq, if_pos hq]
    · rw [if_neg hq, if_neg hq]
      by_cases hd : q < c.nQtsE + (i + 1)
      · rw [if_pos hd, if_pos (by omega)]
      · rw [if_neg hd, if_neg (by omega)])
  refine ⟨b3, ?_, d1.congr fun q n r k1 _ _ => ?_⟩
  · simp only [sendFace, Bool.false_eq_true, if_false, Option.bind_eq_bind, Option.bind_some, neighFluxInt]
    rw [hmat, Option.bind_some, a0, Option.bind_some, Option.bind_some, c0, Option.bind_some]
    simp only [Option.bind_eq_bind] at d0
    exact d0
  · by_cases hq : q < c.nQtsE
    · rw [if_pos hq, if_pos hq]
    · rw [if_neg hq, if_neg hq, if_pos (by omega)]

/-- The relation of an element to the one at a face. -/
inductive Rel | eq | lt | gt

/-- The relation seen from the other side. -/
def Rel.flip : Rel → Rel
  | .eq => .eq
  | .lt => .gt
  | .gt => .lt

/-- Bits of the sparse type for a relation. -/
def Rel.bits : Rel → AdBits
  | .eq => ⟨true, false, false⟩
  | .lt => ⟨false, true, false⟩
  | .gt => ⟨false, false, true⟩

/-- Size of the message buffer of a face, in quantities. -/
def Rel.size (c : Cfg) : Rel → Nat
  | .gt => c.nQtsE + c.nQtsE
  | _ => c.nQtsE

/-- Allocated arrays of the element which provides the data, by its relation to the element which takes it. -/
def Alloc (c : Cfg) (rel : Rel) (t : TDofs K) : Prop :=
  t.eq.length = c.nQtsE * c.nMds * c.nCrs ∧
  match rel with
  | .eq => True
  | .lt => ∃ x, t.lt = some x ∧ x.length = c.nQtsE * c.nMds * c.nCrs
  | .gt => ∃ x, t.gt = some x ∧ x.length = c.nQtsE * c.nMds * c.nCrs

/-- C57: a message carries the same data as shared memory: for an element which takes data of an adjacent one with relation
`rel.flip`, the neighboring update with the message of the adjacent element gives exactly the update with direct access to the
arrays of the adjacent element. A message of a faster element is sent in the second step of a pair; a message of a slower one is
used in both steps (`firstTs`). -/
theorem C57_message {c : Cfg} (hs : Sizes c) {fIntLN fIntT : List (List K)} {rel : Rel} {t : TDofs K} (ht : Alloc c rel t)
    {v : Nat} {fa : Nat} {f : FaceIn K} (hfs : f.freeSurface = false) (hv : f.vId = some v)
    (had : f.ad = rel.flip.bits) {mat : List K} {F : Nat → Nat → K}
    (hmat : rd fIntLN (c.nFas + v * c.nFas + f.fId) = some mat) (hF : Mat c.nMds c.nMdsFa c.nMdsFa mat F)
    {mT : List K} {FT FE FA : Nat → Nat → K} (hmT : rd fIntT fa = some mT) (mmT : Mat c.nMdsFa c.nMds c.nMds mT FT)
    (hE : Mat c.nQtsE c.nQtsE c.nQtsE f.fsE FE) (hA : 0 < c.nRms → Mat c.nQtsM c.nQtsE c.nQtsE f.fsA FA)
    {buf : List K} (hbuf : buf.length = rel.size c * c.nMdsFa * c.nCrs) (firstTs : Bool)
    {dE upA s0 s1 : List K} (hd : dE.length = c.nQtsE * c.nMds * c.nCrs) (hu : upA.length = c.nQtsM * c.nMds * c.nCrs)
    (h0 : s0.length = c.nQtsE * c.nMdsFa * c.nCrs) (h1 : s1.length = c.nQtsE * c.nMdsFa * c.nCrs) :
    ∃ b d u x y x' y',
      sendFace c fIntLN (some v) f.fId rel.bits.eq rel.bits.lt false t buf = some b ∧
      neighFace c fIntLN fIntT firstTs fa { f with tNe := t, recv := none } (dE, upA, s0, s1) = some (d, u, x, y) ∧
      neighFace c fIntLN fIntT firstTs fa { f with recv := some b } (dE, upA, s0, s1) = some (d, u, x', y') := by
  have hinh : Inhabited K := ⟨0⟩
  have he := rep_of_length ht.1
  have hmat' : rd fIntLN (fluxPos c.nFas fa false (some v) f.fId) = some mat := hmat
  replace hmat : rd fIntLN (fMatId c 65535 (some v) f.fId) = some mat := by
    rw [← hmat, fMatId]; congr 1; omega
  -- data of both sides
  obtain ⟨b, P, hb, hP1, hP2⟩ : ∃ b P, sendFace c fIntLN (some v) f.fId rel.bits.eq rel.bits.lt false t buf = some b ∧
      FaceData c fIntLN firstTs fa { f with tNe := t, recv := none } P ∧
      FaceData c fIntLN firstTs fa { f with recv := some b } P := by
    cases rel with
    | eq =>
      obtain ⟨b, b0, b1⟩ := fluxInt_spec he hF (rep_of_length (Q := c.nQtsE) hbuf) le_rfl
      obtain ⟨x, a0, a1⟩ := assemble_eq he f.ad.gt firstTs
      refine ⟨b, faceProj c F _, ?_, ⟨x, _, mat, F, ?_, a1, ?_, hF, fun _ _ _ _ _ _ => rfl⟩, fun q n r k1 k2 k3 => ?_⟩
      · simp only [Rel.bits, sendFace, if_true, neighFluxInt, Option.bind_eq_bind]
        rw [hmat, Option.bind_some, b0]
      · simpa [had, Rel.flip, Rel.bits] using a0
      · simpa [hfs, hv] using hmat'
      · have := b1.2 q n r k1 k2 k3
        simp only [k1, if_true] at this
        simpa [had, Rel.flip, Rel.bits] using this
    | lt =>
      obtain ⟨y, hy, ly⟩ := ht.2
      obtain ⟨b, b0, b1⟩ := fluxInt_spec (rep_of_length ly) hF (rep_of_length (Q := c.nQtsE) hbuf) le_rfl
      obtain ⟨x, a0, a1⟩ := assemble_lt hy (rep_of_length ly) firstTs
      refine ⟨b, faceProj c F _, ?_, ⟨x, _, mat, F, ?_, a1, ?_, hF, fun _ _ _ _ _ _ => rfl⟩, fun q n r k1 k2 k3 => ?_⟩
      · simp only [Rel.bits, sendFace, if_true, neighFluxInt, Option.bind_eq_bind, Bool.false_eq_true, if_false, Bool.not_false]
        rw [hy, Option.bind_some, hmat, Option.bind_some, b0]
      · simpa [had, Rel.flip, Rel.bits] using a0
      · simpa [hfs, hv] using hmat'
      · have := b1.2 q n r k1 k2 k3
        simp only [k1, if_true] at this
        simpa [had, Rel.flip, Rel.bits] using this
    | gt =>
      obtain ⟨y, hy, ly⟩ := ht.2
      obtain ⟨b, b0, b1⟩ := sendFace_gt (lt := t.lt) hmat hF false he (rep_of_length ly) hbuf
      obtain ⟨x, a0, a1⟩ := assemble_half (lt := t.lt) he (rep_of_length ly) firstTs
      have et : t = ⟨t.eq, t.lt, some y⟩ := by rw [← hy]
      rw [← et] at b0 a0
      refine ⟨b, faceProj c F _, b0, ⟨x, _, mat, F, ?_, a1, ?_, hF, fun _ _ _ _ _ _ => rfl⟩, fun q n r k1 k2 k3 => ?_⟩
      · simpa [had, Rel.flip, Rel.bits] using a0
      · simpa [hfs, hv] using hmat'
      · cases firstTs with
        | true =>
          have := b1.2 q n r (by omega) k2 k3
          simp only [k1, if_true] at this
          simpa [had, Rel.flip, Rel.bits] using this
        | false =>
          have := b1.2 (c.nQtsE + q) n r (by omega) k2 k3
          beta_reduce at this
          rw [if_neg (by omega), Nat.add_sub_cancel_left, ← faceProj_sub] at this
          simpa [had, Rel.flip, Rel.bits] using this
  obtain ⟨⟨d1, u1, x1, y1⟩, a0, a1, a2, -⟩ := neighFace_spec hs (f := { f with tNe := t, recv := none }) hmT mmT (fun _ => hE)
    (fun _ => hA) (fun _ => hP1) (rep_of_length hd) (rep_of_length hu) h0 h1
  obtain ⟨⟨d2, u2, x2, y2⟩, c0, c1, c2, -⟩ := neighFace_spec hs (f := { f with recv := some b }) hmT mmT (fun _ => hE)
    (fun _ => hA) (fun _ => hP2) (rep_of_length hd) (rep_of_length hu) h0 h1
  have e1 : d1 = d2 := a1.ext c1
  have e2 : u1 = u2 := a2.ext c2
  subst e1; subst e2
  exact ⟨b, d1, u1, x1, y1, x2, y2, hb, a0, c0⟩

end

/-! ### Integrals in time -/

/-- Integral of a Taylor polynomial. -/
theorem integral_taylor (n : Nat) (f : Nat → ℝ) (a b : ℝ) :
    ∫ τ in a..b, taylor n τ f = taylorInt n b f - taylorInt n a f := by
  simp only [taylor, taylorInt]
  rw [intervalIntegral.integral_finset_sum (fun k _ => (by fun_prop : Continuous _).intervalIntegrable _ _), ← sum_sub_distrib]
  refine sum_congr rfl fun k _ => ?_
  rw [intervalIntegral.integral_mul_const, intervalIntegral.integral_div, integral_pow, ← sub_mul, ← sub_div,
    Nat.factorial_succ, Nat.cast_mul, div_div]
  push_cast
  rfl

/-- C57: the data a faster element takes of a slower one with time step `dt` in the two steps of a pair are the integrals over
the first and the second half of the slower element's time step of its predicted solution, and add up to the slower element's
own time integral. `e` is the time integral of the prediction as computed by the time prediction, `der` holds its derivatives. -/
theorem C57_faster {c : Cfg} (hs : Sizes c) {dt : ℝ} {der : List (List ℝ)} {D : Nat → Nat → Nat → Nat → ℝ} (hD : Ders c der D)
    (hz : c.nRms = 0 → ∀ n < c.oTi, ∀ q md r, c.ck n ≤ md → md < c.nMds → D n q md r = 0) {e g : List ℝ}
    (he : Rep c.nQtsE c.nMds c.nCrs e (fun q md r => taylorInt c.oTi dt (fun n => D n q md r)))
    (hg : g.length = c.nQtsE * c.nMds * c.nCrs) (firstTs : Bool) :
    ∃ t h1 h2, localLts c false true firstTs dt der ⟨e, none, some g⟩ = some t ∧
      assemble c false false true t = some h1 ∧ assemble c false false false t = some h2 ∧
      Rep c.nQtsE c.nMds c.nCrs h1 (fun q md r => ∫ τ in 0..dt / 2, taylor c.oTi τ (fun n => D n q md r)) ∧
      Rep c.nQtsE c.nMds c.nCrs h2 (fun q md r => ∫ τ in dt / 2..dt, taylor c.oTi τ (fun n => D n q md r)) ∧
      ∀ p < c.nQtsE * c.nMds * c.nCrs, ∃ x y z, h1[p]? = some x ∧ h2[p]? = some y ∧ e[p]? = some z ∧ x + y = z := by
  obtain ⟨g', l0, l1⟩ := localLts_gt hs (firstTs := firstTs) (e := e) (lt := none) hD hg hz
  obtain ⟨h1, a0, a1⟩ := assemble_half (lt := none) he l1 true
  obtain ⟨h2, b0, b1⟩ := assemble_half (lt := none) he l1 false
  have e0 : ∀ f, taylorInt c.oTi (0 : ℝ) f = 0 := fun f => by simp [taylorInt]
  have eh : (1 / 2 * dt : ℝ) = dt / 2 := by ring
  refine ⟨⟨e, none, some g'⟩, h1, h2, l0, a0, b0, a1.congr fun q md r _ _ _ => ?_, b1.congr fun q md r _ _ _ => ?_, ?_⟩
  · rw [integral_taylor, e0, sub_zero, if_pos rfl, eh]
  · rw [integral_taylor, if_neg (by simp), eh]
  · intro p hp
    have hR : 0 < c.nCrs := Nat.pos_of_ne_zero (by intro h; simp [h] at hp)
    have hM : 0 < c.nMds := Nat.pos_of_ne_zero (by intro h; simp [h] at hp)
    have ep : p = at3 c.nMds c.nCrs (p / c.nCrs / c.nMds) (p / c.nCrs % c.nMds) (p % c.nCrs) := by
      rw [at3, ← Nat.add_mul, Nat.mul_comm (p / c.nCrs / c.nMds), Nat.div_add_mod, Nat.mul_comm, Nat.div_add_mod]
    have k3 := Nat.mod_lt p hR
    have k2 := Nat.mod_lt (p / c.nCrs) hM
    have k1 : p / c.nCrs / c.nMds < c.nQtsE := by
      rw [Nat.div_div_eq_div_mul, Nat.div_lt_iff_lt_mul (Nat.mul_pos hR hM), Nat.mul_comm c.nCrs c.nMds, ← Nat.mul_assoc]
      exact hp
    rw [ep]
    exact ⟨_, _, _, a1.2 _ _ _ k1 k2 k3, b1.2 _ _ _ k1 k2 k3, he.2 _ _ _ k1 k2 k3, by simp⟩

/-- C58: without relaxation mechanisms, integrating given derivatives over `[0, t]` gives, in all modes, the integral of the
prediction evaluated at the points in time `τ`; at `τ = 0` the prediction is the zeroth derivative. -/
theorem C58_elastic_partial {c : Cfg} (hs : Sizes c) (hr : c.nRms = 0) {der : List (List ℝ)}
    {D : Nat → Nat → Nat → Nat → ℝ} (hD : Ders c der D) {buf buf' : List ℝ} (hb : buf.length = c.nQtsE * c.nMds * c.nCrs)
    (hb' : buf'.length = c.nQtsE * c.nMds * c.nCrs) (t : ℝ) :
    ∃ (pre : ℝ → List ℝ) (P : ℝ → Nat → Nat → Nat → ℝ) (tInt : List ℝ),
      (∀ τ, evalPoint c τ der buf = some (pre τ) ∧ Rep c.nQtsE c.nMds c.nCrs (pre τ) (P τ)) ∧
      integrate c t der buf' = some tInt ∧
      Rep c.nQtsE c.nMds c.nCrs tInt (fun q md r => ∫ τ in 0..t, P τ q md r) ∧
      ∀ q md r, q < c.nQtsE → md < c.nMds → r < c.nCrs → P 0 q md r = D 0 q md r := by
  have h := fun τ => evalPoint_spec (pt := τ) hs hD hb
  choose pre h0 h1 using h
  obtain ⟨tInt, g0, g1⟩ := integrate_spec (dt := t) hs hD hb'
  refine ⟨pre, _, tInt, fun τ => ⟨h0 τ, h1 τ⟩, g0, g1.congr fun q md r _ _ _ => ?_, ?_⟩
  · rw [integral_taylor]
    have e0 : ∀ f, taylorInt c.oTi (0 : ℝ) f = 0 := fun f => by simp [taylorInt]
    rw [e0, sub_zero]
    congr 1
    funext n
    by_cases hc : md < c.ck n <;> simp [hr, hc]
  · intro q md r _ k2 _
    simp only [taylor]
    rw [sum_eq_single 0]
    · simp [hs.ck0, k2]
    · intro n _ hn
      simp [hn]
    · intro h
      have := hs.ord
      simp at h
      omega

/-- C58 is violated with relaxation mechanisms: the evaluation ignores the modes of derivative `n` beyond the first `ck n`, the
integration does not. For derivatives whose first one has a contribution `x` in such a mode (the source terms of the relaxation
mechanisms do), the integral over `[0, t]` of the evaluated prediction misses `x t² / 2`. Order two in time. -/
theorem C58_derivatives_refuted {c : Cfg} (hs : Sizes c) (hr : 0 < c.nRms) (ho : c.oTi = 2) {der : List (List ℝ)}
    {D : Nat → Nat → Nat → Nat → ℝ} (hD : Ders c der D) {q md r : Nat} (h1 : q < c.nQtsE) (h2 : md < c.nMds) (h3 : r < c.nCrs)
    (hmd : c.ck 1 ≤ md) (hx : D 1 q md r ≠ 0) {buf buf' : List ℝ} (hb : buf.length = c.nQtsE * c.nMds * c.nCrs)
    (hb' : buf'.length = c.nQtsE * c.nMds * c.nCrs) {t : ℝ} (ht : t ≠ 0) :
    ∃ (pre : ℝ → List ℝ) (P : ℝ → ℝ) (tInt : List ℝ) (y : ℝ),
      (∀ τ, evalPoint c τ der buf = some (pre τ) ∧ (pre τ)[at3 c.nMds c.nCrs q md r]? = some (P τ)) ∧
      integrate c t der buf' = some tInt ∧ tInt[at3 c.nMds c.nCrs q md r]? = some y ∧
      y = (∫ τ in 0..t, P τ) + t ^ 2 / 2 * D 1 q md r ∧ y ≠ ∫ τ in 0..t, P τ := by
  have h := fun τ => evalPoint_spec (pt := τ) hs hD hb
  choose pre h0 h1' using h
  obtain ⟨tInt, g0, g1⟩ := integrate_spec (dt := t) hs hD hb'
  have e : taylorInt c.oTi t (fun n => if c.nRms = 0 ∧ ¬ md < c.ck n then 0 else D n q md r) =
      (∫ τ in 0..t, taylor c.oTi τ (fun n => if md < c.ck n then D n q md r else 0)) + t ^ 2 / 2 * D 1 q md r := by
    rw [integral_taylor, ho]
    have hr' : ¬ c.nRms = 0 := by omega
    have hm' : ¬ md < c.ck 1 := by omega
    simp [taylorInt, sum_range_succ, hr', hm', hs.ck0, h2]
  refine ⟨pre, _, tInt, _, fun τ => ⟨h0 τ, (h1' τ).2 q md r h1 h2 h3⟩, g0, g1.2 q md r h1 h2 h3, e, ?_⟩
  beta_reduce
  rw [e]
  intro h'
  have : t ^ 2 / 2 * D 1 q md r = 0 := by linarith
  rcases mul_eq_zero.1 this with h'' | h''
  · have : t ^ 2 = 0 := by linarith
    exact ht (pow_eq_zero_iff (two_ne_zero) |>.1 this)
  · exact hx h''

end Edge.Dg
