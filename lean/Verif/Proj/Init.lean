import Verif.Proj.Steps
/-!
Initial degrees of freedom and error norms: the loops over the elements.
-/
namespace Edge.Proj
open Edge Edge.Map Edge.Quad Edge.Basis

section
variable {pair : Nat → Nat → ℝ × ℝ} {e : Ent} {o nQts nCrs : Nat} {tol tolM : ℝ} {raw : List ℝ} {E : Exprs ℝ} {b : Bas ℝ}
  {elVe : Nat → Nat → Nat} {coords : Nat → Nat → ℝ} {g : Nat → Nat → (Nat → ℝ) → ℝ}

/-- Starting from quantities which are zero, the expression of a run leaves the coordinates alone and sets each quantity to a function of
the coordinates. -/
def FromZero (e : Ent) (nQts nCrs : Nat) (E : Exprs ℝ) (g : Nat → Nat → (Nat → ℝ) → ℝ) : Prop :=
  ∀ cr < nCrs, ∀ c q, (∀ qt < nQts, q qt = 0) →
    (∀ d < e.nDim, (E cr c q).1 d = c d) ∧ ∀ qt < nQts, (E cr c q).2 qt = g cr qt (cut e c)

/-- Whatever the quantities are, the expression of a run leaves the coordinates alone and sets each quantity to a function of the coordinates. -/
def FromAny (e : Ent) (nQts nCrs : Nat) (E : Exprs ℝ) (g : Nat → Nat → (Nat → ℝ) → ℝ) : Prop :=
  ∀ cr < nCrs, ∀ c q, (∀ d < e.nDim, (E cr c q).1 d = c d) ∧ ∀ qt < nQts, (E cr c q).2 qt = g cr qt (cut e c)

theorem FromAny.zero (h : FromAny e nQts nCrs E g) : FromZero e nQts nCrs E g := fun cr hcr c q _ => h cr hcr c q

/-! ### Initial values -/

/-- A value of an expression as a function of the reference coordinates of an element. -/
noncomputable def onRef (e : Ent) (ves : Nat → Nat → ℝ) (g : (Nat → ℝ) → ℝ) (x y z : ℝ) : ℝ := g (refToPhy e ves (vec x y z))

theorem dgEl_good (hs : Setup pair e o tol tolM raw) (hb : Good pair e o b) (hE : FromZero e nQts nCrs E g) {el : Nat}
    (hel : ElOk tol e (veCrds e elVe coords el)) (q0 : Nat → Nat → Nat → ℝ) (m : Mem ℝ) (dofs : Dofs ℝ) :
    ∃ r, dgEl Real.sqrt tol pair e o nQts nCrs E b elVe coords q0 el m dofs = some r ∧
      (∀ qt < nQts, ∀ cr < nCrs, ∀ (md : Nat) i, (idx e o)[md]? = some i →
        r.2 el qt md cr = coef pair e o (onRef e (veCrds e elVe coords el) (g cr qt)) i) ∧
      ∀ el' ≠ el, r.2 el' = dofs el' := by
  have hG := hs.gauss (o + 1) (by omega) le_rfl
  have hlen : ((refPts pair e (o + 1)).map (phys e (veCrds e elVe coords el))).length = nQps e (o + 1) := by
    rw [List.length_map, refPts_length, nQps_eq]
  rw [dgEl, qpts_phys (by omega) hG hs.tol0 hel]
  simp only [Option.bind_eq_bind, Option.bind_some, decide_eq_true hlen, check_true]
  obtain ⟨r, r1, -, r3⟩ := evalPts_good (reset := true) (e := e) (o := o) (E := E) (g := g) (Q := fun _ _ => True)
    (fun cr hcr c q hq => ⟨(hE cr hcr c q (by simpa using hq)).1, (hE cr hcr c q (by simpa using hq)).2, trivial⟩) hlen (m := m) (by simp) q0
  rw [r1, Option.bind_some]
  have hmod : ∀ qt < nQts, ∀ cr < nCrs, b.qpts2modal ((List.range (nQps e (o + 1))).map (r.2 cr qt)) (o + 1) =
      some ((idx e o).map (coef pair e o (onRef e (veCrds e elVe coords el) (g cr qt)))) := by
    intro qt hqt cr hcr
    refine qpts2modal_good hb (fun qp q hq => ?_)
    have hlt : qp < nQps e (o + 1) := by
      rw [nQps_eq, ← refPts_length pair]; exact (List.getElem?_eq_some_iff.1 hq).1
    rw [List.getElem?_map, List.getElem?_range hlt, Option.map_some, r3 cr hcr qt hqt qp (phys e (veCrds e elVe coords el) q)
      (by rw [List.getElem?_map, hq]; rfl), cut_phys]
    rfl
  obtain ⟨d, d1, d2, d3⟩ := forN_inv (n := nCrs) (s := dofs) (body := fun cr dofs => forN nQts (fun qt dofs => (do
    let mds ← b.qpts2modal ((List.range (nQps e (o + 1))).map (r.2 cr qt)) (o + 1)
    forN (nModes e o) (fun md (dofs : Dofs ℝ) => do
      let v ← rd mds md
      some (dofs.set el qt md cr v)) dofs : Option (Dofs ℝ))) dofs)
    (fun k t => (∀ qt < nQts, ∀ cr < k, ∀ (md : Nat) i, (idx e o)[md]? = some i →
        t el qt md cr = coef pair e o (onRef e (veCrds e elVe coords el) (g cr qt)) i) ∧ ∀ el' ≠ el, t el' = dofs el')
    ⟨fun _ _ _ h => absurd h (by omega), fun _ _ => rfl⟩ (by
      intro k t hk ht
      obtain ⟨u, u1, u2, u3⟩ := forN_inv (n := nQts) (s := t) (body := fun qt dofs => (do
        let mds ← b.qpts2modal ((List.range (nQps e (o + 1))).map (r.2 k qt)) (o + 1)
        forN (nModes e o) (fun md (dofs : Dofs ℝ) => do
          let v ← rd mds md
          some (dofs.set el qt md k v)) dofs : Option (Dofs ℝ)))
        (fun j u => (∀ qt < nQts, ∀ cr, (cr < k ∨ cr = k ∧ qt < j) → ∀ (md : Nat) i, (idx e o)[md]? = some i →
          u el qt md cr = coef pair e o (onRef e (veCrds e elVe coords el) (g cr qt)) i) ∧ ∀ el' ≠ el, u el' = dofs el')
        ⟨fun qt hqt cr hcr => ht.1 qt hqt cr (by omega), ht.2⟩ (by
          intro j u hj hu
          rw [hmod j hj k hk, Option.bind_eq_bind, Option.bind_some]
          obtain ⟨w, w1, w2, w3⟩ := forN_inv (n := nModes e o) (s := u) (body := fun md (dofs : Dofs ℝ) => (do
              let v ← rd ((idx e o).map (coef pair e o (onRef e (veCrds e elVe coords el) (g k j)))) md
              some (dofs.set el j md k v) : Option (Dofs ℝ)))
            (fun a w => (∀ qt < nQts, ∀ cr, ∀ (md : Nat) i, (idx e o)[md]? = some i → (cr < k ∨ cr = k ∧ qt < j ∨ cr = k ∧ qt = j ∧ md < a) →
              w el qt md cr = coef pair e o (onRef e (veCrds e elVe coords el) (g cr qt)) i) ∧ ∀ el' ≠ el, w el' = dofs el')
            ⟨fun qt hqt cr md i hi h => hu.1 qt hqt cr (by omega) md i hi, hu.2⟩ (by
              intro a w ha hw
              obtain ⟨i, hi⟩ : ∃ i, (idx e o)[a]? = some i := ⟨_, List.getElem?_eq_getElem (by rw [idx_length]; exact ha)⟩
              rw [rd, List.getElem?_map, hi]
              refine ⟨_, rfl, ?_, ?_⟩
              · intro qt hqt cr md i' hi' h
                simp only [Dofs.set]
                by_cases hc : qt = j ∧ md = a ∧ cr = k
                · rw [if_pos (by simpa using hc)]
                  obtain ⟨rfl, rfl, rfl⟩ := hc
                  rw [hi] at hi'
                  obtain rfl := Option.some.inj hi'
                  rfl
                · rw [if_neg (fun h => hc h.2)]
                  exact hw.1 qt hqt cr md i' hi' (by omega)
              · intro el' he
                funext q' m' c'
                simp only [Dofs.set]
                rw [if_neg (fun h => he h.1), hw.2 el' he])
          refine ⟨w, w1, fun qt hqt cr hcr md i hi => w2 qt hqt cr md i hi ?_, w3⟩
          have hlt : md < nModes e o := by rw [← idx_length]; exact (List.getElem?_eq_some_iff.1 hi).1
          omega)
      exact ⟨u, u1, fun qt hqt cr hcr => u2 qt hqt cr (by omega), u3⟩)
  simp only [Option.bind_eq_bind] at d1
  rw [d1]
  exact ⟨_, rfl, d2, d3⟩

/-- All elements of a schedule have the coefficients by quadrature, the others are left alone. -/
theorem dg_good (hs : Setup pair e o tol tolM raw) (hb : Good pair e o b) (hE : FromZero e nQts nCrs E g) {big : ℝ} {sched : List (Nat × Nat)}
    (hel : ∀ te ∈ sched, ElOk tol e (veCrds e elVe coords te.2)) (q0 : Nat → Nat → Nat → ℝ) (dofs : Dofs ℝ) :
    ∃ r, dg Real.sqrt tol big pair e o nQts nCrs E b elVe coords q0 sched dofs = some r ∧
      (∀ te ∈ sched, ∀ qt < nQts, ∀ cr < nCrs, ∀ (md : Nat) i, (idx e o)[md]? = some i →
        r te.2 qt md cr = coef pair e o (onRef e (veCrds e elVe coords te.2) (g cr qt)) i) ∧
      ∀ el, (∀ te ∈ sched, te.2 ≠ el) → r el = dofs el := by
  rw [dg]
  obtain ⟨r, r1, r2, r3⟩ := foldlM_inv (l := sched) (s := ((fun _ => bc big, dofs) : (Nat → Mem ℝ) × Dofs ℝ))
    (f := fun (s : (Nat → Mem ℝ) × Dofs ℝ) te => (do
      let r ← dgEl Real.sqrt tol pair e o nQts nCrs E b elVe coords q0 te.2 (s.1 te.1) s.2
      some (fun t => if t = te.1 then r.1 else s.1 t, r.2) : Option ((Nat → Mem ℝ) × Dofs ℝ)))
    (fun pre t => (∀ te ∈ pre, ∀ qt < nQts, ∀ cr < nCrs, ∀ (md : Nat) i, (idx e o)[md]? = some i →
        t.2 te.2 qt md cr = coef pair e o (onRef e (veCrds e elVe coords te.2) (g cr qt)) i) ∧
      ∀ el, (∀ te ∈ pre, te.2 ≠ el) → t.2 el = dofs el) ⟨fun _ h => absurd h (by simp), fun _ _ => rfl⟩ (by
      intro pre te post t hl ht
      obtain ⟨r, r1, r2, r3⟩ := dgEl_good hs hb hE (hel te (by rw [hl]; simp)) q0 (t.1 te.1) t.2
      refine ⟨_, by rw [r1]; rfl, ?_, ?_⟩
      · intro te' hte' qt hqt cr hcr md i hi
        by_cases h : te'.2 = te.2
        · rw [h]; exact r2 qt hqt cr hcr md i hi
        · simp only
          rw [r3 te'.2 h]
          refine ht.1 te' ?_ qt hqt cr hcr md i hi
          rcases List.mem_append.1 hte' with h' | h'
          · exact h'
          · exact absurd (by rw [List.mem_singleton.1 h']) h
      · intro el hel'
        simp only
        rw [r3 el (fun h => hel' te (by simp) h.symm), ht.2 el (fun te' h => hel' te' (List.mem_append_left _ h))])
  rw [r1]
  exact ⟨_, rfl, r2, r3⟩

/-! ### Errors -/

/-- Error norms of absolute differences with weights. -/
def NOk (n : Norms ℝ) (D : Nat → Nat → List (ℝ × ℝ)) : Prop :=
  ∀ qt cr, n.l1 qt cr = ((D qt cr).map (fun p => p.1 * p.2)).sum ∧ n.l2p2 qt cr = ((D qt cr).map (fun p => p.1 * p.1 * p.2)).sum ∧
    n.lInf qt cr = ((D qt cr).map Prod.fst).foldl max 0

theorem NOk.step {n : Norms ℝ} {D : Nat → Nat → List (ℝ × ℝ)} (h : NOk n D) (qt cr : Nat) (a r w : ℝ) :
    NOk (normStep n qt cr a r w) (fun q c => if q = qt ∧ c = cr then D q c ++ [(|a - r|, w)] else D q c) := by
  intro q c
  obtain ⟨h1, h2, h3⟩ := h q c
  simp only [normStep, set2]
  by_cases hc : q = qt ∧ c = cr
  · obtain ⟨rfl, rfl⟩ := hc
    simp only [and_self, if_true, List.map_append, List.sum_append, List.foldl_append, h1, h2, h3]
    simp
  · simp only [if_neg hc]
    exact ⟨h1, h2, h3⟩

/-- Value of the modal representation in an element at a point of the reference element. -/
noncomputable def recon (b : Bas ℝ) (dofs : Dofs ℝ) (el qt cr : Nat) (x y z : ℝ) : ℝ :=
  (b.modal2ptval x y z (fun md => dofs el qt md cr)).getD 0

/-- Absolute differences at the quadrature points of an element, with the weights of the element. -/
noncomputable def diffs (pair : Nat → Nat → ℝ × ℝ) (e : Ent) (o : Nat) (b : Bas ℝ) (dofs : Dofs ℝ) (ves : Nat → Nat → Nat → ℝ)
    (g : Nat → Nat → (Nat → ℝ) → ℝ) (qt cr el : Nat) : List (ℝ × ℝ) :=
  (refPts pair e (o + 1)).map (fun q => (|recon b dofs el qt cr q.x q.y q.z - onRef e (ves el) (g cr qt) q.x q.y q.z|, q.w * jDet e (ves el)))

theorem modes_fun (e : Ent) (o : Nat) (modes : Nat → ℝ) (md : Nat) (i : Idx) (h : (idx e o)[md]? = some i) : modes md = modes ((idx e o).idxOf i) := by
  obtain ⟨h1, h2⟩ := List.getElem?_eq_some_iff.1 h
  rw [← h2, List.Nodup.idxOf_getElem (idx_nodup e o)]

theorem refPtVal_recon (hs : Setup pair e o tol tolM raw) (hb : Good pair e o b) (dofs : Dofs ℝ) (el qt cr : Nat) {qp : Nat} {q : Qp ℝ}
    (hq : (refPts pair e (o + 1))[qp]? = some q) :
    b.modal2refPtVal (o + 1) qp (fun md => dofs el qt md cr) = some (recon b dofs el qt cr q.x q.y q.z) := by
  have hG := hs.gauss (o + 1) (by omega) le_rfl
  rw [recon, modal2refPtVal_good hb (modes_fun e o _) (by omega) le_rfl hq,
    modal2ptval_good hb (by have := hs.le; omega) (modes_fun e o _) (refPts_ok hG (List.mem_of_getElem? hq))]
  rfl

theorem errEl_good (hs : Setup pair e o tol tolM raw) (hb : Good pair e o b) {Q : Nat → (Nat → ℝ) → Prop}
    (hE : ∀ cr < nCrs, ∀ c q, Q cr q →
      (∀ d < e.nDim, (E cr c q).1 d = c d) ∧ (∀ qt < nQts, (E cr c q).2 qt = g cr qt (cut e c)) ∧ Q cr (E cr c q).2) {el : Nat}
    (hel : ElOk tol e (veCrds e elVe coords el)) (q0 : Nat → Nat → Nat → ℝ) (dofs : Dofs ℝ) {s : Mem ℝ × Norms ℝ} {D : Nat → Nat → List (ℝ × ℝ)}
    (hQ : ∀ cr < nCrs, Q cr (s.1.qts cr)) (hD : NOk s.2 D) :
    ∃ r, errEl Real.sqrt tol pair e o nQts nCrs E b elVe coords q0 dofs el s = some r ∧ (∀ cr < nCrs, Q cr (r.1.qts cr)) ∧
      NOk r.2 (fun qt cr => if qt < nQts ∧ cr < nCrs then D qt cr ++ diffs pair e o b dofs (veCrds e elVe coords) g qt cr el else D qt cr) := by
  have hG := hs.gauss (o + 1) (by omega) le_rfl
  have hlen : ((refPts pair e (o + 1)).map (phys e (veCrds e elVe coords el))).length = nQps e (o + 1) := by
    rw [List.length_map, refPts_length, nQps_eq]
  rw [errEl, qpts_phys (by omega) hG hs.tol0 hel]
  simp only [Option.bind_eq_bind, Option.bind_some, decide_eq_true hlen, check_true]
  obtain ⟨r, r1, r2, r3⟩ := evalPts_good (reset := false) (e := e) (o := o) (E := E) (g := g) (Q := Q)
    (fun cr hcr c q hq => hE cr hcr c q (by simpa using hq)) hlen (m := s.1) (fun _ => hQ) q0
  rw [r1, Option.bind_some]
  have hqN : ∀ cr, ∃ qN, (List.range nQts).mapM (fun qt => (List.range (nQps e (o + 1))).mapM (fun qp =>
      b.modal2refPtVal (o + 1) qp (fun md => dofs el qt md cr))) = some qN ∧ ∀ qt < nQts, ∃ l : List ℝ, qN[qt]? = some l ∧
        ∀ (qp : Nat) q, (refPts pair e (o + 1))[qp]? = some q → l[qp]? = some (recon b dofs el qt cr q.x q.y q.z) := by
    intro cr
    have hin : ∀ qt, ∃ l : List ℝ, (List.range (nQps e (o + 1))).mapM (fun qp => b.modal2refPtVal (o + 1) qp (fun md => dofs el qt md cr)) = some l ∧
        ∀ (qp : Nat) q, (refPts pair e (o + 1))[qp]? = some q → l[qp]? = some (recon b dofs el qt cr q.x q.y q.z) := by
      intro qt
      obtain ⟨l, l1, -, l3⟩ := mapM_ex (l := List.range (nQps e (o + 1))) (f := fun qp => b.modal2refPtVal (o + 1) qp (fun md => dofs el qt md cr))
        (fun qp hqp => ⟨_, refPtVal_recon hs hb dofs el qt cr (List.getElem?_eq_getElem (by
          rw [refPts_length, ← nQps_eq]; exact List.mem_range.1 hqp))⟩)
      refine ⟨l, l1, fun qp q hq => ?_⟩
      obtain ⟨y, y1, y2⟩ := l3 qp qp (by
        rw [List.getElem?_range]
        rw [nQps_eq, ← refPts_length pair]; exact (List.getElem?_eq_some_iff.1 hq).1)
      rw [refPtVal_recon hs hb dofs el qt cr hq] at y1
      rw [y2, ← y1]
    obtain ⟨qN, n1, -, n3⟩ := mapM_ex (l := List.range nQts) (f := fun qt => (List.range (nQps e (o + 1))).mapM (fun qp =>
      b.modal2refPtVal (o + 1) qp (fun md => dofs el qt md cr))) (fun qt _ => by
        obtain ⟨l, l1, -⟩ := hin qt
        exact ⟨l, l1⟩)
    refine ⟨qN, n1, fun qt hqt => ?_⟩
    obtain ⟨l, l1, l2⟩ := hin qt
    obtain ⟨y, y1, y2⟩ := n3 qt qt (by rw [List.getElem?_range hqt])
    rw [l1, Option.some.injEq] at y1
    exact ⟨l, by rw [y2, ← y1], l2⟩
  let A := fun qt cr => diffs pair e o b dofs (veCrds e elVe coords) g qt cr el
  have hA : ∀ qt cr, (A qt cr).length = nQps e (o + 1) := fun qt cr => by
    simp only [A, diffs]; rw [List.length_map, refPts_length, nQps_eq]
  obtain ⟨n, n1, n2⟩ := forN_inv (n := nCrs) (s := s.2) (body := fun cr n => (do
    let qN ← (List.range nQts).mapM (fun qt => (List.range (nQps e (o + 1))).mapM (fun qp =>
      b.modal2refPtVal (o + 1) qp (fun md => dofs el qt md cr)))
    forN nQts (fun qt n => forN (nQps e (o + 1)) (fun qp n => do
      let l ← rd qN qt
      let v ← rd l qp
      let p ← rd ((refPts pair e (o + 1)).map (phys e (veCrds e elVe coords el))) qp
      some (normStep n qt cr v (r.2 cr qt qp) p.w)) n) n : Option (Norms ℝ)))
    (fun k n => NOk n (fun qt cr => if qt < nQts ∧ cr < k then D qt cr ++ A qt cr else D qt cr)) (by simpa using hD) (by
      intro k n hk hn
      obtain ⟨qN, q1, q2⟩ := hqN k
      rw [q1, Option.bind_eq_bind, Option.bind_some]
      obtain ⟨n', m1, m2⟩ := forN_inv (n := nQts) (s := n) (body := fun qt n => forN (nQps e (o + 1)) (fun qp n => (do
        let l ← rd qN qt
        let v ← rd l qp
        let p ← rd ((refPts pair e (o + 1)).map (phys e (veCrds e elVe coords el))) qp
        some (normStep n qt k v (r.2 k qt qp) p.w) : Option (Norms ℝ))) n)
        (fun j n => NOk n (fun qt cr => if qt < nQts ∧ (cr < k ∨ cr = k ∧ qt < j) then D qt cr ++ A qt cr else D qt cr)) (by
          simpa using hn) (by
          intro j n hj hn
          obtain ⟨l, l1, l2⟩ := q2 j hj
          obtain ⟨n', m1, m2⟩ := forN_inv (n := nQps e (o + 1)) (s := n) (body := fun qp n => (do
            let l ← rd qN j
            let v ← rd l qp
            let p ← rd ((refPts pair e (o + 1)).map (phys e (veCrds e elVe coords el))) qp
            some (normStep n j k v (r.2 k j qp) p.w) : Option (Norms ℝ)))
            (fun a n => NOk n (fun qt cr => if qt = j ∧ cr = k then D qt cr ++ (A qt cr).take a else
              if qt < nQts ∧ (cr < k ∨ cr = k ∧ qt < j) then D qt cr ++ A qt cr else D qt cr)) (by
              have he : (fun qt cr => if qt = j ∧ cr = k then D qt cr ++ (A qt cr).take 0 else
                  if qt < nQts ∧ (cr < k ∨ cr = k ∧ qt < j) then D qt cr ++ A qt cr else D qt cr) =
                  (fun qt cr => if qt < nQts ∧ (cr < k ∨ cr = k ∧ qt < j) then D qt cr ++ A qt cr else D qt cr) := by
                funext qt cr
                by_cases h : qt = j ∧ cr = k
                · rw [if_pos h, if_neg (by omega)]; simp
                · rw [if_neg h]
              rw [he]; exact hn) (by
              intro a n ha hn
              obtain ⟨q, hq⟩ : ∃ q, (refPts pair e (o + 1))[a]? = some q := ⟨_, List.getElem?_eq_getElem (by
                rw [refPts_length, ← nQps_eq]; exact ha)⟩
              have hp : ((refPts pair e (o + 1)).map (phys e (veCrds e elVe coords el)))[a]? = some (phys e (veCrds e elVe coords el) q) := by
                rw [List.getElem?_map, hq]; rfl
              have hr := r3 k hk j hj a _ hp
              rw [cut_phys] at hr
              refine ⟨_, by simp only [rd, l1, Option.bind_eq_bind, Option.bind_some, l2 a q hq, hp]; rfl, ?_⟩
              have := hn.step j k (recon b dofs el j k q.x q.y q.z) (r.2 k j a) (phys e (veCrds e elVe coords el) q).w
              convert this using 1
              funext qt cr
              by_cases h : qt = j ∧ cr = k
              · obtain ⟨rfl, rfl⟩ := h
                have hAa : (A qt cr)[a]? = some (|recon b dofs el qt cr q.x q.y q.z - r.2 cr qt a|, (phys e (veCrds e elVe coords el) q).w) := by
                  simp only [A, diffs]
                  rw [List.getElem?_map, hq, hr]; rfl
                rw [if_pos ⟨rfl, rfl⟩, if_pos ⟨rfl, rfl⟩, if_pos ⟨rfl, rfl⟩, List.take_succ, hAa, List.append_assoc]; rfl
              · rw [if_neg h, if_neg h, if_neg h])
          refine ⟨n', m1, ?_⟩
          convert m2 using 1
          funext qt cr
          by_cases h : qt = j ∧ cr = k
          · rw [if_pos h, if_pos (by omega), ← hA qt cr, List.take_length]
          · rw [if_neg h]
            by_cases h2 : qt < nQts ∧ (cr < k ∨ cr = k ∧ qt < j)
            · rw [if_pos h2, if_pos (by omega)]
            · rw [if_neg h2, if_neg (by omega)])
      refine ⟨n', m1, ?_⟩
      convert m2 using 1
      funext qt cr
      by_cases h2 : qt < nQts ∧ cr < k + 1
      · rw [if_pos h2, if_pos (by omega)]
      · rw [if_neg h2, if_neg (by omega)])
  simp only [Option.bind_eq_bind] at n1
  rw [n1]
  exact ⟨_, rfl, r2 rfl, n2⟩

theorem err_good (hs : Setup pair e o tol tolM raw) (hb : Good pair e o b) {Q : Nat → (Nat → ℝ) → Prop}
    (hE : ∀ cr < nCrs, ∀ c q, Q cr q →
      (∀ d < e.nDim, (E cr c q).1 d = c d) ∧ (∀ qt < nQts, (E cr c q).2 qt = g cr qt (cut e c)) ∧ Q cr (E cr c q).2) {first size : Nat}
    (hel : ∀ i < size, ElOk tol e (veCrds e elVe coords (first + i))) {big : ℝ} (hQ : ∀ cr < nCrs, Q cr (fun _ => big))
    (q0 : Nat → Nat → Nat → ℝ) (dofs : Dofs ℝ) :
    ∃ n, err Real.sqrt tol big pair e o nQts nCrs E b elVe coords q0 dofs first size = some n ∧
      NOk n (fun qt cr => if qt < nQts ∧ cr < nCrs then
        (List.range size).flatMap (fun i => diffs pair e o b dofs (veCrds e elVe coords) g qt cr (first + i)) else []) := by
  have hG := hs.gauss (o + 1) (by omega) le_rfl
  have hlen : (refPts pair e (o + 1)).length = nQps e (o + 1) := by rw [refPts_length, nQps_eq]
  rw [err, qpts_ref (by omega) hG hs.tol0 hs.tol1]
  simp only [Option.bind_eq_bind, Option.bind_some, decide_eq_true hlen, check_true]
  obtain ⟨r, r1, -, r3⟩ := forN_inv (n := size) (s := ((bc big, ⟨fun _ _ => 0, fun _ _ => 0, fun _ _ => 0⟩) : Mem ℝ × Norms ℝ))
    (body := fun i s => errEl Real.sqrt tol pair e o nQts nCrs E b elVe coords q0 dofs (first + i) s)
    (fun k s => (∀ cr < nCrs, Q cr (s.1.qts cr)) ∧ NOk s.2 (fun qt cr => if qt < nQts ∧ cr < nCrs then
        (List.range k).flatMap (fun i => diffs pair e o b dofs (veCrds e elVe coords) g qt cr (first + i)) else []))
    ⟨hQ, fun qt cr => by simp⟩ (by
      intro k s hk hsK
      obtain ⟨r, r1, r2, r3⟩ := errEl_good hs hb hE (hel k hk) q0 dofs hsK.1 hsK.2
      refine ⟨r, r1, r2, ?_⟩
      convert r3 using 1
      funext qt cr
      by_cases h : qt < nQts ∧ cr < nCrs
      · rw [if_pos h, if_pos h, if_pos h, List.range_succ, List.flatMap_append]; simp
      · rw [if_neg h, if_neg h, if_neg h])
  rw [r1]
  exact ⟨_, rfl, r3⟩

end
end Edge.Proj
