import Verif.Rate.Total
import Verif.Step.Props
/-!
Solutions are reproduced by local time stepping, in terms of modes.
-/
namespace Edge.Rate
open Edge Edge.Map Edge.Quad Edge.Basis Edge.Proj Edge.Gen Edge.Flux Edge.Step

variable {c : Dg.Cfg} {e : Ent} {o : Nat} {els : List (REl ℝ)} {dt : Nat → Nat → ℝ} {tg : Nat → Nat} {F : Nat → Nat → MFace ℝ} {S FL FN : Nat → Nat → Nat → Nat → ℝ}

/-- The modes agree, for all quantities, modes and fused simulations of the solver. -/
def Agree (c : Dg.Cfg) (u v : Modes) : Prop := ∀ q < c.nQtsE, ∀ md < c.nMds, ∀ r < c.nCrs, u q md r = v q md r

theorem Agree.add {u v u' v' : Modes} (h : Agree c u v) (h' : Agree c u' v') : Agree c (u + u') (v + v') := fun q hq md hmd r hr => by
  simp only [Pi.add_apply, h q hq md hmd r hr, h' q hq md hmd r hr]

theorem Agree.sub {u v u' v' : Modes} (h : Agree c u v) (h' : Agree c u' v') : Agree c (u - u') (v - v') := fun q hq md hmd r hr => by
  simp only [Pi.sub_apply, h q hq md hmd r hr, h' q hq md hmd r hr]

theorem Agree.trans {u v w : Modes} (h : Agree c u v) (h' : Agree c v w) : Agree c u w := fun q hq md hmd r hr => (h q hq md hmd r hr).trans (h' q hq md hmd r hr)

theorem rhs_agree (hr0 : c.nRms = 0) (G S : Nat → Nat → Nat → ℝ) {u v : Modes} (h : Agree c u v) (a a' : Nat → Modes) {q md r : Nat} (hr : r < c.nCrs) :
    Dg.rhsE c G S S u a q md r = Dg.rhsE c G S S v a' q md r := by
  simp only [Dg.rhsE, hr0, Finset.range_zero, Finset.sum_empty]
  congr 1
  refine Finset.sum_congr rfl (fun di _ => Finset.sum_congr rfl (fun p hp => ?_))
  congr 1
  exact Finset.sum_congr rfl (fun m hm => by rw [h p (Finset.mem_range.1 hp) m (Finset.mem_range.1 hm) r hr])

theorem der_agree (hr0 : c.nRms = 0) (S : Nat → Nat → Nat → ℝ) {u v : Modes} (h : Agree c u v) (n : Nat) : Agree c (der c e o S u n) (der c e o S v n) := by
  induction n with
  | zero => exact h
  | succ n ih =>
    intro q hq md hmd r hr
    exact rhs_agree hr0 (GT e o) S ih _ _ hr

theorem tInt_agree (hr0 : c.nRms = 0) (S : Nat → Nat → Nat → ℝ) {u v : Modes} (h : Agree c u v) (dT : ℝ) : Agree c (tInt c e o S u dT) (tInt c e o S v dT) := by
  intro q hq md hmd r hr
  simp only [tInt, Dg.taylorInt]
  exact Finset.sum_congr rfl (fun n _ => by rw [der_agree hr0 S h n q hq md hmd r hr])

theorem recon_agree (hm : c.nMds = nModes e o) {u v : Modes} (h : Agree c u v) {q r : Nat} (hq : q < c.nQtsE) (hr : r < c.nCrs) :
    recon e o (fun m => u q m r) = recon e o (fun m => v q m r) := by
  funext p
  simp only [recon]
  exact Finset.sum_congr rfl (fun m hm' => by rw [h q hq m (by rw [hm]; exact Finset.mem_range.1 hm') r hr])

theorem locTerm_agree (hc : Fit c e o) (S FL : Nat → Nat → Nat → ℝ) {u v : Modes} (h : Agree c u v) : Agree c (locTerm c e o S FL u) (locTerm c e o S FL v) := by
  intro q hq md hmd r hr
  simp only [locTerm]
  rw [rhs_agree hc.rms (GV e o) S h _ (fun _ => v) hr]
  congr 2
  refine Finset.sum_congr rfl (fun fa _ => ?_)
  congr 1
  funext x y
  exact Finset.sum_congr rfl (fun p hp => by rw [recon_agree hc.mds h (Finset.mem_range.1 hp) hr])

theorem neiTerm_agree (hc : Fit c e o) (F : Nat → MFace ℝ) (FN : Nat → Nat → Nat → ℝ) {u v : Nat → Modes} (h : ∀ fa < e.nFa, (F fa).outflow = false → Agree c (u fa) (v fa)) :
    Agree c (neiTerm c e o F FN u) (neiTerm c e o F FN v) := by
  intro q hq md hmd r hr
  simp only [neiTerm]
  congr 1
  refine Finset.sum_congr rfl (fun fa hfa => ?_)
  rcases hout : (F fa).outflow with _ | _
  · rw [if_neg (by simp), if_neg (by simp)]
    congr 1
    funext x y
    exact Finset.sum_congr rfl (fun p hp => by rw [recon_agree hc.mds (h fa (Finset.mem_range.1 hfa) hout) (Finset.mem_range.1 hp) hr])
  · rfl

/-- Time integrals of a solution add up. -/
theorem tInt_parts (he : e = .tria ∨ e = .tet) (ho : 0 < o) (hc : Fit c e o) {S : Nat → Nat → Nat → ℝ} {U : ℝ → Modes} (h : Solution c e o S U) (s a b : ℝ) :
    Agree c (tInt c e o S (U s) (a + b)) (tInt c e o S (U s) a + tInt c e o S (U (s + a)) b) := by
  intro q hq md hmd r hr
  rw [hc.mds] at hmd
  have hcont : Continuous (fun τ => U τ q md r) := continuous_iff_continuousAt.2 (fun τ => (h.der hc 0 hq hmd hr τ).continuousAt)
  simp only [Pi.add_apply, tInt_pred, h.unique he ho hc _ _ hq hmd hr]
  have h1 : Continuous (fun τ => U (s + τ) q md r) := hcont.comp (continuous_const.add continuous_id)
  rw [← intervalIntegral.integral_add_adjacent_intervals (a := 0) (b := a) (c := a + b) (h1.intervalIntegrable _ _) (h1.intervalIntegrable _ _)]
  congr 1
  have h2 := intervalIntegral.integral_comp_add_left (a := 0) (b := b) (fun τ => U (s + τ) q md r) a
  rw [add_zero] at h2
  rw [← h2]
  simp only [add_assoc]

/-- Time steps of the groups, up to those of the elements `0 .. N-1`: the steps of a group are split in halves by the next smaller group. -/
def Halves (tg : Nat → Nat) (N : Nat) (dt : Nat → Nat → ℝ) : Prop :=
  ∀ el < N, ∀ g < tg el, ∀ k, dt g (2 * k) = 1 / 2 * dt (g + 1) k ∧ dt g (2 * k + 1) = 1 / 2 * dt (g + 1) k

/-- Time which a group reaches by `k` steps. -/
def tm (dt : Nat → Nat → ℝ) (g k : Nat) : ℝ := ∑ i ∈ Finset.range k, dt g i

theorem tm_two {N el : Nat} (h : Halves tg N dt) (hel : el < N) {g : Nat} (hg : g < tg el) (k : Nat) : tm dt g (2 * k) = tm dt (g + 1) k := by
  rw [tm, ← sum_pairs, tm]
  refine Finset.sum_congr rfl (fun i _ => ?_)
  rw [(h el hel g hg i).1, (h el hel g hg i).2]
  ring

theorem tm_pow {N el : Nat} (h : Halves tg N dt) (hel : el < N) {g : Nat} (hg : g ≤ tg el) (n : Nat) : tm dt 0 (n * 2 ^ g) = tm dt g n := by
  induction g generalizing n with
  | zero => rw [pow_zero, mul_one]
  | succ g ih => rw [← tm_two h hel (by omega), ← ih (by omega), pow_succ]; congr 1; ring

theorem inside_le {R : Nat → Prop} {n m el : Nat} (hnm : n ≤ m) (h : Inside e F R m el) : Inside e F R n el := by
  induction m with
  | zero => rwa [Nat.le_zero.1 hnm]
  | succ m ih =>
    by_cases hn : n = m + 1
    · rwa [hn]
    · exact ih (by omega) h.less

theorem inside_nb {R : Nat → Prop} {n el fa : Nat} (h : Inside e F R (n + 1) el) (hfa : fa < e.nFa) (hout : (F el fa).outflow = false) : Inside e F R n ((F el fa).nb el) := by
  unfold MFace.nb
  rcases hf : (F el fa).freeSurface with _ | _
  · exact h.2 fa hfa hout hf
  · exact h.less

/-- Step of an element, whose modes and those of its neighbors are those of the solution. -/
theorem step_agree (he : e = .tria ∨ e = .tet) (ho : 0 < o) (hF : Fits c e o) (hc : Fit c e o) {U : Nat → ℝ → Modes} {el : Nat} (hs : Solution c e o (S el) (U el)) {s dT : ℝ}
    (hcons : Consistent c e o (S el) (FL el) (FN el) (fun fa => (F el fa).toIn []) (tInt c e o (S el) (U el s) dT) (fun fa => tInt c e o (S ((F el fa).nb el)) (U ((F el fa).nb el) s) dT)) :
    Agree c (U el s + locTerm c e o (S el) (FL el) (tInt c e o (S el) (U el s) dT) + neiTerm c e o (F el) (FN el) (fun fa => tInt c e o (S ((F el fa).nb el)) (U ((F el fa).nb el) s) dT))
      (U el (s + dT)) := by
  intro q hq md hmd r hr
  rw [hc.mds] at hmd
  have h2 := mesh_consistent hF hc (el := el) (F := F) (S := S) (FL := FL) (FN := FN) (u := fun el => U el s) (dT := dT) hcons hq hmd hr
  beta_reduce at h2
  rw [der_top he hc (S el) _ hmd, mul_zero, add_zero, hs.unique he ho hc s dT hq hmd hr] at h2
  rw [← h2]
  simp only [Pi.add_apply, locTerm, neiTerm]
  rw [rhs_aux hc.rms _ _ _ (fun _ => tInt c e o (S el) (U el s) dT) (fun _ => U el s)]
  ring

/-- Time integrals of the neighbors, when their modes are those of the solution. -/
theorem src_agree (he : e = .tria ∨ e = .tet) (ho : 0 < o) (hc : Fit c e o) {N : Nat} (hd : Halves tg N dt) {U : Nat → ℝ → Modes} {V : Nat → Nat → Modes} {el ne k : Nat} (hel : el < N) (hne : ne < N) {s : ℝ}
    (hs : Solution c e o (S ne) (U ne)) (ht : tg ne = tg el ∨ tg el = tg ne + 1 ∨ tg ne = tg el + 1)
    (h1 : tg ne = tg el → Agree c (V ne k) (U ne (s + tm dt (tg ne) k)))
    (h2 : tg el = tg ne + 1 → Agree c (V ne (2 * k)) (U ne (s + tm dt (tg ne) (2 * k))) ∧ Agree c (V ne (2 * k + 1)) (U ne (s + tm dt (tg ne) (2 * k + 1))))
    (h3 : tg ne = tg el + 1 → Agree c (V ne (k / 2)) (U ne (s + tm dt (tg ne) (k / 2)))) :
    Agree c (src c e o dt tg S V el ne k) (tInt c e o (S ne) (U ne (s + tm dt (tg el) k)) (dt (tg el) k)) := by
  unfold src
  by_cases e1 : tg ne = tg el
  · rw [if_pos e1, ← e1]
    exact tInt_agree hc.rms _ (h1 e1) _
  rw [if_neg e1]
  by_cases e2 : tg el = tg ne + 1
  · rw [if_pos e2]
    obtain ⟨a1, a2⟩ := h2 e2
    have hp := tInt_parts he ho hc hs (s + tm dt (tg ne) (2 * k)) (dt (tg ne) (2 * k)) (dt (tg ne) (2 * k + 1))
    have t1 : dt (tg ne) (2 * k) + dt (tg ne) (2 * k + 1) = dt (tg el) k := by rw [(hd el hel _ (by omega) _).1, (hd el hel _ (by omega) _).2, e2]; ring
    have t2 : s + tm dt (tg ne) (2 * k) + dt (tg ne) (2 * k) = s + tm dt (tg ne) (2 * k + 1) := by rw [tm, tm, Finset.sum_range_succ, add_assoc]
    rw [t1, t2] at hp
    rw [e2, ← tm_two hd hel (by omega), ← e2]
    refine Agree.trans ((tInt_agree hc.rms _ a1 _).add (tInt_agree hc.rms _ a2 _)) ?_
    exact fun q hq md hmd r hr => (hp q hq md hmd r hr).symm
  have e3 : tg ne = tg el + 1 := by tauto
  have a := h3 e3
  rw [if_neg e2]
  by_cases hk : k % 2 = 0
  · obtain ⟨j, rfl⟩ : ∃ j, k = 2 * j := ⟨k / 2, by omega⟩
    rw [if_pos hk]
    rw [show 2 * j / 2 = j by omega] at a ⊢
    rw [tm_two hd hne (by omega), ← e3, (hd ne hne _ (by omega) _).1, ← e3]
    exact tInt_agree hc.rms _ a _
  · obtain ⟨j, rfl⟩ : ∃ j, k = 2 * j + 1 := ⟨k / 2, by omega⟩
    rw [if_neg hk]
    rw [show (2 * j + 1) / 2 = j by omega] at a ⊢
    have hp := tInt_parts he ho hc hs (s + tm dt (tg ne) j) (1 / 2 * dt (tg ne) j) (1 / 2 * dt (tg ne) j)
    have t1 : 1 / 2 * dt (tg ne) j + 1 / 2 * dt (tg ne) j = dt (tg ne) j := by ring
    have t2 : s + tm dt (tg ne) j + 1 / 2 * dt (tg ne) j = s + tm dt (tg el) (2 * j + 1) := by
      have t3 : tm dt (tg el) (2 * j + 1) = tm dt (tg el) (2 * j) + dt (tg el) (2 * j) := by rw [tm, tm, Finset.sum_range_succ]
      rw [t3, tm_two hd hne (by omega), (hd ne hne _ (by omega) _).1, ← e3, add_assoc]
    rw [t1, t2] at hp
    rw [(hd ne hne _ (by omega) _).2, ← e3]
    refine Agree.trans ((tInt_agree hc.rms _ a _).sub (tInt_agree hc.rms _ a _)) ?_
    intro q hq md hmd r hr
    have := hp q hq md hmd r hr
    simp only [Pi.add_apply, Pi.sub_apply] at this ⊢
    linarith

/-- The modes before all steps are those of the solution, in elements which are far enough from the boundary of the region. -/
theorem modes_agree (he : e = .tria ∨ e = .tet) (ho : 0 < o) (hF : Fits c e o) (hc : Fit c e o) (hE : ElsOk c e tg els F S FL FN) (hd : Halves tg els.length dt) {R : Nat → Prop} {U : Nat → ℝ → Modes}
    (hU : ∀ el < els.length, R el → Solution c e o (S el) (U el))
    (hcons : ∀ s dT, ∀ el < els.length, Inside e F R 1 el → Consistent c e o (S el) (FL el) (FN el) (fun fa => (F el fa).toIn []) (tInt c e o (S el) (U el s) dT)
      (fun fa => tInt c e o (S ((F el fa).nb el)) (U ((F el fa).nb el) s) dT)) {s : ℝ} {n0 : Nat} {u0 : Nat → Modes} (h0 : ∀ el < els.length, Inside e F R n0 el → Agree c (u0 el) (U el s))
    {evs : List Ev} (hev : Ordered e tg F els.length evs) {V : Nat → Nat → Modes} {st' : List (RSt ℝ)}
    (hV : ∀ el E, els[el]? = some E → ∃ x, st'[el]? = some x ∧ EInv c e o dt tg F S FL FN u0 V E el (evs.count (.loc el)) (evs.count (.nei el)) x) :
    ∀ T el k, k * 2 ^ tg el = T → el < els.length → k ≤ evs.count (.nei el) → Inside e F R (n0 + T) el → Agree c (V el k) (U el (s + tm dt (tg el) k)) := by
  intro T
  induction T using Nat.strong_induction_on with
  | _ T ih =>
  intro el k hT hel hk hin
  obtain ⟨x, -, hx⟩ := hV el _ (List.getElem?_eq_getElem hel)
  cases k with
  | zero =>
    rw [hx.start, tm, Finset.range_zero, Finset.sum_empty, add_zero]
    exact h0 el hel (inside_le (by omega) hin)
  | succ k =>
    have hp : ∀ a : Nat, 0 < 2 ^ a := fun a => Nat.two_pow_pos a
    rw [hx.hist k (by omega), next]
    have hme := ih (k * 2 ^ tg el) (by rw [← hT]; exact Nat.mul_lt_mul_of_pos_right (by omega) (hp _)) el k rfl hel (by omega) (inside_le (by rw [← hT]; nlinarith [hp (tg el)]) hin)
    have hin1 : Inside e F R 1 el := inside_le (by rw [← hT]; nlinarith [hp (tg el)]) hin
    have hst := step_agree he ho hF hc (hU el hel hin.region) (hcons (s + tm dt (tg el) k) (dt (tg el) k) el hel hin1)
    have htm : s + tm dt (tg el) (k + 1) = s + tm dt (tg el) k + dt (tg el) k := by rw [tm, tm, Finset.sum_range_succ, add_assoc]
    rw [htm]
    refine Agree.trans (Agree.add (hme.add (locTerm_agree hc _ _ (tInt_agree hc.rms _ hme _))) (neiTerm_agree hc _ _ (fun fa hfa hout => ?_))) hst
    have hne := nb_lt hE hel hfa hout
    obtain ⟨y, -, hy⟩ := hV _ _ (List.getElem?_eq_getElem hne)
    obtain ⟨r1, r2, r3⟩ := hev.read hfa hout
    have hle := hy.le
    -- modes of the neighbor before an earlier step
    have hi : ∀ i, i < evs.count (.loc ((F el fa).nb el)) → i * 2 ^ tg ((F el fa).nb el) + 1 ≤ T → Agree c (V ((F el fa).nb el) i) (U ((F el fa).nb el) (s + tm dt (tg ((F el fa).nb el)) i)) := by
      intro i hi1 hi2
      refine ih _ hi2 _ i rfl hne (by omega) (inside_nb (inside_le ?_ hin) hfa hout)
      omega
    refine src_agree he ho hc hd hel hne (hU _ hne (inside_nb hin1 hfa hout)) (nb_tg hE hel hfa hout) (fun t => hi k ?_ ?_) (fun t => ⟨hi _ ?_ ?_, hi _ ?_ ?_⟩) (fun t => hi _ ?_ ?_)
    · have := r1 t
      omega
    · rw [t, ← hT]
      nlinarith [hp (tg el)]
    · have := r2 t
      omega
    · rw [← hT, t, pow_succ]
      nlinarith [hp (tg ((F el fa).nb el))]
    · have := r2 t
      omega
    · rw [← hT, t, pow_succ]
      nlinarith [hp (tg ((F el fa).nb el))]
    · have := r3 t
      omega
    · rw [← hT, t, pow_succ]
      have h5 : k / 2 * 2 ≤ k := by omega
      nlinarith [hp (tg el), Nat.mul_le_mul_right (2 ^ tg el) h5]

end Edge.Rate
