import Verif.Work.Props
import Verif.Rate.Exact
import Verif.Rate.Cons
import Verif.Time.Props
/-!
C104: simulations. The parts of the code put together: time steps of the groups, work packages, threads, bits of the elements.
-/
namespace Edge.Work
open Edge Edge.Sched Edge.Shared Edge.Rate Edge.Step Edge.Lts

/-- Distribution of the elements of a rank: numbers of inner and of send elements (and of their point sources) of the time groups. -/
structure Layout where
  inn : List (Nat × Nat)
  snd : List (Nat × Nat)

/-- Numbers of elements. -/
def Layout.nIn (L : Layout) : List Nat := L.inn.map (·.1)
def Layout.nSe (L : Layout) : List Nat := L.snd.map (·.1)
def Layout.nTgs (L : Layout) : Nat := L.inn.length

/-- At most 16 time groups (claim C04), and `N` elements. -/
structure Layout.Ok (L : Layout) (N : Nat) (tg : Nat → Nat) : Prop where
  pos : 0 < L.nTgs
  max : L.nTgs ≤ 16
  same : L.snd.length = L.inn.length
  total : N = L.nIn.sum + L.nSe.sum
  tg : ∀ el < N, InTg L.nIn L.nSe el (tg el)

/-- A synchronization interval, `Manager::simulate` (src/time/Manager.cpp:198-239): the state of the time groups and of the shared memory parallelization before it, the parameters of the threads, the
duration, and the state in which the threads end. -/
structure Itv where
  grp : Nat → Time.Group
  sh : Sh
  p : Params
  dtFun : ℚ
  T : ℚ
  x : WState

/-- Time steps of the groups (src/time/TimeGroupStatic.cpp:69-111). -/
noncomputable def Itv.dt (i : Itv) (g k : Nat) : ℝ := ((((i.grp g).setUp i.dtFun i.T).after k).dt : ℚ)

/-- What the interval is in an execution of the code: groups after any history; packages after any history of registrations and load balancings; each group performs the steps until `finished`; the
threads reach the end of the interval by any interleaving. -/
structure Itv.Ok (L : Layout) (i : Itv) : Prop where
  dtFun : 0 < i.dtFun
  T : 0 ≤ i.T
  grps : ∃ big : ℚ, ∀ g < L.nTgs, ∃ c, Time.Reach big L.nTgs g c (i.grp g)
  steps : ∀ g < L.nTgs, ∃ g', Time.Runs ((i.grp g).setUp i.dtFun i.T) (i.p.N g) g'
  pkgs : ∃ A sep n rcv chars st, 0 < A.zeroTime ∧ Shared.Reach A sep n (setupRegs rcv chars L.inn L.snd) st i.sh
  nTgs : i.p.nTgs = L.nTgs
  nWrk : i.p.nWrk = i.sh.nWrks
  order : ∀ g r, (g, r) ∈ i.p.order ↔ g < i.p.nTgs ∧ r < 6
  reach : WReach i.p (shareOf i.sh) i.x
  done : i.x.s.finished = true

variable {L : Layout} {N : Nat} {tg : Nat → Nat}

theorem Layout.Ok.lt (hL : L.Ok N tg) {el : Nat} (hel : el < N) : tg el < L.nTgs := by
  rcases hL.tg el hel with ⟨h, -⟩ | ⟨h, -⟩
  · rw [Layout.nIn, List.length_map] at h; exact h
  · rw [Layout.nSe, List.length_map, hL.same] at h; exact h

theorem Itv.Ok.wf {i : Itv} (hL : L.Ok N tg) (hi : i.Ok L) : i.p.WF := by
  obtain ⟨big, hg⟩ := hi.grps
  refine ⟨by rw [hi.nTgs]; exact hL.pos, fun g h => ?_, fun g h => ?_, hi.order⟩
  · rw [hi.nTgs] at h
    obtain ⟨c, hr⟩ := hg g h
    obtain ⟨g', hs⟩ := hi.steps g h
    have hf := hs.2.1
    rw [hs.1] at hf
    simp only [Time.Group.finished, Time.after_nTsSync, Time.setUp_nTsSync, Time.after_nTsReqFull, Time.after_maxDiv, Time.setUp_maxDiv, beq_iff_eq, Nat.zero_add] at hf
    have := (Time.reach_mul hr).2 ▸ Time.maxDiv_pos h hL.max
    omega
  · rw [hi.nTgs] at h
    obtain ⟨c, hr⟩ := hg g (by omega)
    obtain ⟨c', hr'⟩ := hg (g + 1) h
    obtain ⟨g', hs⟩ := hi.steps g (by omega)
    obtain ⟨g'', hs'⟩ := hi.steps (g + 1) h
    exact Time.C03_twice_as_many h hL.max hr hr' i.dtFun i.T hs hs'

/-- The time steps of a group are halves of those of the next one. -/
theorem dt_half {big big' c c' : ℚ} {n g : Nat} (hg : g + 1 < n) (h16 : n ≤ 16) {a b : Time.Group} (ha : Time.Reach big n g c a) (hb : Time.Reach big' n (g + 1) c' b) {dtFun T : ℚ} (hd : 0 < dtFun)
    (hT : 0 ≤ T) (k j : Nat) (hj : j < 2) : ((a.setUp dtFun T).after (2 * k + j)).dt = 1 / 2 * ((b.setUp dtFun T).after k).dt := by
  obtain ⟨hf, hm⟩ := Time.reach_mul ha
  obtain ⟨hf2, hm2⟩ := Time.reach_mul hb
  have pa := Time.maxDiv_pos (show g < n by omega) h16
  have pb := Time.maxDiv_pos hg h16
  have qa := Time.funMul_pos (show g < n by omega) h16
  have qb := Time.funMul_pos hg h16
  rw [← hm] at pa; rw [← hm2] at pb; rw [← hf] at qa; rw [← hf2] at qb
  rw [Time.doubleShort_eq _ (by omega)] at hf hm hf2 hm2
  have hff : b.funMul = 2 * a.funMul := by rw [hf, hf2, pow_succ]; ring
  have hmm : a.maxDiv = 2 * b.maxDiv := by
    rw [hm, hm2, show n - (g + 1) = (n - (g + 1 + 1)) + 1 by omega, pow_succ]; ring
  have hprod : a.funMul * a.maxDiv = b.funMul * b.maxDiv := by rw [hmm, hff]; ring
  have e1 := Time.dtSet_after _ (Time.setUp_dtSet a dtFun T) (2 * k + j)
  have e2 := Time.dtSet_after _ (Time.setUp_dtSet b dtFun T) k
  unfold Time.DtSet at e1 e2
  simp only [Time.after_nTsSync, Time.setUp_nTsSync, Time.after_nTsReqFull, Time.after_dtFull, Time.after_dtSync, Time.setUp_dtFull, Nat.zero_add] at e1 e2
  have hreq : (a.setUp dtFun T).nTsReqFull = 2 * (b.setUp dtFun T).nTsReqFull := by
    rw [Time.setUp_nTsReqFull, Time.setUp_nTsReqFull, hprod, hmm]; ring
  have hb' : (b.maxDiv : ℚ) ≠ 0 := by exact_mod_cast (Nat.pos_iff_ne_zero.mp pb)
  rw [e1, e2, hreq]
  by_cases hk : k < (b.setUp dtFun T).nTsReqFull
  · rw [if_pos (by omega), if_pos hk, hff]
    push_cast
    ring
  · rw [if_neg (by omega), if_neg hk, Time.dtSync_eq a dtFun T hd hT qa pa, Time.dtSync_eq b dtFun T hd hT qb pb, hprod, hmm]
    push_cast
    field_simp

theorem Itv.Ok.ran {i : Itv} (hL : L.Ok N tg) (hi : i.Ok L) : Ran i.p tg N i.x.out := by
  obtain ⟨A, sep, n, rcv, chars, st, hz, hr⟩ := hi.pkgs
  exact ⟨hi.wf hL, _, i.x, C103_packages hz hr hL.same hi.nTgs hi.nWrk hL.total hL.tg, hi.reach, hi.done, rfl⟩

theorem sum_cast (f : Nat → ℚ) (n : Nat) : ∑ k ∈ Finset.range n, (f k : ℝ) = ((((List.range n).map f).sum : ℚ) : ℝ) := by
  induction n with
  | zero => simp
  | succ n ih => rw [Finset.sum_range_succ, ih, List.range_succ]; simp

/-- C104: an interval of the simulation. The time steps of the groups are split in halves by the next smaller group, the updates have the rhythm of local time stepping, are complete, and advance all
elements by the duration of the interval. -/
theorem C104_interval {K : Type} {e : Map.Ent} {F : Nat → Nat → MFace K} {i : Itv} (hL : L.Ok N tg) (hi : i.Ok L) (hF : ∀ el < N, ∀ fa < e.nFa, (F el fa).outflow = false → (F el fa).nb el < N) :
    Halves tg N i.dt ∧ Ordered e tg F N i.x.out ∧ Complete tg N i.x.out (i.p.N 0) ∧ tm i.dt 0 (i.p.N 0) = i.T := by
  obtain ⟨h1, h2⟩ := C103_interval (F := F) (hi.ran hL) hF
  obtain ⟨big, hg⟩ := hi.grps
  refine ⟨fun el hel g hlt k => ?_, h1, h2, ?_⟩
  · have hlt' := hL.lt hel
    obtain ⟨c, ha⟩ := hg g (by omega)
    obtain ⟨c', hb⟩ := hg (g + 1) (by omega)
    have a := dt_half (by omega) hL.max ha hb hi.dtFun hi.T k 0 (by omega)
    have b := dt_half (by omega) hL.max ha hb hi.dtFun hi.T k 1 (by omega)
    simp only [Itv.dt]
    rw [Nat.add_zero] at a
    rw [a, b]
    constructor <;> push_cast <;> ring
  · obtain ⟨c, ha⟩ := hg 0 hL.pos
    obtain ⟨n, g', -, b2, -, b4⟩ := Time.C01_interval_covered hL.pos hL.max ha i.dtFun i.T hi.dtFun hi.T
    obtain ⟨g'', hs⟩ := hi.steps 0 hL.pos
    have hn : i.p.N 0 = n := by
      have x1 := hs.2.1
      have x2 := b2.2.1
      rw [hs.1] at x1
      rw [b2.1] at x2
      simp only [Time.Group.finished, Time.after_nTsSync, Time.setUp_nTsSync, Time.after_nTsReqFull, Time.after_maxDiv, Time.setUp_maxDiv, beq_iff_eq, Nat.zero_add] at x1 x2
      omega
    rw [hn, tm, ← b4]
    simp only [Itv.dt]
    exact sum_cast _ n

/-! ### Bits of the elements -/

/-- The bits which the solver reads are those of the sparse types `sp` of the elements (src/impl/seismic/solvers/AderDg.hpp:384, 413, 425, 622, 635). -/
def BitsOf (e : Map.Ent) (sp : List Word) (els : List (REl ℝ)) : Prop :=
  ∀ (el : Nat) (E : REl ℝ) (w : Word), els[el]? = some E → sp[el]? = some w → E.isLt = elHas w 1 ∧ E.isGt = elHas w 2 ∧ E.ad = (List.range e.nFa).map (fun fa => ⟨adHas w fa 0, adHas w fa 1, adHas w fa 2⟩)

/-- Adjacency of the elements of the mesh: no neighbor at the free surface, the neighbors at other faces; the neighbor of an element has the element as neighbor. -/
structure Adjacent (e : Map.Ent) (N : Nat) (elFaEl : List (Option Nat)) (F : Nat → Nat → MFace ℝ) : Prop where
  ad : ∀ el < N, ∀ fa < e.nFa, (F el fa).outflow = false → elFaEl[el * e.nFa + fa]? = some (if (F el fa).freeSurface then none else some (F el fa).ne)
  back : ∀ el < N, ∀ fa < e.nFa, (F el fa).outflow = false → (F el fa).freeSurface = false → ∃ fb < e.nFa, elFaEl[(F el fa).ne * e.nFa + fb]? = some (some el)

/-- C104: the bits which `EdgeV::setLtsTypes` computes are those which the solver needs. -/
theorem C104_bits {e : Map.Ent} {els : List (REl ℝ)} {F : Nat → Nat → MFace ℝ} (hL : L.Ok els.length tg) {elFaEl : List (Option Nat)} (ha : Adjacent e els.length elFaEl F) {sp out : List Word}
    (hsp : sp.length = els.length) (hz : ∀ w ∈ sp, ∀ k, 32 ≤ k → w.getLsbD k = false) (h : setLtsTypes els.length e.nFa L.nTgs elFaEl L.nIn L.nSe none sp = some out)
    (ht : ∀ el E, els[el]? = some E → E.tg = tg el) (hb : BitsOf e out els) (hfa : e.nFa ≤ 6) : BitsOk e tg F els := by
  have hlen : ∀ {el : Nat} {E : REl ℝ}, els[el]? = some E → el < els.length := fun h => (List.getElem?_eq_some_iff.1 h).1
  have hrel := fun {el} (hel : el < els.length) => C85_relations (comm := none) hfa (show L.nIn.length = L.nTgs by simp [Layout.nIn, Layout.nTgs])
    (show L.nSe.length = L.nTgs by simp [Layout.nSe, Layout.nTgs, hL.same]) (by simp) hsp hz h hel (hL.tg el hel)
  intro el E hE
  have hel := hlen hE
  obtain ⟨w, w', -, k1, k2, -⟩ := hrel hel
  obtain ⟨-, -, b3⟩ := hb el E w' hE k1
  refine ⟨ht el E hE, fun fa hf => ⟨⟨adHas w' fa 0, adHas w' fa 1, adHas w' fa 2⟩, by rw [b3, List.getElem?_map, List.getElem?_range hf]; rfl, fun hout E' hE' => ?_⟩⟩
  obtain ⟨t', a1, a2, -, a4, a5⟩ := k2 fa hf
  have hne := hlen hE'
  have htt : t' = tg ((F el fa).nb el) := by
    have had := ha.ad el hel fa hf hout
    rcases hfr : (F el fa).freeSurface with _ | _
    · rw [hfr] at had
      have hnb : (F el fa).nb el = (F el fa).ne := by simp [MFace.nb, hfr]
      rw [hnb] at hne ⊢
      rcases a1 with ⟨ad, x1, x2⟩ | ⟨x1, -⟩
      · rw [had] at x1
        simp only [Bool.false_eq_true, if_false, Option.some.injEq] at x1
        subst x1
        exact x2.unique (hL.tg _ hne)
      · rw [had] at x1; simp at x1
    · rw [hfr] at had
      have hnb : (F el fa).nb el = el := by simp [MFace.nb, hfr]
      rw [hnb]
      rcases a1 with ⟨ad, x1, -⟩ | ⟨-, ⟨c, ch, x2, -⟩ | ⟨-, x2⟩⟩
      · rw [had] at x1; simp at x1
      · cases x2
      · exact x2
  subst htt
  have hback : tg el ≠ tg ((F el fa).nb el) → ∃ fb < e.nFa, AdTg e.nFa elFaEl L.nIn L.nSe none ((F el fa).nb el) fb (tg ((F el fa).nb el)) (tg el) := by
    intro hn
    rcases hfr : (F el fa).freeSurface with _ | _
    · obtain ⟨fb, y1, y2⟩ := ha.back el hel fa hf hout hfr
      have hnb : (F el fa).nb el = (F el fa).ne := by simp [MFace.nb, hfr]
      rw [hnb]
      exact ⟨fb, y1, Or.inl ⟨el, y2, hL.tg el hel⟩⟩
    · exact absurd (by simp [MFace.nb, hfr]) hn
  obtain ⟨v, v', -, l1, -, -, l3, l4, -⟩ := hrel hne
  obtain ⟨c1, c2, -⟩ := hb _ E' v' hE' l1
  refine ⟨a2.trans eq_comm, a4, by rcases a5 with h | h | h <;> [exact Or.inl h.symm; exact Or.inr (Or.inr h); exact Or.inr (Or.inl h)], fun hh => ?_, fun hh => ?_⟩
  · rw [c1, l3]
    obtain ⟨fb, y1, y2⟩ := hback (by rw [hh]; exact Nat.succ_ne_self _)
    exact ⟨fb, y1, hh ▸ y2⟩
  · rw [c2, l4]
    obtain ⟨fb, y1, y2⟩ := hback (by rw [hh]; exact (Nat.succ_ne_self _).symm)
    exact ⟨fb, y1, tg el, hh, y2⟩

end Edge.Work
