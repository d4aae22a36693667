import Verif.EdgeV.Groups
/-!
CFL time steps of EDGE-V, and their use by the time groups: C62.
-/
namespace Edge.EdgeV
open Edge

/-- The wave speed of an element: that of the element itself, or the mean over its vertices. -/
def Speed (nElVes : Nat) (elVe : List Nat) (velModEl : Bool) (speed : Nat → Rat) (el : Nat) (c : Rat) : Prop :=
  0 < c ∧ if velModEl then c = speed el
    else ∃ ves : List Nat, ves.length = nElVes ∧ (∀ ve : Nat, ve < nElVes → ves[ve]? = elVe[el * nElVes + ve]?) ∧
      c * nElVes = (ves.map speed).sum

theorem elSpeed_spec {nElVes : Nat} {elVe : List Nat} {velModEl : Bool} {speed : Nat → Rat} {el : Nat} {c : Rat}
    (hn : 0 < nElVes) (h : elSpeed nElVes elVe velModEl speed el = some c) : Speed nElVes elVe velModEl speed el c := by
  simp only [elSpeed, Option.bind_eq_bind, Option.bind_eq_some_iff] at h
  obtain ⟨c', hc', _, hchk, he⟩ := h
  simp at he; subst he
  rw [check_some] at hchk
  refine ⟨by simpa using hchk, ?_⟩
  cases velModEl with
  | true => simpa using hc'.symm
  | false =>
    simp only [if_false, Bool.false_eq_true] at hc' ⊢
    simp only [Option.bind_eq_some_iff] at hc'
    obtain ⟨sum, hs, he⟩ := hc'
    simp at he
    obtain ⟨ves, h1, h2, h3⟩ := forN_post (n := nElVes) (s := (0 : Rat)) (t := sum)
      (body := fun ve (c : Rat) => (rd elVe (el * nElVes + ve)).bind fun veId => pure (c + speed veId))
      (fun i (c : Rat) => ∃ ves : List Nat, ves.length = i ∧
        (∀ ve : Nat, ve < i → ves[ve]? = elVe[el * nElVes + ve]?) ∧ c = (ves.map speed).sum)
      ⟨[], rfl, fun ve h => by omega, by simp⟩
      (by
        rintro i c c' hi ⟨ves, h1, h2, h3⟩ hb
        simp only [Option.bind_eq_some_iff] at hb
        obtain ⟨v, hv, he⟩ := hb
        simp at he
        refine ⟨ves ++ [v], by simp [h1], fun ve hve => ?_, by simp [← he, h3]⟩
        by_cases hvi : ve < i
        · rw [List.getElem?_append_left (by omega)]; exact h2 ve hvi
        · have : ve = i := by omega
          subst this
          rw [List.getElem?_append_right (by omega)]
          simp only [rd] at hv
          simp [h1, hv]) hs
    refine ⟨ves, h1, h2, ?_⟩
    rw [← he, ← h3]
    have : (nElVes : Rat) ≠ 0 := by exact_mod_cast (by omega : nElVes ≠ 0)
    field_simp

/-- C62: the relative time step of every element times the smallest absolute one is the element's insphere diameter
divided by its wave speed; all relative steps are at least one, and one of them is exactly one. -/
theorem C62_cfl {nEls nElVes : Nat} {elVe : List Nat} {inDia : List Rat} {velModEl : Bool} {speed : Nat → Rat}
    {big absMin : Rat} {ts : List Rat} (hv : 0 < nElVes) (hn : 0 < nEls)
    (h : setTimeSteps nEls nElVes elVe inDia velModEl speed big = some (absMin, ts))
    (hbig : ∀ el d c, el < nEls → inDia[el]? = some d → Speed nElVes elVe velModEl speed el c → d / c < big) :
    0 < absMin ∧ ts.length = nEls ∧
    (∀ el, el < nEls → ∃ (t d c : Rat), ts[el]? = some t ∧ inDia[el]? = some d ∧
      Speed nElVes elVe velModEl speed el c ∧ t * absMin = d / c ∧ 1 ≤ t) ∧ ∃ el : Nat, ts[el]? = some 1 := by
  simp only [setTimeSteps, Option.bind_eq_bind, Option.bind_eq_some_iff] at h
  obtain ⟨⟨m, raw⟩, hf, _, hchk, he⟩ := h
  rw [check_some] at hchk
  have hm : 0 < m := by simpa using hchk
  simp at he
  obtain ⟨e1, e2⟩ := he
  subst e1
  obtain ⟨h1, h2, h3⟩ := forN_post (n := nEls) (s := ((big, []) : Rat × List Rat)) (t := (m, raw))
    (body := fun el (s : Rat × List Rat) => (elSpeed nElVes elVe velModEl speed el).bind fun c =>
      (rd inDia el).bind fun d => pure (min s.1 (d / c), s.2 ++ [d / c]))
    (fun i (s : Rat × List Rat) => s.2.length = i ∧
      (∀ el, el < i → ∃ (r d c : Rat), s.2[el]? = some r ∧ inDia[el]? = some d ∧
        Speed nElVes elVe velModEl speed el c ∧ r = d / c ∧ s.1 ≤ r) ∧
      (if i = 0 then s.1 = big else ∃ el : Nat, s.2[el]? = some s.1))
    ⟨rfl, fun el h => by omega, by simp⟩
    (by
      rintro i ⟨a, l⟩ ⟨a', l'⟩ hi ⟨g1, g2, g3⟩ hb
      simp only [Option.bind_eq_some_iff] at hb
      obtain ⟨c, hc, d, hd, he⟩ := hb
      simp at he
      obtain ⟨q1, q2⟩ := he
      subst q2
      simp only at g1 g2 g3 ⊢
      simp only [rd] at hd
      have hsp := elSpeed_spec hv hc
      refine ⟨by simp [g1], fun el hel => ?_, ?_⟩
      · by_cases hei : el < i
        · obtain ⟨r, d', c', k1, k2, k3, k4, k5⟩ := g2 el hei
          exact ⟨r, d', c', by rw [List.getElem?_append_left (by omega)]; exact k1, k2, k3, k4,
            by rw [← q1]; exact le_trans (min_le_left _ _) k5⟩
        · have : el = i := by omega
          subst this
          exact ⟨d / c, d, c, by rw [List.getElem?_append_right (by omega)]; simp [g1], hd, hsp, rfl,
            by rw [← q1]; exact min_le_right _ _⟩
      · rw [if_neg (by omega)]
        by_cases hle : a ≤ d / c
        · have : a' = a := by rw [← q1]; exact min_eq_left hle
          subst this
          by_cases hi0 : i = 0
          · rw [if_pos hi0] at g3
            have := hbig i d c hi hd hsp
            rw [g3] at hle
            exact absurd (lt_of_lt_of_le this hle) (lt_irrefl _)
          · rw [if_neg hi0] at g3
            obtain ⟨el, hel⟩ := g3
            exact ⟨el, by rw [List.getElem?_append_left (List.getElem?_eq_some_iff.1 hel).1]; exact hel⟩
        · have : a' = d / c := by rw [← q1]; exact min_eq_right (le_of_lt (not_le.1 hle))
          refine ⟨i, ?_⟩
          rw [List.getElem?_append_right (by omega)]; simp [g1, this]) hf
  simp only at h1 h2 h3
  rw [if_neg (by omega)] at h3
  have hm0 : m ≠ 0 := ne_of_gt hm
  refine ⟨hm, by simp [← e2, h1], fun el hel => ?_, ?_⟩
  · obtain ⟨r, d, c, k1, k2, k3, k4, k5⟩ := h2 el hel
    refine ⟨r * m⁻¹, d, c, by simp [← e2, k1], k2, k3, ?_, ?_⟩
    · rw [← k4]; field_simp
    · have : r * m⁻¹ = r / m := by ring
      rw [this, le_div_iff₀ hm]; linarith
  · obtain ⟨el, hel⟩ := h3
    refine ⟨el, ?_⟩
    simp [← e2, hel, hm0]

/-- C62: in absolute terms, the step every element is integrated with does not exceed its insphere diameter divided
by its wave speed: the group's relative step times the smallest absolute step. -/
theorem C62_absolute {nElFas nEls nElVes : Nat} {elFaEl : List (Option Nat)} {elVe : List Nat} {inDia : List Rat}
    {velModEl : Bool} {speed : Nat → Rat} {big absMin : Rat} {ts rates : List Rat} {funDt : Rat} {fuel : Nat}
    {g : Groups} (hA : AdOk elFaEl nElFas nEls) (hv : 0 < nElVes) (hn : 0 < nEls)
    (h : setTimeSteps nEls nElVes elVe inDia velModEl speed big = some (absMin, ts))
    (hbig : ∀ el d c, el < nEls → inDia[el]? = some d → Speed nElVes elVe velModEl speed el c →
      d / c < big ∧ d / c < big * absMin)
    (hg : mkGroups nElFas nEls elFaEl rates funDt big ts fuel = some g) (el : Nat) (hel : el < nEls) :
    ∃ (k : Nat) (dt d c : Rat), g.elTg[el]? = some k ∧ g.intervals[k]? = some dt ∧ inDia[el]? = some d ∧
      Speed nElVes elVe velModEl speed el c ∧ dt * absMin ≤ d / c := by
  obtain ⟨h1, h2, h3, _⟩ := C62_cfl hv hn h (fun el d c a b e => (hbig el d c a b e).1)
  have hfd : funDt ≤ 1 := by
    simp only [mkGroups, Option.bind_eq_bind, Option.bind_eq_some_iff] at hg
    obtain ⟨is, his, _⟩ := hg
    exact (intervals_checks his).2.2
  obtain ⟨_, hs⟩ := C29_stable hA h2 (by
    intro t ht
    obtain ⟨i, hi, rfl⟩ := List.getElem_of_mem ht
    obtain ⟨t, d, c, k1, k2, k3, k4, k5⟩ := h3 i (by omega)
    rw [List.getElem?_eq_getElem hi] at k1; simp at k1; rw [k1]
    refine ⟨le_trans hfd k5, ?_⟩
    have := (hbig i d c (by omega) k2 k3).2
    rw [← k4] at this
    exact lt_of_mul_lt_mul_right this (le_of_lt h1)) hg
  obtain ⟨t, d, c, k1, k2, k3, k4, k5⟩ := h3 el hel
  obtain ⟨k, dt, m1, _, m3, m4⟩ := hs el t k1
  refine ⟨k, dt, d, c, m1, m3, k2, k3, ?_⟩
  rw [← k4]
  exact mul_le_mul_of_nonneg_right m4 (le_of_lt h1)

/-- Hypotheses met: two elements with vertex speeds; the second one is the smallest. -/
example : setTimeSteps 2 2 [0, 1, 1, 2] [12, 6] false (fun v => v + 1) 1000 = some (12 / 5, [10 / 3, 1]) := by
  decide +kernel

end Edge.EdgeV
