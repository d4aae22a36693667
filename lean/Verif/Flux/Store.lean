import Verif.Flux.Trace
/-!
C94: copies of the flux matrices for the kernels.
-/
namespace Edge.Flux
open Edge Edge.Map Edge.Quad Edge.Basis Edge.Proj Edge.Gen MvPolynomial

section
variable {K : Type} [Field K]

/-- State of the copy: `en` entries of the memory are `all`, the other positions are free. -/
def Filled (N : Nat) (all : List K) (mem : List K) (en : Nat) : Prop :=
  mem.length = N ∧ en = all.length ∧ ∀ k < all.length, mem[k]? = all[k]?

omit [Field K] in
theorem store_step {N : Nat} {all mem : List K} {en : Nat} (h : Filled N all mem en) (v : K) (hN : all.length < N) :
    ∃ r, wr mem en v = some r ∧ Filled N (all ++ [v]) r (en + 1) := by
  obtain ⟨h1, rfl, h3⟩ := h
  refine ⟨mem.set all.length v, wr_some (by omega) v, by simp [h1], by simp, fun k hk => ?_⟩
  by_cases e : all.length = k
  · subst e; rw [List.getElem?_set_self (by omega)]; simp
  · rw [List.length_append, List.length_singleton] at hk
    rw [List.getElem?_set_ne e, h3 k (by omega), List.getElem?_append_left (by omega)]

omit [Field K] in
theorem take_succ' {l : List K} {n : Nat} (h : n < l.length) : l.take (n + 1) = l.take n ++ [l[n]] := by
  rw [List.take_add_one, List.getElem?_eq_getElem h]; rfl

omit [Field K] in
/-- The loop copies the source and stores the positions of the matrices. -/
theorem storeMats_spec {src : List K} {k n m off N : Nat} (hs : src.length = k * (n * m)) {all mem : List K} {en : Nat} {ps : List Nat}
    (h : Filled N all mem en) (hN : all.length + src.length ≤ N) (hp : off + k ≤ ps.length) :
    ∃ mem' ps', storeMats src k n m off (mem, en, ps) = some (mem', en + src.length, ps') ∧ Filled N (all ++ src) mem' (en + src.length) ∧
      ps'.length = ps.length ∧ (∀ i < k, ps'[off + i]? = some (en + i * (n * m))) ∧ ∀ i, i < off ∨ off + k ≤ i → ps'[i]? = ps[i]? := by
  obtain ⟨⟨mem', en', ps'⟩, h0, h1, h2, h3, h4⟩ := forN_inv (n := k) (s := (mem, en, ps)) (body := fun fa s => do
    let p ← wr s.2.2 (off + fa) s.2.1
    forN n (fun m0 s => forN m (fun m1 s => do
      let v ← rd src (fa * (n * m) + m0 * m + m1)
      let r ← wr s.1 s.2.1 v
      some (r, s.2.1 + 1, s.2.2)) s) (s.1, s.2.1, p))
    (fun fa (s : List K × Nat × List Nat) => Filled N (all ++ src.take (fa * (n * m))) s.1 s.2.1 ∧ s.2.2.length = ps.length ∧
      (∀ i < fa, s.2.2[off + i]? = some (en + i * (n * m))) ∧ ∀ i, i < off ∨ off + fa ≤ i → s.2.2[i]? = ps[i]?)
    ⟨by simpa using h, rfl, fun i hi => absurd hi (by omega), fun _ _ => rfl⟩ (by
    rintro fa ⟨me, e1, p1⟩ hfa ⟨g1, g2, g3, g4⟩
    dsimp only at g1 g2 g3 g4
    have hle : (fa + 1) * (n * m) ≤ src.length := by rw [hs]; exact Nat.mul_le_mul_right _ hfa
    have hen : e1 = en + fa * (n * m) := by
      rw [g1.2.1, h.2.1, List.length_append, List.length_take, Nat.min_eq_left (by rw [Nat.succ_mul] at hle; omega)]
    obtain ⟨⟨me', e1', p1'⟩, k0, k1, k2⟩ := forN_inv (n := n) (s := (me, e1, p1.set (off + fa) e1))
      (body := fun m0 s => forN m (fun m1 s => do
        let v ← rd src (fa * (n * m) + m0 * m + m1)
        let r ← wr s.1 s.2.1 v
        some (r, s.2.1 + 1, s.2.2)) s)
      (fun m0 (s : List K × Nat × List Nat) => Filled N (all ++ src.take (fa * (n * m) + m0 * m)) s.1 s.2.1 ∧ s.2.2 = p1.set (off + fa) e1)
      ⟨by simpa using g1, rfl⟩ (by
      rintro m0 ⟨me, e2, p2⟩ hm0 ⟨g1, g2⟩
      dsimp only at g1 g2
      obtain ⟨⟨me', e2', p2'⟩, k0, k1, k2⟩ := forN_inv (n := m) (s := (me, e2, p2)) (body := fun m1 s => do
          let v ← rd src (fa * (n * m) + m0 * m + m1)
          let r ← wr s.1 s.2.1 v
          some (r, s.2.1 + 1, s.2.2))
        (fun m1 (s : List K × Nat × List Nat) => Filled N (all ++ src.take (fa * (n * m) + m0 * m + m1)) s.1 s.2.1 ∧ s.2.2 = p1.set (off + fa) e1)
        ⟨g1, g2⟩ (by
        rintro m1 ⟨me, e3, p3⟩ hm1 ⟨g1, g2⟩
        dsimp only at g1 g2
        have hlt : fa * (n * m) + m0 * m + m1 < src.length := by
          have := mad_lt2 hm0 hm1
          rw [Nat.succ_mul] at hle; omega
        obtain ⟨r, r0, r1⟩ := store_step g1 src[fa * (n * m) + m0 * m + m1] (by
          rw [List.length_append, List.length_take, Nat.min_eq_left hlt.le]; omega)
        refine ⟨(r, e3 + 1, p3), ?_, ?_, g2⟩
        · have e1 : rd src (fa * (n * m) + m0 * m + m1) = some src[fa * (n * m) + m0 * m + m1] := List.getElem?_eq_getElem hlt
          simp only [Option.bind_eq_bind, e1, Option.bind_some, r0]
        · dsimp only
          rwa [← Nat.add_assoc, take_succ' hlt, ← List.append_assoc])
      exact ⟨_, k0, by dsimp only; rwa [Nat.succ_mul, ← Nat.add_assoc], k2⟩)
    refine ⟨(me', e1', p1'), ?_, ?_, ?_, ?_, ?_⟩
    · simp only [Option.bind_eq_bind] at k0 ⊢
      rw [wr_some (by omega), Option.bind_some]
      exact k0
    · dsimp only at k1 ⊢
      rwa [Nat.succ_mul]
    · dsimp only at k2 ⊢
      rw [k2, List.length_set, g2]
    · intro i hi
      dsimp only at k2 ⊢
      rw [k2]
      by_cases e : i = fa
      · subst e; rw [List.getElem?_set_self (by omega), hen]
      · rw [List.getElem?_set_ne (by omega)]; exact g3 i (by omega)
    · intro i hi
      dsimp only at k2 ⊢
      rw [k2, List.getElem?_set_ne (by omega)]
      exact g4 i (by omega))
  dsimp only at h1 h2 h3 h4
  rw [← hs, List.take_length] at h1
  have hen : en' = en + src.length := by rw [h1.2.1, h.2.1, List.length_append]
  subst hen
  exact ⟨mem', ps', h0, h1, h2, h3, h4⟩

omit [Field K] in
/-- Matrix `i` of the source in the memory from its pointer on. -/
theorem drop_get {N : Nat} {all mem pre src post : List K} {en : Nat} (h : Filled N all mem en) (ha : all = pre ++ src ++ post) {p q : Nat}
    (hq : p + q < src.length) : (mem.drop (pre.length + p))[q]? = src[p + q]? := by
  subst ha
  rw [List.getElem?_drop, h.2.2 _ (by simp only [List.length_append]; omega), List.append_assoc, List.getElem?_append_right (by omega),
    List.getElem?_append_left (by omega)]
  congr 1; omega

theorem getFlux_some {rawL rawN rawT : List K} {e : Ent} {nEl nFa : Nat} (h1 : rawL.length = e.nFa * nEl * nFa)
    (h2 : rawN.length = nFluxN e * nEl * nFa) (h3 : rawT.length = e.nFa * nEl * nFa) :
    getFluxDense rawL rawN rawT e nEl nFa = some (rawL, rawN, rawT) := by
  rw [getFluxDense, decide_eq_true h1, decide_eq_true h2, decide_eq_true h3, check_true]
  simp only [Option.bind_eq_bind, Option.bind_some]
  have a := copy_all rawL (List.replicate (e.nFa * nEl * nFa) 0) (by simp [h1])
  have b := copy_all rawN (List.replicate (nFluxN e * nEl * nFa) 0) (by simp [h2])
  have c := copy_all rawT (List.replicate (e.nFa * nEl * nFa) 0) (by simp [h3])
  simp only [Option.bind_eq_bind] at a b c
  rw [a, Option.bind_some, b, Option.bind_some, c, Option.bind_some]

/-- Pointers of all matrices, for all data of the right sizes. -/
theorem storeFlux_spec {rawL rawN rawT : List K} {e : Ent} {nEl nFa : Nat} (h1 : rawL.length = e.nFa * (nEl * nFa))
    (h2 : rawN.length = nFluxN e * (nEl * nFa)) (h3 : rawT.length = e.nFa * (nFa * nEl)) :
    ∃ LN T, storeFluxDense rawL rawN rawT e nEl nFa = some (LN, T) ∧
      (∀ fa < e.nFa, ∃ d, rd LN fa = some d ∧ ∀ q < nEl * nFa, d[q]? = rawL[fa * (nEl * nFa) + q]?) ∧
      (∀ k < nFluxN e, ∃ d, rd LN (e.nFa + k) = some d ∧ ∀ q < nEl * nFa, d[q]? = rawN[k * (nEl * nFa) + q]?) ∧
      (∀ fa < e.nFa, ∃ d, rd T fa = some d ∧ ∀ q < nFa * nEl, d[q]? = rawT[fa * (nFa * nEl) + q]?) := by
  obtain ⟨N, hN⟩ : ∃ N, N = e.nFa * nEl * nFa + nFluxN e * nEl * nFa + e.nFa * nFa * nEl := ⟨_, rfl⟩
  have hsum : rawL.length + rawN.length + rawT.length = N := by rw [h1, h2, h3, hN]; ring
  obtain ⟨m1, p1, a0, a1, a2, a3, -⟩ := storeMats_spec (off := 0) h1 (N := N) (all := []) (mem := List.replicate N (0 : K)) (en := 0)
    (ps := List.replicate (e.nFa + nFluxN e) 0) ⟨by simp, rfl, by simp⟩ (by simp; omega) (by simp)
  obtain ⟨m2, p2, b0, b1, b2, b3, b4⟩ := storeMats_spec (off := e.nFa) h2 (ps := p1) a1 (by simp; omega) (by rw [a2]; simp)
  obtain ⟨m3, p3, c0, c1, c2, c3, -⟩ := storeMats_spec (off := 0) h3 (ps := List.replicate e.nFa 0) b1 (by simp; omega) (by simp)
  refine ⟨p2.map (fun p => m3.drop p), p3.map (fun p => m3.drop p), ?_, fun fa hfa => ?_, fun k hk => ?_, fun fa hfa => ?_⟩
  · rw [storeFluxDense, getFlux_some (by rw [h1]; ring) (by rw [h2]; ring) (by rw [h3]; ring)]
    simp only [Option.bind_eq_bind, Option.bind_some]
    rw [← hN, a0, Option.bind_some]
    dsimp only
    rw [b0, Option.bind_some]
    dsimp only
    rw [c0, Option.bind_some]
  · refine ⟨m3.drop (0 + fa * (nEl * nFa)), ?_, fun q hq => ?_⟩
    · have := a3 fa hfa
      rw [rd, List.getElem?_map, b4 fa (Or.inl hfa), ← Nat.zero_add fa, this]; simp
    · exact drop_get (pre := []) (src := rawL) (post := rawN ++ rawT) c1 (by simp) (by rw [h1]; exact mad_lt2 hfa hq)
  · refine ⟨m3.drop (rawL.length + k * (nEl * nFa)), ?_, fun q hq => ?_⟩
    · rw [rd, List.getElem?_map, b3 k hk]; simp
    · exact drop_get (pre := rawL) (src := rawN) (post := rawT) c1 (by simp) (by rw [h2]; exact mad_lt2 hk hq)
  · refine ⟨m3.drop ((rawL ++ rawN).length + fa * (nFa * nEl)), ?_, fun q hq => ?_⟩
    · have := c3 fa hfa
      rw [rd, List.getElem?_map, ← Nat.zero_add fa, this]; simp
    · exact drop_get (pre := rawL ++ rawN) (src := rawT) (post := []) c1 (by simp) (by rw [h3]; exact mad_lt2 hfa hq)

end

/-! ### The generated matrices -/

theorem ori_len {e : Ent} (he : e ≠ .line) (o : Nat) : (ori e o).length = e.nVeOpts := by rw [ori, List.length_map, faToFa_len he]

theorem nFluxN_eq {e : Ent} (he : e ≠ .line) : nFluxN e = e.nVeOpts * e.nFa := by cases e <;> first | exact absurd rfl he | rfl

theorem rawL_len {e : Ent} (he : e ≠ .line) (o : Nat) : (fluxLRaw e o).length = e.nFa * (nModes e o * nModes (faTy e) o) := by
  rw [fluxLRaw, float3d_len, fluxL, List.length_map, proj_len he]

theorem rawT_len {e : Ent} (he : e ≠ .line) (o : Nat) : (fluxTRaw e o).length = e.nFa * (nModes (faTy e) o * nModes e o) := by
  rw [fluxTRaw, float3d_len, fluxT, List.length_map, proj_len he]

theorem rawN_len {e : Ent} (he : e ≠ .line) (o : Nat) : (fluxNRaw e o).length = nFluxN e * (nModes e o * nModes (faTy e) o) := by
  rw [fluxNRaw, float3d_len, fluxN, flat_len (m := e.nFa) _ (by intro x _; rw [List.length_map, proj_len he]), ori_len he, nFluxN_eq he]

/-- The matrices of the surface kernels. -/
theorem stored {e : Ent} (he : e ≠ .line) (o : Nat) :
    ∃ LN T, storeFluxDense (fluxLRaw e o) (fluxNRaw e o) (fluxTRaw e o) e (nModes e o) (nModes (faTy e) o) = some (LN, T) ∧
      Dg.Mats e.nFa (nModes e o) (nModes (faTy e) o) (nModes (faTy e) o) LN (entL e o) ∧
      (∀ ve < e.nVeOpts, ∀ fa < e.nFa, ∃ mat, rd LN (e.nFa + ve * e.nFa + fa) = some mat ∧
        Dg.Mat (nModes e o) (nModes (faTy e) o) (nModes (faTy e) o) mat (entN e o ve fa)) ∧
      Dg.Mats e.nFa (nModes (faTy e) o) (nModes e o) (nModes e o) T (entF e o) := by
  obtain ⟨LN, T, h0, h1, h2, h3⟩ := storeFlux_spec (rawL_len he o) (rawN_len he o) (rawT_len he o)
  refine ⟨LN, T, h0, fun fa hfa => ?_, fun ve hve fa hfa => ?_, fun fa hfa => ?_⟩
  · obtain ⟨d, d0, d1⟩ := h1 fa hfa
    refine ⟨d, d0, fun i j hi hj => ?_⟩
    obtain ⟨M, m0, m1⟩ := fluxL_get he hfa (o := o)
    rw [d1 _ (mad_lt2 hi hj), fluxLRaw, float3d_get m0 ⟨i, hi⟩ ⟨j, hj⟩, m1]
  · obtain ⟨d, d0, d1⟩ := h2 (ve * e.nFa + fa) (by rw [nFluxN_eq he]; exact mad_lt2 hve hfa)
    refine ⟨d, by rw [Nat.add_assoc]; exact d0, fun i j hi hj => ?_⟩
    obtain ⟨M, m0, m1⟩ := fluxN_get he hfa hve (o := o)
    rw [d1 _ (mad_lt2 hi hj), fluxNRaw, float3d_get m0 ⟨i, hi⟩ ⟨j, hj⟩, m1]
  · obtain ⟨d, d0, d1⟩ := h3 fa hfa
    refine ⟨d, d0, fun i j hi hj => ?_⟩
    obtain ⟨M, m0, m1⟩ := fluxT_get he hfa (o := o)
    rw [d1 _ (mad_lt2 hi hj), fluxTRaw, float3d_get m0 ⟨i, hi⟩ ⟨j, hj⟩, m1]

end Edge.Flux
