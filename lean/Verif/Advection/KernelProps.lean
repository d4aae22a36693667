import Verif.Advection.Kernels
import Verif.Dg.CkProps

/-!
What the kernels of the advection equation compute.
-/
namespace Edge.Advection
open Edge Edge.Dg Edge.Linalg Finset

variable {K : Type} [Field K] [LinearOrder K]

/-- The array `l` holds the modes `u` of the fused simulations. -/
def Vec (c : KCfg) (l : List K) (u : Nat → Nat → K) : Prop := Rep 1 c.nMds c.nCrs l (fun _ md r => u md r)

/-- Time derivatives by the Cauchy-Kowalevski procedure: star values `S`, transposed stiffness matrices `G`. -/
def deriv (c : KCfg) (S : Nat → K) (G : Nat → Nat → Nat → K) (u : Nat → Nat → K) : Nat → Nat → Nat → K
  | 0 => u
  | n + 1 => fun md r => ∑ di ∈ range c.nDis, S di * ∑ m ∈ range c.nMds, deriv c S G u n m r * G di m md

/-- Volume integral. -/
def volC (c : KCfg) (S : Nat → K) (G : Nat → Nat → Nat → K) (t : Nat → Nat → K) (md r : Nat) : K :=
  ∑ di ∈ range c.nDis, S di * ∑ m ∈ range c.nMds, t m r * G di m md

/-- Projection to a face by the flux matrix `F`, scaling by the solver `s`, and back to the element by `T`. -/
def surfC (c : KCfg) (F : Nat → Nat → K) (s : K) (T : Nat → Nat → K) (t : Nat → Nat → K) (md r : Nat) : K :=
  ∑ n ∈ range c.nMdsFa, s * (∑ m ∈ range c.nMds, t m r * F m n) * T n md

omit [Field K] [LinearOrder K] in
theorem mat_drop {star : List K} {S : Nat → K} {n di ld : Nat} (hS : ∀ i < n, star[i]? = some (S i)) (hdi : di < n) :
    Mat 1 1 ld (star.drop di) (fun _ _ => S di) := by
  intro i j hi hj
  obtain rfl : i = 0 := by omega
  obtain rfl : j = 0 := by omega
  rw [List.getElem?_drop]
  simpa using hS di hdi

/-- A product with matrices and star values for all dimensions. -/
theorem dims_spec {c : KCfg} {ld : Nat} {star : List K} {mats : List (List K)} {S : Nat → K} {G : Nat → Nat → Nat → K}
    (hS : ∀ i < c.nDis, star[i]? = some (S i)) (hG : Mats c.nDis c.nMds c.nMds c.nMds mats G) {prev : List K}
    {e : Nat → Nat → K} (hp : Vec c prev e) {sc cur : List K} (hsc : sc.length = 1 * c.nMds * c.nCrs) {C : Nat → Nat → K}
    (hC : Vec c cur C) :
    ∃ s, forN c.nDis (fun di (s : List K × List K) => do
      let st ← rd mats di
      let scratch ← matMulFusedAC c.nCrs 1 c.nMds c.nMds c.nMds c.nMds c.nMds 1 0 prev st s.1
      let cur ← matMulFusedBC c.nCrs 1 c.nMds 1 ld c.nMds c.nMds 1 1 (star.drop di) scratch s.2
      some (scratch, cur)) (sc, cur) = some s ∧ s.1.length = 1 * c.nMds * c.nCrs ∧
      Vec c s.2 (fun md r => C md r + volC c S G e md r) := by
  have hinh : Inhabited K := ⟨0⟩
  refine forN_inv (n := c.nDis) (s := (sc, cur)) (fun n s => s.1.length = 1 * c.nMds * c.nCrs ∧
    Vec c s.2 (fun md r => C md r + ∑ di ∈ range n, S di * ∑ m ∈ range c.nMds, e m r * G di m md))
    ⟨hsc, hC.congr (by intros; simp)⟩ ?_
  rintro di ⟨sc, cur⟩ hdi ⟨h1, h2⟩
  dsimp only at h1 h2
  obtain ⟨st, hst, mst⟩ := hG di hdi
  obtain ⟨sc', a0, a1⟩ := mmAC (Q := 1) (n := c.nMds) (k := c.nMds) (ldB := c.nMds) (beta := (0 : K)) hp mst (rep_of_length h1)
    le_rfl le_rfl le_rfl le_rfl
  obtain ⟨cur', b0, b1⟩ := mmBC0 (n := c.nMds) (beta := (1 : K)) (mat_drop (ld := ld) hS hdi) a1 h2 le_rfl le_rfl le_rfl
  refine ⟨(sc', cur'), ?_, a1.1, b1.congr fun q md r k1 k2 k3 => ?_⟩
  · simp only [hst, Option.bind_eq_bind, Option.bind_some]
    rw [a0, Option.bind_some, b0, Option.bind_some]
  · simp only [k1, k2, and_self, if_true, one_mul, sum_range_succ _ di, zero_mul, zero_add, add_assoc, sum_range_one,
      zero_lt_one]

theorem axpy_spec {c : KCfg} {sca : K} {t d : List K} {f g : Nat → Nat → K} (ht : Vec c t f) (hd : Vec c d g) :
    ∃ t', axpy c sca d t = some t' ∧ Vec c t' (fun md r => f md r + sca * g md r) := by
  obtain ⟨t', h0, h1⟩ := axpy3 (sca := sca) ht hd le_rfl
  exact ⟨t', h0, h1.congr fun q md r _ k2 _ => by simp [k2]⟩

omit [LinearOrder K] in
theorem zero_spec {c : KCfg} {t : List K} (ht : t.length = 1 * c.nMds * c.nCrs) :
    ∃ t', loop3 1 c.nMds c.nCrs (fun q md cr (d : List K) => wr d (at3 c.nMds c.nCrs q md cr) 0) t = some t' ∧
      Vec c t' (fun _ _ => 0) := by
  have : Inhabited K := ⟨0⟩
  obtain ⟨t', h0, h1⟩ := loop3_spec (rep_of_length ht) le_rfl le_rfl (fun q md r _ => (0 : K))
    (body := fun q md cr (d : List K) => wr d (at3 c.nMds c.nCrs q md cr) 0) (fun q md r l' h1 h2 h3 hl hx => by
    rw [wr_some hl])
  exact ⟨t', h0, h1.congr fun q md r k1 k2 _ => by simp [k1, k2]⟩

/-- The first `b` derivatives are set. -/
def Ders (c : KCfg) (D : Nat → Nat → Nat → K) (b : Nat) (l : List (List K)) : Prop :=
  Arrs c.oTi (1 * c.nMds * c.nCrs) l ∧ ∀ n < b, ∃ d, rd l n = some d ∧ Vec c d (D n)

omit [Field K] [LinearOrder K] in
theorem Ders.set {c : KCfg} {D : Nat → Nat → Nat → K} {b : Nat} {l : List (List K)} (h : Ders c D b l) (hb : b < c.oTi)
    {d : List K} (hd : Vec c d (D b)) : wr l b d = some (l.set b d) ∧ Ders c D (b + 1) (l.set b d) := by
  obtain ⟨h1, h2⟩ := h.1.wr hb hd.1
  refine ⟨h1, h2, fun n hn => ?_⟩
  by_cases e : b = n
  · subst e; exact ⟨d, by rw [rd, List.getElem?_set_self (by rw [h.1.1]; exact hb)], hd⟩
  · rw [rd, List.getElem?_set_ne e]; exact h.2 n (by omega)

/-- `TimePred::ck`: derivatives, and the time integral of their Taylor polynomial. -/
theorem ck_spec {c : KCfg} (ho : 0 < c.oTi) {dT : K} {star : List K} {stiffT : List (List K)} {S : Nat → K}
    {G : Nat → Nat → Nat → K} (hS : ∀ i < c.nDis, star[i]? = some (S i)) (hG : Mats c.nDis c.nMds c.nMds c.nMds stiffT G)
    {dofs : List K} {u : Nat → Nat → K} (hu : Vec c dofs u) {der : List (List K)} {tInt scratch : List K}
    (hder : Arrs c.oTi (1 * c.nMds * c.nCrs) der) (ht : tInt.length = 1 * c.nMds * c.nCrs)
    (hsc : scratch.length = 1 * c.nMds * c.nCrs) :
    ∃ der' t', ck c dT star stiffT dofs der tInt scratch = some (der', t') ∧ Ders c (deriv c S G u) c.oTi der' ∧
      Vec c t' (fun md r => taylorInt c.oTi dT (fun n => deriv c S G u n md r)) := by
  obtain ⟨d0, hd0, ld0⟩ := hder.get ho
  obtain ⟨s0, i0, i1, i2⟩ := init2 dT ld0 ht hu
  obtain ⟨w1, w2⟩ := Ders.set (D := deriv c S G u) (b := 0) ⟨hder, fun n hn => absurd hn (by omega)⟩ ho (d := s0.1) i1
  obtain ⟨s, h0, h1, h2, h3, h4⟩ := forN_inv (n := c.oTi - 1) (s := (der.set 0 s0.1, s0.2, scratch, dT))
    (body := fun i (s : List (List K) × List K × List K × K) => do
    let de := i + 1
    let cur ← rd s.1 de
    let cur ← loop3 1 c.nMds c.nCrs (fun q md cr (d : List K) => wr d (at3 c.nMds c.nCrs q md cr) 0) cur
    let prev ← rd s.1 (de - 1)
    let (scratch, cur) ← ckDims c star stiffT prev (s.2.2.1, cur)
    let der ← wr s.1 de cur
    let sca := s.2.2.2 * (dT / (de + 1 : Nat))
    let tInt ← axpy c sca cur s.2.1
    some (der, tInt, scratch, sca))
    (fun i s => Ders c (deriv c S G u) (i + 1) s.1 ∧
      Vec c s.2.1 (fun md r => taylorInt (i + 1) dT (fun n => deriv c S G u n md r)) ∧
      s.2.2.1.length = 1 * c.nMds * c.nCrs ∧ s.2.2.2 = dT ^ (i + 1) / ((i + 1).factorial : K))
    ⟨w2, i2.congr (by intros; simp [taylorInt, deriv]), hsc, by simp⟩ (by
    rintro i ⟨der, t, sc, sca⟩ hi ⟨h1, h2, h3, h4⟩
    dsimp only at h1 h2 h3 h4
    obtain ⟨cur, hcur, lcur⟩ := h1.1.get (i := i + 1) (by omega)
    obtain ⟨cur', z0, z1⟩ := zero_spec lcur
    obtain ⟨prev, hprev, rprev⟩ := h1.2 i (by omega)
    obtain ⟨s', g0, g1, g2⟩ := dims_spec (ld := 1) hS hG rprev h3 z1
    have g2' : Vec c s'.2 (deriv c S G u (i + 1)) := g2.congr (by intros; simp [deriv, volC])
    obtain ⟨x1, x2⟩ := h1.set (by omega) g2'
    have e := sca_step dT i 1
    rw [← h4] at e
    obtain ⟨t', k0, k1⟩ := axpy_spec (sca := sca * (dT / ((i + 1 + 1 : Nat) : K))) h2 g2'
    refine ⟨(der.set (i + 1) s'.2, t', s'.1, sca * (dT / ((i + 1 + 1 : Nat) : K))), ?_, x2, ?_, g1, e⟩
    · simp only [Option.bind_eq_bind, ckDims, Nat.add_sub_cancel] at z0 g0 ⊢
      rw [hcur, Option.bind_some, z0, Option.bind_some, hprev, Option.bind_some, g0, Option.bind_some, x1, Option.bind_some, k0,
        Option.bind_some]
    · refine k1.congr fun q md r _ k2 _ => ?_
      simp only [taylorInt]
      rw [sum_range_succ _ (i + 1), e])
  have eo : c.oTi - 1 + 1 = c.oTi := by omega
  rw [eo] at h1 h2
  refine ⟨s.1, s.2.1, ?_, h1, h2⟩
  simp only [ck, Option.bind_eq_bind] at i0 h0 ⊢
  rw [hd0, Option.bind_some, i0, Option.bind_some, w1, Option.bind_some, h0, Option.bind_some]

/-- `TimePred::integrate`. -/
theorem integrate_spec {c : KCfg} (ho : 0 < c.oTi) {dt : K} {der : List (List K)} {D : Nat → Nat → Nat → K}
    (hD : Ders c D c.oTi der) {tInt : List K} (ht : tInt.length = 1 * c.nMds * c.nCrs) :
    ∃ t, integrate c dt der tInt = some t ∧ Vec c t (fun md r => taylorInt c.oTi dt (fun n => D n md r)) := by
  obtain ⟨d0, hd0, r0⟩ := hD.2 0 ho
  obtain ⟨t0, g0, g1⟩ := scale3 dt ht r0
  obtain ⟨s, h0, h1, -⟩ := forN_inv (n := c.oTi - 1) (s := (t0, dt)) (body := fun i (s : List K × K) => do
    let de := i + 1
    let sca := s.2 * (dt / (de + 1 : Nat))
    let d ← rd der de
    let tInt ← axpy c sca d s.1
    some (tInt, sca))
    (fun i s => Vec c s.1 (fun md r => taylorInt (i + 1) dt (fun n => D n md r)) ∧
      s.2 = dt ^ (i + 1) / ((i + 1).factorial : K)) ⟨g1.congr (by intros; simp [taylorInt]), by simp⟩ (by
    rintro i ⟨t, sca⟩ hi ⟨h1, h2⟩
    obtain ⟨d, hd, rd'⟩ := hD.2 (i + 1) (by omega)
    dsimp only at h1 h2
    have e := sca_step dt i 1
    rw [← h2] at e
    obtain ⟨t', k0, k1⟩ := axpy_spec (sca := sca * (dt / ((i + 1 + 1 : Nat) : K))) h1 rd'
    refine ⟨(t', sca * (dt / ((i + 1 + 1 : Nat) : K))), ?_, ?_, e⟩
    · simp only [hd, Option.bind_eq_bind, Option.bind_some, k0]
    · refine k1.congr fun q md r _ k2 _ => ?_
      simp only [taylorInt]
      rw [sum_range_succ _ (i + 1), e])
  refine ⟨s.1, ?_, ?_⟩
  · simp only [integrate, hd0, Option.bind_eq_bind, Option.bind_some] at g0 h0 ⊢
    rw [g0, Option.bind_some, h0]
    rfl
  · have : c.oTi - 1 + 1 = c.oTi := by omega
    rw [this] at h1
    exact h1

/-- `VolInt::apply`. -/
theorem volInt_spec {c : KCfg} {star : List K} {stiff : List (List K)} {S : Nat → K} {G : Nat → Nat → Nat → K}
    (hS : ∀ i < c.nDis, star[i]? = some (S i)) (hG : Mats c.nDis c.nMds c.nMds c.nMds stiff G) {tDofs dofs tmp : List K}
    {t d : Nat → Nat → K} (ht : Vec c tDofs t) (htmp : tmp.length = 1 * c.nMds * c.nCrs) (hd : Vec c dofs d) :
    ∃ s, volInt c star stiff tDofs (tmp, dofs) = some s ∧ s.1.length = 1 * c.nMds * c.nCrs ∧
      Vec c s.2 (fun md r => d md r + volC c S G t md r) :=
  dims_spec hS hG ht htmp hd

/-- The three products of a face. -/
theorem surfFace_spec {c : KCfg} {mat fs fT tDofs : List K} {F T : Nat → Nat → K} {x : K} {t d : Nat → Nat → K}
    (hF : Mat c.nMds c.nMdsFa c.nMdsFa mat F) (hx : Mat 1 1 1 fs (fun _ _ => x)) (hT : Mat c.nMdsFa c.nMds c.nMds fT T)
    (ht : Vec c tDofs t) {s : List K × List K × List K} (h0 : s.1.length = 1 * c.nMdsFa * c.nCrs)
    (h1 : s.2.1.length = 1 * c.nMdsFa * c.nCrs) (hd : Vec c s.2.2 d) :
    ∃ s', surfFace c mat fs fT tDofs s = some s' ∧ s'.1.length = 1 * c.nMdsFa * c.nCrs ∧
      s'.2.1.length = 1 * c.nMdsFa * c.nCrs ∧ Vec c s'.2.2 (fun md r => d md r + surfC c F x T t md r) := by
  have hinh : Inhabited K := ⟨0⟩
  obtain ⟨a, a0, a1⟩ := mmAC (Q := 1) (beta := (0 : K)) ht hF (rep_of_length h0) le_rfl le_rfl le_rfl le_rfl
  obtain ⟨b, b0, b1⟩ := mmBC0 (n := c.nMdsFa) (beta := (0 : K)) hx a1 (rep_of_length h1) le_rfl le_rfl le_rfl
  obtain ⟨e, e0, e1⟩ := mmAC (Q := 1) (beta := (1 : K)) b1 hT hd le_rfl le_rfl le_rfl le_rfl
  refine ⟨(a, b, e), ?_, a1.1, b1.1, e1.congr fun q md r k1 k2 k3 => ?_⟩
  · simp only [surfFace, Option.bind_eq_bind]
    rw [a0, Option.bind_some, b0, Option.bind_some, e0, Option.bind_some]
  · simp only [k1, k2, and_self, if_true, one_mul, surfC]
    congr 1
    refine sum_congr rfl fun n hn => ?_
    simp [mem_range.1 hn]

/-- `SurfInt::local`. -/
theorem surfLocal_spec {c : KCfg} {fIntLN fIntT : List (List K)} {F T : Nat → Nat → Nat → K} {X : Nat → K} {nM : Nat}
    (hF : Mats nM c.nMds c.nMdsFa c.nMdsFa fIntLN F) (hT : Mats c.nFas c.nMdsFa c.nMds c.nMds fIntT T) (hn : c.nFas ≤ nM)
    {fs tDofs : List K} (hX : ∀ i < c.nFas, fs[i]? = some (X i)) {t d : Nat → Nat → K} (ht : Vec c tDofs t)
    {s : List K × List K × List K} (h0 : s.1.length = 1 * c.nMdsFa * c.nCrs) (h1 : s.2.1.length = 1 * c.nMdsFa * c.nCrs)
    (hd : Vec c s.2.2 d) :
    ∃ s', surfLocal c fIntLN fIntT fs tDofs s = some s' ∧ Vec c s'.2.2 (fun md r => d md r +
      ∑ fa ∈ range c.nFas, surfC c (F fa) (X fa) (T fa) t md r) := by
  obtain ⟨s', k0, -, -, k1⟩ := forN_inv (n := c.nFas) (s := s) (body := fun fa s => do
    let mat ← rd fIntLN fa
    let fT ← rd fIntT fa
    surfFace c mat (fs.drop fa) fT tDofs s) (fun n s => s.1.length = 1 * c.nMdsFa * c.nCrs ∧
      s.2.1.length = 1 * c.nMdsFa * c.nCrs ∧ Vec c s.2.2 (fun md r => d md r +
        ∑ fa ∈ range n, surfC c (F fa) (X fa) (T fa) t md r)) ⟨h0, h1, hd.congr (by intros; simp)⟩ (by
    rintro fa s hfa ⟨g0, g1, g2⟩
    obtain ⟨mat, hm, mm⟩ := hF fa (by omega)
    obtain ⟨fT, hf, mf⟩ := hT fa hfa
    obtain ⟨s', q0, q1, q2, q3⟩ := surfFace_spec mm (mat_drop hX hfa) mf ht g0 g1 g2
    refine ⟨s', ?_, q1, q2, q3.congr (by intros; simp only [sum_range_succ _ fa, add_assoc])⟩
    simp only [hm, hf, Option.bind_eq_bind, Option.bind_some, q0])
  exact ⟨s', k0, k1⟩

/-- Flux matrix for a face: of the neighbouring element's vertex and face, or of the element's own face. -/
def matId (nFas fa : Nat) (vId : Option Nat) (fId : Nat) : Nat :=
  match vId with
  | some v => nFas + v * nFas + fId
  | none => fa

/-- `SurfInt::neigh`. -/
theorem surfNeigh_spec {c : KCfg} {fIntLN fIntT : List (List K)} {F T : Nat → Nat → Nat → K} {nM : Nat}
    (hF : Mats nM c.nMds c.nMdsFa c.nMdsFa fIntLN F) (hT : Mats c.nFas c.nMdsFa c.nMds c.nMds fIntT T) {fa fId : Nat}
    {vId : Option Nat} (hfa : fa < c.nFas) (hid : matId c.nFas fa vId fId < nM) {x : K} {tDofs : List K}
    {t d : Nat → Nat → K} (ht : Vec c tDofs t) {s : List K × List K × List K} (h0 : s.1.length = 1 * c.nMdsFa * c.nCrs)
    (h1 : s.2.1.length = 1 * c.nMdsFa * c.nCrs) (hd : Vec c s.2.2 d) :
    ∃ s', surfNeigh c fIntLN fIntT fa vId fId x tDofs s = some s' ∧ s'.1.length = 1 * c.nMdsFa * c.nCrs ∧
      s'.2.1.length = 1 * c.nMdsFa * c.nCrs ∧
      Vec c s'.2.2 (fun md r => d md r + surfC c (F (matId c.nFas fa vId fId)) x (T fa) t md r) := by
  obtain ⟨mat, hm, mm⟩ := hF _ hid
  obtain ⟨fT, hf, mf⟩ := hT fa hfa
  have hx : Mat 1 1 1 [x] (fun _ _ => x) := by
    intro i j hi hj
    obtain rfl : i = 0 := by omega
    obtain rfl : j = 0 := by omega
    rfl
  obtain ⟨s', q0, q1⟩ := surfFace_spec mm hx mf ht h0 h1 hd
  refine ⟨s', ?_, q1⟩
  cases vId <;> simp only [matId] at hm <;> simp only [surfNeigh, hm, hf, Option.bind_eq_bind, Option.bind_some, q0]

/-- Memory on the stack of the right size. -/
structure StackOk (c : KCfg) (mem : Stack K) : Prop where
  der : Arrs c.oTi (1 * c.nMds * c.nCrs) mem.der
  scr : mem.scr.length = 1 * c.nMds * c.nCrs
  sc0 : mem.sc0.length = 1 * c.nMdsFa * c.nCrs
  sc1 : mem.sc1.length = 1 * c.nMdsFa * c.nCrs

/-- Time integral over `[0, dt]` of the predicted modes. -/
def tInt (c : KCfg) (S : Nat → K) (G : Nat → Nat → Nat → K) (u : Nat → Nat → K) (dt : K) (md r : Nat) : K :=
  taylorInt c.oTi dt (fun n => deriv c S G u n md r)

/-- Matrices of the kernels: time, volume, faces. -/
structure KMats (c : KCfg) (nM : Nat) (stiffT stiffV fIntLN fIntT : List (List K)) (GT GV F T : Nat → Nat → Nat → K) : Prop where
  time : Mats c.nDis c.nMds c.nMds c.nMds stiffT GT
  vol : Mats c.nDis c.nMds c.nMds c.nMds stiffV GV
  flux : Mats nM c.nMds c.nMdsFa c.nMdsFa fIntLN F
  back : Mats c.nFas c.nMdsFa c.nMds c.nMds fIntT T
  fas : c.nFas ≤ nM

/-- `AderDg::local` of an element: degrees of freedom, and data for neighbours with equal, larger and smaller time steps. -/
theorem localEl_spec {c : KCfg} (ho : 0 < c.oTi) {nM : Nat} {stiffT stiffV fIntLN fIntT : List (List K)} {GT GV F T : Nat → Nat → Nat → K}
    (hM : KMats c nM stiffT stiffV fIntLN fIntT GT GV F T) {firstTs lt gt : Bool} {dt : K} {star fs : List K} {S X : Nat → K}
    (hS : ∀ i < c.nDis, star[i]? = some (S i)) (hX : ∀ i < c.nFas, fs[i]? = some (X i)) {mem : Stack K} (hmem : StackOk c mem)
    {dofs : List K} {u : Nat → Nat → K} (hu : Vec c dofs u) {t : TDofs K} {L : Nat → Nat → K} (h1 : t.eq.length = 1 * c.nMds * c.nCrs)
    (h2 : Vec c t.lt L) (h3 : t.gt.length = 1 * c.nMds * c.nCrs) :
    ∃ d' t', localEl c stiffT stiffV fIntLN fIntT firstTs dt lt gt star fs mem dofs t = some (d', t') ∧
      Vec c d' (fun md r => u md r + volC c S GV (tInt c S GT u dt) md r +
        ∑ fa ∈ range c.nFas, surfC c (F fa) (X fa) (T fa) (tInt c S GT u dt) md r) ∧
      Vec c t'.eq (tInt c S GT u dt) ∧
      Vec c t'.lt (fun md r => if lt then (if firstTs then 0 else L md r) + tInt c S GT u dt md r else L md r) ∧
      t'.gt.length = 1 * c.nMds * c.nCrs ∧ (gt → Vec c t'.gt (tInt c S GT u (1 / 2 * dt))) := by
  obtain ⟨der, eq, k0, k1, k2⟩ := ck_spec (dT := dt) ho hS hM.time hu hmem.der h1 hmem.scr
  have hl : ∃ l, sumLt c firstTs lt eq t.lt = some l ∧
      Vec c l (fun md r => if lt then (if firstTs then 0 else L md r) + tInt c S GT u dt md r else L md r) := by
    cases lt
    · exact ⟨t.lt, by simp [sumLt], by simpa using h2⟩
    · cases firstTs
      · obtain ⟨l, x0, x1⟩ := axpy_spec (sca := 1) h2 k2
        exact ⟨l, by simp [sumLt, x0], x1.congr (by intros; simp [tInt])⟩
      · obtain ⟨z, z0, z1⟩ := zero_spec h2.1
        obtain ⟨l, x0, x1⟩ := axpy_spec (sca := 1) z1 k2
        exact ⟨l, by simp [sumLt, z0, x0], x1.congr (by intros; simp [tInt])⟩
  have hg : ∃ g, halfGt c gt dt der t.gt = some g ∧ g.length = 1 * c.nMds * c.nCrs ∧
      (gt → Vec c g (tInt c S GT u (1 / 2 * dt))) := by
    cases gt
    · exact ⟨t.gt, by simp [halfGt], h3, by simp⟩
    · obtain ⟨g, x0, x1⟩ := integrate_spec (dt := 1 / 2 * dt) ho k1 h3
      exact ⟨g, by rw [halfGt, if_pos rfl, x0], x1.1, fun _ => x1⟩
  obtain ⟨l, l0, l1⟩ := hl
  obtain ⟨g, g0, g1, g2⟩ := hg
  obtain ⟨v, v0, v1, v2⟩ := volInt_spec hS hM.vol k2 hmem.scr hu
  obtain ⟨w, w0, w1⟩ := surfLocal_spec hM.flux hM.back hM.fas hX k2 (s := (mem.sc0, mem.sc1, v.2)) hmem.sc0 hmem.sc1 v2
  refine ⟨w.2.2, ⟨eq, l, g⟩, ?_, w1, k2, l1, g1, g2⟩
  simp only [localEl, k0, Option.bind_eq_bind, Option.bind_some]
  rw [l0, Option.bind_some, g0, Option.bind_some, v0, Option.bind_some, w0, Option.bind_some]

/-- Data of the neighbour at a face, by the relation of the time steps. -/
def relData (firstTs : Bool) (rel : Rel) (eq lt gt : Nat → Nat → K) (md r : Nat) : K :=
  match rel with
  | .eq => eq md r
  | .gt => lt md r
  | .lt => if firstTs then gt md r else eq md r - gt md r

theorem assemble_spec {c : KCfg} {firstTs : Bool} {rel : Rel} {t : TDofs K} {E L H : Nat → Nat → K} (h1 : Vec c t.eq E)
    (h2 : Vec c t.lt L) (h3 : Vec c t.gt H) : ∃ d, assemble c firstTs rel t = some d ∧ Vec c d (relData firstTs rel E L H) := by
  cases rel
  · exact ⟨_, rfl, h1⟩
  · exact ⟨_, rfl, h2⟩
  · cases firstTs
    · obtain ⟨d, x0, x1⟩ := axpy_spec (sca := -1) h1 h3
      exact ⟨d, by simp [assemble, x0], x1.congr (by intros; simp only [relData, Bool.false_eq_true, if_false]; ring)⟩
    · exact ⟨t.gt, by simp [assemble], h3.congr (by intros; simp [relData])⟩

/-- `AderDg::neigh` of an element; `Tn fa` is the data which is assembled at face `fa`. -/
theorem neighEl_spec {c : KCfg} {nM : Nat} {stiffT stiffV fIntLN fIntT : List (List K)} {GT GV F T : Nat → Nat → Nat → K}
    (hM : KMats c nM stiffT stiffV fIntLN fIntT GT GV F T) {firstTs : Bool} {fs : List K} {Y : Nat → K}
    (hY : ∀ i < c.nFas, fs[c.nFas + i]? = some (Y i)) {faces : List AFace} {f : Nat → AFace} (hf : ∀ fa < c.nFas, rd faces fa = some (f fa))
    (hid : ∀ fa < c.nFas, matId c.nFas fa (if (f fa).outflow then none else (f fa).vId) (f fa).fId < nM) {ts : List (TDofs K)} {el : Nat}
    {Tn : Nat → Nat → Nat → K} (hT : ∀ fa < c.nFas, ∃ t d, rd ts (if (f fa).outflow then el else (f fa).ne) = some t ∧
      assemble c firstTs (f fa).rel t = some d ∧ Vec c d (Tn fa)) {mem : Stack K} (hmem : StackOk c mem) {dofs : List K} {u : Nat → Nat → K}
    (hu : Vec c dofs u) :
    ∃ d', neighEl c fIntLN fIntT firstTs fs faces ts el mem dofs = some d' ∧ Vec c d' (fun md r => u md r + ∑ fa ∈ range c.nFas,
      surfC c (F (matId c.nFas fa (if (f fa).outflow then none else (f fa).vId) (f fa).fId)) (Y fa) (T fa) (Tn fa) md r) := by
  obtain ⟨s', k0, -, -, k1⟩ := forN_inv (n := c.nFas) (s := (mem.sc0, mem.sc1, dofs)) (body := fun fa (s : List K × List K × List K) => do
    let f ← rd faces fa
    let t ← rd ts (if f.outflow then el else f.ne)
    let d ← assemble c firstTs f.rel t
    let x ← rd fs (c.nFas + fa)
    surfNeigh c fIntLN fIntT fa (if f.outflow then none else f.vId) f.fId x d s) (fun n s => s.1.length = 1 * c.nMdsFa * c.nCrs ∧
      s.2.1.length = 1 * c.nMdsFa * c.nCrs ∧ Vec c s.2.2 (fun md r => u md r + ∑ fa ∈ range n,
      surfC c (F (matId c.nFas fa (if (f fa).outflow then none else (f fa).vId) (f fa).fId)) (Y fa) (T fa) (Tn fa) md r))
    ⟨hmem.sc0, hmem.sc1, hu.congr (by intros; simp)⟩ (by
    rintro fa s hfa ⟨g0, g1, g2⟩
    obtain ⟨t, d, x0, x1, x2⟩ := hT fa hfa
    obtain ⟨s', q0, q1, q2, q3⟩ := surfNeigh_spec (x := Y fa) hM.flux hM.back hfa (hid fa hfa) x2 g0 g1 g2
    refine ⟨s', ?_, q1, q2, q3.congr (by intros; simp only [sum_range_succ _ fa, add_assoc])⟩
    have hy : rd fs (c.nFas + fa) = some (Y fa) := hY fa hfa
    simp only [hf fa hfa, x0, x1, hy, Option.bind_eq_bind, Option.bind_some, q0])
  exact ⟨s'.2.2, by simp only [neighEl, Option.bind_eq_bind] at k0 ⊢; rw [k0, Option.bind_some], k1⟩

end Edge.Advection
