import Verif.Util.Loop
import Verif.Util.Scatter
import Mathlib.Data.Nat.Init
import Mathlib.Tactic.Common
import Mathlib.Tactic.Ring
/-!
Model of the wave field output: the constructor of `src/io/WaveField.cpp` and `src/io/Vtk.cpp`. Arrays are flat lists. The conversion of
values to `float` and the format of the files are not modelled: a file is the data handed to the writer of the VisIt library.
-/
namespace Edge.Run
open Edge

/-- Elements which are printed, `WaveField::WaveField` (src/io/WaveField.cpp:51-56). `ty`: the requested sparse type, `none` for the
marker `numeric_limits::max()`. -/
def elPrint (nEls : Nat) (spTypes : List (BitVec 64)) (ty : Option (BitVec 64)) : Option (List Nat) :=
  forN nEls (fun el out => do
    match ty with
    | none => return out ++ [el]
    | some t => do
      let sp ← rd spTypes el
      return if sp &&& t = t then out ++ [el] else out) []

/-- Sizes: vertices of an element, quantities, modes and fused runs. -/
structure Sizes where
  nVe : Nat
  nQt : Nat
  nMd : Nat
  nCr : Nat

/-- Data handed to the writer: coordinates of the vertices, vertices of the cells, the variables' names (run, quantity), where the values
of the variables begin in the buffer, and the buffer. -/
structure Vtk (α : Type) where
  coords : List α
  conn : List Nat
  names : List (Nat × Nat)
  ptrs : List Nat
  dofs : List α
deriving DecidableEq

/-- Coordinates, `Vtk::init` (src/io/Vtk.cpp:60-65). -/
def initCoords {α : Type} (nVes : Nat) (veChars buf : List α) : Option (List α) :=
  forN nVes (fun ve buf => forN 3 (fun dim buf => do
    let x ← rd veChars (ve * 3 + dim)
    wr buf (ve * 3 + dim) x) buf) buf

/-- Vertices of the cells, `Vtk::init` (src/io/Vtk.cpp:68-73). -/
def initConn (z : Sizes) (els elVe buf : List Nat) : Option (List Nat) :=
  forN els.length (fun i buf => do
    let el ← rd els i
    forN z.nVe (fun ve buf => do
      let v ← rd elVe (el * z.nVe + ve)
      wr buf (i * z.nVe + ve) v) buf) buf

/-- Names and pointers of the variables, `Vtk::init` (src/io/Vtk.cpp:50-58). -/
def initVars (z : Sizes) (n : Nat) (s : List (Nat × Nat) × List Nat) : Option (List (Nat × Nat) × List Nat) :=
  forN z.nCr (fun run s => forN z.nQt (fun q s => do
    let names ← wr s.1 (run * z.nQt + q) (run, q)
    let ptrs ← wr s.2 (run * z.nQt + q) (n * (z.nQt * run + q))
    return (names, ptrs)) s) s

/-- Reordering of the DOFs, `Vtk::write` (src/io/Vtk.cpp:103-111): the first mode of each quantity and run. -/
def fillDofs {α : Type} (z : Sizes) (els : List Nat) (dofs buf : List α) : Option (List α) :=
  forN els.length (fun i buf => do
    let el ← rd els i
    forN z.nQt (fun q buf => forN z.nCr (fun cr buf => do
      let x ← rd dofs (((el * z.nQt + q) * z.nMd + 0) * z.nCr + cr)
      wr buf (els.length * (z.nQt * cr + q) + i) x) buf) buf) buf

/-- The first call of `Vtk::write` (src/io/Vtk.cpp:28-123) with freshly allocated buffers (`fill` is what the allocation holds). -/
def writeVtk {α : Type} (z : Sizes) (fill : α) (nVes : Nat) (els elVe : List Nat) (veChars dofs : List α) : Option (Vtk α) := do
  let coords ← initCoords nVes veChars (List.replicate (nVes * 3) fill)
  let conn ← initConn z els elVe (List.replicate (els.length * z.nVe) 0)
  let v ← initVars z els.length (List.replicate (z.nQt * z.nCr) (0, 0), List.replicate (z.nQt * z.nCr) 0)
  let buf ← fillDofs z els dofs (List.replicate (els.length * z.nQt * z.nCr) fill)
  return ⟨coords, conn, v.1, v.2, buf⟩

/-- A further call (src/io/Vtk.cpp:94-123): only the buffer of the DOFs is written. -/
def rewriteVtk {α : Type} (z : Sizes) (els : List Nat) (dofs : List α) (f : Vtk α) : Option (Vtk α) := do
  let buf ← fillDofs z els dofs f.dofs
  return { f with dofs := buf }

/-- Further calls, in the order of their DOFs. -/
def rewriteAll {α : Type} (z : Sizes) (els : List Nat) : List (List α) → Vtk α → Option (List (Vtk α))
  | [], _ => some []
  | d :: ds, f => do
    let f ← rewriteVtk z els d f
    let fs ← rewriteAll z els ds f
    return f :: fs

/-- The files of a run: `dss` are the DOFs at the times of the calls of `Vtk::write`. -/
def writeAll {α : Type} (z : Sizes) (fill : α) (nVes : Nat) (els elVe : List Nat) (veChars : List α) : List (List α) → Option (List (Vtk α))
  | [] => some []
  | d :: ds => do
    let f ← writeVtk z fill nVes els elVe veChars d
    let fs ← rewriteAll z els ds f
    return f :: fs

/-! ### Specification -/

/-- C87: the elements with all bits of the requested type, in the order of the mesh. -/
theorem C87_elements {nEls : Nat} {spTypes : List (BitVec 64)} (h : spTypes.length = nEls) (ty : Option (BitVec 64)) :
    ∃ out, elPrint nEls spTypes ty = some out ∧ out = (List.range nEls).filter (fun el =>
      ty.all (fun t => spTypes[el]?.any (fun sp => (List.range 64).all (fun b => !t.getLsbD b || sp.getLsbD b)))) := by
  have hbits : ∀ sp t : BitVec 64, sp &&& t = t ↔ ((List.range 64).all (fun b => !t.getLsbD b || sp.getLsbD b)) = true := by
    intro sp t
    rw [List.all_eq_true]
    constructor
    · intro h b _
      have := congrArg (fun w : BitVec 64 => w.getLsbD b) h
      simp only [BitVec.getLsbD_and] at this
      cases h1 : t.getLsbD b <;> cases h2 : sp.getLsbD b <;> simp_all
    · intro h
      apply BitVec.eq_of_getLsbD_eq
      intro b hb
      have := h b (List.mem_range.2 hb)
      rw [BitVec.getLsbD_and]
      clear h
      cases h1 : t.getLsbD b <;> cases h2 : sp.getLsbD b <;> simp_all
  obtain ⟨out, h1, h2⟩ := forN_inv (n := nEls) (s := []) (body := fun el (out : List Nat) => do
    match ty with
    | none => return out ++ [el]
    | some t => do
      let sp ← rd spTypes el
      return if sp &&& t = t then out ++ [el] else out) (fun i out => out = (List.range i).filter (fun el =>
      ty.all (fun t => spTypes[el]?.any (fun sp => (List.range 64).all (fun b => !t.getLsbD b || sp.getLsbD b))))) (by simp) (by
    rintro i out hi rfl
    cases ty with
    | none => exact ⟨_, rfl, by simp [List.range_succ]⟩
    | some t =>
      have hsp : spTypes[i]? = some spTypes[i] := List.getElem?_eq_getElem (by omega)
      refine ⟨_, by simp only [rd, hsp, Option.bind_eq_bind, Option.bind_some]; rfl, ?_⟩
      rw [List.range_succ (n := i), List.filter_append]
      by_cases hp : spTypes[i] &&& t = t
      · have hp' := (hbits _ _).1 hp
        rw [if_pos hp, List.filter_cons_of_pos (by simp only [Option.all_some, hsp, Option.any_some]; exact hp')]
        rfl
      · have hp' : ¬ ((List.range 64).all (fun b => !t.getLsbD b || spTypes[i].getLsbD b)) = true := fun h => hp ((hbits _ _).2 h)
        rw [if_neg hp, List.filter_cons_of_neg (by simp only [Option.all_some, hsp, Option.any_some]; exact hp')]
        simp)
  exact ⟨out, h1, h2⟩

/-- What a file has to hold: all vertices, the vertices of the printed elements, and for each run and quantity a variable of this name
with the element averages (first mode) of the printed elements at the time of the call. -/
structure Holds {α : Type} (z : Sizes) (nVes : Nat) (els elVe : List Nat) (veChars dofs : List α) (f : Vtk α) : Prop where
  coords : ∀ i < nVes * 3, f.coords[i]? = veChars[i]?
  ncoords : f.coords.length = nVes * 3
  conn : ∀ i el : Nat, els[i]? = some el → ∀ ve < z.nVe, f.conn[i * z.nVe + ve]? = elVe[el * z.nVe + ve]?
  nconn : f.conn.length = els.length * z.nVe
  vars : ∀ run < z.nCr, ∀ q < z.nQt, ∃ v p : Nat, f.names[v]? = some (run, q) ∧ f.ptrs[v]? = some p ∧ p + els.length ≤ f.dofs.length ∧
    (∀ v' : Nat, f.names[v']? = some (run, q) → v' = v) ∧
    ∀ i el : Nat, els[i]? = some el → f.dofs[p + i]? = dofs[(el * z.nQt + q) * z.nMd * z.nCr + run]?
  nvars : f.names.length = z.nCr * z.nQt ∧ f.ptrs.length = z.nCr * z.nQt

theorem inj2 {A a b a' b' : Nat} (hb : b < A) (hb' : b' < A) (e : a * A + b = a' * A + b') : a = a' ∧ b = b' := by
  have h1 : (a * A + b) / A = a := by
    rw [Nat.mul_comm, Nat.mul_add_div (by omega), Nat.div_eq_of_lt hb, Nat.add_zero]
  have h2 : (a' * A + b') / A = a' := by
    rw [Nat.mul_comm, Nat.mul_add_div (by omega), Nat.div_eq_of_lt hb', Nat.add_zero]
  have h3 : a = a' := by rw [← h1, ← h2, e]
  subst h3
  exact ⟨rfl, by omega⟩

theorem lt2 {A B a b : Nat} (ha : a < B) (hb : b < A) : a * A + b < B * A := by
  calc a * A + b < a * A + A := by omega
    _ = (a + 1) * A := by ring
    _ ≤ B * A := Nat.mul_le_mul_right _ ha

theorem fillDofs_spec {α : Type} {z : Sizes} {els : List Nat} {nEls : Nat} {dofs buf : List α} (he : ∀ el ∈ els, el < nEls)
    (hmd : 0 < z.nMd) (hd : dofs.length = nEls * z.nQt * z.nMd * z.nCr) (hb : buf.length = els.length * z.nQt * z.nCr) :
    ∃ out, fillDofs z els dofs buf = some out ∧ out.length = buf.length ∧ ∀ (i el : Nat), els[i]? = some el → ∀ q < z.nQt, ∀ run < z.nCr,
      out[els.length * (z.nQt * run + q) + i]? = dofs[(el * z.nQt + q) * z.nMd * z.nCr + run]? := by
  have e1 : fillDofs z els dofs buf = forN els.length (fun i buf => forN z.nQt (fun q buf => forN z.nCr (fun cr buf => do
      let el ← rd els i
      let x ← rd dofs (((el * z.nQt + q) * z.nMd + 0) * z.nCr + cr)
      wr buf (els.length * (z.nQt * cr + q) + i) x) buf) buf) buf := by
    unfold fillDofs
    apply forN_congr
    intro i s hi
    simp only [rd_some hi, Option.bind_eq_bind, Option.bind_some]
  have hidx : ∀ el < nEls, ∀ q < z.nQt, ∀ cr < z.nCr, (el * z.nQt + q) * z.nMd * z.nCr + cr < dofs.length := by
    intro el h1 q h2 cr h3
    rw [hd]
    have := lt2 (lt2 (lt2 h1 h2) hmd) h3
    simpa using this
  have hout : ∀ i < els.length, ∀ q < z.nQt, ∀ cr < z.nCr, els.length * (z.nQt * cr + q) + i < buf.length := by
    intro i h1 q h2 cr h3
    rw [hb]
    have := lt2 (lt2 h3 h2) h1
    calc els.length * (z.nQt * cr + q) + i = (cr * z.nQt + q) * els.length + i := by ring
      _ < z.nCr * z.nQt * els.length := this
      _ = els.length * z.nQt * z.nCr := by ring
  rw [e1, forN_triples]
  obtain ⟨out, o1, o2, o3, -⟩ := scatter (ts := triples els.length z.nQt z.nCr)
    (idx := fun t => els.length * (z.nQt * t.2.2 + t.2.1) + t.1)
    (f := fun buf t => do
      let el ← rd els t.1
      let x ← rd dofs (((el * z.nQt + t.2.1) * z.nMd + 0) * z.nCr + t.2.2)
      wr buf (els.length * (z.nQt * t.2.2 + t.2.1) + t.1) x) (c := buf)
    (fun t x => match els[t.1]? with
      | some el => (dofs[(el * z.nQt + t.2.1) * z.nMd * z.nCr + t.2.2]?).getD x
      | none => x)
    (nodup_map_of_inj (nodup_triples _ _ _) (by
      rintro ⟨i, q, cr⟩ h1 ⟨i', q', cr'⟩ h2 e
      obtain ⟨a1, a2, a3⟩ := mem_triples.1 h1
      obtain ⟨b1, b2, b3⟩ := mem_triples.1 h2
      simp only at a1 a2 a3 b1 b2 b3 e
      rw [Nat.mul_comm els.length, Nat.mul_comm els.length] at e
      obtain ⟨c1, rfl⟩ := inj2 a1 b1 e
      rw [Nat.mul_comm z.nQt, Nat.mul_comm z.nQt] at c1
      obtain ⟨rfl, rfl⟩ := inj2 a2 b2 c1
      rfl)) (by
      rintro ⟨i, q, cr⟩ h1
      obtain ⟨a1, a2, a3⟩ := mem_triples.1 h1
      exact hout i a1 q a2 cr a3) (by
      rintro ⟨i, q, cr⟩ h1 c' x hl hx -
      obtain ⟨a1, a2, a3⟩ := mem_triples.1 h1
      simp only at a1 a2 a3 hx ⊢
      have hi := hidx els[i] (he _ (List.getElem_mem a1)) q a2 cr a3
      rw [List.getElem?_eq_getElem a1]
      simp only [List.getElem?_eq_getElem a1, Option.bind_eq_bind, Option.bind_some, Nat.add_zero, rd, List.getElem?_eq_getElem hi, Option.getD_some]
      exact wr_some (by rw [hl]; exact hout i a1 q a2 cr a3) _)
  refine ⟨out, o1, o2, fun i el hel q hq run hr => ?_⟩
  have hi : i < els.length := (List.getElem?_eq_some_iff.1 hel).1
  have := o3 (i, q, run) (mem_triples.2 ⟨hi, hq, hr⟩)
  simp only [hel] at this
  rw [this, List.getElem?_eq_getElem (hout i hi q hq run hr), Option.map_some,
    List.getElem?_eq_getElem (hidx el (he el (List.mem_of_getElem? hel)) q hq run hr), Option.getD_some]

theorem initConn_spec {z : Sizes} {els elVe buf : List Nat} {nEls : Nat} (he : ∀ el ∈ els, el < nEls) (hv : elVe.length = nEls * z.nVe)
    (hb : buf.length = els.length * z.nVe) :
    ∃ out, initConn z els elVe buf = some out ∧ out.length = buf.length ∧ ∀ (i el : Nat), els[i]? = some el → ∀ ve < z.nVe,
      out[i * z.nVe + ve]? = elVe[el * z.nVe + ve]? := by
  have e1 : initConn z els elVe buf = forN els.length (fun i buf => forN z.nVe (fun ve buf => do
      let el ← rd els i
      let v ← rd elVe (el * z.nVe + ve)
      wr buf (i * z.nVe + ve) v) buf) buf := by
    unfold initConn
    apply forN_congr
    intro i s hi
    simp only [rd_some hi, Option.bind_eq_bind, Option.bind_some]
  have hidx : ∀ el < nEls, ∀ ve < z.nVe, el * z.nVe + ve < elVe.length := by
    intro el h1 q h2
    rw [hv]
    exact lt2 h1 h2
  have hout : ∀ i < els.length, ∀ ve < z.nVe, i * z.nVe + ve < buf.length := by
    intro i h1 q h2
    rw [hb]
    exact lt2 h1 h2
  rw [e1, forN_pairs els.length z.nVe (fun i ve buf => do
      let el ← rd els i
      let v ← rd elVe (el * z.nVe + ve)
      wr buf (i * z.nVe + ve) v)]
  obtain ⟨out, o1, o2, o3, -⟩ := scatter (ts := pairs els.length z.nVe)
    (idx := fun t => t.1 * z.nVe + t.2)
    (f := fun buf t => do
      let el ← rd els t.1
      let v ← rd elVe (el * z.nVe + t.2)
      wr buf (t.1 * z.nVe + t.2) v) (c := buf)
    (fun t x => match els[t.1]? with
      | some el => (elVe[el * z.nVe + t.2]?).getD x
      | none => x)
    (nodup_map_of_inj (nodup_pairs _ _) (by
      rintro ⟨i, q⟩ h1 ⟨i', q'⟩ h2 e
      obtain ⟨a1, a2⟩ := mem_pairs.1 h1
      obtain ⟨b1, b2⟩ := mem_pairs.1 h2
      obtain ⟨c1, c2⟩ := inj2 a2 b2 e
      simp only at c1 c2
      rw [c1, c2])) (by
      rintro ⟨i, q⟩ h1
      obtain ⟨a1, a2⟩ := mem_pairs.1 h1
      exact hout i a1 q a2) (by
      rintro ⟨i, q⟩ h1 c' x hl hx -
      obtain ⟨a1, a2⟩ := mem_pairs.1 h1
      simp only at a1 a2 hx ⊢
      have hi := hidx els[i] (he _ (List.getElem_mem a1)) q a2
      rw [List.getElem?_eq_getElem a1]
      simp only [List.getElem?_eq_getElem a1, Option.bind_eq_bind, Option.bind_some, rd, List.getElem?_eq_getElem hi, Option.getD_some]
      exact wr_some (by rw [hl]; exact hout i a1 q a2) _)
  refine ⟨out, o1, o2, fun i el hel q hq => ?_⟩
  have hi : i < els.length := (List.getElem?_eq_some_iff.1 hel).1
  have := o3 (i, q) (mem_pairs.2 ⟨hi, hq⟩)
  simp only [hel] at this
  rw [this, List.getElem?_eq_getElem (hout i hi q hq), Option.map_some,
    List.getElem?_eq_getElem (hidx el (he el (List.mem_of_getElem? hel)) q hq), Option.getD_some]

theorem initCoords_spec {α : Type} {nVes : Nat} {veChars buf : List α} (hv : veChars.length = nVes * 3) (hb : buf.length = nVes * 3) :
    ∃ out, initCoords nVes veChars buf = some out ∧ out.length = nVes * 3 ∧ ∀ i < nVes * 3, out[i]? = veChars[i]? := by
  have hidx : ∀ ve < nVes, ∀ d < 3, ve * 3 + d < nVes * 3 := by
    intro ve h1 d h2
    omega
  unfold initCoords
  rw [forN_pairs nVes 3 (fun ve dim buf => do
    let x ← rd veChars (ve * 3 + dim)
    wr buf (ve * 3 + dim) x)]
  obtain ⟨out, o1, o2, o3, -⟩ := scatter (ts := pairs nVes 3)
    (idx := fun t => t.1 * 3 + t.2)
    (f := fun buf t => do
      let v ← rd veChars (t.1 * 3 + t.2)
      wr buf (t.1 * 3 + t.2) v) (c := buf)
    (fun t x => (veChars[t.1 * 3 + t.2]?).getD x)
    (nodup_map_of_inj (nodup_pairs _ _) (by
      rintro ⟨i, q⟩ h1 ⟨i', q'⟩ h2 e
      obtain ⟨a1, a2⟩ := mem_pairs.1 h1
      obtain ⟨b1, b2⟩ := mem_pairs.1 h2
      obtain ⟨c1, c2⟩ := inj2 a2 b2 e
      simp only at c1 c2
      rw [c1, c2])) (by
      rintro ⟨i, q⟩ h1
      obtain ⟨a1, a2⟩ := mem_pairs.1 h1
      simp only at a1 a2 ⊢
      omega) (by
      rintro ⟨i, q⟩ h1 c' x hl hx -
      obtain ⟨a1, a2⟩ := mem_pairs.1 h1
      simp only at a1 a2 hx ⊢
      have hi : i * 3 + q < veChars.length := by omega
      simp only [rd, List.getElem?_eq_getElem hi, Option.bind_eq_bind, Option.bind_some, Option.getD_some]
      exact wr_some (by omega) _)
  refine ⟨out, o1, by omega, fun i hi => ?_⟩
  have := o3 (i / 3, i % 3) (mem_pairs.2 ⟨by simp only; omega, by simp only; omega⟩)
  have e : i / 3 * 3 + i % 3 = i := by omega
  simp only [e] at this
  rw [this, List.getElem?_eq_getElem (show i < buf.length by omega), Option.map_some,
    List.getElem?_eq_getElem (show i < veChars.length by omega), Option.getD_some]

theorem initVars_spec {z : Sizes} {n : Nat} {s : List (Nat × Nat) × List Nat} (h1 : s.1.length = z.nQt * z.nCr) (h2 : s.2.length = z.nQt * z.nCr) :
    ∃ out, initVars z n s = some out ∧ out.1.length = z.nCr * z.nQt ∧ out.2.length = z.nCr * z.nQt ∧
      ∀ run < z.nCr, ∀ q < z.nQt, out.1[run * z.nQt + q]? = some (run, q) ∧ out.2[run * z.nQt + q]? = some (n * (z.nQt * run + q)) := by
  rw [Nat.mul_comm] at h1 h2
  unfold initVars
  obtain ⟨out, o1, o2, o3, o4⟩ := forN_inv (n := z.nCr) (s := s) (body := fun run s => forN z.nQt (fun q s => do
    let names ← wr s.1 (run * z.nQt + q) (run, q)
    let ptrs ← wr s.2 (run * z.nQt + q) (n * (z.nQt * run + q))
    return (names, ptrs)) s)
    (fun m out => out.1.length = z.nCr * z.nQt ∧ out.2.length = z.nCr * z.nQt ∧ ∀ run < m, ∀ q < z.nQt,
      out.1[run * z.nQt + q]? = some (run, q) ∧ out.2[run * z.nQt + q]? = some (n * (z.nQt * run + q)))
    ⟨h1, h2, fun run hr => absurd hr (Nat.not_lt_zero _)⟩ (by
    rintro m t hm ⟨t1, t2, t3⟩
    obtain ⟨out, o1, o2, o3, o4, o5⟩ := forN_inv (n := z.nQt) (s := t) (body := fun q (s : List (Nat × Nat) × List Nat) => do
      let names ← wr s.1 (m * z.nQt + q) (m, q)
      let ptrs ← wr s.2 (m * z.nQt + q) (n * (z.nQt * m + q))
      return (names, ptrs))
      (fun k out => out.1.length = z.nCr * z.nQt ∧ out.2.length = z.nCr * z.nQt ∧ (∀ run < m, ∀ q < z.nQt,
        out.1[run * z.nQt + q]? = some (run, q) ∧ out.2[run * z.nQt + q]? = some (n * (z.nQt * run + q))) ∧ ∀ q < k,
        out.1[m * z.nQt + q]? = some (m, q) ∧ out.2[m * z.nQt + q]? = some (n * (z.nQt * m + q)))
      ⟨t1, t2, t3, fun run hr => absurd hr (Nat.not_lt_zero _)⟩ (by
      rintro k u hk ⟨u1, u2, u3, u4⟩
      have hlt := lt2 hm hk
      refine ⟨(u.1.set (m * z.nQt + k) (m, k), u.2.set (m * z.nQt + k) (n * (z.nQt * m + k))), ?_, by simpa using u1, by simpa using u2, ?_, ?_⟩
      · simp only [wr_some (show m * z.nQt + k < u.1.length by omega), wr_some (show m * z.nQt + k < u.2.length by omega),
          Option.bind_eq_bind, Option.bind_some, Option.pure_def]
      · intro run hr q hq
        have hne : m * z.nQt + k ≠ run * z.nQt + q := fun e => by
          have := (inj2 hk hq e).1
          omega
        simp only [List.getElem?_set_ne hne]
        exact u3 run hr q hq
      · intro q hq
        by_cases he : q = k
        · subst he
          exact ⟨List.getElem?_set_self (by omega), List.getElem?_set_self (by omega)⟩
        · simp only [List.getElem?_set_ne (show m * z.nQt + k ≠ m * z.nQt + q by omega)]
          exact u4 q (by omega))
    refine ⟨out, o1, o2, o3, fun run hr q hq => ?_⟩
    by_cases he : run = m
    · subst he
      exact o5 q hq
    · exact o4 run (by omega) q hq)
  exact ⟨out, o1, o2, o3, o4⟩

/-- The variables of a file. -/
structure Vars {α : Type} (z : Sizes) (nVes : Nat) (els elVe : List Nat) (veChars : List α) (f : Vtk α) : Prop where
  coords : ∀ i < nVes * 3, f.coords[i]? = veChars[i]?
  ncoords : f.coords.length = nVes * 3
  conn : ∀ i el : Nat, els[i]? = some el → ∀ ve < z.nVe, f.conn[i * z.nVe + ve]? = elVe[el * z.nVe + ve]?
  nconn : f.conn.length = els.length * z.nVe
  nnames : f.names.length = z.nCr * z.nQt
  nptrs : f.ptrs.length = z.nCr * z.nQt
  vars : ∀ run < z.nCr, ∀ q < z.nQt, f.names[run * z.nQt + q]? = some (run, q) ∧
    f.ptrs[run * z.nQt + q]? = some (els.length * (z.nQt * run + q))
  ndofs : f.dofs.length = els.length * z.nQt * z.nCr

theorem holds_of {α : Type} {z : Sizes} {nVes : Nat} {els elVe : List Nat} {veChars dofs : List α} {f : Vtk α} (h : Vars z nVes els elVe veChars f)
    (hd : ∀ (i el : Nat), els[i]? = some el → ∀ q < z.nQt, ∀ run < z.nCr,
      f.dofs[els.length * (z.nQt * run + q) + i]? = dofs[(el * z.nQt + q) * z.nMd * z.nCr + run]?) :
    Holds z nVes els elVe veChars dofs f := by
  refine ⟨h.coords, h.ncoords, h.conn, h.nconn, fun run hr q hq => ?_, h.nnames, h.nptrs⟩
  obtain ⟨v1, v2⟩ := h.vars run hr q hq
  refine ⟨_, _, v1, v2, ?_, fun v' hv' => ?_, fun i el hel => hd i el hel q hq run hr⟩
  · rw [h.ndofs]
    have : run * z.nQt + q + 1 ≤ z.nCr * z.nQt := lt2 hr hq
    calc els.length * (z.nQt * run + q) + els.length = els.length * (run * z.nQt + q + 1) := by ring
      _ ≤ els.length * (z.nCr * z.nQt) := Nat.mul_le_mul_left _ this
      _ = els.length * z.nQt * z.nCr := by ring
  · have hlt : v' < z.nCr * z.nQt := by
      have := (List.getElem?_eq_some_iff.1 hv').1
      rwa [h.nnames] at this
    have hQ : 0 < z.nQt := by omega
    have hdm : v' / z.nQt * z.nQt + v' % z.nQt = v' := Nat.div_add_mod' v' z.nQt
    have := (h.vars (v' / z.nQt) (Nat.div_lt_of_lt_mul (by rwa [Nat.mul_comm])) (v' % z.nQt) (Nat.mod_lt _ hQ)).1
    rw [hdm, hv', Option.some.injEq, Prod.mk.injEq] at this
    rw [← hdm, ← this.1, ← this.2]

theorem rewriteAll_spec {α : Type} {z : Sizes} {nVes nEls : Nat} {els elVe : List Nat} {veChars : List α}
    (he : ∀ el ∈ els, el < nEls) (hmd : 0 < z.nMd) : ∀ (dss : List (List α)), (∀ d ∈ dss, d.length = nEls * z.nQt * z.nMd * z.nCr) →
    ∀ f : Vtk α, Vars z nVes els elVe veChars f → ∃ fs, rewriteAll z els dss f = some fs ∧ fs.length = dss.length ∧
      ∀ (k : Nat) (d : List α) (f' : Vtk α), dss[k]? = some d → fs[k]? = some f' → Holds z nVes els elVe veChars d f'
  | [], _, f, _ => ⟨[], rfl, rfl, fun k d f' hd => by simp at hd⟩
  | d :: ds, hl, f, hf => by
    obtain ⟨bu, b1, b2, b3⟩ := fillDofs_spec (z := z) (els := els) (buf := f.dofs) he hmd (hl d (by simp)) hf.ndofs
    have hf' : Vars z nVes els elVe veChars { f with dofs := bu } :=
      ⟨hf.coords, hf.ncoords, hf.conn, hf.nconn, hf.nnames, hf.nptrs, hf.vars, by rw [← hf.ndofs, ← b2]⟩
    obtain ⟨fs, r1, r2, r3⟩ := rewriteAll_spec he hmd ds (fun d' hd' => hl d' (by simp [hd'])) _ hf'
    refine ⟨{ f with dofs := bu } :: fs, ?_, by simp [r2], ?_⟩
    · simp only [rewriteAll, rewriteVtk, b1, r1, Option.bind_eq_bind, Option.bind_some, Option.pure_def]
    · intro k d' f'' hd hf''
      cases k with
      | zero =>
        simp only [List.getElem?_cons_zero, Option.some.injEq] at hd hf''
        subst hd
        subst hf''
        exact holds_of hf' b3
      | succ k => exact r3 k d' f'' (by simpa using hd) (by simpa using hf'')

/-- C87: the calls of the writer produce one file each, which holds the printed elements and their averages at the time of the call,
whatever the buffers held before. -/
theorem C87_files {α : Type} {z : Sizes} {nVes nEls : Nat} {els elVe : List Nat} {veChars : List α} (fill : α) {dss : List (List α)}
    (he : ∀ el ∈ els, el < nEls) (hv : elVe.length = nEls * z.nVe) (hve : veChars.length = nVes * 3) (hmd : 0 < z.nMd)
    (hd : ∀ d ∈ dss, d.length = nEls * z.nQt * z.nMd * z.nCr) :
    ∃ fs, writeAll z fill nVes els elVe veChars dss = some fs ∧ fs.length = dss.length ∧
      ∀ (k : Nat) (d : List α) (f : Vtk α), dss[k]? = some d → fs[k]? = some f → Holds z nVes els elVe veChars d f := by
  cases dss with
  | nil => exact ⟨[], rfl, rfl, fun k d f hd => by simp at hd⟩
  | cons d ds =>
    obtain ⟨co, c1, c2, c3⟩ := initCoords_spec (buf := List.replicate (nVes * 3) fill) hve (by simp)
    obtain ⟨cn, n1, n2, n3⟩ := initConn_spec (z := z) (els := els) (buf := List.replicate (els.length * z.nVe) 0) he hv (by simp)
    obtain ⟨va, v1, v2, v3, v4⟩ := initVars_spec (z := z) (n := els.length)
      (s := (List.replicate (z.nQt * z.nCr) (0, 0), List.replicate (z.nQt * z.nCr) 0)) (by simp) (by simp)
    obtain ⟨bu, b1, b2, b3⟩ := fillDofs_spec (z := z) (els := els) (buf := List.replicate (els.length * z.nQt * z.nCr) fill) he hmd
      (hd d (by simp)) (by simp)
    have hf : Vars z nVes els elVe veChars ⟨co, cn, va.1, va.2, bu⟩ :=
      ⟨c3, c2, n3, by simpa using n2, v2, v3, v4, by simpa using b2⟩
    obtain ⟨fs, r1, r2, r3⟩ := rewriteAll_spec he hmd ds (fun d' hd' => hd d' (by simp [hd'])) _ hf
    refine ⟨⟨co, cn, va.1, va.2, bu⟩ :: fs, ?_, by simp [r2], ?_⟩
    · simp only [writeAll, writeVtk, c1, n1, v1, b1, r1, Option.bind_eq_bind, Option.bind_some, Option.pure_def]
    · intro k d' f' hd' hf'
      cases k with
      | zero =>
        simp only [List.getElem?_cons_zero, Option.some.injEq] at hd' hf'
        subst hd'
        subst hf'
        exact holds_of hf b3
      | succ k => exact r3 k d' f' (by simpa using hd') (by simpa using hf')

/-- Three elements of which the first and the last have bit 3: 2 quantities, 2 modes, 2 runs, two calls. -/
example : elPrint 3 [9#64, 4#64, 12#64] (some 8#64) = some [0, 2] := by decide +kernel

example : writeAll ⟨2, 2, 2, 2⟩ 99 2 [0, 2] [0, 1, 1, 2, 2, 3] [10, 11, 12, 13, 14, 15] [List.range 24, (List.range 24).map (· + 100)] =
    some [⟨[10, 11, 12, 13, 14, 15], [0, 1, 2, 3], [(0, 0), (0, 1), (1, 0), (1, 1)], [0, 2, 4, 6], [0, 16, 4, 20, 1, 17, 5, 21]⟩,
      ⟨[10, 11, 12, 13, 14, 15], [0, 1, 2, 3], [(0, 0), (0, 1), (1, 0), (1, 1)], [0, 2, 4, 6],
        [100, 116, 104, 120, 101, 117, 105, 121]⟩] := by
  decide +kernel

end Edge.Run
