import Verif.Seismic.Model
import Verif.Seismic.Rot
/-!
Star matrices of the volume kernels (property C71).
-/
namespace Edge.Seismic
open Matrix Edge

/-- C71, 2D: the star matrix of direction `di` of the reference element is the combination of the physical Jacobians with
the partial derivatives of the reference coordinate `di`, and the sparse variant stores all entries which can be nonzero,
row by row. -/
theorem C71_star2 {K : Type} [Field K] (rho lam mu : K) (J : Fin 2 → Fin 2 → K) (di : Fin 2) :
    star2 rho lam mu J di = J 0 di • jac2 rho lam mu 0 + J 1 di • jac2 rho lam mu 1 ∧
    (∀ p ∉ starPos2, star2 rho lam mu J di p.1 p.2 = 0) ∧
    starPos2.Pairwise (fun p q => p.1 < q.1 ∨ p.1 = q.1 ∧ p.2 < q.2) ∧
    starSparse2 rho lam mu J di = starPos2.map (fun p => (J 0 di • jac2 rho lam mu 0 + J 1 di • jac2 rho lam mu 1) p.1 p.2)
    := by
  have key : star2 rho lam mu J di = J 0 di • jac2 rho lam mu 0 + J 1 di • jac2 rho lam mu 1 := by
    ext i j
    fin_cases i <;> fin_cases j <;> simp [star2, jac2, Matrix.add_apply] <;> ring
  refine ⟨key, ?_, by decide, by rw [← key]; rfl⟩
  rintro ⟨i, j⟩ h
  revert h
  fin_cases i <;> fin_cases j <;> simp [starPos2, star2]

set_option maxHeartbeats 1000000 in
/-- C71, 3D. -/
theorem C71_star3 {K : Type} [Field K] (rho lam mu : K) (J : Fin 3 → Fin 3 → K) (di : Fin 3) :
    star3 rho lam mu J di = J 0 di • jac3 rho lam mu 0 + J 1 di • jac3 rho lam mu 1 + J 2 di • jac3 rho lam mu 2 ∧
    (∀ p ∉ starPos3, star3 rho lam mu J di p.1 p.2 = 0) ∧
    starPos3.Pairwise (fun p q => p.1 < q.1 ∨ p.1 = q.1 ∧ p.2 < q.2) ∧
    starSparse3 rho lam mu J di = starPos3.map (fun p =>
      (J 0 di • jac3 rho lam mu 0 + J 1 di • jac3 rho lam mu 1 + J 2 di • jac3 rho lam mu 2) p.1 p.2) := by
  have key : star3 rho lam mu J di =
      J 0 di • jac3 rho lam mu 0 + J 1 di • jac3 rho lam mu 1 + J 2 di • jac3 rho lam mu 2 := by
    simp only [star3, jac3, Matrix.cons_val_zero, Matrix.cons_val_one, Matrix.cons_val, Matrix.smul_of, Matrix.smul_cons,
      Matrix.smul_empty, Matrix.add_cons, Matrix.of_add_of, smul_eq_mul, Matrix.head_cons, Matrix.tail_cons,
      Matrix.empty_add_empty]
    refine congrArg Matrix.of ?_
    repeat' apply vecCons_congr
    all_goals first | rfl | ring
  refine ⟨key, ?_, by decide, by rw [← key]; rfl⟩
  rintro ⟨i, j⟩ h
  revert h
  fin_cases i <;> fin_cases j <;> simp [starPos3, star3]

end Edge.Seismic
