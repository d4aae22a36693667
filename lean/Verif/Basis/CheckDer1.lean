import Verif.Basis.Spec
import Verif.Basis.GenTetDer1
/-!
The code's derivatives of the basis functions of tetrahedra in the direction 1 are those of the formulas.
-/
namespace Edge.Basis

theorem tetDer1_same : allZip (sameD 0) tetDer1 ((tetIdx 11).map tetEx) = true := by decide +kernel
theorem tetDer1_good : tetDer1.all (Ex.good true) = true := by decide +kernel

end Edge.Basis
