import Verif.Basis.Spec
import Verif.Basis.GenTetDer2
/-!
The code's derivatives of the basis functions of tetrahedra in the direction 2 are those of the formulas.
-/
namespace Edge.Basis

theorem tetDer2_same : allZip (sameD 1) tetDer2 ((tetIdx 11).map tetEx) = true := by decide +kernel
theorem tetDer2_good : tetDer2.all (Ex.good true) = true := by decide +kernel

end Edge.Basis
