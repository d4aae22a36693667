import Verif.Basis.Spec
import Verif.Basis.GenTetDer3
/-!
The code's derivatives of the basis functions of tetrahedra in the direction 3 are those of the formulas.
-/
namespace Edge.Basis

theorem tetDer3_same : allZip (sameD 2) tetDer3 ((tetIdx 11).map tetEx) = true := by decide +kernel
theorem tetDer3_good : tetDer3.all (Ex.good true) = true := by decide +kernel

end Edge.Basis
