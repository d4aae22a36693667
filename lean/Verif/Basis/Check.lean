import Verif.Basis.Spec
import Verif.Basis.GenLine
import Verif.Basis.GenTria
import Verif.Basis.GenTet
/-!
The code's basis functions are those of the formulas: checks of all functions, and of the derivatives for lines and triangles.
-/
namespace Edge.Basis

theorem lineVal_same : allZip (sameP) lineVal ((List.range 10).map lineEx) = true := by decide +kernel
theorem lineDer_same : allZip (sameD 0) lineDer ((List.range 10).map lineEx) = true := by decide +kernel
theorem triaVal_same : allZip (sameP) triaVal ((triaIdx 10).map triaEx) = true := by decide +kernel
theorem triaDer1_same : allZip (sameD 0) triaDer1 ((triaIdx 10).map triaEx) = true := by decide +kernel
theorem triaDer2_same : allZip (sameD 1) triaDer2 ((triaIdx 10).map triaEx) = true := by decide +kernel
theorem tetVal_same : allZip (sameP) tetVal ((tetIdx 11).map tetEx) = true := by decide +kernel
theorem lineVal_good : lineVal.all (Ex.good false) = true := by decide +kernel
theorem lineDer_good : lineDer.all (Ex.good false) = true := by decide +kernel
theorem triaVal_good : triaVal.all (Ex.good false) = true := by decide +kernel
theorem triaDer1_good : triaDer1.all (Ex.good false) = true := by decide +kernel
theorem triaDer2_good : triaDer2.all (Ex.good false) = true := by decide +kernel
theorem tetVal_good : tetVal.all (Ex.good true) = true := by decide +kernel

end Edge.Basis
