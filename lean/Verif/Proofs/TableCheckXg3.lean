import Verif.Proofs.TableScaling
import Verif.Model.TableXg

/-!
# Evaluation of the checks for `Model/TableXg`

Generated by tools/gen_checks.py.
-/

set_option maxRecDepth 100000
set_option Elab.async false

namespace Modepy.Table

theorem xgTri_46_ok : xgTriOk 46 xgTri_46 = true := by decide +kernel
theorem xgTri_47_ok : xgTriOk 47 xgTri_47 = true := by decide +kernel
theorem xgTri_48_ok : xgTriOk 48 xgTri_48 = true := by decide +kernel
theorem xgTri_49_ok : xgTriOk 49 xgTri_49 = true := by decide +kernel
theorem xgTri_50_ok : xgTriOk 50 xgTri_50 = true := by decide +kernel

end Modepy.Table
