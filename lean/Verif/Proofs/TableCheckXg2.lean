import Verif.Proofs.TableScaling
import Verif.Model.TableXg

/-!
# Evaluation of the checks for `Model/TableXg`

Generated by tools/gen_checks.py.
-/

set_option maxRecDepth 100000
set_option Elab.async false

namespace Modepy.Table

theorem xgTri_37_ok : xgTriOk 37 xgTri_37 = true := by decide +kernel
theorem xgTri_38_ok : xgTriOk 38 xgTri_38 = true := by decide +kernel
theorem xgTri_39_ok : xgTriOk 39 xgTri_39 = true := by decide +kernel
theorem xgTri_40_ok : xgTriOk 40 xgTri_40 = true := by decide +kernel
theorem xgTri_41_ok : xgTriOk 41 xgTri_41 = true := by decide +kernel
theorem xgTri_42_ok : xgTriOk 42 xgTri_42 = true := by decide +kernel
theorem xgTri_43_ok : xgTriOk 43 xgTri_43 = true := by decide +kernel
theorem xgTri_44_ok : xgTriOk 44 xgTri_44 = true := by decide +kernel
theorem xgTri_45_ok : xgTriOk 45 xgTri_45 = true := by decide +kernel

end Modepy.Table
