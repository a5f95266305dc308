import Verif.Proofs.TableScaling
import Verif.Model.TableXg

/-!
# Evaluation of the checks for `Model/TableXg`

Generated by tools/gen_checks.py.
-/

set_option maxRecDepth 100000
set_option Elab.async false

namespace Modepy.Table

theorem xgTet_1_ok : xgTetOk 1 xgTet_1 = true := by decide +kernel
theorem xgTet_2_ok : xgTetOk 2 xgTet_2 = true := by decide +kernel
theorem xgTet_3_ok : xgTetOk 3 xgTet_3 = true := by decide +kernel
theorem xgTet_4_ok : xgTetOk 4 xgTet_4 = true := by decide +kernel
theorem xgTet_5_ok : xgTetOk 5 xgTet_5 = true := by decide +kernel
theorem xgTet_6_ok : xgTetOk 6 xgTet_6 = true := by decide +kernel
theorem xgTet_7_ok : xgTetOk 7 xgTet_7 = true := by decide +kernel
theorem xgTet_8_ok : xgTetOk 8 xgTet_8 = true := by decide +kernel
theorem xgTet_9_ok : xgTetOk 9 xgTet_9 = true := by decide +kernel
theorem xgTet_10_ok : xgTetOk 10 xgTet_10 = true := by decide +kernel
theorem xgTet_11_ok : xgTetOk 11 xgTet_11 = true := by decide +kernel
theorem xgTet_12_ok : xgTetOk 12 xgTet_12 = true := by decide +kernel
theorem xgTet_13_ok : xgTetOk 13 xgTet_13 = true := by decide +kernel
theorem xgTet_14_ok : xgTetOk 14 xgTet_14 = true := by decide +kernel
theorem xgTet_15_ok : xgTetOk 15 xgTet_15 = true := by decide +kernel

end Modepy.Table
