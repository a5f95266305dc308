import Verif.Proofs.TableScaling
import Verif.Model.TableVr

/-!
# Evaluation of the checks for `Model/TableVr`

Generated by tools/gen_checks.py.
-/

set_option maxRecDepth 100000
set_option Elab.async false

namespace Modepy.Table

theorem vrTri_0_ok : vrTriOk vrTri_0 = true := by decide +kernel
theorem vrTri_1_ok : vrTriOk vrTri_1 = true := by decide +kernel
theorem vrTri_2_ok : vrTriOk vrTri_2 = true := by decide +kernel
theorem vrTri_3_ok : vrTriOk vrTri_3 = true := by decide +kernel
theorem vrTri_4_ok : vrTriOk vrTri_4 = true := by decide +kernel
theorem vrTri_5_ok : vrTriOk vrTri_5 = true := by decide +kernel
theorem vrTri_6_ok : vrTriOk vrTri_6 = true := by decide +kernel
theorem vrTri_7_ok : vrTriOk vrTri_7 = true := by decide +kernel
theorem vrTri_8_ok : vrTriOk vrTri_8 = true := by decide +kernel
theorem vrTri_9_ok : vrTriOk vrTri_9 = true := by decide +kernel
theorem vrTri_10_ok : vrTriOk vrTri_10 = true := by decide +kernel
theorem vrTri_11_ok : vrTriOk vrTri_11 = true := by decide +kernel
theorem vrTri_12_ok : vrTriOk vrTri_12 = true := by decide +kernel
theorem vrTri_13_ok : vrTriOk vrTri_13 = true := by decide +kernel
theorem vrTri_14_ok : vrTriOk vrTri_14 = true := by decide +kernel
theorem vrTri_15_ok : vrTriOk vrTri_15 = true := by decide +kernel
theorem vrTri_16_ok : vrTriOk vrTri_16 = true := by decide +kernel
theorem vrTri_17_ok : vrTriOk vrTri_17 = true := by decide +kernel
theorem vrTri_18_ok : vrTriOk vrTri_18 = true := by decide +kernel
theorem vrTri_19_ok : vrTriOk vrTri_19 = true := by decide +kernel
theorem vrTri_20_ok : vrTriOk vrTri_20 = true := by decide +kernel
theorem vrTet_0_ok : vrTetOk vrTet_0 = true := by decide +kernel
theorem vrTet_1_ok : vrTetOk vrTet_1 = true := by decide +kernel
theorem vrTet_2_ok : vrTetOk vrTet_2 = true := by decide +kernel
theorem vrTet_3_ok : vrTetOk vrTet_3 = true := by decide +kernel
theorem vrTet_4_ok : vrTetOk vrTet_4 = true := by decide +kernel
theorem vrTet_5_ok : vrTetOk vrTet_5 = true := by decide +kernel
theorem vrTet_6_ok : vrTetOk vrTet_6 = true := by decide +kernel
theorem vrTet_7_ok : vrTetOk vrTet_7 = true := by decide +kernel
theorem vrTet_8_ok : vrTetOk vrTet_8 = true := by decide +kernel
theorem vrTet_9_ok : vrTetOk vrTet_9 = true := by decide +kernel
theorem vrTet_10_ok : vrTetOk vrTet_10 = true := by decide +kernel

end Modepy.Table
