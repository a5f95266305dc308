import Verif.Proofs.TableScaling
import Verif.Model.TableXg

/-!
# Evaluation of the checks for `Model/TableXg`

Generated by tools/gen_checks.py.
-/

set_option maxRecDepth 100000
set_option Elab.async false

namespace Modepy.Table

theorem xgTri_1_ok : xgTriOk 1 xgTri_1 = true := by decide +kernel
theorem xgTri_2_ok : xgTriOk 2 xgTri_2 = true := by decide +kernel
theorem xgTri_3_ok : xgTriOk 3 xgTri_3 = true := by decide +kernel
theorem xgTri_4_ok : xgTriOk 4 xgTri_4 = true := by decide +kernel
theorem xgTri_5_ok : xgTriOk 5 xgTri_5 = true := by decide +kernel
theorem xgTri_6_ok : xgTriOk 6 xgTri_6 = true := by decide +kernel
theorem xgTri_7_ok : xgTriOk 7 xgTri_7 = true := by decide +kernel
theorem xgTri_8_ok : xgTriOk 8 xgTri_8 = true := by decide +kernel
theorem xgTri_9_ok : xgTriOk 9 xgTri_9 = true := by decide +kernel
theorem xgTri_10_ok : xgTriOk 10 xgTri_10 = true := by decide +kernel
theorem xgTri_11_ok : xgTriOk 11 xgTri_11 = true := by decide +kernel
theorem xgTri_12_ok : xgTriOk 12 xgTri_12 = true := by decide +kernel
theorem xgTri_13_ok : xgTriOk 13 xgTri_13 = true := by decide +kernel
theorem xgTri_14_ok : xgTriOk 14 xgTri_14 = true := by decide +kernel
theorem xgTri_15_ok : xgTriOk 15 xgTri_15 = true := by decide +kernel
theorem xgTri_16_ok : xgTriOk 16 xgTri_16 = true := by decide +kernel
theorem xgTri_17_ok : xgTriOk 17 xgTri_17 = true := by decide +kernel
theorem xgTri_18_ok : xgTriOk 18 xgTri_18 = true := by decide +kernel
theorem xgTri_19_ok : xgTriOk 19 xgTri_19 = true := by decide +kernel
theorem xgTri_20_ok : xgTriOk 20 xgTri_20 = true := by decide +kernel
theorem xgTri_21_ok : xgTriOk 21 xgTri_21 = true := by decide +kernel
theorem xgTri_22_ok : xgTriOk 22 xgTri_22 = true := by decide +kernel
theorem xgTri_23_ok : xgTriOk 23 xgTri_23 = true := by decide +kernel
theorem xgTri_24_ok : xgTriOk 24 xgTri_24 = true := by decide +kernel
theorem xgTri_25_ok : xgTriOk 25 xgTri_25 = true := by decide +kernel
theorem xgTri_26_ok : xgTriOk 26 xgTri_26 = true := by decide +kernel
theorem xgTri_27_ok : xgTriOk 27 xgTri_27 = true := by decide +kernel
theorem xgTri_28_ok : xgTriOk 28 xgTri_28 = true := by decide +kernel
theorem xgTri_29_ok : xgTriOk 29 xgTri_29 = true := by decide +kernel
theorem xgTri_30_ok : xgTriOk 30 xgTri_30 = true := by decide +kernel
theorem xgTri_31_ok : xgTriOk 31 xgTri_31 = true := by decide +kernel
theorem xgTri_32_ok : xgTriOk 32 xgTri_32 = true := by decide +kernel
theorem xgTri_33_ok : xgTriOk 33 xgTri_33 = true := by decide +kernel
theorem xgTri_34_ok : xgTriOk 34 xgTri_34 = true := by decide +kernel
theorem xgTri_35_ok : xgTriOk 35 xgTri_35 = true := by decide +kernel
theorem xgTri_36_ok : xgTriOk 36 xgTri_36 = true := by decide +kernel

end Modepy.Table
