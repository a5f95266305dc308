import Verif.Proofs.TableScaling
import Verif.Model.TableJs

/-!
# Evaluation of the checks for `Model/TableJs`

Generated by tools/gen_checks.py.
-/

set_option maxRecDepth 100000
set_option Elab.async false

namespace Modepy.Table

theorem jsTet_0_ok : jsOk jsTet_0 = true := by decide +kernel
theorem jsTet_1_ok : jsOk jsTet_1 = true := by decide +kernel
theorem jsTet_2_ok : jsOk jsTet_2 = true := by decide +kernel
theorem jsTet_3_ok : jsOk jsTet_3 = true := by decide +kernel
theorem jsTet_4_ok : jsOk jsTet_4 = true := by decide +kernel
theorem jsTet_5_ok : jsOk jsTet_5 = true := by decide +kernel
theorem jsTet_6_ok : jsOk jsTet_6 = true := by decide +kernel
theorem jsTet_7_ok : jsOk jsTet_7 = true := by decide +kernel
theorem jsTet_8_ok : jsOk jsTet_8 = true := by decide +kernel
theorem jsTet_9_ok : jsOk jsTet_9 = true := by decide +kernel
theorem jsTet_10_ok : jsOk jsTet_10 = true := by decide +kernel
theorem jsTet_11_ok : jsOk jsTet_11 = true := by decide +kernel
theorem jsTet_12_ok : jsOk jsTet_12 = true := by decide +kernel
theorem jsTet_13_ok : jsOk jsTet_13 = true := by decide +kernel
theorem jsTet_14_ok : jsOk jsTet_14 = true := by decide +kernel
theorem jsTet_15_ok : jsOk jsTet_15 = true := by decide +kernel
theorem jsTet_16_ok : jsOk jsTet_16 = true := by decide +kernel

end Modepy.Table
