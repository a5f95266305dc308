import Verif.Proofs.TableScaling
import Verif.Model.TableWv

/-!
# Evaluation of the checks for `Model/TableWv`

Generated by tools/gen_checks.py.
-/

set_option maxRecDepth 100000
set_option Elab.async false

namespace Modepy.Table

theorem wvQuad_1_ok : wvOk 2 wvQuad_1 = true := by decide +kernel
theorem wvQuad_3_ok : wvOk 2 wvQuad_3 = true := by decide +kernel
theorem wvQuad_5_ok : wvOk 2 wvQuad_5 = true := by decide +kernel
theorem wvQuad_7_ok : wvOk 2 wvQuad_7 = true := by decide +kernel
theorem wvQuad_9_ok : wvOk 2 wvQuad_9 = true := by decide +kernel
theorem wvQuad_11_ok : wvOk 2 wvQuad_11 = true := by decide +kernel
theorem wvQuad_13_ok : wvOk 2 wvQuad_13 = true := by decide +kernel
theorem wvQuad_15_ok : wvOk 2 wvQuad_15 = true := by decide +kernel
theorem wvQuad_17_ok : wvOk 2 wvQuad_17 = true := by decide +kernel
theorem wvQuad_19_ok : wvOk 2 wvQuad_19 = true := by decide +kernel
theorem wvQuad_21_ok : wvOk 2 wvQuad_21 = true := by decide +kernel
theorem wvHex_1_ok : wvOk 3 wvHex_1 = true := by decide +kernel
theorem wvHex_3_ok : wvOk 3 wvHex_3 = true := by decide +kernel
theorem wvHex_5_ok : wvOk 3 wvHex_5 = true := by decide +kernel
theorem wvHex_7_ok : wvOk 3 wvHex_7 = true := by decide +kernel
theorem wvHex_9_ok : wvOk 3 wvHex_9 = true := by decide +kernel
theorem wvHex_11_ok : wvOk 3 wvHex_11 = true := by decide +kernel

end Modepy.Table
