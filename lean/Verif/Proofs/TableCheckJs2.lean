import Verif.Proofs.TableScaling
import Verif.Model.TableJs

/-!
# Evaluation of the checks for `Model/TableJs`

Generated by tools/gen_checks.py.
-/

set_option maxRecDepth 100000
set_option Elab.async false

namespace Modepy.Table

theorem jsTet_17_ok : jsOk jsTet_17 = true := by decide +kernel
theorem jsTet_18_ok : jsOk jsTet_18 = true := by decide +kernel
theorem jsTet_19_ok : jsOk jsTet_19 = true := by decide +kernel

end Modepy.Table
