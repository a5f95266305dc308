import Mathlib.Analysis.SpecialFunctions.Pow.Real
import Mathlib.Analysis.SpecialFunctions.Gamma.Basic
import Verif.Model.Py

/-!
# The operations the mode functions apply to their argument

`modepy.modes` evaluates modes on NumPy arrays as well as on `pymbolic` expressions (duck typing).
The mode functions are therefore modelled over any type with the operations they use; `ℝ` is the
numeric instance (one node at a time).
-/

namespace Modepy

/-- Operations used by the functions of `modes.py` on their argument; `lit` is a Python number. -/
class Duck (R : Type) extends Add R, Sub R, Mul R, Div R, Neg R where
  lit : ℝ → R
  /-- `x ** n` with an integer `n ≥ 0` -/
  npow : R → Nat → R
  /-- `abs(x)` -/
  abs : R → R
  /-- `_where(a, "ge", b, then, else_)` (modes.py 139-160) -/
  whereGe : R → ℝ → R → R → R
  /-- `_where(a, "gt", b, then, else_)` (modes.py 139-160) -/
  whereGt : R → ℝ → R → R → R
  /-- `_cse(expr, prefix)` (modes.py 131-136) -/
  cse : R → R

open Classical in
/-- Numeric evaluation. -/
noncomputable instance : Duck ℝ where
  lit := id
  npow x n := x ^ n
  abs x := |x|
  whereGe a b t e := if a ≥ b then t else e
  whereGt a b t e := if a > b then t else e
  cse := id

end Modepy
