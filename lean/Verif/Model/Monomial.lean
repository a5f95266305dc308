import Verif.Model.Duck

/-!
# `modepy.modes`: monomials (modes.py 503-574)
-/

namespace Modepy
open Duck

variable {R : Type} [Duck R]

/-- `pytools.product(iterable)`: left fold with `operator.mul`, starting at `1`. -/
noncomputable def product (l : List R) : R := l.foldl (· * ·) (lit 1)

/-- `monomial(order, rst)` (modes.py 503-514). -/
noncomputable def monomial (order : List Nat) (rst : List R) : Py R :=
  if order.length ≠ rst.length then .error .AssertionError
  else .ok (product (List.zipWith (fun o r => npow r o) order rst))

/-- `_diff_monomial_1d(r, o)` (modes.py 517-523). -/
noncomputable def diffMonomial1d (r : R) (o : Nat) : R :=
  if o = 0 then lit 0 * r
  else if o = 1 then lit 1 + lit 0 * r
  else lit o * npow r (o - 1)

/-- The generator inside `diff_monomial`/`grad_monomial`: factor `i` is differentiated iff
`i = axis`. -/
noncomputable def diffFactors (axis : Nat) (order : List Nat) (rst : List R) : List R :=
  (List.zip order rst).zipIdx.map fun ((o, r), i) =>
    if axis = i then diffMonomial1d r o else npow r o

/-- `diff_monomial(order, diff_axis, rst)` (modes.py 526-548), `diff_axis ≥ 0`. -/
noncomputable def diffMonomial (order : List Nat) (axis : Nat) (rst : List R) : Py R :=
  if order.length ≠ rst.length then .error .AssertionError
  else .ok (product (diffFactors axis order rst))

/-- `grad_monomial(order, rst)` (modes.py 551-574). -/
noncomputable def gradMonomial (order : List Nat) (rst : List R) : Py (List R) :=
  if order.length ≠ rst.length then .error .AssertionError
  else .ok ((List.range order.length).map fun j => product (diffFactors j order rst))

end Modepy
