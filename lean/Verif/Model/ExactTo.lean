import Verif.Model.Py
import Mathlib.Data.Rat.Defs
import Mathlib.Algebra.Order.Ring.Rat

/-!
# `modepy.quadrature._Inf` and comparisons of `exact_to` values (quadrature/__init__.py 72-137)

Python evaluates `a < b` by calling `a.__lt__(b)`; if that returns `NotImplemented` it calls the
reflected `b.__gt__(a)`, and raises `TypeError` if that also returns `NotImplemented`.
-/

namespace Modepy

/-- Values that can be compared: a finite number (`int` or `float`), the float `+inf`/`-inf`, the
`_Inf` sentinel, or an object that is not a number. -/
inductive PyVal where
  | num (q : ℚ)
  | posInf
  | negInf
  | inf
  | other
  deriving DecidableEq

/-- The comparison operators. -/
inductive CmpOp where
  | lt | le | gt | ge
  deriving DecidableEq

/-- The operator with sides exchanged. -/
def CmpOp.refl : CmpOp → CmpOp
  | lt => gt
  | le => ge
  | gt => lt
  | ge => le

/-- `isinstance(x, Number)`. -/
def PyVal.isNumber : PyVal → Bool
  | num _ | posInf | negInf => true
  | _ => false

/-- `np.isinf(x)`. -/
def PyVal.isNpInf : PyVal → Bool
  | posInf | negInf => true
  | _ => false

/-- `_Inf.__gt__/__ge__/__lt__/__le__(self, other)` (quadrature/__init__.py 79-120); `none` is
`NotImplemented`. -/
def infCmp (op : CmpOp) (other : PyVal) : Option Bool :=
  match op with
  | .gt =>
      if other = .inf then some false
      else if other.isNumber then (if other.isNpInf then none else some true) else none
  | .ge =>
      if other = .inf then some true
      else if other.isNumber then (if other.isNpInf then none else some true) else none
  | .lt =>
      if other = .inf then some false
      else if other.isNumber then (if other.isNpInf then none else some false) else none
  | .le =>
      if other = .inf then some true
      else if other.isNumber then some false else none

/-- Order position of floats: `-inf`, finite, `+inf`. -/
def numCmp (op : CmpOp) : PyVal → PyVal → Option Bool
  | .num a, .num b => some (match op with
      | .lt => decide (a < b) | .le => decide (a ≤ b) | .gt => decide (b < a) | .ge => decide (b ≤ a))
  | .num _, .posInf => some (match op with | .lt | .le => true | .gt | .ge => false)
  | .num _, .negInf => some (match op with | .lt | .le => false | .gt | .ge => true)
  | .posInf, .num _ => some (match op with | .lt | .le => false | .gt | .ge => true)
  | .negInf, .num _ => some (match op with | .lt | .le => true | .gt | .ge => false)
  | .posInf, .posInf | .negInf, .negInf =>
      some (match op with | .le | .ge => true | .lt | .gt => false)
  | .posInf, .negInf => some (match op with | .lt | .le => false | .gt | .ge => true)
  | .negInf, .posInf => some (match op with | .lt | .le => true | .gt | .ge => false)
  | _, _ => none

/-- The rich comparison method of the left operand. -/
def dunder (op : CmpOp) (a b : PyVal) : Option Bool :=
  match a with
  | .inf => infCmp op b
  | .other => none
  | _ => numCmp op a b

/-- `a op b`. -/
def pyCmp (op : CmpOp) (a b : PyVal) : Py Bool :=
  match dunder op a b with
  | some r => .ok r
  | none =>
      match dunder op.refl b a with
      | some r => .ok r
      | none => .error .TypeError

/-- `a == b`: `_Inf.__eq__` is `isinstance(other, _Inf)` (75-77); numbers decline for `_Inf`, so the
reflected method decides. -/
def pyEq : PyVal → PyVal → Bool
  | .inf, b => b = .inf
  | a, .inf => a = .inf
  | .other, .other => true
  | a, b => a = b

/-- `a + b` for `a = _Inf()` (122-127); `float`/`int` addition declines, and there is no
`_Inf.__radd__`. -/
def infAdd : PyVal → Py PyVal
  | .num _ => .ok .inf
  | _ => .error .TypeError

/-- `b + _Inf()`. -/
def addInf : PyVal → Py PyVal
  | .inf => infAdd .inf
  | _ => .error .TypeError

/-- `hash(_Inf())`: a class defining `__eq__` without `__hash__` has `__hash__ = None`. -/
def infHash : Py Int := .error .TypeError

/-- `operator.index(_Inf())` (129-130). -/
def infIndex : Py Int := .error .ValueError

/-- `min(iterable)`: keeps the first smallest element; `ValueError` when empty. -/
def pyMinFrom (cur : PyVal) : List PyVal → Py PyVal
  | [] => .ok cur
  | x :: xs =>
      match pyCmp .lt x cur with
      | .error e => .error e
      | .ok true => pyMinFrom x xs
      | .ok false => pyMinFrom cur xs

def pyMin : List PyVal → Py PyVal
  | [] => .error .ValueError
  | x :: xs => pyMinFrom x xs

end Modepy
