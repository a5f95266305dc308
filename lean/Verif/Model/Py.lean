/-!
# Python-level basics: exceptions as values

Every modelled function that can raise returns `Except PyErr α`.  The constructors are the
exception classes raised (explicitly or by the interpreter) by the modelled code.
-/

namespace Modepy

/-- Exception classes that the modelled code can raise. -/
inductive PyErr where
  | ValueError
  | TypeError
  | KeyError
  | IndexError
  | AttributeError
  | NotImplementedError
  | AssertionError
  | ZeroDivisionError
  | QuadratureRuleUnavailable
  | LinAlgError
  | RuntimeError
  | BasisNotOrthonormal
  deriving DecidableEq, Repr

/-- Result of a modelled Python call. -/
abbrev Py (α : Type _) := Except PyErr α

instance {α : Type _} [DecidableEq α] : DecidableEq (Py α)
  | .ok a, .ok b => if h : a = b then .isTrue (h ▸ rfl) else .isFalse (fun e => h (by injection e))
  | .error a, .error b =>
      if h : a = b then .isTrue (h ▸ rfl) else .isFalse (fun e => h (by injection e))
  | .ok _, .error _ => .isFalse (fun e => by injection e)
  | .error _, .ok _ => .isFalse (fun e => by injection e)

/-- Run a list of fallible computations left to right, first error wins
(a Python tuple/list comprehension whose elements may raise). -/
def collect {α : Type _} : List (Py α) → Py (List α)
  | [] => .ok []
  | .error e :: _ => .error e
  | .ok a :: rest =>
      match collect rest with
      | .ok as => .ok (a :: as)
      | .error e => .error e

end Modepy
