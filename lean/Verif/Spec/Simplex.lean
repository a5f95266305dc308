import Mathlib.Data.Real.Basic
import Mathlib.Data.Set.Basic

/-!
# The reference triangle and tetrahedron (specification vocabulary)
-/

namespace Modepy.Spec

/-- The triangle with vertices `(-1,-1)`, `(1,-1)`, `(-1,1)`. -/
def triangle : Set (ℝ × ℝ) := {p | -1 ≤ p.1 ∧ -1 ≤ p.2 ∧ p.1 + p.2 ≤ 0}

/-- The tetrahedron with vertices `(-1,-1,-1)`, `(1,-1,-1)`, `(-1,1,-1)`, `(-1,-1,1)`. -/
def tetrahedron : Set (ℝ × ℝ × ℝ) :=
  {p | -1 ≤ p.1 ∧ -1 ≤ p.2.1 ∧ -1 ≤ p.2.2 ∧ p.1 + p.2.1 + p.2.2 ≤ -1}

end Modepy.Spec
