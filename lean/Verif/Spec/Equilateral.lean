import Verif.Spec.Measure
import Mathlib.Analysis.Convex.Hull
import Mathlib.Analysis.SpecialFunctions.Sqrt
import Mathlib.LinearAlgebra.Matrix.Notation

/-!
# The equilateral triangle and tetrahedron (specification vocabulary)
-/

namespace Modepy.Spec

/-- The equilateral triangle with edge length 2 centred at the origin. -/
noncomputable def equilateralTriangle : Set (Fin 2 → ℝ) :=
  convexHull ℝ {![-1, -1 / √3], ![1, -1 / √3], ![0, 2 / √3]}

/-- The regular tetrahedron with edge length 2 centred at the origin. -/
noncomputable def equilateralTetrahedron : Set (Fin 3 → ℝ) :=
  convexHull ℝ {![-1, -1 / √3, -1 / √6], ![1, -1 / √3, -1 / √6], ![0, 2 / √3, -1 / √6], ![0, 0, 3 / √6]}

end Modepy.Spec
