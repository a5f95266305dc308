import Mathlib.MeasureTheory.Integral.Bochner.Set
import Mathlib.MeasureTheory.Measure.Lebesgue.Basic

/-!
# Integrals over the reference simplex and cube in any dimension (specification vocabulary)
-/

namespace Modepy.Spec
open MeasureTheory

/-- The bi-unit simplex of dimension `n` as a set of coordinate vectors. -/
def simplexSet (n : Nat) : Set (Fin n → ℝ) := {x | (∀ i, -1 ≤ x i) ∧ ∑ i, (1 + x i) / 2 ≤ 1}

/-- The cube `[-1, 1]^n`. -/
def cubeSet (n : Nat) : Set (Fin n → ℝ) := {x | ∀ i, -1 ≤ x i ∧ x i ≤ 1}

/-- Lebesgue integral over the bi-unit simplex of a function of a coordinate list. -/
noncomputable def simplexIntegral (n : Nat) (f : List ℝ → ℝ) : ℝ := ∫ x in simplexSet n, f (List.ofFn x)

/-- Lebesgue integral over the cube `[-1, 1]^n`. -/
noncomputable def cubeIntegral (n : Nat) (f : List ℝ → ℝ) : ℝ := ∫ x in cubeSet n, f (List.ofFn x)

end Modepy.Spec
