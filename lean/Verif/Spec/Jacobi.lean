import Mathlib.Analysis.SpecialFunctions.Pow.Real
import Mathlib.Data.Nat.Choose.Basic
import Mathlib.MeasureTheory.Integral.IntervalIntegral.Basic

/-!
# Classical Jacobi polynomials (specification vocabulary)
-/

namespace Modepy.Spec

/-- Rising factorial `a (a+1) ⋯ (a+k-1)`. -/
noncomputable def rise (a : ℝ) : Nat → ℝ
  | 0 => 1
  | k + 1 => rise a k * (a + k)

/-- Coefficient of `((x-1)/2)^k` in the classical Jacobi polynomial of degree `n`. -/
noncomputable def jacobiCoeff (α β : ℝ) (n k : Nat) : ℝ :=
  (n.choose k : ℝ) * rise (n + α + β + 1) k * rise (α + k + 1) (n - k) / (n.factorial : ℝ)

/-- The classical Jacobi polynomial `P_n^(α,β)(x)`. -/
noncomputable def jacobiP (α β : ℝ) (n : Nat) (x : ℝ) : ℝ :=
  ∑ k ∈ Finset.range (n + 1), jacobiCoeff α β n k * ((x - 1) / 2) ^ k

/-- The Jacobi weight. -/
noncomputable def jacobiWeight (α β : ℝ) (x : ℝ) : ℝ := (1 - x) ^ α * (1 + x) ^ β

end Modepy.Spec
