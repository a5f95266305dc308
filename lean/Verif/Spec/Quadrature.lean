import Verif.Spec.Functional
import Mathlib.Algebra.Polynomial.Eval.Defs
import Mathlib.Analysis.SpecialFunctions.Pow.Real
import Mathlib.MeasureTheory.Integral.IntervalIntegral.Basic

/-!
# Exactness of quadrature rules (specification vocabulary)
-/

namespace Modepy.Spec

/-- The value `∏ᵢ xᵢ ^ aᵢ`. -/
noncomputable def power (a : List Nat) (x : List ℝ) : ℝ :=
  (List.zipWith (fun o r => r ^ o) a x).prod

/-- The functionals `Q` and `I` agree on all monomials in `d` variables of total degree at most `N`. -/
def ExactTo (d N : Nat) (Q I : (List ℝ → ℝ) → ℝ) : Prop :=
  ∀ a : List Nat, a.length = d → a.sum ≤ N → Q (power a) = I (power a)

/-- A rule for functions of one variable integrates polynomials up to degree `N` over `[a, b]`. -/
def ExactOn (N : Nat) (a b : ℝ) (Q : (List ℝ → ℝ) → ℝ) : Prop :=
  ∀ p : Polynomial ℝ, p.natDegree ≤ N → Q (fun x => p.eval (x.headD 0)) = ∫ t in a..b, p.eval t

/-- A rule for functions of one variable integrates polynomials up to degree `N` against the weight
`(1-t)^α (1+t)^β` over `[-1, 1]`. -/
def ExactWeighted (α β : ℝ) (N : Nat) (Q : (List ℝ → ℝ) → ℝ) : Prop :=
  ∀ p : Polynomial ℝ, p.natDegree ≤ N →
    Q (fun x => p.eval (x.headD 0)) = ∫ t in (-1)..1, p.eval t * ((1 - t) ^ α * (1 + t) ^ β)

end Modepy.Spec
