import Mathlib.Analysis.Calculus.Deriv.Basic

/-!
# Gradients of functions of coordinate lists (specification vocabulary)
-/

namespace Modepy.Spec

/-- `g` lists the partial derivatives at `x` of `F`, a function of `d` coordinates. -/
def IsGradientAt (d : Nat) (F : List ℝ → ℝ) (x g : List ℝ) : Prop :=
  g.length = d ∧ ∀ j < d, HasDerivAt (fun t => F (x.set j t)) (g.getD j 0) (x.getD j 0)

/-- Consecutive coordinate groups of sizes `dims`. -/
def slices {α : Type*} : List Nat → List α → List (List α)
  | [], _ => []
  | d :: ds, x => x.take d :: slices ds (x.drop d)

end Modepy.Spec
