import Mathlib.Data.Real.Basic

/-!
# Functionals on functions of coordinate lists, and their products (specification vocabulary)
-/

namespace Modepy.Spec

/-- The product of functionals: apply the first to its own coordinates, after the others have been
applied to theirs. -/
def iterated : List ((List ℝ → ℝ) → ℝ) → (List ℝ → ℝ) → ℝ
  | [], F => F []
  | I :: rest, F => I fun x => iterated rest fun y => F (x ++ y)

/-- What is used of a functional in `d` coordinates: it only depends on the values at points with `d`
coordinates and commutes with scalar factors (an integral, a quadrature rule, ...). -/
structure IsFunctional (d : Nat) (I : (List ℝ → ℝ) → ℝ) : Prop where
  congr : ∀ F G, (∀ x : List ℝ, x.length = d → F x = G x) → I F = I G
  smul : ∀ (c : ℝ) F, I (fun x => F x * c) = I F * c

end Modepy.Spec
