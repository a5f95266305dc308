import Mathlib.Data.Real.Basic
import Verif.Model.Shapes

/-!
# Reference shapes as point sets (specification vocabulary)

Points are lists of coordinates.
-/

namespace Modepy.Spec

/-- Barycentric coordinate `m` of a point of the bi-unit simplex: `λ_0 = 1 - Σ (1+x_i)/2`,
`λ_{i+1} = (1+x_i)/2`. -/
noncomputable def bary (x : List ℝ) : Nat → ℝ
  | 0 => 1 - (x.map fun c => (1 + c) / 2).sum
  | i + 1 => (1 + x.getD i (-1)) / 2

/-- The closed bi-unit simplex of dimension `d`: all barycentric coordinates nonnegative. -/
def InSimplex (d : Nat) (x : List ℝ) : Prop := x.length = d ∧ ∀ m ≤ d, 0 ≤ bary x m

/-- The interior of the bi-unit simplex. -/
def InSimplexInterior (d : Nat) (x : List ℝ) : Prop := x.length = d ∧ ∀ m ≤ d, 0 < bary x m

/-- The closed cube `[-1,1]^d`. -/
def InCube (d : Nat) (x : List ℝ) : Prop := x.length = d ∧ ∀ c ∈ x, -1 ≤ c ∧ c ≤ 1

/-- The open cube. -/
def InCubeInterior (d : Nat) (x : List ℝ) : Prop := x.length = d ∧ ∀ c ∈ x, -1 < c ∧ c < 1

/-- Dot product. -/
noncomputable def dot (x y : List ℝ) : ℝ := (List.zipWith (· * ·) x y).sum

/-- Difference of points. -/
noncomputable def diff (x y : List ℝ) : List ℝ := List.zipWith (· - ·) x y

/-- Product of simplices of the given dimensions, coordinates concatenated. -/
def InProduct : List Nat → List ℝ → Prop
  | [], x => x = []
  | d :: ds, x => InSimplex d (x.take d) ∧ InProduct ds (x.drop d)

/-- The point set a reference shape stands for. -/
def InShape : Shape → List ℝ → Prop
  | .simplex d => InSimplex d
  | .hypercube d => InCube d
  | .tp bases => InProduct bases

end Modepy.Spec
