import Mathlib.Data.Real.Basic
import Mathlib.LinearAlgebra.Matrix.Determinant.Basic

/-!
# Convex cells on integer grid points (specification vocabulary)
-/

namespace Modepy.Spec

/-- The points a mesh element (a list of indices into `nodes`) refers to. -/
def elementPoints (nodes : List (List Nat)) (e : List Nat) : List (List Nat) :=
  e.map fun k => nodes.getD k []

/-- `x` is a convex combination of `pts`. -/
def InHull (pts : List (List Nat)) (x : List ℝ) : Prop :=
  ∃ w : List ℝ, w.length = pts.length ∧ (∀ c ∈ w, 0 ≤ c) ∧ w.sum = 1 ∧
    ∀ i < x.length, x.getD i 0 = (List.zipWith (fun c p => c * ((p.getD i 0 : Nat) : ℝ)) w pts).sum

/-- `x` is a convex combination of `pts` with all weights positive: the interior of the convex hull
if the points span the space. -/
def InHullInterior (pts : List (List Nat)) (x : List ℝ) : Prop :=
  ∃ w : List ℝ, w.length = pts.length ∧ (∀ c ∈ w, 0 < c) ∧ w.sum = 1 ∧
    ∀ i < x.length, x.getD i 0 = (List.zipWith (fun c p => c * ((p.getD i 0 : Nat) : ℝ)) w pts).sum

/-- Matrix of the edge vectors `p_{j+1} - p_0` of a simplex (as columns). -/
def edgeMatrix (d : Nat) (pts : List (List Nat)) : Matrix (Fin d) (Fin d) ℤ :=
  Matrix.of fun i j => ((pts.getD (j + 1) []).getD i 0 : ℤ) - ((pts.getD 0 []).getD i 0 : ℤ)

/-- The simplex in index units: nonnegative coordinates with sum at most `n`. -/
def IndexSimplex (d n : Nat) (x : List ℝ) : Prop :=
  x.length = d ∧ (∀ c ∈ x, 0 ≤ c) ∧ x.sum ≤ n

/-- Neither polytope contains an interior point of the other. -/
def NoOverlap (d : Nat) (p q : List (List Nat)) : Prop :=
  ∀ x : List ℝ, x.length = d →
    ¬ (InHullInterior p x ∧ InHull q x) ∧ ¬ (InHull p x ∧ InHullInterior q x)

/-- `elems` (lists of indices into `nodes`) is a positively oriented tessellation into simplices of
the set `region`: valid indices, every element has `d+1` vertices with edge determinant `+1` (volume
`1/d!`), elements at different list positions do not overlap, and their union is `region`. -/
structure SimplexTessellation (d : Nat) (nodes : List (List Nat)) (elems : List (List Nat))
    (region : List ℝ → Prop) : Prop where
  indices : ∀ e ∈ elems, e.length = d + 1 ∧ ∀ k ∈ e, k < nodes.length
  orientation : ∀ e ∈ elems, (edgeMatrix d (elementPoints nodes e)).det = 1
  disjoint : elems.Pairwise fun e e' =>
    NoOverlap d (elementPoints nodes e) (elementPoints nodes e')
  cover : ∀ x, region x ↔ x.length = d ∧ ∃ e ∈ elems, InHull (elementPoints nodes e) x

end Modepy.Spec
