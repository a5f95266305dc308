import Verif.Model.ExactTo
import Verif.Model.TensorNodes
import Mathlib.Data.Real.Basic

/-!
# `modepy.quadrature`: rules and their combinations (quadrature/__init__.py 140-299)
-/

namespace Modepy
open NdArray

/-- A `Quadrature` object: nodes of shape `(nnodes,)` or `(d, nnodes)`, weights of shape `(nnodes,)`,
the private `_exact_to`, and, for instances of `TensorProductQuadrature`, the dimensions of
`quadratures` (the only thing the modelled code reads from them). -/
structure Quadrature where
  nodes : NdArray ℝ
  weights : NdArray ℝ
  exactTo : Option PyVal
  factorDims : Option (List Nat) := none

namespace Quadrature

/-- `Quadrature.dim` (164-167). -/
def dim (q : Quadrature) : Nat :=
  match q.nodes.shape with
  | [_] => 1
  | s => s.headD 0

/-- `Quadrature.exact_to` (169-187). -/
def getExactTo (q : Quadrature) : Py PyVal :=
  match q.exactTo with
  | some e => .ok e
  | none => .error .AttributeError

/-- Number of nodes. -/
def nnodes (q : Quadrature) : Nat := q.weights.shape.headD 0

/-- The coordinates of node `k`, as a function evaluated columnwise sees them. -/
def node (q : Quadrature) (k : Nat) : List ℝ :=
  match q.nodes.shape with
  | [_] => [q.nodes.get [k]]
  | d :: _ => (List.range d).map fun r => q.nodes.get [r, k]
  | [] => []

/-- `Quadrature.__call__(f)` (189-199) for a scalar function evaluated columnwise:
`np.dot(weights, f(nodes).T).T`. -/
def call (q : Quadrature) (f : List ℝ → ℝ) : ℝ :=
  ((List.range q.nnodes).map fun k => q.weights.get [k] * f (q.node k)).sum

/-- `ZeroDimensionalQuadrature()` (202-209). -/
def zeroDimensional : Quadrature :=
  ⟨⟨[0, 1], fun _ => 0⟩, ⟨[1], fun _ => 1⟩, some .posInf, none⟩

/-- `Transformed1DQuadrature(quad, left, right)` (212-230). -/
noncomputable def transformed1D (quad : Quadrature) (left right : ℝ) : Py Quadrature :=
  let length := right - left
  open Classical in
  if length ≤ 0 then .error .ValueError
  else .ok ⟨⟨quad.nodes.shape, fun i => left + (quad.nodes.get i + 1) / 2 * length⟩,
    ⟨quad.weights.shape, fun i => length / 2 * quad.weights.get i⟩, quad.exactTo, none⟩

/-- The generator `quad.exact_to for quad in quads` consumed by `min`: an `AttributeError` (caught,
giving `None`) stops the iteration, as does an error of a comparison (not caught). -/
def minExactFrom (cur : PyVal) : List (Option PyVal) → Py (Option PyVal)
  | [] => .ok (some cur)
  | none :: _ => .ok none
  | some x :: xs =>
      match pyCmp .lt x cur with
      | .error e => .error e
      | .ok true => minExactFrom x xs
      | .ok false => minExactFrom cur xs

/-- `exact_to` of a tensor product (258-267). -/
def minExact : List (Option PyVal) → Py (Option PyVal)
  | [] => .ok (some .inf)
  | none :: _ => .ok none
  | some x :: xs => minExactFrom x xs

/-- `np.prod(a, axis=0)` of a two-dimensional array. -/
def prodAxis0 (a : NdArray ℝ) : NdArray ℝ :=
  ⟨[ncols a], fun i => ((List.range (rows a)).map fun r => a.get (r :: i)).prod⟩

/-- `TensorProductQuadrature(quads)` (245-271). -/
def tensorProduct (quads : List Quadrature) : Py Quadrature :=
  match tensorProductNodes 0 (quads.map (·.nodes)) with
  | .error e => .error e
  | .ok x =>
      match tensorProductNodes 0 (quads.map (·.weights)) with
      | .error e => .error e
      | .ok ws =>
          let w := prodAxis0 ws
          if NdArray.size w.shape ≠ ncols x then .error .AssertionError
          else
            match minExact (quads.map (·.exactTo)) with
            | .error e => .error e
            | .ok exactTo => .ok ⟨x, w, exactTo, some (quads.map dim)⟩

/-- `spectral_diag_nodal_mass_matrix(quadrature)` (matrices.py 462-480). -/
def spectralDiag (q : Quadrature) : Py (NdArray ℝ) :=
  match q.factorDims with
  | none => .error .ValueError
  | some dims => if dims.all (· = 1) then .ok q.weights else .error .ValueError

end Quadrature
end Modepy
