import Verif.Model.Basis
import Verif.Model.Matrices
import Verif.Model.Submesh

/-!
# `modepy.tools`: estimate of the Lebesgue constant (tools.py 312-404)
-/

namespace Modepy
open NdArray

/-- `vandermonde(functions, nodes)` (matrices.py 87-123) for functions that may raise: the rows, one per node (a list of
points).  NumPy evaluates a function at all nodes at once; whether it raises depends on the number of coordinates only. -/
noncomputable def vandermondeRows (functions : List (List ℝ → Py ℝ)) (nodes : List (List ℝ)) : Py (List (List ℝ)) :=
  collect (nodes.map fun x => collect (functions.map fun f => f x))

/-- The columns of an array of shape `(dim, nnodes)`. -/
noncomputable def columnsOf (A : NdArray ℝ) : List (List ℝ) :=
  (List.range (A.shape.getD 1 0)).map fun k => (List.range (A.shape.getD 0 0)).map fun i => A.get [i, k]

/-- `np.sum(np.abs(la.solve(vdm.T, eq_vdm.T).T), axis=1)` (tools.py 329-331); `n` functions, `numpy.linalg.solve` raises
`LinAlgError` unless `vdm` is square and invertible. -/
noncomputable def lebesgueRows (n : Nat) (vdm eqVdm : List (List ℝ)) : Py (List ℝ) :=
  if vdm.length ≠ n then .error .LinAlgError
  else
    match npSolve (Matrix.of fun i j : Fin n => (vdm.getD i []).getD j 0).transpose
        (Matrix.of fun (i : Fin eqVdm.length) (j : Fin n) => (eqVdm.getD i []).getD j 0).transpose with
    | .error e => .error e
    | .ok S => .ok (List.ofFn fun i : Fin eqVdm.length => ∑ j : Fin n, |S.transpose i j|)

/-- `_evaluate_lebesgue_function(n, nodes, shape)` (tools.py 314-333).  For `n = 0` NumPy's sample point is `0/0`, a NaN;
the functions of order zero are constant, so that it does not matter which point the model has there. -/
noncomputable def evaluateLebesgueFunction (n : Nat) (nodes : NdArray ℝ) (shape : Shape) :
    Py (List ℝ × List (List Nat) × NdArray ℝ) :=
  let hugeN := (if shape.dim = 2 then 30 else 10) * n
  match Space.forShape shape (.int n), Space.forShape shape (.int hugeN) with
  | .error e, _ => .error e
  | _, .error e => .error e
  | .ok space, .ok hugeSpace =>
    match (basisForSpace space shape : Py (Basis ℝ)) with
    | .error e => .error e
    | .ok basis =>
      let equiNodeTuples := nodeTuples hugeSpace
      let equiNodes : NdArray ℝ := scaledTuples (equiNodeTuples.headD []).length hugeN equiNodeTuples
      if equiNodes.shape.getD 0 0 ≠ nodes.shape.getD 0 0 then .error .AssertionError
      else
        match basis.functions with
        | .error e => .error e
        | .ok fs =>
          match vandermondeRows fs (columnsOf nodes) with
          | .error e => .error e
          | .ok vdm =>
            match vandermondeRows fs (columnsOf equiNodes) with
            | .error e => .error e
            | .ok eqVdm =>
              match lebesgueRows fs.length vdm eqVdm with
              | .error e => .error e
              | .ok worst => .ok (worst, equiNodeTuples, equiNodes)

/-- `np.max` of a one-dimensional array; raises `ValueError` if it is empty. -/
noncomputable def npMax (l : List ℝ) : Py ℝ :=
  match l with
  | [] => .error .ValueError
  | x :: xs => .ok (xs.foldl max x)

/-- `estimate_lebesgue_constant(n, nodes, shape, visualize=visualize)` (tools.py 336-404), `nodes` of shape `(dim, nnodes)`.
Plotting is not modelled, except for the errors raised on the way. -/
noncomputable def estimateLebesgueConstant (n : Nat) (nodes : NdArray ℝ) (shape : Shape) (visualize : Bool) : Py ℝ :=
  let dim := nodes.shape.getD 0 0
  if shape.dim ≠ dim then .error .ValueError
  else
    match evaluateLebesgueFunction n nodes shape with
    | .error e => .error e
    | .ok (worst, equiNodeTuples, _) =>
      match npMax worst with
      | .error e => .error e
      | .ok c =>
        if visualize = false then .ok c
        else if shape.dim = 1 then .ok c
        else if shape.dim = 2 then
          match submeshForShape shape equiNodeTuples with
          | .error e => .error e
          | .ok _ => .ok c
        else .error .ValueError

end Modepy
