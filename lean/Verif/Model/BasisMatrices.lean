import Verif.Model.Matrices

/-!
# `modepy.matrices` on `Basis` objects

The functions of `Model/Matrices` applied to the functions and gradients of a `Basis`, including the exceptions of the
property accesses and of the calls.
-/

namespace Modepy

/-- Calls all functions on all nodes, function by function (the loops of `vandermonde` and `multi_vandermonde`, matrices.py
108-123, 153-166). -/
def callAll {α : Type} (fs : List (List ℝ → Py α)) (nodes : List (List ℝ)) : Py (List (List α)) :=
  collect (fs.map fun f => collect (nodes.map f))

/-- The values of functions whose calls succeed. -/
noncomputable def totalFn (fs : List (List ℝ → Py ℝ)) (j : Fin fs.length) (x : List ℝ) : ℝ :=
  match fs[j] x with
  | .ok v => v
  | .error _ => 0

/-- The components of gradients whose calls succeed. -/
noncomputable def totalGrad (gs : List (List ℝ → Py (List ℝ))) (d : Nat) (j : Nat) (x : List ℝ) (k : Fin d) : ℝ :=
  match (gs.getD j fun _ => .error .IndexError) x with
  | .ok v => v.getD k 0
  | .error _ => 0

/-- `inverse_mass_matrix(basis, nodes)` for a `Basis` (matrices.py 306-338). -/
noncomputable def inverseMassMatrixOf {m : Nat} (b : Basis ℝ) (nodes : Fin m → List ℝ) :
    Py (Matrix (Fin m) (Fin m) ℝ) :=
  match b.orthonormalityWeight with
  | .error .BasisNotOrthonormal => .error .NotImplementedError
  | .error e => .error e
  | .ok w =>
      open Classical in
      if w ≠ 1 then .error .NotImplementedError
      else
        match b.functions with
        | .error e => .error e
        | .ok fs =>
            match callAll fs (List.ofFn nodes) with
            | .error e => .error e
            | .ok _ => inverseMassMatrix (.ok w) (totalFn fs) nodes

/-- `mass_matrix(basis, nodes)` for a `Basis` (matrices.py 341-357). -/
noncomputable def massMatrixOfBasis {m : Nat} (b : Basis ℝ) (nodes : Fin m → List ℝ) : Py (Matrix (Fin m) (Fin m) ℝ) :=
  match inverseMassMatrixOf b nodes with
  | .error e => .error e
  | .ok a => npInv a

/-- `diff_matrices(basis, nodes, from_nodes)` (matrices.py 267-277, 226-264).  `d` is the number of components of the
gradients (all bases of the library return tuples with one entry per dimension). -/
noncomputable def diffMatricesOf {p m : Nat} (d : Nat) (b : Basis ℝ) (nodes : Fin p → List ℝ) (fromNodes : Fin m → List ℝ) :
    Py (Fin d → Matrix (Fin p) (Fin m) ℝ) :=
  match b.functions with
  | .error e => .error e
  | .ok fs =>
      match b.gradients with
      | .error e => .error e
      | .ok gs =>
          if fs.length ≠ m then .error .ValueError
          else
            match callAll fs (List.ofFn fromNodes) with
            | .error e => .error e
            | .ok _ =>
                match callAll gs (List.ofFn nodes) with
                | .error e => .error e
                | .ok _ => differentiationMatrices (totalFn fs) (fun j => totalGrad gs d j) nodes fromNodes

/-- `resampling_matrix(basis.functions, new_nodes, old_nodes, least_squares_ok)` (matrices.py 171-223); `pinv` stands for
`la.pinv`. -/
noncomputable def resamplingMatrixOf {p m : Nat} (b : Basis ℝ) (newNodes : Fin p → List ℝ) (oldNodes : Fin m → List ℝ)
    (leastSquaresOk : Bool) (pinv : (n : Nat) → Matrix (Fin m) (Fin n) ℝ → Matrix (Fin n) (Fin m) ℝ) :
    Py (Matrix (Fin p) (Fin m) ℝ) :=
  match b.functions with
  | .error e => .error e
  | .ok fs =>
      match callAll fs (List.ofFn oldNodes) with
      | .error e => .error e
      | .ok _ =>
          match callAll fs (List.ofFn newNodes) with
          | .error e => .error e
          | .ok _ => resamplingMatrix (totalFn fs) newNodes oldNodes leastSquaresOk (pinv _ (vandermonde (totalFn fs) oldNodes))

/-- The values of a node map whose calls succeed. -/
def totalMap (map : List ℝ → Py (List ℝ)) (x : List ℝ) : List ℝ :=
  match map x with
  | .ok y => y
  | .error _ => []

/-- `nodal_quadrature_bilinear_form_matrix(quadrature, test.functions, trial.functions, test.functions, trial.functions,
input_nodes, output_nodes, test_function_node_map)` (matrices.py 401-459) for two `Basis` objects, as in the usage for
faces: node counts are checked first, then the quadrature nodes are mapped, then the Vandermonde matrices are formed in the
order test, trial, input, output. -/
noncomputable def bilinearFormMatrixOf {q ni no : Nat} (quadNodes : Fin q → List ℝ) (weights : Fin q → ℝ) (test trial : Basis ℝ)
    (inputNodes : Fin ni → List ℝ) (outputNodes : Fin no → List ℝ) (map : List ℝ → Py (List ℝ)) :
    Py (Matrix (Fin no) (Fin ni) ℝ) :=
  match test.functions with
  | .error e => .error e
  | .ok ts =>
      match trial.functions with
      | .error e => .error e
      | .ok us =>
          if ho : ts.length = no then
            if hi : us.length = ni then
              match collect ((List.ofFn quadNodes).map map) with
              | .error e => .error e
              | .ok mapped =>
                  match callAll ts mapped with
                  | .error e => .error e
                  | .ok _ =>
                      match callAll us (List.ofFn quadNodes) with
                      | .error e => .error e
                      | .ok _ =>
                          match callAll us (List.ofFn inputNodes) with
                          | .error e => .error e
                          | .ok _ =>
                              match callAll ts (List.ofFn outputNodes) with
                              | .error e => .error e
                              | .ok _ =>
                                  (nodalQuadratureBilinearFormMatrix quadNodes weights (totalFn ts) (totalFn us) (totalFn ts)
                                    (totalFn us) inputNodes outputNodes (totalMap map)).map
                                    fun a => a.submatrix (Fin.cast ho.symm) (Fin.cast hi.symm)
            else .error .ValueError
          else .error .ValueError

end Modepy
