import Verif.Model.BasisMatrices

/-!
# `nodal_quadrature_test_matrix` and `nodal_quadrature_bilinear_form_matrix` on sequences of callables

`Model/BasisMatrices` models the bilinear form for two `Basis` objects whose functions are both tested and interpolated with.
Here the test, trial and interpolation functions are independent sequences of callables, as in the weak derivative
(`test_functions=basis.derivatives(axis)`), with the exceptions of the calls and of shapes that do not fit.
-/

namespace Modepy

/-- `nodal_quadrature_test_matrix(quadrature, test_functions, nodal_interp_functions, nodes, test_function_node_map)`
(matrices.py 360-398) with `nodes` given: the interpolation functions are counted and called first, then the nodes are mapped,
then the test functions are called; `la.solve` raises `ValueError` if their number does not fit. -/
noncomputable def testMatrixFn {q m : Nat} (quadNodes : Fin q → List ℝ) (weights : Fin q → ℝ)
    (test interp : List (List ℝ → Py ℝ)) (nodes : Fin m → List ℝ) (map : List ℝ → Py (List ℝ)) : Py (Matrix (Fin m) (Fin q) ℝ) :=
  if hi : interp.length = m then
    match callAll interp (List.ofFn nodes) with
    | .error e => .error e
    | .ok _ =>
        match collect ((List.ofFn quadNodes).map map) with
        | .error e => .error e
        | .ok mapped =>
            match callAll test mapped with
            | .error e => .error e
            | .ok _ =>
                if ht : test.length = interp.length then
                  (nodalQuadratureTestMatrix quadNodes weights (totalFn test ∘ Fin.cast ht.symm) (totalFn interp) nodes
                    (totalMap map)).map fun a => a.submatrix (Fin.cast hi.symm) id
                else .error .ValueError
  else .error .ValueError

/-- `nodal_quadrature_bilinear_form_matrix(quadrature, test_functions, trial_functions, nodal_interp_functions_test,
nodal_interp_functions_trial, input_nodes, output_nodes, test_function_node_map)` (matrices.py 401-459), with `outputNodes`
the input nodes if `output_nodes` is `None`.  Counts of interpolation functions are checked first; the Vandermonde matrices
are formed in the order test, trial, input, output; then `la.inv(input_vdm)` may raise `LinAlgError`, and the product and
`la.solve` raise `ValueError` for test or trial functions of the wrong number. -/
noncomputable def bilinearFormMatrixFn {q ni no : Nat} (quadNodes : Fin q → List ℝ) (weights : Fin q → ℝ)
    (test trial interpTest interpTrial : List (List ℝ → Py ℝ)) (inputNodes : Fin ni → List ℝ) (outputNodes : Fin no → List ℝ)
    (map : List ℝ → Py (List ℝ)) : Py (Matrix (Fin no) (Fin ni) ℝ) :=
  if ho : interpTest.length = no then
    if hi : interpTrial.length = ni then
      match collect ((List.ofFn quadNodes).map map) with
      | .error e => .error e
      | .ok mapped =>
          match callAll test mapped with
          | .error e => .error e
          | .ok _ =>
              match callAll trial (List.ofFn quadNodes) with
              | .error e => .error e
              | .ok _ =>
                  match callAll interpTrial (List.ofFn inputNodes) with
                  | .error e => .error e
                  | .ok _ =>
                      match callAll interpTest (List.ofFn outputNodes) with
                      | .error e => .error e
                      | .ok _ =>
                          match npInv (vandermonde (totalFn interpTrial) (inputNodes ∘ Fin.cast hi)) with
                          | .error e => .error e
                          | .ok _ =>
                              if hu : trial.length = interpTrial.length then
                                if ht : test.length = interpTest.length then
                                  (nodalQuadratureBilinearFormMatrix quadNodes weights (totalFn test ∘ Fin.cast ht.symm)
                                    (totalFn trial ∘ Fin.cast hu.symm) (totalFn interpTest) (totalFn interpTrial) inputNodes
                                    outputNodes (totalMap map)).map
                                    fun a => a.submatrix (Fin.cast ho.symm) (Fin.cast hi.symm)
                                else .error .ValueError
                              else .error .ValueError
    else .error .ValueError
  else .error .ValueError

end Modepy
