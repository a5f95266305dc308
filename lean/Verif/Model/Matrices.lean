import Verif.Model.Basis
import Mathlib.LinearAlgebra.Matrix.NonsingularInverse

/-!
# `modepy.matrices` (matrices.py)

A function taking an array of nodes is modelled by its value at one node (`X → K`; NumPy
broadcasting evaluates columnwise), an array of `m` nodes by `Fin m → X`.  Arithmetic is exact, so
`numpy.linalg.solve`/`inv` raise exactly for singular matrices and otherwise return the solution.
-/

namespace Modepy
open Matrix

variable {K : Type*} [Field K] {X Y : Type*}

open Classical in
/-- `numpy.linalg.solve(A, B)` for a square `A`. -/
noncomputable def npSolve {n m : Nat} (A : Matrix (Fin n) (Fin n) K) (B : Matrix (Fin n) (Fin m) K) :
    Py (Matrix (Fin n) (Fin m) K) :=
  if A.det = 0 then .error .LinAlgError else .ok (A⁻¹ * B)

open Classical in
/-- `numpy.linalg.inv(A)`. -/
noncomputable def npInv {n : Nat} (A : Matrix (Fin n) (Fin n) K) : Py (Matrix (Fin n) (Fin n) K) :=
  if A.det = 0 then .error .LinAlgError else .ok A⁻¹

/-- Contract of `numpy.linalg.pinv` (real matrices): the four Moore–Penrose equations. -/
structure IsPinv {m n : Nat} (A : Matrix (Fin m) (Fin n) K) (P : Matrix (Fin n) (Fin m) K) : Prop where
  apa : A * P * A = A
  pap : P * A * P = P
  symm_ap : (A * P)ᵀ = A * P
  symm_pa : (P * A)ᵀ = P * A

/-- `vandermonde(functions, nodes)` (matrices.py 87-123), scalar functions. -/
def vandermonde {m n : Nat} (functions : Fin n → X → K) (nodes : Fin m → X) :
    Matrix (Fin m) (Fin n) K :=
  Matrix.of fun i j => functions j (nodes i)

/-- `multi_vandermonde(functions, nodes)` (matrices.py 126-168): one matrix per component;
`ValueError` without functions, and from `single_valued` for functions without components. -/
def multiVandermonde {m n d : Nat} (functions : Fin n → X → Fin d → K) (nodes : Fin m → X) :
    Py (Fin d → Matrix (Fin m) (Fin n) K) :=
  if n = 0 ∨ d = 0 then .error .ValueError
  else .ok fun k => Matrix.of fun i j => functions j (nodes i) k

/-- Columns renumbered along `m = n` (a square array is just an array). -/
def castCols {m n p : Nat} (h : m = n) (A : Matrix (Fin p) (Fin n) K) : Matrix (Fin p) (Fin m) K :=
  A.submatrix id (Fin.cast h)

/-- `resampling_matrix(basis, new_nodes, old_nodes, least_squares_ok)` (matrices.py 171-223);
`pinv` is the array returned by `la.pinv(vdm_old)`. -/
noncomputable def resamplingMatrix {n p m : Nat} (basis : Fin n → X → K) (newNodes : Fin p → X)
    (oldNodes : Fin m → X) (leastSquaresOk : Bool) (pinv : Matrix (Fin n) (Fin m) K) :
    Py (Matrix (Fin p) (Fin m) K) :=
  let vdmOld := vandermonde basis oldNodes
  let vdmNew := vandermonde basis newNodes
  -- `np.eye(max(n_modes_in, n_modes_out))[:n_modes_out, :n_modes_in]`
  let resample : Matrix (Fin n) (Fin n) K := Matrix.of fun i j => if i = j then 1 else 0
  let resampleVdmNew := vdmNew * resample
  if h : m = n then
    match npSolve (castCols h vdmOld)ᵀ (castCols h resampleVdmNew)ᵀ with
    | .error e => .error e
    | .ok x => .ok xᵀ
  else if leastSquaresOk then .ok (resampleVdmNew * pinv)
  else .error .RuntimeError

/-- `differentiation_matrices(basis, grad_basis, nodes, from_nodes)` (matrices.py 226-264), for as
many gradients as functions.  `from_nodes=None` is `from_nodes := nodes`. -/
noncomputable def differentiationMatrices {n p m d : Nat} (basis : Fin n → X → K)
    (gradBasis : Fin n → X → Fin d → K) (nodes : Fin p → X) (fromNodes : Fin m → X) :
    Py (Fin d → Matrix (Fin p) (Fin m) K) :=
  if h : m = n then
    let vdm := castCols h (vandermonde basis fromNodes)
    match multiVandermonde gradBasis nodes with
    | .error e => .error e
    | .ok gradVdms =>
        match collect ((List.finRange d).map fun k => npSolve vdmᵀ (castCols h (gradVdms k))ᵀ) with
        | .error e => .error e
        | .ok ms => .ok fun k => (ms.getD k 0)ᵀ
  else .error .ValueError

/-- The loop body of `diff_matrix_permutation` (matrices.py 294-301): `ntup_index_lookup` at the tuple
with entries `0` and `ref_axis` exchanged.  The dict comprehension keeps the last index of a tuple; a
missing key is a `KeyError`. -/
def flippedIdx (tuples : List (List Nat)) (axis : Nat) (nt : List Nat) : Py Nat :=
  match nt[0]?, nt[axis]? with
  | some a, some b =>
      let swapped := (nt.set 0 b).set axis a
      match ((List.range tuples.length).filter fun i => tuples[i]? = some swapped).getLast? with
      | some i => .ok i
      | none => .error .KeyError
  | _, _ => .error .IndexError

/-- `diff_matrix_permutation(node_tuples, ref_axis)` (matrices.py 280-303), `ref_axis ≥ 0`. -/
def diffMatrixPermutation (tuples : List (List Nat)) (axis : Nat) : Py (List Nat) :=
  if axis = 0 then .ok (List.range tuples.length)
  else collect (tuples.map (flippedIdx tuples axis))

/-- `inverse_mass_matrix(basis, nodes)` for a `Basis` whose functions evaluate to `functions`
(matrices.py 306-338). -/
noncomputable def inverseMassMatrix {m n : Nat} (weight : Py ℝ) (functions : Fin n → X → ℝ)
    (nodes : Fin m → X) : Py (Matrix (Fin m) (Fin m) ℝ) :=
  match weight with
  | .error .BasisNotOrthonormal => .error .NotImplementedError
  | .error e => .error e
  | .ok w =>
      open Classical in
      if w ≠ 1 then .error .NotImplementedError
      else
        let vdm := vandermonde functions nodes
        .ok (vdm * vdmᵀ)

/-- `mass_matrix(basis, nodes)` (matrices.py 341-357). -/
noncomputable def massMatrix {m n : Nat} (weight : Py ℝ) (functions : Fin n → X → ℝ)
    (nodes : Fin m → X) : Py (Matrix (Fin m) (Fin m) ℝ) :=
  match inverseMassMatrix weight functions nodes with
  | .error e => .error e
  | .ok a => npInv a

/-- `nodal_quadrature_test_matrix(quadrature, test_functions, nodal_interp_functions, nodes,
test_function_node_map)` (matrices.py 360-398).  `map` is the identity when
`test_function_node_map` is `None`, `nodes` are the quadrature nodes when `nodes` is `None`. -/
noncomputable def nodalQuadratureTestMatrix {q n m : Nat} (quadNodes : Fin q → X) (weights : Fin q → K)
    (testFunctions interp : Fin n → Y → K) (nodes : Fin m → Y) (map : X → Y) :
    Py (Matrix (Fin n) (Fin q) K) :=
  if h : n = m then
    let vdm := vandermonde interp (nodes ∘ Fin.cast h)
    let modalMat : Matrix (Fin n) (Fin q) K :=
      Matrix.of fun i j => (vandermonde testFunctions (map ∘ quadNodes))ᵀ i j * weights j
    npSolve vdmᵀ modalMat
  else .error .ValueError

/-- `nodal_quadrature_bilinear_form_matrix(...)` (matrices.py 401-459). -/
noncomputable def nodalQuadratureBilinearFormMatrix {q n m no ni : Nat} (quadNodes : Fin q → X)
    (weights : Fin q → K) (testFunctions : Fin n → Y → K) (trialFunctions : Fin m → X → K)
    (interpTest : Fin n → Y → K) (interpTrial : Fin m → X → K)
    (inputNodes : Fin ni → X) (outputNodes : Fin no → Y) (map : X → Y) :
    Py (Matrix (Fin n) (Fin m) K) :=
  if ho : n = no then
    if hi : m = ni then
      let modalOperator : Matrix (Fin n) (Fin m) K := Matrix.of fun i j =>
        ∑ k : Fin q, vandermonde testFunctions (map ∘ quadNodes) k i *
          vandermonde trialFunctions quadNodes k j * weights k
      let inputVdm := vandermonde interpTrial (inputNodes ∘ Fin.cast hi)
      let outputVdm := vandermonde interpTest (outputNodes ∘ Fin.cast ho)
      match npInv inputVdm with
      | .error e => .error e
      | .ok vinv => npSolve outputVdmᵀ (modalOperator * vinv)
    else .error .ValueError
  else .error .ValueError

/-- `modal_quad_mass_matrix(quadrature, test_functions)` (matrices.py 485-497). -/
def modalQuadMassMatrix {q n : Nat} (quadNodes : Fin q → X) (weights : Fin q → K)
    (testFunctions : Fin n → X → K) : Matrix (Fin n) (Fin q) K :=
  Matrix.of fun i j => testFunctions i (quadNodes j) * weights j

/-- `nodal_quad_mass_matrix(quadrature, test_functions, nodes)` (matrices.py 500-517). -/
noncomputable def nodalQuadMassMatrix {q n m : Nat} (quadNodes : Fin q → X) (weights : Fin q → K)
    (testFunctions : Fin n → X → K) (nodes : Fin m → X) : Py (Matrix (Fin n) (Fin q) K) :=
  if h : n = m then
    npSolve (vandermonde testFunctions (nodes ∘ Fin.cast h))ᵀ
      (modalQuadMassMatrix quadNodes weights testFunctions)
  else .error .ValueError

/-- `modal_mass_matrix_for_face(face, face_quad, trial_functions, test_functions)`
(matrices.py 520-537); `map` is `face.map_to_volume`. -/
def modalMassMatrixForFace {q n m : Nat} (map : X → Y) (quadNodes : Fin q → X) (weights : Fin q → K)
    (trialFunctions : Fin m → X → K) (testFunctions : Fin n → Y → K) : Matrix (Fin n) (Fin m) K :=
  Matrix.of fun i j => ∑ k : Fin q,
    (testFunctions i (map (quadNodes k)) * trialFunctions j (quadNodes k)) * weights k

/-- `nodal_mass_matrix_for_face(...)` (matrices.py 540-563); the volume Vandermonde matrix must be
square for `la.solve` (`LinAlgError` otherwise). -/
noncomputable def nodalMassMatrixForFace {q n m nv nf : Nat} (map : X → Y) (quadNodes : Fin q → X)
    (weights : Fin q → K) (trialFunctions : Fin m → X → K) (testFunctions : Fin n → Y → K)
    (volumeNodes : Fin nv → Y) (faceNodes : Fin nf → X) : Py (Matrix (Fin n) (Fin m) K) :=
  if hf : m = nf then
    match npInv (vandermonde trialFunctions (faceNodes ∘ Fin.cast hf)) with
    | .error e => .error e
    | .ok faceVdmInv =>
        let modalFmm := modalMassMatrixForFace map quadNodes weights trialFunctions testFunctions
        if hv : n = nv then
          npSolve (vandermonde testFunctions (volumeNodes ∘ Fin.cast hv))ᵀ (modalFmm * faceVdmInv)
        else .error .LinAlgError
  else .error .ValueError

/-- `modal_quad_mass_matrix_for_face(face, face_quad, test_functions)` (matrices.py 566-580). -/
def modalQuadMassMatrixForFace {q n : Nat} (map : X → Y) (quadNodes : Fin q → X) (weights : Fin q → K)
    (testFunctions : Fin n → Y → K) : Matrix (Fin n) (Fin q) K :=
  Matrix.of fun i j => testFunctions i (map (quadNodes j)) * weights j

/-- `nodal_quad_mass_matrix_for_face(face, face_quad, test_functions, volume_nodes)`
(matrices.py 583-601). -/
noncomputable def nodalQuadMassMatrixForFace {q n m : Nat} (map : X → Y) (quadNodes : Fin q → X)
    (weights : Fin q → K) (testFunctions : Fin n → Y → K) (volumeNodes : Fin m → Y) :
    Py (Matrix (Fin n) (Fin q) K) :=
  if h : n = m then
    npSolve (vandermonde testFunctions (volumeNodes ∘ Fin.cast h))ᵀ
      (modalQuadMassMatrixForFace map quadNodes weights testFunctions)
  else .error .ValueError

end Modepy
