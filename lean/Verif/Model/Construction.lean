import Verif.Model.Matrices
import Mathlib.LinearAlgebra.Matrix.PosDef
import Mathlib.Analysis.Complex.Basic
import Mathlib.Analysis.Complex.Order
import Mathlib.LinearAlgebra.Matrix.Charpoly.Eigs

/-!
# `modepy.quadrature.construction` (quadrature/construction.py)

Integrands are modelled as the objects the code distinguishes: instances of `LinearCombinationIntegrand`, and everything
else (`leaf`, with the value supplied by an environment).  Values are complex numbers, one point at a time.
`__eq__` of integrands is a parameter `eq` (identity for plain functions, dataclass comparison otherwise, which may raise
when it has to decide the truth value of an array).  Warnings are not modelled.
-/

namespace Modepy
open Matrix
open scoped ComplexOrder

/-- Python sequence types of `functions`: comparing a list with a tuple gives "different". -/
inductive SeqKind where
  | list
  | tuple
  deriving DecidableEq

/-- An integrand: a `LinearCombinationIntegrand` (77-103) or any other callable. -/
inductive Fn (ι : Type) where
  | leaf (i : ι)
  | lc (coefficients : List ℂ) (kind : SeqKind) (functions : List (Fn ι))

mutual
/-- `f(points)` at one point. -/
def Fn.eval {ι X : Type} (env : ι → X → ℂ) (x : X) : Fn ι → ℂ
  | .leaf i => env i x
  | .lc cs _ fs => Fn.evalSum env x cs fs
/-- `LinearCombinationIntegrand.__call__` (95-103). -/
def Fn.evalSum {ι X : Type} (env : ι → X → ℂ) (x : X) : List ℂ → List (Fn ι) → ℂ
  | c :: cs, f :: fs => c * Fn.eval env x f + Fn.evalSum env x cs fs
  | _, _ => 0
end

variable {ι : Type}

/-- `LinearCombinationIntegrand(coefficients, functions)` with `__post_init__` (92-93). -/
def mkLC (cs : List ℂ) (kind : SeqKind) (fs : List (Fn ι)) : Py (Fn ι) :=
  if cs.length = fs.length then .ok (.lc cs kind fs) else .error .AssertionError

/-- `isinstance(f, LinearCombinationIntegrand)` and its fields (118-121). -/
def Fn.asLC : Fn ι → Option (List ℂ × SeqKind × List (Fn ι))
  | .leaf _ => none
  | .lc cs k fs => some (cs, k, fs)

/-- List equality of Python: elements compared in order until one differs. -/
def listEq (eq : Fn ι → Fn ι → Py Bool) : List (Fn ι) → List (Fn ι) → Py Bool
  | [], [] => .ok true
  | a :: as, b :: bs =>
      match eq a b with
      | .error e => .error e
      | .ok false => .ok false
      | .ok true => listEq eq as bs
  | _, _ => .ok false

/-- `basis[:ncommon] != f.functions[:ncommon]` (135), `basis` being a list. -/
def seqNe (eq : Fn ι → Fn ι → Py Bool) (kind : SeqKind) (a b : List (Fn ι)) : Py Bool :=
  match kind with
  | .tuple => .ok true
  | .list =>
      match listEq eq a b with
      | .error e => .error e
      | .ok r => .ok !r

/-- The loop 133-145: the common basis and the rows of `matrix`; `none` stands for the early return of the unflattened
combination.  `matrix[i, :ncoeff] = f.coefficients` is a `ValueError` when there are more than `n` coefficients. -/
def flattenLoop (eq : Fn ι → Fn ι → Py Bool) (n : Nat) :
    List (List ℂ × SeqKind × List (Fn ι)) → List (Fn ι) → List (List ℂ) → Py (Option (List (Fn ι) × List (List ℂ)))
  | [], basis, rows => .ok (some (basis, rows))
  | f :: rest, basis, rows =>
      let ncommon := min basis.length f.2.2.length
      match seqNe eq f.2.1 (basis.take ncommon) (f.2.2.take ncommon) with
      | .error e => .error e
      | .ok true => .ok none
      | .ok false =>
          if f.1.length ≤ n then
            flattenLoop eq n rest (basis ++ f.2.2.drop ncommon) (rows ++ [f.1 ++ List.replicate (n - f.1.length) 0])
          else .error .ValueError

/-- `coefficients @ matrix` (148), `matrix` of shape `(n, n)`. -/
noncomputable def vecMatrix (n : Nat) (cs : List ℂ) (rows : List (List ℂ)) : Py (List ℂ) :=
  if cs.length = n then
    .ok ((List.range n).map fun j => (List.zipWith (fun c (row : List ℂ) => c * row.getD j 0) cs rows).sum)
  else .error .ValueError

/-- `linearly_combine(coefficients, functions)` (106-148). -/
noncomputable def linearlyCombine (eq : Fn ι → Fn ι → Py Bool) (cs : List ℂ) (kind : SeqKind) (fs : List (Fn ι)) :
    Py (Fn ι) :=
  let lcs := fs.filterMap Fn.asLC
  if lcs.length ≠ fs.length then mkLC cs kind fs
  else
    match flattenLoop eq lcs.length lcs [] [] with
    | .error e => .error e
    | .ok none => mkLC cs kind fs
    | .ok (some r) =>
        match vecMatrix lcs.length cs r.2 with
        | .error e => .error e
        | .ok v => mkLC v .list r.1

/-- `_mass_matrix(integrate, basis)` (151-169). -/
noncomputable def massMatrixOf {X : Type} {n : Nat} (integrate : (X → ℂ) → ℂ) (basis : Fin n → X → ℂ) :
    Matrix (Fin n) (Fin n) ℂ :=
  let integrals := fun i j => integrate fun x => basis i x * (starRingEnd ℂ) (basis j x)
  Matrix.of fun i j => if j ≤ i then integrals i j else integrals j i

open Classical in
/-- `orthogonalize_basis(integrate, basis)` (172-208); `chol` is `numpy.linalg.cholesky`, the triangular solve is exact.
`np.array([])` is one-dimensional, so an empty basis fails in `cholesky`. -/
noncomputable def orthogonalizeBasis {X : Type} (eq : Fn ι → Fn ι → Py Bool) (env : ι → X → ℂ)
    (chol : ∀ n, Matrix (Fin n) (Fin n) ℂ → Py (Matrix (Fin n) (Fin n) ℂ))
    (integrate : (X → ℂ) → ℂ) (kind : SeqKind) (basis : List (Fn ι)) : Py (List (Fn ι)) :=
  let n := basis.length
  if n = 0 then .error .LinAlgError
  else
    let massMat := massMatrixOf integrate fun (i : Fin n) x => (basis.get i).eval env x
    match chol n massMat with
    | .error e => .error e
    | .ok lFactor =>
        match npInv lFactor with
        | .error e => .error e
        | .ok lInv =>
            if √ (∑ i, ∑ j, if i < j then Complex.normSq (lInv i j) else 0) < 1e-14 then
              collect ((List.finRange n).map fun i =>
                linearlyCombine eq ((List.ofFn (lInv i)).take (i + 1)) kind (basis.take (i + 1)))
            else .error .AssertionError

/-- Contract of `numpy.linalg.cholesky`: it reads the lower triangle only, returns the lower triangular factor with
positive diagonal, and succeeds exactly for positive definite matrices. -/
structure CholOk (chol : ∀ n, Matrix (Fin n) (Fin n) ℂ → Py (Matrix (Fin n) (Fin n) ℂ)) : Prop where
  factor : ∀ n M L, chol n M = .ok L → (∀ i, (M i i).im = 0) →
    (∀ i j, i < j → L i j = 0) ∧ (∀ i, 0 < L i i) ∧ ∀ i j, j ≤ i → (L * Lᴴ) i j = M i j
  posDef : ∀ n (M H : Matrix (Fin n) (Fin n) ℂ), H.PosDef → (∀ i j, j ≤ i → H i j = M i j) → ∃ L, chol n M = .ok L

/-- `_ComplexToNDAdapter(f)` (211-217). -/
def complexToND (f : List ℝ → ℂ) (z : ℂ) : ℂ := f [z.re, z.im]

/-- The matrix of `guess_nodes_vioreanu_rokhlin` (267-279). -/
noncomputable def multiplicationMatrix {n : Nat} (integrate : (ℂ → ℂ) → ℂ) (onb : Fin n → ℂ → ℂ) :
    Matrix (Fin n) (Fin n) ℂ :=
  Matrix.of fun i j => integrate fun z => z * onb i z * (starRingEnd ℂ) (onb j z)

/-- `guess_nodes_vioreanu_rokhlin(integrate, onb)` (233-281); `eigvals` is `numpy.linalg.eigvals`, which rejects the
one-dimensional `np.array([])`. -/
noncomputable def guessNodes (eigvals : ∀ n, Matrix (Fin n) (Fin n) ℂ → Py (List ℂ)) {n : Nat}
    (integrate : (ℂ → ℂ) → ℂ) (onb : Fin n → ℂ → ℂ) : Py (List ℂ) :=
  if n = 0 then .error .LinAlgError else eigvals n (multiplicationMatrix integrate onb)

/-- Contract of `numpy.linalg.eigvals`: the roots of the characteristic polynomial with multiplicity, in any order. -/
def EigvalsOk (eigvals : ∀ n, Matrix (Fin n) (Fin n) ℂ → Py (List ℂ)) : Prop :=
  ∀ n (M : Matrix (Fin n) (Fin n) ℂ) l, eigvals n M = .ok l → (l : Multiset ℂ) = M.charpoly.roots

/-! ## Undetermined coefficients, residual and Gauss-Newton step

Nodes are arrays of shape `(ndim, nnodes)` or `(nnodes,)`; an integrand is evaluated at one node, a list of coordinates.
`lstsq A b` is the first entry of what `numpy.linalg.lstsq` returns. -/

/-- Node `j` as handed to the integrand: column `j`, or entry `j` of a one-dimensional array. -/
def nodeAt (nodes : NdArray ℝ) (j : Nat) : List ℝ :=
  match nodes.shape with
  | [ndim, _] => (List.range ndim).map fun r => nodes.get [r, j]
  | _ => [nodes.get [j]]

/-- `nodes.shape[-1]`. -/
def numNodes (nodes : NdArray ℝ) : Nat := nodes.shape.getLastD 0

/-- `vandermonde(functions, nodes).T` as an array of shape `(nfunctions, nnodes)` (matrices.py 87-123). -/
def vandermondeT (functions : List (List ℝ → ℝ)) (nodes : NdArray ℝ) : NdArray ℝ :=
  ⟨[functions.length, numNodes nodes], fun idx =>
    (functions.getD (idx.getD 0 0) fun _ => 0) (nodeAt nodes (idx.getD 1 0))⟩

/-- Least squares solver: matrix of the given shape, right-hand side. -/
abbrev Lstsq := NdArray ℝ → List ℝ → List ℝ

/-- `Σ_j A[i,j] x[j]`. -/
def rowDot (A : NdArray ℝ) (cols : Nat) (x : List ℝ) (i : Nat) : ℝ :=
  ((List.range cols).map fun j => A.get [i, j] * x.getD j 0).sum

/-- Contract of `numpy.linalg.lstsq` for a matrix with `rows` rows and `cols` columns: a vector of length `cols`
minimising the sum of squared residuals. -/
def LstsqOk (lstsq : Lstsq) : Prop :=
  ∀ (A : NdArray ℝ) (rows cols : Nat) (b : List ℝ), A.shape = [rows, cols] → b.length = rows →
    (lstsq A b).length = cols ∧ ∀ y : List ℝ, y.length = cols →
      ((List.range rows).map fun i => (rowDot A cols (lstsq A b) i - b.getD i 0) ^ 2).sum ≤
        ((List.range rows).map fun i => (rowDot A cols y i - b.getD i 0) ^ 2).sum

/-- `find_weights_undetermined_coefficients(integrands, nodes, reference_integrals)` (284-329). -/
def findWeights (lstsq : Lstsq) (integrands : List (List ℝ → ℝ)) (nodes : NdArray ℝ) (referenceIntegrals : List ℝ) :
    Py (List ℝ) :=
  if referenceIntegrals.length ≠ integrands.length then .error .ValueError
  else .ok (lstsq (vandermondeT integrands nodes) referenceIntegrals)

/-- `QuadratureResidualJacobian` (332-352). -/
structure QRJ where
  residual : List ℝ
  dWeights : NdArray ℝ
  dNodes : NdArray ℝ

/-- `a - b` of one-dimensional arrays with broadcasting. -/
def vecSub (a b : List ℝ) : Py (List ℝ) :=
  if a.length = b.length then .ok (List.zipWith (· - ·) a b)
  else if b.length = 1 then .ok (a.map (· - b.getD 0 0))
  else if a.length = 1 then .ok (b.map (a.getD 0 0 - ·))
  else .error .ValueError

/-- `np.hstack` of arrays with the same number of rows and `cols` columns each. -/
def hstackBlocks (rows cols : Nat) (blocks : List (NdArray ℝ)) : Py (NdArray ℝ) :=
  if blocks = [] then .error .ValueError
  else .ok ⟨[rows, blocks.length * cols], fun idx =>
    (blocks.getD (idx.getD 1 0 / cols) ⟨[], fun _ => 0⟩).get [idx.getD 0 0, idx.getD 1 0 % cols]⟩

/-- `quad_residual_and_jacobian(...)` (355-431).  `A * weights` with weights of the wrong length was already rejected by
the product `vdm_t @ weights`. -/
noncomputable def quadResidualAndJacobian (nodes : NdArray ℝ) (weights : List ℝ) (integrands : List (List ℝ → ℝ))
    (derivatives : List (List (List ℝ → ℝ))) (referenceIntegrals : List ℝ) : Py QRJ :=
  match nodes.shape with
  | [ndim, nnodes] =>
      if derivatives.length ≠ ndim then .error .ValueError
      else if ∃ ax ∈ derivatives, ax.length ≠ integrands.length then .error .ValueError
      else
        let vdmT := vandermondeT integrands nodes
        if weights.length ≠ nnodes then .error .ValueError
        else
          match vecSub ((List.range integrands.length).map (rowDot vdmT nnodes weights)) referenceIntegrals with
          | .error e => .error e
          | .ok residual =>
              match hstackBlocks integrands.length nnodes (derivatives.map fun ax =>
                  let v := vandermondeT ax nodes
                  ⟨v.shape, fun idx => v.get idx * weights.getD (idx.getD 1 0) 0⟩) with
              | .error e => .error e
              | .ok dNodes => .ok ⟨residual, vdmT, dNodes⟩
  | _ => .error .ValueError

/-- `quad_gauss_newton_increment(qrj)` (434-452): increments of weights and nodes, the latter reshaped (C order) to
`(-1, nnodes)`. -/
def gaussNewtonIncrement (lstsq : Lstsq) (qrj : QRJ) : Py (List ℝ × NdArray ℝ) :=
  match qrj.dWeights.shape, qrj.dNodes.shape with
  | [rows, nnodes], [rows', ncols] =>
      if rows ≠ rows' then .error .ValueError
      else
        let full : NdArray ℝ := ⟨[rows, nnodes + ncols], fun idx =>
          if idx.getD 1 0 < nnodes then qrj.dWeights.get [idx.getD 0 0, idx.getD 1 0]
          else qrj.dNodes.get [idx.getD 0 0, idx.getD 1 0 - nnodes]⟩
        if qrj.residual.length ≠ rows then .error .LinAlgError
        else
          let inc := (lstsq full qrj.residual).map fun v => -v
          let rest := inc.drop nnodes
          if nnodes = 0 ∨ rest.length % nnodes ≠ 0 then .error .ValueError
          else
            match NdArray.reshapeC ⟨[rest.length], fun idx => rest.getD (idx.getD 0 0) 0⟩ [rest.length / nnodes, nnodes] with
            | .error e => .error e
            | .ok dx => .ok (inc.take nnodes, dx)
  | _, _ => .error .ValueError

end Modepy
