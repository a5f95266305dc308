import Verif.Model.Quadrature
import Verif.Model.Jacobi
import Mathlib.LinearAlgebra.Matrix.Symmetric
import Mathlib.Analysis.SpecialFunctions.Trigonometric.Basic

/-!
# `modepy.quadrature.jacobi_gauss` (quadrature/jacobi_gauss.py)

Real parameters, exact arithmetic.  `numpy.linalg.eigh` and `scipy.special.roots_jacobi` are external:
they are parameters, the former with its documented contract.
-/

namespace Modepy
open Matrix

/-- External numerical routines used by the quadrature constructors. -/
structure Ext where
  /-- `numpy.linalg.eigh(T)`: eigenvalues, and a matrix whose columns are eigenvectors. -/
  eigh : (n : Nat) → Matrix (Fin n) (Fin n) ℝ → (Fin n → ℝ) × Matrix (Fin n) (Fin n) ℝ
  /-- `scipy.special.roots_jacobi(n, alpha, beta)`. -/
  rootsJacobi : (n : Nat) → ℝ → ℝ → (Fin n → ℝ) × (Fin n → ℝ)

/-- The documented result of `numpy.linalg.eigh` for a symmetric real matrix: ascending eigenvalues and
orthonormal eigenvectors. -/
structure IsEigh {n : Nat} (T : Matrix (Fin n) (Fin n) ℝ) (eigval : Fin n → ℝ)
    (eigvec : Matrix (Fin n) (Fin n) ℝ) : Prop where
  orth : eigvecᵀ * eigvec = 1
  eig : T * eigvec = eigvec * Matrix.diagonal eigval
  sorted : Monotone eigval

/-- `eigh` behaves as documented on symmetric matrices. -/
def Ext.EighOk (ext : Ext) : Prop :=
  ∀ (n : Nat) (T : Matrix (Fin n) (Fin n) ℝ), T.IsSymm → IsEigh T (ext.eigh n T).1 (ext.eigh n T).2

/-- One-dimensional array of `n` numbers. -/
def NdArray.ofFn {n : Nat} (f : Fin n → ℝ) : NdArray ℝ :=
  ⟨[n], fun idx => if h : idx.headD 0 < n then f ⟨idx.headD 0, h⟩ else 0⟩

/-- `x.reshape(1, -1)` of a one-dimensional array. -/
def NdArray.addDimAxis (a : NdArray ℝ) : NdArray ℝ :=
  ⟨[1, a.shape.headD 0], fun idx => a.get (idx.drop 1)⟩

/-! ## Gauss rules -/

/-- `a(n)` in `compute_weights_and_nodes` (jacobi_gauss.py 163-167). -/
noncomputable def gaussA (α β : ℝ) (n : Nat) : ℝ :=
  2 / (2 * n + (α + β)) * Real.sqrt (
    (n * (n + (α + β)) * (n + α) * (n + β)) / ((2 * n + (α + β) - 1) * (2 * n + (α + β) + 1)))

/-- `b(n)` (169-173). -/
noncomputable def gaussB (α β : ℝ) (n : Nat) : ℝ :=
  if n = 0 then -(α - β) / (α + β + 2)
  else -(α ^ 2 - β ^ 2) / ((2 * n + (α + β)) * (2 * n + (α + β) + 2))

/-- The matrix `T` after the loop (175-185); `current_a` in iteration `n > 0` is `a(n)`. -/
noncomputable def gaussT (α β : ℝ) (N : Nat) : Matrix (Fin (N + 1)) (Fin (N + 1)) ℝ :=
  Matrix.of fun n j =>
    if j = n then gaussB α β n
    else if (j : Nat) + 1 = n then gaussA α β n
    else if (j : Nat) = n + 1 then gaussA α β (n + 1)
    else 0

open Classical in
/-- `JacobiGaussQuadrature.compute_weights_and_nodes(N, alpha, beta)` (126-200).  The two `assert`s on
norms hold exactly for a symmetric `T` and an `eigh` meeting its contract. -/
noncomputable def computeWeightsAndNodes (ext : Ext) (N : Nat) (α β : ℝ) :
    Py ((Fin (N + 1) → ℝ) × (Fin (N + 1) → ℝ)) :=
  if |α + 0.5| < 1.0e-14 ∧ |β + 0.5| < 1.0e-14 then
    -- `np.arange(N+1, 0, -1)[i] = N + 1 - i`
    .ok (fun i => Real.cos (Real.pi / (2 * (N + 1)) * (2 * ((N + 1 - (i : Nat) : Nat) : ℝ) - 1)),
      fun _ => Real.pi / (N + 1))
  else if |α + β + 1.0| < 1.0e-14 then .error .ValueError
  else
    let T := gaussT α β N
    let (eigval, eigvec) := ext.eigh (N + 1) T
    .ok (eigval, fun i => eigvec 0 i ^ 2 / jacobi α β 0 (eigval i) ^ 2)

/-- Values of the argument `backend`. -/
inductive Backend where
  | builtin
  | scipy
  | other

/-- `JacobiGaussQuadrature(alpha, beta, N, backend, force_dim_axis)` (80-118); `backend=None` is
`builtin`. -/
noncomputable def jacobiGaussQuadrature (ext : Ext) (α β : ℝ) (N : Nat) (backend : Backend)
    (forceDimAxis : Bool) : Py Quadrature :=
  let xw : Py ((Fin (N + 1) → ℝ) × (Fin (N + 1) → ℝ)) :=
    match backend with
    | .builtin => computeWeightsAndNodes ext N α β
    | .scipy => .ok (ext.rootsJacobi (N + 1) α β)
    | .other => .error .NotImplementedError
  match xw with
  | .error e => .error e
  | .ok (x, w) =>
      let x := NdArray.ofFn x
      let x := if forceDimAxis then x.addDimAxis else x
      .ok ⟨x, NdArray.ofFn w, some (.num (2 * N + 1)), none⟩

/-- `LegendreGaussQuadrature(N, ...)` (203-216). -/
noncomputable def legendreGaussQuadrature (ext : Ext) (N : Nat) (backend : Backend)
    (forceDimAxis : Bool) : Py Quadrature :=
  jacobiGaussQuadrature ext 0 0 N backend forceDimAxis

/-- `ChebyshevGaussQuadrature(N, kind, ...)` (219-245). -/
noncomputable def chebyshevGaussQuadrature (ext : Ext) (N : Nat) (kind : Int) (backend : Backend)
    (forceDimAxis : Bool) : Py Quadrature :=
  if kind = 1 then jacobiGaussQuadrature ext (-0.5) (-0.5) N backend forceDimAxis
  else if kind = 2 then jacobiGaussQuadrature ext 0.5 0.5 N backend forceDimAxis
  else .error .ValueError

/-- `GaussGegenbauerQuadrature(alpha, N, ...)` (248-261). -/
noncomputable def gaussGegenbauerQuadrature (ext : Ext) (α : ℝ) (N : Nat) (backend : Backend)
    (forceDimAxis : Bool) : Py Quadrature :=
  jacobiGaussQuadrature ext α α N backend forceDimAxis

/-! ## Gauss–Lobatto rules -/

/-- `jacobi_gauss_lobatto_nodes(alpha, beta, N, backend, force_dim_axis)` (264-297): the entries of `x`
(before the optional `reshape`). -/
noncomputable def lobattoNodes (ext : Ext) (α β : ℝ) (N : Nat) (backend : Backend) :
    Py (Fin (N + 1) → ℝ) :=
  if N = 0 then .ok fun _ => 0
  else if N > 1 then
    match jacobiGaussQuadrature ext (α + 1) (β + 1) (N - 2) backend true with
    | .error e => .error e
    | .ok quad => .ok fun i =>
        if (i : Nat) = 0 then -1 else if (i : Nat) = N then 1 else quad.nodes.get [0, i - 1]
  else .ok fun i => if (i : Nat) = N then 1 else -1

/-- `jacobi_gauss_lobatto_nodes(alpha, beta, N, backend, force_dim_axis)` as an array: for `N = 0` the
function returns before the `reshape`. -/
noncomputable def jacobiGaussLobattoNodes (ext : Ext) (α β : ℝ) (N : Nat) (backend : Backend)
    (forceDimAxis : Bool) : Py (NdArray ℝ) :=
  match lobattoNodes ext α β N backend with
  | .error e => .error e
  | .ok x =>
      if N ≠ 0 ∧ forceDimAxis then .ok (NdArray.ofFn x).addDimAxis else .ok (NdArray.ofFn x)

/-- `legendre_gauss_lobatto_nodes(N, ...)` (300-310). -/
noncomputable def legendreGaussLobattoNodes (ext : Ext) (N : Nat) (backend : Backend)
    (forceDimAxis : Bool) : Py (NdArray ℝ) :=
  jacobiGaussLobattoNodes ext 0 0 N backend forceDimAxis

/-- `100 * np.finfo(np.float64).eps` (modes.py 264). -/
noncomputable def eps100 : ℝ := 100 * 2⁻¹ ^ 52

/-- `common_factor` (350-357), `n = N - 1`. -/
noncomputable def lobattoCommonFactor (α β : ℝ) (n : Nat) : ℝ :=
  (2 : ℝ) ^ (α + β + 1) * binom (n + α + 1) n / binom (n + β + 1) n / binom (n + α + β + 2) n
    * Real.Gamma (α + 2) / Real.Gamma (α + β + 3)

/-- `edge_weight` (358-361). -/
noncomputable def lobattoEdgeWeight (α β : ℝ) (n : Nat) : ℝ :=
  lobattoCommonFactor α β n * Real.Gamma (β + 1)

/-- `int_weights` at an interior node (363-382). -/
noncomputable def lobattoInteriorWeight (α β : ℝ) (n : Nat) (x : ℝ) : ℝ :=
  let frac := (4 * (n + α + 1) * (n + β + 1) + (α - β) ^ 2) / (2 * n + α + β + 2) ^ 2
  lobattoCommonFactor α β n * Real.Gamma (β + 2) / (frac - x ^ 2) * (1 - x ^ 2)
    / scaledJacobi eps100 α β (n + 1) x ^ 2

/-- `JacobiGaussLobattoQuadrature(alpha, beta, N, backend=..., force_dim_axis=...)` (313-391). -/
noncomputable def jacobiGaussLobattoQuadrature (ext : Ext) (α β : ℝ) (N : Nat) (backend : Backend)
    (forceDimAxis : Bool) : Py Quadrature :=
  match lobattoNodes ext α β N backend with
  | .error e => .error e
  | .ok x =>
      if N + 1 < 2 then .error .ValueError
      else
        let n := N - 1
        let weights : Fin (N + 1) → ℝ := fun i =>
          if (i : Nat) = 0 ∨ (i : Nat) = N then lobattoEdgeWeight α β n
          else lobattoInteriorWeight α β n (x i)
        let nodes := NdArray.ofFn x
        let nodes := if forceDimAxis then nodes.addDimAxis else nodes
        .ok ⟨nodes, NdArray.ofFn weights, some (.num (2 * N - 1)), none⟩

/-- `LegendreGaussLobattoQuadrature(N, ...)` (394-400). -/
noncomputable def legendreGaussLobattoQuadrature (ext : Ext) (N : Nat) (backend : Backend)
    (forceDimAxis : Bool) : Py Quadrature :=
  jacobiGaussLobattoQuadrature ext 0 0 N backend forceDimAxis

/-- `LegendreGaussTensorProductQuadrature(N, dims)` (quadrature/__init__.py 274-285). -/
noncomputable def legendreGaussTensorProduct (ext : Ext) (N dims : Nat) (backend : Backend) :
    Py Quadrature :=
  match legendreGaussQuadrature ext N backend true with
  | .error e => .error e
  | .ok q => Quadrature.tensorProduct (List.replicate dims q)

/-- `LegendreGaussLobattoTensorProductQuadrature(N, dims)` (quadrature/__init__.py 288-299). -/
noncomputable def legendreGaussLobattoTensorProduct (ext : Ext) (N dims : Nat) (backend : Backend) :
    Py Quadrature :=
  match legendreGaussLobattoQuadrature ext N backend true with
  | .error e => .error e
  | .ok q => Quadrature.tensorProduct (List.replicate dims q)

end Modepy
