# Formal model of modepy: design

The subject is `modepy` (`/repo`, pure Python/NumPy): reference shapes, function
spaces, nodes, modal bases, matrices and quadrature.  The deliverable is a Lean 4
(4.33.0, Mathlib) model of that code and proofs of the properties listed in
`properties.jsonl`.

## Layout

* `lean/Verif/Model/*.lean` – the model, one file per `/repo` source file (or group
  of functions); every definition cites file and lines.
* `lean/Verif/Spec/*.lean` – small vocabulary used to *state* properties (integral
  over the reference simplex, exactness of a rule, mixed-radix digits, ...), written
  without reference to the model.
* `lean/Verif/Proofs/*.lean` – helper lemmas.
* `lean/Verif/Props/*.lean` – the property theorems (names `Cnn_...`), each with a
  non-vacuity example.
* `MANIFEST.json` – property → theorem names; `seeded/LOG.jsonl` – mutation log.

## Modelling decisions

1. **Numbers.**  `float64` arrays are modelled by exact numbers (ℝ, ℚ or an arbitrary
   field).  Rounding, overflow and NaN are *not* modelled.  Tolerance tests of the code
   (`abs(s-1) > 1e-12`, `abs(alpha+beta+1) < 1e-14`, ...) are kept literally.
2. **Arrays.**  Where index arithmetic is the point (`reshape`, `order="F"`,
   `tensor_product_nodes`, DOF reshaping) arrays are (shape, index function) pairs with
   NumPy's C/F ravel semantics.  Elsewhere an array of shape `(dim, n)` is a list of its
   `n` columns, or a function `Fin n → ...`, because NumPy broadcasting applies the
   scalar code column by column.
3. **Exceptions** are values (`Except PyErr`), and the error branches are stated.
4. **External routines** enter as parameters with their mathematical contract as a
   hypothesis, stated as a predicate in the file that uses it: `eigh` (`EighOk`,
   `IsEigh`: orthonormal eigenpairs), `eigvalsh` (`EigvalshOk`: the roots of the
   characteristic polynomial in ascending order), `eigvals` (`EigvalsOk`), `cholesky`
   (`CholOk`), `pinv` (`IsPinv`: the Penrose equations; existence proved in
   `Proofs/PinvExists`), `lstsq` (`LstsqOk`), `solve`/`inv` (exact, `LinAlgError` on
   singular input), `rng` (`Spec.RngOk`: values in the requested range), the iteration order of a
   `set` (`SetOrder`: some permutation), `heapq` (`HeapqOk`: a heap operation keeps the
   multiset and exposes a minimum; existence proved), the Xiao-Gimbutas tables in C36
   (`Spec.XgOk`; C74 uses the actual ones),
   comparison of sorting keys (`EqSound`).  `scipy.special.gamma` is `Real.Gamma`,
   `numpy.fft.ifft` is its defining sum, `ellipk`/`ellipj` are the
   elliptic integral and its inverse, `brentq` finds an exact root (`Spec.BrentqOk`).  Infinities and NaN are `none` or `EReal`.
   `pytools` and `pymbolic` are not in the sandbox; the parts used are modelled from their
   documented behaviour (`Model/Pytools`, `Model/Symbolic`), see the trusted base.
5. **Dispatch** (`singledispatch`, `__new__`/`__init__`) is modelled by case analysis on
   a shape/space datatype with the same constructors as the classes.
6. **Tolerance strips.**  The mode functions replace a quotient by a constant when a
   coordinate is within `1e-12` (triangle) or `1e-10` (tetrahedron) of the collapsed set.
   C21-C25 are stated for points outside the strip or exactly on the collapsed set.

## Trusted base

* Lean's kernel and the axioms `propext`, `Classical.choice`, `Quot.sound` (every
  theorem depends on at most these; no `sorry`, no `native_decide`, no user axioms).
* That the definitions in `Model/` transcribe the cited Python lines (done by hand; no
  Python is executed).
* The contracts of the external routines listed above.
* `pytools` generators: `generate_nonnegative_integer_tuples_summing_to_at_most`
  (first entry fastest), `..._below` (last entry fastest),
  `generate_decreasing_nonnegative_tuples_summing_to`, `generate_unique_permutations`,
  `wandering_element`, `add_tuples` (zip), `single_valued`, `is_single_valued`.
* `pymbolic` operators drop neutral constants and absorb zero factors as in
  `Model/Symbolic`, and its evaluator evaluates the branches of `If` on demand.
* CPython's pickle protocol for instances (`Model/Pickle`), and the order in which
  `__new__` and `__init__` run.
* `pymbolic` `MultiVector.dual()` = product with the reversed unit pseudoscalar.

Not modelled: floating point, array dtypes/contiguity, warnings and deprecation
wrappers, plotting/visualisation helpers (`tools.py` matplotlib code).

The numerical tables of the four quadrature data files are part of the model:
`tools/gen_tables.py` copies every decimal literal to `Model/Table{Wv,Js,Vr,Xg}.lean` as an
integer numerator over a power of ten.  The rounding of these literals to floats is not
modelled.  `tools/gen_checks.py` writes the files `Proofs/TableCheck*.lean`, one kernel
computation per table entry; nothing in them is trusted.

## Properties: what is modelled and how it is proved

Status words live in `MANIFEST.json`; this table is the plan and is kept current.

| id | model | proof idea |
|----|-------|-----------|
| C01 | `Model/Pytools`, `Model/Nodes` | induction on the dimension: membership, nodup, hockey-stick count |
| C02 | same | induction on the list of bases; mixed-radix digit lemma |
| C03 | `Model/NdArray`, `Model/Nodes` | index computation through the reshape pipeline for arbitrary sizes |
| C04 | `Model/Nodes` | C02 + C03 index lemmas |
| C05 | `Model/Reshape` | ravel/unravel (F order) are inverse; list split at an axis |
| C06 | `Model/Submesh` | membership characterisation of the element list; floor argument for coverage, convexity inequalities for uniqueness; determinant for orientation; counting by induction |
| C07 | `Model/Submesh` | same for cubes; explicit uncovered point for the prism |
| C08, C09, C10 | `Model/Faces` | finite table of faces × symbolic (real) points |
| C11, C12, C13 | `Model/Shapes`, `Model/Spaces` | induction over base lists |
| C14 | `Model/Basis` | list lemmas on C01/C02 |
| C15, C16 | `Model/Basis` | product rule by induction over factors; product functional |
| C17 | `Model/Monomial` | `HasDerivAt` of products |
| C18, C19, C20 | `Model/Jacobi` | explicit hypergeometric form of Jacobi polynomials, three-term recurrence by coefficient comparison, Beta integrals |
| C21, C22 | `Model/Pkdo` | collapsed coordinates substitution, C18 |
| C23, C24 | `Model/Pkdo` | homogenised polynomial form, chain rule, limit points by hand |
| C25 | `Model/Pkdo` | degree of the homogenised form, independence from C21/C22 |
| C26 | `Model/Basis` | refuted: the function is 2, not 1 |
| C27 | `Model/Gauss` | Golub–Welsch: powers of the Jacobi matrix vs. recurrence; `eigh` contract |
| C28 | `Model/Gauss` | Mathlib Chebyshev–Gauss theory |
| C29 | `Model/Gauss` | refuted for general α, β by witnesses; proved for Legendre |
| C30, C31 | `Model/ClenshawCurtis` | discrete orthogonality of cosines |
| C32 | `Model/GrundmannMoeller` | generating function/finite-difference proof on barycentric monomials, Dirichlet integral |
| C33 | `Model/GrundmannMoeller` | strong induction of Euclid's algorithm |
| C34, C35, C36, C37 | `Model/Quadrature`, `Model/ExactTo`, `Model/QuadForSpace` | induction over bases; affine substitution; dispatch analysis |
| C38, C39, C41, C42 | `Model/Matrices` | matrix algebra with `solve`/`inv` contracts |
| C40 | `Model/Matrices` | permutation lemma + uniqueness of interpolation |
| C43, C44, C45 | `Model/Tools` | linear algebra; Dirichlet integral |
| C46 | `Model/RandomNodes` | loop invariant over an arbitrary stream |
| C47 | `Model/WarpBlend` | Lagrange interpolation at edge nodes; node symmetry from the Gauss-Lobatto theory (`Proofs/Lobatto`) |
| C48, C49 | `Model/Transplanted` | derivatives of explicit polynomials / arcsin |
| C50, C51, C52 | `Model/Construction` | finite sums; Cholesky contract; derivative of residual |
| C53 | `Model/Kronrod` | list index arithmetic (`Props/KronrodAssembly`) |
| C54 | `Model/Kronrod` | simulation of the heap loop by an abstract adaptive algorithm on multisets of segments (`Props/Quadgk`) |
| C55 | `Model/Kronrod` | monotone change of variables on half lines and the line; two orientations refuted (`Props/QuadgkInf`) |
| C56 | `Model/Kronrod` | continuants: minors of a tridiagonal matrix (`Proofs/Continuant`), Newton monotonicity from real-rootedness (`Props/KronrodNewton`) |
| C57–C59, C65, C66 | `Model/ModalDecay` | list lemmas; least squares by the Penrose equations |
| C60 | `Model/Symbolic` | expression syntax with evaluation; logical relation between the symbolic and the numeric run of the same generic code |
| C61 | `Model/Pickle` | the pickle reconstruction protocol; refuted for prisms, `QN` and one-factor products |
| C62 | `Model/Nodes` | unisolvence by induction on dimension and degree, peeling hyperplanes (`Proofs/Unisolvence`) |
| C63 | `Model/Construction` | numerical range of a compressed multiplication operator; Gauss nodes in one dimension |
| C64 | `Model/Construction` | uniqueness of the solution of the moment equations |
| C67 | `Model/Kronrod` | the Jacobi matrix of Legendre polynomials (`Proofs/GolubWelschAgree`) |
| C68 | `Model/Kronrod` | Laurie's algorithm as a recurrence for mixed moments (`Proofs/Laurie`, `Proofs/LaurieExact`, `Proofs/KronrodEmbed`, `Proofs/KronrodRule`); a Jacobi-Kronrod matrix exists because Stieltjes polynomials have real interlacing zeros and the weights are positive, by Szegő's argument on Legendre functions of the second kind (`Proofs/LegendreQ`, `LegendreBoundary`, `Stieltjes`, `StieltjesDegree`, `KronrodExists`, `KronrodInterior`) |
| C69 | `Model/Strip` | incomplete elliptic integral as an order isomorphism, derivative of its inverse; logarithmic lower bound for `K` near 1 (`Proofs/Elliptic`) |
| C70 | `Model/EdgeClustered` | Kronecker products of invertible Vandermonde matrices (`Proofs/ProductUnisolvence`) |
| C71 | `Model/EdgeClustered` | warp-and-blend facts on edges; products by C70; triangle and tetrahedron up to order five: the homogeneous barycentric form vanishes on edges, then faces, then the body (`Proofs/FormZero`, `Proofs/WarpInner`) |
| C72 | `Model/Basis` | triangular coefficient matrices of the collapsed-coordinate modes, Kronecker products (`Proofs/BasisSpan`) |
| C73 | `Model/Lebesgue` | Lagrange functions from the inverse Vandermonde matrix (`Proofs/Lebesgue`), basis independence by C72 |
| C74 | `Model/TableRules`, `Model/Table{Wv,Js,Vr,Xg}` | moments of every entry recomputed by the kernel in integer arithmetic, then a perturbation argument (`Proofs/TableCheck`, `Proofs/TableClose`) |
| C75-C77 | `Model/BasisMatrices` | the matrix routines fed with the bases of `Model/Basis` (calls that raise included); modes, Gram matrix and gradients as explicit polynomials (`Proofs/BasisExact`), Fubini on products (`Proofs/ProductIntegral`) |
| C78 | `Model/Faces` | divergence theorem over the faces as returned; iterated integrals, swap and reflection of the triangle (`Proofs/Divergence`) |
| C79 | `Model/BasisMatrices`, `Model/Matrices`, `Model/Faces` | traces of polynomials under the face maps (`Proofs/SpacePoly`), C78 on products, uniqueness of the matrix of a form |
| C80 | `Model/Gauss`, `Model/Quadrature`, `Model/BasisMatrices`, `Model/Nodes` | sums over grids factorise (`Proofs/Grid`); C27, C34, C70, C75; non-diagonality by integrating a product of two Lagrange polynomials with a Gauss rule |
| C81 | same | the one-dimensional rule is exact for derivatives of degree `2n` polynomials; C29, C76 |
| C82 | `Model/Kronrod` | congruence of the heap loop under a predicate on segments closed under bisection; interior nodes from C68 |
| C83 | `Model/Kronrod` | on short segments the error estimate is below length times oscillation; a potential drops by one per bisection of a long segment |
| C84 | `Model/Gauss`, `Model/ClenshawCurtis`, `Model/Kronrod`, `Model/Quadrature`, `Model/Transplanted` | positive weights and exactness (C27-C31, C34, C49, C68) with Weierstrass / Stone-Weierstrass approximation |
| C85 | `Model/BasisMatrices`, `Model/Lebesgue` | C77 (reproduction of the space) and C73 (Lagrange functions) |
| C86 | `Model/BasisMatrices` | C76 and C77; a square matrix is determined by its action on nodal values of `MvPolynomial`s of the space (`Proofs/SpacePoly`) |
| C87 | `Model/BasisMatrices` | C75, `(V Vᵀ)⁻¹` positive definite, volume from C45 |
| C88 | `Model/Gauss`, `Model/ClenshawCurtis` | two rules with `m` nodes that agree below degree `2m` are equal (C27, C29); parity of Jacobi polynomials and of the cosine sums (C30, C31) |
| C89 | `Model/Gauss`, `Model/ClenshawCurtis`, `Model/Kronrod`, `Model/Construction` | the square of the node polynomial; aliasing of Chebyshev polynomials on the nodes; powers of one coordinate for tensor products |
| C90 | `Model/Quadrature`, `Model/QuadForSpace`, `Model/GrundmannMoeller` | a polynomial of degree `k` vanishing at fewer than `C(k+d, d)` nodes exists by counting dimensions; its square has positive integral |
| C91 | `Model/Kronrod` | the rule applied to the derivative of a polynomial composed with the affine map, telescoping over the final partition; the square of the node polynomial |
| C92 | `Model/FormMatrices`, `Model/BasisMatrices`, `Model/QuadForSpace` | list-of-callables models of the two matrix builders; exactness of the rule on products via exponent tuples; matrices determined by their form on nodal values |
| C93 | `Model/Nodes`, `Model/BasisMatrices` | Lagrange functions of a product as products of those of the factors; matrices determined by their action on Lagrange functions |
| C94 | `Model/Nodes`, `Model/WarpBlend`, `Model/EdgeClustered`, `Model/Faces` | face maps in barycentric coordinates; invariance of the node set under all permutations of the vertices; grids of symmetric one-dimensional sets |
| C95 | `Model/Basis`, `Model/Lebesgue` (`vandermondeRows`) | functions and mode ids of the orthonormal bases are listed by the node tuples and do not depend on the order; orthonormal expansions |
| C96 | `Model/Quadrature` (`transformed1D`) | Taylor's theorem on each piece; uniform continuity |
| C97 | `Model/Submesh`, `Model/Nodes`, `Model/Tools` (`AffineMap`) | the tessellation of C06 read in the coordinates of the simplex; a cover whose volumes add up splits integrals; change of variables |
| C98 | `Model/Vandermonde`, `Model/Basis`, `Model/TensorNodes` | discrete orthonormality; least squares by completing the square; Stone-Weierstrass on the product of simplices |
| C99 | `Model/Gauss`, `Model/Quadrature`, `Model/BasisMatrices`, `Model/TensorNodes` | Gram matrix of the Legendre polynomials under the Gauss-Lobatto rule (`2 + 1/n` at the top degree), expansion in tensor products |
| C100 | `Model/BasisMatrices`, `Model/Faces` | Cauchy-Schwarz with equality; values of Legendre polynomials at the ends; faces of the cube as signed permutations of the coordinates |
| C101 | `Model/EdgeClustered`, `Model/BasisMatrices` | bounds on the displacements of warp & blend by the moments of the Gauss-Lobatto nodes; nodes sorted by their tuples; reduction to C75-C77 and C93 |
| C102 | `Model/Gauss`, `Model/TensorNodes`, `Model/BasisMatrices`, `Model/Lebesgue` | Fejér's bound for the Lagrange polynomials at Gauss-Lobatto nodes from the differential equation; Hadamard's inequality; an explicit polynomial that grows between equispaced nodes |
| C103 | `Model/Gauss`, `Model/TensorNodes`, `Model/BasisMatrices` | C102 with the variance of Bernstein polynomials; Banach-Steinhaus with the polynomial of C102 for the divergence |
| C104 | `Model/Submesh`, `Model/Tools` | the map of a box is diagonal; cover and count of C07; change of variables |
| C105 | `Model/Faces` | the two branches of `broadcastFaceMap` written as the map of another point |
| C106 | `Model/Faces`, `Model/Shapes`, `Model/BasisMatrices` | integration along the segments from a vertex to the opposite face, with the kernel of the Jacobi polynomials for the weight `(1-t)^(d-1)`; the other faces and vertices by affine symmetries |
| C107 | `Model/BasisMatrices`, `Model/FormMatrices`, `Model/Faces` | summation by parts (C79) for the energy identity, the sharp trace constants (C100, C106) for coercivity, Gronwall-free monotonicity by the derivative of the energy |
