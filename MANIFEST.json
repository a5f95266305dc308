{
 "claims": [
  {
   "property": "C01",
   "status": "proved",
   "theorems": [
    "C01_length",
    "C01_mem",
    "C01_nodup",
    "C01_order"
   ],
   "note": "membership, no duplicates, count = comb(n+d,d), generation order; for all d, n"
  },
  {
   "property": "C02",
   "status": "proved",
   "theorems": [
    "C02_entry",
    "C02_length",
    "C02_mem",
    "C02_nodup",
    "C02_qn"
   ],
   "note": "membership, no duplicates, count, mixed-radix entry formula; for all lists of base spaces"
  },
  {
   "property": "C03",
   "status": "proved",
   "theorems": [
    "C03_1d",
    "C03_all_combinations",
    "C03_content",
    "C03_zero_dim"
   ],
   "note": "NumPy reshape/broadcast pipeline; total dimension zero is a separate branch (C03_zero_dim)"
  },
  {
   "property": "C04",
   "status": "proved",
   "theorems": [
    "C04_errors",
    "C04_pn",
    "C04_pn_in_simplex",
    "C04_tp"
   ],
   "note": "PN and tensor product spaces with arbitrary positive orders; order 0 uses the centroid and is outside the scaling formula"
  },
  {
   "property": "C05",
   "status": "proved",
   "theorems": [
    "C05_axes_are_node_axes",
    "C05_content",
    "C05_ok_iff",
    "C05_roundtrip"
   ],
   "note": "round trip whenever reshape succeeds, success criterion, entry formula, connection with tensor_product_nodes"
  },
  {
   "property": "C06",
   "status": "proved",
   "theorems": [
    "C06_order_zero",
    "C06_other_dims",
    "C06_ragged",
    "C06_tessellation"
   ],
   "note": "all orders, d = 1, 2, 3; other dimensions raise"
  },
  {
   "property": "C07",
   "status": "proved",
   "theorems": [
    "C07_hypercube_cells",
    "C07_hypercube_cover",
    "C07_prism_not_covered",
    "C07_uniform"
   ],
   "note": "cells, counts and cover for all d and all per-axis orders; failure for prisms proved for every order >= 2"
  },
  {
   "property": "C08",
   "status": "proved",
   "theorems": [
    "C08_all_facets",
    "C08_simplex_faces",
    "C08_simplex_other"
   ],
   "note": "faces of Simplex(1..3): vertex images, facet bijection, counts; KeyError elsewhere"
  },
  {
   "property": "C09",
   "status": "proved",
   "theorems": [
    "C09_all_facets",
    "C09_hypercube_faces",
    "C09_other_products"
   ],
   "note": "faces of the square and cube; prisms raise NotImplementedError"
  },
  {
   "property": "C10",
   "status": "proved",
   "theorems": [
    "C10_hypercube_normals",
    "C10_simplex_normals"
   ],
   "note": "outward, orthogonal, unit normals for simplex dims 1-3 and square/cube; pymbolic geometric algebra written out"
  },
  {
   "property": "C11",
   "status": "proved",
   "theorems": [
    "C11_hypercube_bits",
    "C11_simplex",
    "C11_tp"
   ],
   "note": "simplex, products of positive total dimension, hypercube vertex bits"
  },
  {
   "property": "C12",
   "status": "partial",
   "theorems": [
    "C12_construct",
    "C12_hypercube",
    "C12_hypercube_nfaces",
    "C12_nested",
    "C12_nfaces_empty",
    "C12_prism_nfaces",
    "C12_singleton_hypercube_fails",
    "C12_singleton_partial"
   ],
   "note": "flattening, dims, vertex/face counts and the rejection rule are proved; 'a one-element product is its base' is false for Hypercube(d), d != 1 (TypeError): C12_singleton_hypercube_fails; zero-dimensional products have no nfaces"
  },
  {
   "property": "C13",
   "status": "proved",
   "theorems": [
    "C13_construct",
    "C13_nested",
    "C13_order",
    "C13_qn",
    "C13_simplex_tuple",
    "C13_singleton_qn_fails",
    "C13_space_for_shape",
    "C13_space_for_shape_tuple"
   ],
   "note": "flattening, dims, QN, order tuples, order attribute; one-element product of QN raises TypeError (C13_singleton_qn_fails)"
  },
  {
   "property": "C14",
   "status": "proved",
   "theorems": [
    "C14_simplex",
    "C14_simplex_monomial",
    "C14_space",
    "C14_tensor_product",
    "C14_zero_dim"
   ],
   "note": "simplex bases of every dimension >= 1, monomial bases of every dimension, tensor products of arbitrary bases, and every basis returned for a space; zero-dimensional default basis has no gradients (shown)"
  },
  {
   "property": "C15",
   "status": "proved",
   "theorems": [
    "C15_derivatives",
    "C15_derivatives_out_of_range",
    "C15_gradient",
    "C15_gradient_components",
    "C15_monomial_gradient",
    "C15_value",
    "C15_wrong_length"
   ],
   "note": "values, gradients and single-axis derivatives for arbitrary base bases, pointwise; instantiated without hypotheses for monomial products; out-of-range axes silently return values (shown)"
  },
  {
   "property": "C16",
   "status": "proved",
   "theorems": [
    "C16_hypercube",
    "C16_orthonormal"
   ],
   "note": "arbitrary bases and functionals (homogeneous, depending only on values at points of the right length)"
  },
  {
   "property": "C17",
   "status": "proved",
   "theorems": [
    "C17_diff_axis_out_of_range",
    "C17_diff_eq_grad",
    "C17_gradient",
    "C17_length_mismatch",
    "C17_value"
   ],
   "note": "Monomial values, gradients and single derivatives for any dimension and exponents; also the silent out-of-range axis behaviour."
  },
  {
   "property": "C18",
   "status": "proved",
   "theorems": [
    "C18_orthonormal"
   ],
   "note": "For all degrees and all real alpha, beta > -1 for which the special case of gamma0 is exact (|alpha+beta+1| >= 1e-14 or = 0); inside the open band the code deliberately uses a limit value."
  },
  {
   "property": "C19",
   "status": "proved",
   "theorems": [
    "C19_derivative"
   ],
   "note": "Same parameter range as C18; derivative at every real x."
  },
  {
   "property": "C20",
   "status": "proved",
   "theorems": [
    "C20_classical",
    "C20_endpoints"
   ],
   "note": "Equality with the explicit classical sum for all n, x; endpoint values stated with the code's own binom."
  },
  {
   "property": "C21",
   "status": "proved",
   "theorems": [
    "C21_orthonormal",
    "C21_polynomial"
   ],
   "note": "For the unique polynomial with which pkdo_2d agrees outside the strip 0 < |s-1| < 1e-12 and at the collapsed vertex; in the strip the code deliberately replaces the collapsed coordinate."
  },
  {
   "property": "C22",
   "status": "proved",
   "theorems": [
    "C22_orthonormal",
    "C22_polynomial"
   ],
   "note": "Same convention as C21 with the tolerance 1e-10 of _rsttoabc."
  },
  {
   "property": "C23",
   "status": "proved",
   "theorems": [
    "C23_gradient"
   ],
   "note": "At every point with |s-1| >= 1e-12 and at the collapsed vertex (-1, 1)."
  },
  {
   "property": "C24",
   "status": "proved",
   "theorems": [
    "C24_gradient"
   ],
   "note": "At every point outside the tolerance strips, on the whole collapsed edge and at the collapsed vertex."
  },
  {
   "property": "C25",
   "status": "proved",
   "theorems": [
    "C25_interval",
    "C25_tetrahedron",
    "C25_triangle"
   ],
   "note": "Interval, triangle and tetrahedron: linear independence of all modes and span of those with id sum <= N equal to the polynomials of total degree <= N."
  },
  {
   "property": "C26",
   "status": "partial",
   "theorems": [
    "C26_zero_dim_not_orthonormal"
   ],
   "note": "refuted: the zero-dimensional mode is the constant 2; the negation is proved"
  },
  {
   "property": "C27",
   "status": "proved",
   "theorems": [
    "C27_exact",
    "C27_mass",
    "C27_rejects",
    "C27_sharp",
    "C27_unique"
   ],
   "note": "for every eigh meeting its documentation; all real alpha, beta > -1 outside the band in which the code refuses; exactness, mass, positivity, ordering, sharpness and uniqueness of the nodes; built-in backend"
  },
  {
   "property": "C28",
   "status": "proved",
   "theorems": [
    "C28_exact",
    "C28_gegenbauer",
    "C28_rejects",
    "C28_second_kind"
   ],
   "note": "first and second kind through the Gauss-Jacobi rule; Gegenbauer; rejected kinds"
  },
  {
   "property": "C29",
   "status": "partial",
   "theorems": [
    "C29_legendre",
    "C29_nodes",
    "C29_partial",
    "C29_rejects"
   ],
   "note": "proved for the Legendre weight (all N), and node placement for all alpha, beta; the weights are refuted otherwise: C29_partial shows exactness for all N iff alpha = beta = 0"
  },
  {
   "property": "C30",
   "status": "proved",
   "theorems": [
    "C30_exact",
    "C30_rejects"
   ],
   "note": "every N >= 1, including weight positivity and node range; order 0 rejected"
  },
  {
   "property": "C31",
   "status": "partial",
   "theorems": [
    "C31_exact_to_missing_partial",
    "C31_first",
    "C31_rejects",
    "C31_second"
   ],
   "note": "exactness, nodes and positive weights proved for both kinds and every N; the rules carry no exact_to (C31_exact_to_missing_partial)"
  },
  {
   "property": "C32",
   "status": "proved",
   "theorems": [
    "C32_exact",
    "C32_zero"
   ],
   "note": "every order and every dimension >= 1 against Lebesgue integration over the bi-unit simplex; interior, pairwise distinct nodes; dimension 0 separately"
  },
  {
   "property": "C33",
   "status": "proved",
   "theorems": [
    "C33_bezout",
    "C33_canonical",
    "C33_gcd",
    "C33_negative_partial",
    "C33_sign",
    "C33_value"
   ],
   "note": "Bezout identity, divisor, value and canonical form for all integers; the gcd is negative for some negative arguments (C33_negative_partial)"
  },
  {
   "property": "C34",
   "status": "proved",
   "theorems": [
    "C34_exact",
    "C34_exact_to",
    "C34_iterated",
    "C34_products",
    "C34_zero_dim_assertion"
   ],
   "note": "any number of factors of any dimension and node count; iterated rule, products, block-wise and total degree exactness, exact_to; the failing assertion with zero-dimensional multi-node factors"
  },
  {
   "property": "C35",
   "status": "proved",
   "theorems": [
    "C35_exact",
    "C35_rejects"
   ],
   "note": "all intervals, all polynomials up to the degree of the base rule; empty intervals rejected"
  },
  {
   "property": "C36",
   "status": "partial",
   "theorems": [
    "C36_equal_orders",
    "C36_mixed_orders_rejected",
    "C36_pn",
    "C36_rejects",
    "C36_segments",
    "C36_tp_partial",
    "C36_tp_zero"
   ],
   "note": "PN spaces (every dimension and order), rejections and tensor products whose factor rules report equal exactness proved; for factors of different exactness the code raises AssertionError (C36_mixed_orders_rejected), so the claim is refuted there. Xiao-Gimbutas tables are trusted to be exact to their stated degree (XgOk)."
  },
  {
   "property": "C37",
   "status": "proved",
   "theorems": [
    "C37_add",
    "C37_float_inf",
    "C37_min",
    "C37_order"
   ],
   "note": "order, min, addition, hash and index for integers and infinity; the boundary case with float infinity (used by ZeroDimensionalQuadrature) is stated separately"
  },
  {
   "property": "C38",
   "status": "proved",
   "theorems": [
    "C38_compose",
    "C38_identity",
    "C38_least_squares",
    "C38_least_squares_normal_equations",
    "C38_nonsquare_error",
    "C38_not_unisolvent",
    "C38_reproduces"
   ],
   "note": "square case, identity, composition, least squares via the Penrose equations of pinv, error branches; any field, any nodes"
  },
  {
   "property": "C39",
   "status": "proved",
   "theorems": [
    "C39_differentiates",
    "C39_dimension_zero",
    "C39_errors",
    "C39_values"
   ],
   "note": "true partial derivatives of every function in the span, from one node set to another; error branches"
  },
  {
   "property": "C40",
   "status": "proved",
   "theorems": [
    "C40_matrices",
    "C40_missing",
    "C40_permutation",
    "C40_pn",
    "C40_pn_monomials",
    "C40_qn"
   ],
   "note": "permutation is an involution for any swap-closed tuple list; matrix identity for any swap-closed span and nodes, instantiated for every basis of PN and QN on equispaced nodes, and without hypotheses for monomials"
  },
  {
   "property": "C41",
   "status": "proved",
   "theorems": [
    "C41_basis_for_space",
    "C41_entries",
    "C41_errors",
    "C41_inner_product",
    "C41_inverse",
    "C41_monomial_refused",
    "C41_orthonormal_accepted"
   ],
   "note": "inverse pair, symmetry, inner products of interpolants and of Lagrange functions; NotImplementedError branches"
  },
  {
   "property": "C42",
   "status": "proved",
   "theorems": [
    "C42_bilinear_errors",
    "C42_bilinear_form",
    "C42_deprecated_mass_face",
    "C42_deprecated_quad_mass",
    "C42_deprecated_quad_mass_face",
    "C42_errors",
    "C42_spectral",
    "C42_spectral_errors",
    "C42_test_matrix",
    "C42_test_matrix_general"
   ],
   "note": "test matrix, bilinear form matrix, deprecated variants, spectral diagonal mass matrix, errors"
  },
  {
   "property": "C43",
   "status": "proved",
   "theorems": [
    "C43_inverse",
    "C43_singular",
    "C43_volume"
   ],
   "note": "inverse() undoes the map on both sides whenever the matrix is invertible, and raises LinAlgError otherwise; EQUILATERAL_TO_UNIT determinants checked (C43_volume). np.linalg.inv is taken as exact inversion."
  },
  {
   "property": "C44",
   "status": "proved",
   "theorems": [
    "C44_bary",
    "C44_bary_roundtrip",
    "C44_equilateral",
    "C44_membership",
    "C44_unit_roundtrip",
    "C44_vertices"
   ],
   "note": "unit/barycentric/equilateral conversions: round trips, barycentric sum one, vertices to vertices, membership, in every dimension the code supports (unit<->barycentric any dimension, equilateral 1-3)."
  },
  {
   "property": "C45",
   "status": "partial",
   "theorems": [
    "C45_call",
    "C45_diff",
    "C45_diff_index",
    "C45_hypercube_partial",
    "C45_simplex"
   ],
   "note": "__call__, simplex_integral and diff proved for every exponent tuple, factor and dimension. hypercube_integral is proved to equal 2^-n times the integral iff factor = 1: the code ignores the factor, so the claim for other factors is refuted."
  },
  {
   "property": "C46",
   "status": "proved",
   "theorems": [
    "C46_can_hang",
    "C46_fuel_mono",
    "C46_segment",
    "C46_shape",
    "C46_simplex",
    "C46_terminates"
   ],
   "note": "every generator meeting the range contract: on return the nodes lie in the simplex and have the requested shape; rejection sampling need not end (C46_can_hang), C46_terminates gives the condition."
  },
  {
   "property": "C47",
   "status": "proved",
   "theorems": [
    "C47_edges",
    "C47_faces",
    "C47_rejects",
    "C47_symmetric",
    "C47_symmetric_default",
    "C47_warp_factor"
   ],
   "note": "dimensions 1 to 3, every order 1 <= n < 10^8 (at larger orders the tolerance 1e-8 of the face test would interfere), any node tuples of the right count; warp factor at every order; any iteration order of the two-element Python set."
  },
  {
   "property": "C48",
   "status": "proved",
   "theorems": [
    "C48_kte",
    "C48_kte_rejects",
    "C48_sausage",
    "C48_sausage_rejects"
   ],
   "note": "map_sausage for every odd degree and map_kosloff_tal_ezer for every parameter in range; other parameters rejected."
  },
  {
   "property": "C49",
   "status": "proved",
   "theorems": [
    "C49_change",
    "C49_exact",
    "C49_maps",
    "C49_rejects",
    "C49_sausage_exact"
   ],
   "note": "any base rule and any pointwise map; exactness by change of variables; C49_sausage_exact gives the resulting polynomial degree for the sausage maps."
  },
  {
   "property": "C50",
   "status": "proved",
   "theorems": [
    "C50_common_basis",
    "C50_plain",
    "C50_value"
   ],
   "note": "every nesting of combinations and every coefficient array: the result is sum c_i f_i(x) or an exception; C50_common_basis says exactly when the flattening raises although the request is sensible."
  },
  {
   "property": "C51",
   "status": "proved",
   "theorems": [
    "C51_orthonormal",
    "C51_succeeds"
   ],
   "note": "every linear integrate compatible with conjugation; cholesky by contract (CholOk); success shown for plain functions whose Gram matrix is positive definite."
  },
  {
   "property": "C52",
   "status": "proved",
   "theorems": [
    "C52_jacobian",
    "C52_rejects",
    "C52_step"
   ],
   "note": "exact Jacobian (Frechet derivative) and least squares optimality of the step for every dimension, number of nodes and integrands; lstsq by contract; documented one-dimensional node arrays are rejected (C52_rejects)."
  },
  {
   "property": "C53",
   "status": "proved",
   "theorems": [
    "C53_assembly",
    "C53_call",
    "C53_evalrule"
   ],
   "note": "assembly, symmetry, call, and _evalrule on a segment, for all half rules of the right lengths"
  },
  {
   "property": "C54",
   "status": "proved",
   "theorems": [
    "C54_adaptive",
    "C54_errors",
    "C54_exact",
    "C54_partition"
   ],
   "note": "loop refines an abstract adaptive algorithm; partition, cost, stopping, failures, exactness on polynomials"
  },
  {
   "property": "C55",
   "status": "partial",
   "theorems": [
    "C55_change_of_variables",
    "C55_wrong_half_line"
   ],
   "note": "correct changes of variables for the whole line, (a, oo), (-oo, b) and finite paths; refuted for (a, -oo) and (+oo, b): C55_wrong_half_line"
  },
  {
   "property": "C56",
   "status": "proved",
   "theorems": [
    "C56_charpoly",
    "C56_default",
    "C56_newton",
    "C56_newton_monotone",
    "C56_vector"
   ],
   "note": "value and derivative of the characteristic polynomial, unit eigenvector, Newton refinement fixes exact eigenvalues and moves inexact ones to the right of the largest monotonically towards it"
  },
  {
   "property": "C57",
   "status": "proved",
   "theorems": [
    "C57_degree_interval",
    "C57_degree_tetrahedron",
    "C57_degree_triangle",
    "C57_empty_product",
    "C57_estimator",
    "C57_estimator_rejects",
    "C57_simplex",
    "C57_space",
    "C57_tensor_product"
   ],
   "note": "degree vectors for simplex, tensor product and general spaces; estimator matrix; empty product rejected"
  },
  {
   "property": "C58",
   "status": "proved",
   "theorems": [
    "C58_rows",
    "C58_short",
    "C58_skyline",
    "C58_value"
   ],
   "note": "running maximum from the tail, with the last mode raised to its predecessor; rows independent; short rows rejected"
  },
  {
   "property": "C59",
   "status": "partial",
   "theorems": [
    "C59_fit_matrix",
    "C59_least_squares_partial",
    "C59_not_recovered",
    "C59_power_law_partial",
    "C59_rows"
   ],
   "note": "the statement is refuted for the code (baseline and skyline alter the data): C59_not_recovered. Proved instead: least squares optimality for the altered data and exact recovery when the altered data follow a power law"
  },
  {
   "property": "C60",
   "status": "proved",
   "theorems": [
    "C60_simplex",
    "C60_symbolic"
   ],
   "note": "all modes, gradients and derivatives of the three basis selectors, at every point, including the collapsed vertices and edges"
  },
  {
   "property": "C61",
   "status": "partial",
   "theorems": [
    "C61_shapes",
    "C61_space_for_shape",
    "C61_spaces",
    "C61_witnesses"
   ],
   "note": "proved for Simplex, Hypercube, PN, products whose number of bases is not one, and everything space_for_shape returns; refuted for TensorProductShape and QN (TypeError on loading) and for products with one base (class changes): C61_witnesses"
  },
  {
   "property": "C62",
   "status": "proved",
   "theorems": [
    "C62_any_basis",
    "C62_pn",
    "C62_tp"
   ],
   "note": "PN in every dimension and order (including 0); tensor products of positive orders; independent of the basis"
  },
  {
   "property": "C63",
   "status": "proved",
   "theorems": [
    "C63_gauss",
    "C63_in_convex"
   ],
   "note": "eigvals by contract (roots of the characteristic polynomial)."
  },
  {
   "property": "C64",
   "status": "proved",
   "theorems": [
    "C64_weights"
   ],
   "note": "lstsq by contract (minimises the residual)."
  },
  {
   "property": "C65",
   "status": "partial",
   "theorems": [
    "C65_not_scale_invariant",
    "C65_scaling_partial"
   ],
   "note": "refuted: C65_not_scale_invariant; the exact scaling law of the fitted data is proved"
  },
  {
   "property": "C66",
   "status": "proved",
   "theorems": [
    "C66_estimate",
    "C66_order_one_nan"
   ],
   "note": "value via the improper integral, range, NaN boundary, order one always NaN"
  },
  {
   "property": "C67",
   "status": "proved",
   "theorems": [
    "C67_agree",
    "C67_gauss"
   ],
   "note": "equal to the Golub-Welsch Gauss-Legendre rule; nodes, weights, exactness; n = 0 rejected"
  },
  {
   "property": "C68",
   "status": "proved",
   "theorems": [
    "C68_half",
    "C68_rule",
    "C68_square_roots"
   ],
   "note": "every n >= 1: positivity of the coefficients is proved, so no square root or division fails; eigvalsh is a parameter with its documented contract"
  },
  {
   "property": "C69",
   "status": "proved",
   "theorems": [
    "C69_change_of_variables",
    "C69_found",
    "C69_map",
    "C69_parameter",
    "C69_rejects",
    "C69_transplant"
   ],
   "note": "elliptic integrals and Jacobi functions are the mathematical ones (trusted: scipy computes them); Brent's method by contract"
  },
  {
   "property": "C70",
   "status": "proved",
   "theorems": [
    "C70_legendre_gauss",
    "C70_legendre_gauss_lobatto",
    "C70_product"
   ],
   "note": "eigenvalue routine by contract (EighOk)"
  },
  {
   "property": "C71",
   "status": "proved",
   "theorems": [
    "C71_hypercube",
    "C71_product",
    "C71_rejects",
    "C71_simplex",
    "C71_unisolvent"
   ],
   "note": "eigenvalue routine by contract (EighOk)"
  },
  {
   "property": "C72",
   "status": "proved",
   "theorems": [
    "C72_basis",
    "C72_change",
    "C72_monomial",
    "C72_orthonormal",
    "C72_orthonormal_unavailable",
    "C72_unisolvent"
   ],
   "note": "points away from the tolerance strips of the collapsed-coordinate maps"
  },
  {
   "property": "C73",
   "status": "proved",
   "theorems": [
    "C73_lagrange_exists",
    "C73_not_unisolvent",
    "C73_value",
    "C73_wrong_dimension"
   ],
   "note": "orders up to 10^8 (tolerance strips); eigenvalue routine not involved"
  },
  {
   "property": "C74",
   "status": "proved",
   "theorems": [
    "C74_jaskowiec_sukumar",
    "C74_quadrature_for_space",
    "C74_vioreanu_rokhlin",
    "C74_witherden_vincent",
    "C74_xiao_gimbutas"
   ],
   "note": "tables transcribed exactly (tools/gen_tables.py); the decimals in the files, not their rounding to floats"
  },
  {
   "property": "C75",
   "status": "proved",
   "theorems": [
    "C75_equispaced",
    "C75_mass",
    "C75_mass_basis",
    "C75_mass_zero_dimensional",
    "C75_orthonormal",
    "C75_refused",
    "C75_weight"
   ],
   "note": "end to end for the bases and (equispaced) nodes of the library; exact arithmetic, nodes outside the tolerance strips"
  },
  {
   "property": "C76",
   "status": "proved",
   "theorems": [
    "C76_basis",
    "C76_monomial",
    "C76_orthonormal",
    "C76_point",
    "C76_refused"
   ],
   "note": "end to end for the bases of the library; refusals in dimension zero"
  },
  {
   "property": "C77",
   "status": "proved",
   "theorems": [
    "C77_basis_independent",
    "C77_least_squares",
    "C77_resampling"
   ],
   "note": "pinv contract (Penrose equations) only needed for matrices with independent columns"
  },
  {
   "property": "C78",
   "status": "proved",
   "theorems": [
    "C78_divergence",
    "C78_unit_normal"
   ],
   "note": "all shapes with faces (simplices and hypercubes of dimension at most 3); any continuous function with continuous partial derivative"
  },
  {
   "property": "C79",
   "status": "proved",
   "theorems": [
    "C79_bilinear_form",
    "C79_exact_of_order",
    "C79_face",
    "C79_node_counts",
    "C79_summation_by_parts"
   ],
   "note": "all shapes with faces, all orders; nodes and quadratures are parameters with their contracts (unisolvence, exactness for products, evaluation points outside the tolerance strips)"
  },
  {
   "property": "C80",
   "status": "proved",
   "theorems": [
    "C80_gauss",
    "C80_lobatto"
   ],
   "note": "all dimensions and orders; eigh is a parameter with its documented contract, arithmetic exact"
  },
  {
   "property": "C81",
   "status": "proved",
   "theorems": [
    "C81_lobatto"
   ],
   "note": "all dimensions and orders n >= 1; eigh is a parameter with its documented contract, arithmetic exact"
  },
  {
   "property": "C82",
   "status": "proved",
   "theorems": [
    "C82_infinite",
    "C82_inside",
    "C82_total"
   ],
   "note": "all orders; eigvalsh and heapq are parameters with their documented contracts"
  },
  {
   "property": "C83",
   "status": "proved",
   "theorems": [
    "C83_bound",
    "C83_continuous",
    "C83_lipschitz"
   ],
   "note": "explicit bound from a modulus of continuity, then continuous and Lipschitz integrands; exact arithmetic"
  },
  {
   "property": "C84",
   "status": "proved",
   "theorems": [
    "C84_chebyshev",
    "C84_clenshaw_curtis",
    "C84_cube",
    "C84_fejer",
    "C84_gauss",
    "C84_kronrod",
    "C84_lobatto",
    "C84_tensor",
    "C84_transplanted",
    "C84_transplanted_maps"
   ],
   "note": "exact arithmetic; eigh and eigvalsh are parameters with their documented contracts"
  },
  {
   "property": "C85",
   "status": "proved",
   "theorems": [
    "C85_lebesgue",
    "C85_resampling"
   ],
   "note": "exact arithmetic; nodes away from the tolerance strips of the orthonormal bases"
  },
  {
   "property": "C86",
   "status": "proved",
   "theorems": [
    "C86_basis_independent",
    "C86_commute",
    "C86_constants",
    "C86_nilpotent",
    "C86_resampling",
    "C86_simplex"
   ],
   "note": "exact arithmetic; nodes away from the tolerance strips of the orthonormal bases"
  },
  {
   "property": "C87",
   "status": "proved",
   "theorems": [
    "C87_basis_independent",
    "C87_mass",
    "C87_resampling"
   ],
   "note": "exact arithmetic; nodes away from the tolerance strips of the orthonormal bases; zero-dimensional factors are wrong by a factor (C75)"
  },
  {
   "property": "C88",
   "status": "proved",
   "theorems": [
    "C88_chebyshev",
    "C88_clenshaw_curtis",
    "C88_extra_degree",
    "C88_fejer",
    "C88_gauss",
    "C88_lobatto",
    "C88_lobatto_nodes",
    "C88_symmetric"
   ],
   "note": "exact arithmetic; eigh meeting its contract"
  },
  {
   "property": "C89",
   "status": "proved",
   "theorems": [
    "C89_clenshaw_curtis",
    "C89_fejer_first",
    "C89_fejer_second",
    "C89_gauss",
    "C89_kronrod",
    "C89_lobatto",
    "C89_nodes",
    "C89_tensor"
   ],
   "note": "exact arithmetic; eigh and eigvalsh meeting their contracts"
  },
  {
   "property": "C90",
   "status": "proved",
   "theorems": [
    "C90_cube",
    "C90_grundmann_moeller",
    "C90_quadrature_for_space",
    "C90_simplex",
    "C90_tables"
   ],
   "note": "exact arithmetic"
  },
  {
   "property": "C91",
   "status": "proved",
   "theorems": [
    "C91_deceived",
    "C91_exact",
    "C91_one_pass"
   ],
   "note": "exact arithmetic; eigvalsh and heapq meeting their contracts"
  },
  {
   "property": "C92",
   "status": "proved",
   "theorems": [
    "C92_derivative_form",
    "C92_function_form",
    "C92_hypercube",
    "C92_mass",
    "C92_weak_derivative"
   ],
   "note": "exact arithmetic; eigh and the simplex quadrature tables meeting their contracts; quadrature nodes away from the tolerance strips of the simplex bases (automatic on hypercubes)"
  },
  {
   "property": "C93",
   "status": "proved",
   "theorems": [
    "C93_differentiation",
    "C93_equispaced",
    "C93_mass",
    "C93_resampling"
   ],
   "note": "exact arithmetic; nodes away from the tolerance strips of the simplex bases"
  },
  {
   "property": "C94",
   "status": "proved",
   "theorems": [
    "C94_edge_clustered",
    "C94_equispaced",
    "C94_equispaced_hypercube",
    "C94_hypercube",
    "C94_legendre_gauss"
   ],
   "note": "exact arithmetic; eigh meeting its contract"
  },
  {
   "property": "C95",
   "status": "proved",
   "theorems": [
    "C95_filter",
    "C95_modal_coefficients",
    "C95_moments",
    "C95_simplex",
    "C95_truncation"
   ],
   "note": "exact arithmetic; nodes away from the tolerance strips of the simplex bases"
  },
  {
   "property": "C96",
   "status": "proved",
   "theorems": [
    "C96_continuous",
    "C96_gauss",
    "C96_order"
   ],
   "note": "exact arithmetic"
  },
  {
   "property": "C97",
   "status": "proved",
   "theorems": [
    "C97_converges",
    "C97_error",
    "C97_exact",
    "C97_grundmann_moeller",
    "C97_integral",
    "C97_maps"
   ],
   "note": "exact arithmetic; dimensions one to three, the only ones submesh_for_simplex supports"
  },
  {
   "property": "C98",
   "status": "proved",
   "theorems": [
    "C98_converges",
    "C98_error",
    "C98_gauss",
    "C98_gauss_rule",
    "C98_gram",
    "C98_interpolation",
    "C98_projection",
    "C98_quadratureForSpace"
   ],
   "note": "exact arithmetic; nodes away from the tolerance strips of the simplex bases"
  },
  {
   "property": "C99",
   "status": "proved",
   "theorems": [
    "C99_converges",
    "C99_error",
    "C99_norms"
   ],
   "note": "exact arithmetic"
  },
  {
   "property": "C100",
   "status": "proved",
   "theorems": [
    "C100_corner",
    "C100_gauss",
    "C100_inverse_mass",
    "C100_row",
    "C100_square",
    "C100_trace",
    "C100_weights"
   ],
   "note": "exact arithmetic; nodes away from the tolerance strips of the simplex bases"
  },
  {
   "property": "C101",
   "status": "proved",
   "theorems": [
    "C101_in_simplex",
    "C101_matrices"
   ],
   "note": "exact arithmetic; on triangle and tetrahedron orders up to five"
  },
  {
   "property": "C102",
   "status": "proved",
   "theorems": [
    "C102_bound",
    "C102_equispaced",
    "C102_fekete",
    "C102_lebesgue",
    "C102_resampling"
   ],
   "note": "exact arithmetic; numpy.linalg.eigh by its contract"
  },
  {
   "property": "C103",
   "status": "proved",
   "theorems": [
    "C103_converges",
    "C103_diverges",
    "C103_quasi_optimal",
    "C103_rate"
   ],
   "note": "exact arithmetic; numpy.linalg.eigh by its contract"
  },
  {
   "property": "C104",
   "status": "proved",
   "theorems": [
    "C104_converges",
    "C104_error",
    "C104_exact",
    "C104_gauss_lobatto",
    "C104_integral",
    "C104_maps"
   ],
   "note": "exact arithmetic; dimension at least two (Hypercube(1) is Simplex(1), C97)"
  },
  {
   "property": "C105",
   "status": "partial",
   "theorems": [
    "C105_accepts",
    "C105_edge",
    "C105_one_row",
    "C105_refuted"
   ],
   "note": "the code violates the claim: einsum repeats a summed axis of length one (C105_refuted); proved instead: exactly which row counts are accepted and what they are mapped to"
  },
  {
   "property": "C106",
   "status": "proved",
   "theorems": [
    "C106_inverse_mass",
    "C106_trace",
    "C106_vertex",
    "C106_weights"
   ],
   "note": "exact arithmetic; inverse_mass_matrix at nodes away from the tolerance strips of the bases"
  },
  {
   "property": "C107",
   "status": "proved",
   "theorems": [
    "C107_assembled",
    "C107_decay",
    "C107_definite",
    "C107_energy",
    "C107_face_mass",
    "C107_penalty",
    "C107_spectrum",
    "C107_trace"
   ],
   "note": "exact arithmetic; nodes and mapped quadrature points away from the tolerance strips of the bases; face quadratures exact for the products"
  }
 ]
}