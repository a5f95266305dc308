{"id": "C01", "title": "Simplex node tuples enumerate the monomial exponents exactly once", "statement": "node_tuples_for_space(PN(d, n)) returns exactly the d-tuples of nonnegative integers with sum at most n, each once, and their number equals PN(d, n).space_dim = comb(n+d, d).", "quantifier": "every dimension d >= 0 and every order n >= 0", "why_tests_cant": "tests try d <= 3 and small n; an enumeration bug (missed/duplicated tuple) or a counting mismatch can appear at any d, n", "anchors": ["modepy/nodes.py:_node_tuples_for_pn", "modepy/spaces.py:PN.space_dim"]}
{"id": "C02", "title": "Tensor-product node tuples are a bijective enumeration with the first axis fastest", "statement": "For a TensorProductSpace, node_tuples_for_space returns every concatenation of base node tuples exactly once; their number is space_dim (the product of base space_dims); entry k is the concatenation of the base tuples with indices given by the mixed-radix digits of k, least significant digit on the first base.", "quantifier": "every list of base spaces with any orders and dimensions", "why_tests_cant": "the order convention ties together nodes, modes and reshape for every combination of sizes; a test checks a few shapes", "anchors": ["modepy/nodes.py:_node_tuples_for_tp", "modepy/spaces.py:TensorProductSpace.space_dim"]}
{"id": "C03", "title": "Tensor product nodes: layout, count and content", "statement": "tensor_product_nodes(nodes_1..nodes_m) has shape (sum of dims, product of counts) and column k is the stacking of column k_i of nodes_i, where k_1 is the fastest varying digit of k; in particular every combination appears.", "quantifier": "every list of node arrays of any dimensions and counts (including none)", "why_tests_cant": "index arithmetic through reshape/permutation must be right for every mixture of sizes", "anchors": ["modepy/nodes.py:tensor_product_nodes"]}
{"id": "C04", "title": "Equispaced nodes agree with node tuples in order and position", "statement": "equispaced_nodes_for_space(space, shape) places node k at 2*tuple_k/order - 1 where tuple_k is entry k of node_tuples_for_space(space), for PN spaces and (per axis, with the axis' own order) for tensor product spaces with non-uniform orders; all nodes lie in the reference shape.", "quantifier": "every PN/TP space of order >= 1 in every dimension", "why_tests_cant": "tests compare one or two shapes; consistency must hold for every order mixture", "anchors": ["modepy/nodes.py:_equispaced_nodes_for_pn", "modepy/nodes.py:_equispaced_nodes_for_tp", "modepy/nodes.py:equidistant_nodes"]}
{"id": "C05", "title": "Reshaping DOF arrays for tensor product spaces is lossless and exposes the axes", "statement": "unreshape(space, reshape(space, ary, axis), axis) == ary, and entry (.., i_1,..,i_m, ..) of the reshaped array is the entry of ary at flat index i_1 + n_1*(i_2 + n_2*(...)) along that axis, i.e. the DOF of the TP node/mode built from base nodes/modes i_1..i_m.", "quantifier": "every array shape, every axis (negative ones included), every list of base space dims", "why_tests_cant": "stride arithmetic over arbitrary ranks and axes; tests use a handful of ranks", "anchors": ["modepy/tools.py:reshape_array_for_tensor_product_space", "modepy/tools.py:unreshape_array_for_tensor_product_space"]}
{"id": "C06", "title": "Simplex submesh is a positively oriented tessellation", "statement": "submesh_for_shape(Simplex(d), node_tuples of order n) for d = 1, 2, 3 returns n^d elements with valid node indices, each with positive orientation and the same volume 1/d! (in index units), and every point of the simplex lies in some element, while a point in the interior of an element lies in no other element.", "quantifier": "every order n >= 1, every real point of the simplex", "why_tests_cant": "covering/overlap is a statement about a continuum of points and all orders", "anchors": ["modepy/shapes.py:submesh_for_simplex"]}
{"id": "C07", "title": "Hypercube submesh is a tessellation into n^d cells; other tensor products are not tessellated", "statement": "submesh_for_shape(Hypercube(d), node_tuples of order n) returns one cell per index cube, cells list their 2^d vertices in the order of Hypercube(d) unit vertices, indices are valid and every point of [0,n]^d lies in a cell. For a prism (triangle x segment) the documented tessellation property fails: the returned elements miss part of the shape.", "quantifier": "every d, every order n, every real point", "why_tests_cant": "coverage is a statement over a continuum and all orders and dims", "anchors": ["modepy/shapes.py:submesh_for_hypercube"]}
{"id": "C08", "title": "Simplex faces: face maps hit the right volume vertices and stay on the boundary", "statement": "For Simplex(d), d = 1, 2, 3, faces_for_shape returns nfaces = d+1 faces, no two with the same vertex set; face.map_to_volume maps unit vertex k of the face to volume vertex face.volume_vertex_indices[k] and maps every point of the reference face into the facet of the volume simplex (one barycentric coordinate zero, the others nonnegative).", "quantifier": "every face, every point of the reference face", "why_tests_cant": "for all points of the face, not sample points", "anchors": ["modepy/shapes.py:faces_for_simplex", "modepy/shapes.py:_simplex_face_to_vol_map"]}
{"id": "C09", "title": "Hypercube faces: face maps hit the right volume vertices and stay on the boundary", "statement": "For Hypercube(d), d = 2, 3, faces_for_shape returns 2d faces; map_to_volume maps unit vertex k of the face to volume vertex volume_vertex_indices[k] and maps every point of the reference face into the facet of the cube (one coordinate constantly -1 or +1, all in [-1,1]).", "quantifier": "every face, every point of the reference face", "why_tests_cant": "for all points of the face, not sample points", "anchors": ["modepy/shapes.py:faces_for_hypercube", "modepy/shapes.py:_hypercube_face_to_vol_map"]}
{"id": "C10", "title": "Face normals are outward, orthogonal to the face, and unit when normalized", "statement": "face_normal(face) is orthogonal to all face edges, satisfies n.(x - y) > 0 for every x on the face and every y in the interior of the volume shape, and has norm 1 when normalize=True, for Simplex and Hypercube faces in dims 1-3.", "quantifier": "every face and every pair of real points", "why_tests_cant": "outwardness is against all interior points; the table of vertex orders is easy to get wrong", "anchors": ["modepy/shapes.py:face_normal", "modepy/shapes.py:_SIMPLEX_FACES", "modepy/shapes.py:_HYPERCUBE_FACES"]}
{"id": "C11", "title": "Reference vertices", "statement": "unit_vertices_for_shape(Simplex(d)) is -1 everywhere except +1 at coordinate k-1 of vertex k (k >= 1), d+1 vertices; for tensor products vertex k is the stack of base vertices by mixed radix digits of k, first base fastest, and the number of vertices is nvertices.", "quantifier": "every dimension and every list of base shapes", "why_tests_cant": "dimension-generic statement", "anchors": ["modepy/shapes.py:unit_vertices_for_simplex", "modepy/shapes.py:unit_vertices_for_tp"]}
{"id": "C12", "title": "Shape construction: flattening, dims, counts and errors", "statement": "Building TensorProductShape from nested tensor products gives the same bases as from the flattened list; dim is the sum of base dims; nvertices the product; Hypercube(d) has bases d segments, nvertices 2^d and (d >= 1) nfaces 2d; a tensor product with two or more non-segment bases is rejected; a one-element tensor product is its base.", "quantifier": "every nesting and every dimension", "why_tests_cant": "recursive/nested constructors: unbounded inputs", "anchors": ["modepy/shapes.py:TensorProductShape", "modepy/shapes.py:Hypercube"]}
{"id": "C13", "title": "Function space construction", "statement": "space_for_shape(shape, order) has spatial_dim equal to shape.dim; TensorProductSpace flattens nested products and has spatial_dim = sum and space_dim = product of the bases; QN(d, n).space_dim = (n+1)^d; a tuple of orders of the wrong length raises ValueError; order is defined exactly when all base orders agree.", "quantifier": "every shape, order and order tuple", "why_tests_cant": "recursive constructors: unbounded inputs", "anchors": ["modepy/spaces.py:space_for_tensor_product_shape", "modepy/spaces.py:TensorProductSpace", "modepy/spaces.py:QN"]}
{"id": "C14", "title": "Bases are complete and consistently indexed", "statement": "For a PN or tensor product space, basis_for_space(...).mode_ids, .functions and .gradients have the same length, equal to space_dim; mode ids are distinct; function k belongs to mode id k (for tensor products: the product of base functions with the base mode ids concatenated in mode id k), and degree_vector-style index order equals node tuple order.", "quantifier": "every space, dimension and order", "why_tests_cant": "tests count for small orders only", "anchors": ["modepy/modes.py:SimplexBasis", "modepy/modes.py:_SimplexONB", "modepy/modes.py:_SimplexMonomialBasis", "modepy/modes.py:TensorProductBasis"]}
{"id": "C15", "title": "Tensor product basis functions and gradients are products and true derivatives", "statement": "A TensorProductBasis function evaluated at a point is the product of base functions at the point's coordinate slices; its gradient is the true partial derivative with respect to every coordinate whenever the base gradients are; Basis.derivatives(axis) is component axis of gradients.", "quantifier": "every list of bases, mode, point and axis", "why_tests_cant": "real-analysis statement over all points and all numbers of factors", "anchors": ["modepy/modes.py:_TensorProductBasisFunction", "modepy/modes.py:_TensorProductGradientBasisFunction", "modepy/modes.py:Basis.derivatives"]}
{"id": "C16", "title": "Tensor product of orthonormal bases is orthonormal", "statement": "If each base basis is orthonormal with respect to an integration functional, the TensorProductBasis is orthonormal with respect to the product functional, for all mode pairs.", "quantifier": "every list of base bases", "why_tests_cant": "tests integrate numerically at low order", "anchors": ["modepy/modes.py:TensorProductBasis"]}
{"id": "C17", "title": "Monomial basis derivatives", "statement": "monomial(order, x) is the product of powers; grad_monomial and diff_monomial return its exact partial derivatives at every point (including exponent 0 and coordinates 0); diff_monomial along axis k equals component k of grad_monomial.", "quantifier": "every exponent tuple, point and axis", "why_tests_cant": "for all points and exponents", "anchors": ["modepy/modes.py:monomial", "modepy/modes.py:grad_monomial", "modepy/modes.py:diff_monomial"]}
{"id": "C18", "title": "Jacobi polynomials are orthonormal", "statement": "For alpha, beta > -1 the functions jacobi(alpha, beta, n, .) satisfy int_{-1}^{1} p_m p_n (1-x)^alpha (1+x)^beta dx = delta_mn.", "quantifier": "all m, n and real alpha, beta > -1 (with |alpha+beta+1| >= 1e-14 or alpha+beta+1 = 0)", "why_tests_cant": "an integral identity for all degrees and real parameters; tests sample to degree ~6 to tolerance", "anchors": ["modepy/modes.py:jacobi"]}
{"id": "C19", "title": "grad_jacobi is the derivative of jacobi", "statement": "For every alpha, beta > -1, n and x, grad_jacobi(alpha, beta, n, x) is the derivative at x of jacobi(alpha, beta, n, .).", "quantifier": "all degrees, real parameters, real points", "why_tests_cant": "derivative identity over a continuum", "anchors": ["modepy/modes.py:grad_jacobi"]}
{"id": "C20", "title": "scaled_jacobi is the classical normalisation", "statement": "scaled_jacobi(alpha, beta, n, x) equals the classical Jacobi polynomial P_n^(alpha,beta)(x); in particular the value at x=1 is binom(n+alpha, n) and at x=-1 it is (-1)^n binom(n+beta, n).", "quantifier": "all degrees and real parameters > -1", "why_tests_cant": "for all degrees and parameters", "anchors": ["modepy/modes.py:scaled_jacobi", "modepy/modes.py:binom"]}
{"id": "C21", "title": "Triangle PKDO modes are orthonormal", "statement": "For all (i,j), (k,l): the integral of pkdo_2d((i,j)) * pkdo_2d((k,l)) over the reference triangle is 1 if equal and 0 otherwise.", "quantifier": "all mode pairs of any degree", "why_tests_cant": "infinitely many modes, exact integral", "anchors": ["modepy/modes.py:pkdo_2d"]}
{"id": "C22", "title": "Tetrahedron PKDO modes are orthonormal", "statement": "For all (i,j,k), (l,m,n): the integral over the reference tetrahedron of the product of the pkdo_3d modes is 1 if equal and 0 otherwise.", "quantifier": "all mode pairs of any degree", "why_tests_cant": "infinitely many modes, exact integral", "anchors": ["modepy/modes.py:pkdo_3d"]}
{"id": "C23", "title": "Triangle PKDO gradients are the true derivatives, also at the collapsed vertex", "statement": "grad_pkdo_2d((i,j), (r,s)) is the gradient of the polynomial that pkdo_2d((i,j), .) agrees with on the triangle, at every point of the triangle, including the singular vertex (-1, 1).", "quantifier": "all modes and all points (outside the 1e-12 band around s = 1, or exactly at the vertex)", "why_tests_cant": "tests use random interior points and finite differences", "anchors": ["modepy/modes.py:grad_pkdo_2d", "modepy/modes.py:_rstoab"]}
{"id": "C24", "title": "Tetrahedron PKDO gradients are the true derivatives, also on the collapsed edge and vertex", "statement": "grad_pkdo_3d((i,j,k), (r,s,t)) is the gradient of the polynomial that pkdo_3d((i,j,k), .) agrees with on the tetrahedron, at every point, including the degenerate edge s+t = 0 and vertex t = 1.", "quantifier": "all modes and all points (outside the tolerance bands or exactly on the degenerate set)", "why_tests_cant": "tests use random interior points and finite differences", "anchors": ["modepy/modes.py:grad_pkdo_3d", "modepy/modes.py:_rsttoabc"]}
{"id": "C25", "title": "The simplex orthonormal basis spans the polynomial space", "statement": "Each mode with id of sum m is a polynomial of total degree at most m on the simplex, the modes are linearly independent, and their number is the dimension of PN: the basis spans exactly PN (d = 1, 2, 3).", "quantifier": "every order n", "why_tests_cant": "span equality for all orders", "anchors": ["modepy/modes.py:_SimplexONB", "modepy/modes.py:pkdo_2d", "modepy/modes.py:pkdo_3d"]}
{"id": "C26", "title": "Zero-dimensional basis is orthonormal", "statement": "The basis returned by orthonormal_basis_for_space for a zero-dimensional simplex is orthonormal with respect to quadrature_for_space for that shape (the point evaluation with weight 1).", "quantifier": "the one basis function, any number of evaluation points", "why_tests_cant": "claimed by orthonormality_weight() == 1, never checked for dim 0", "anchors": ["modepy/modes.py:zerod_basis", "modepy/quadrature/__init__.py:ZeroDimensionalQuadrature"]}
{"id": "C27", "title": "Gauss-Jacobi quadrature is exact to degree 2N+1", "statement": "JacobiGaussQuadrature(alpha, beta, N) integrates every polynomial of degree <= exact_to = 2N+1 exactly against (1-x)^alpha (1+x)^beta, has N+1 nodes, and the weights sum to the total mass; it raises ValueError for alpha+beta = -1 except the Chebyshev case.", "quantifier": "all N and real alpha, beta > -1", "why_tests_cant": "all degrees and real parameters", "anchors": ["modepy/quadrature/jacobi_gauss.py:JacobiGaussQuadrature.compute_weights_and_nodes"]}
{"id": "C28", "title": "Gauss-Chebyshev closed form is exact to degree 2N+1", "statement": "JacobiGaussQuadrature(-1/2, -1/2, N) and ChebyshevGaussQuadrature(N, kind=1) integrate every polynomial of degree <= 2N+1 exactly against 1/sqrt(1-x^2).", "quantifier": "all N", "why_tests_cant": "all degrees", "anchors": ["modepy/quadrature/jacobi_gauss.py:ChebyshevGaussQuadrature", "modepy/quadrature/jacobi_gauss.py:JacobiGaussQuadrature.compute_weights_and_nodes"]}
{"id": "C29", "title": "Jacobi-Gauss-Lobatto quadrature is exact to degree 2N-1", "statement": "JacobiGaussLobattoQuadrature(alpha, beta, N) has N+1 nodes including +-1 and integrates every polynomial of degree <= exact_to = 2N-1 exactly against (1-x)^alpha (1+x)^beta.", "quantifier": "all N >= 1 and real alpha, beta > -1", "why_tests_cant": "tests only exercise alpha = beta = 0", "anchors": ["modepy/quadrature/jacobi_gauss.py:JacobiGaussLobattoQuadrature", "modepy/quadrature/jacobi_gauss.py:jacobi_gauss_lobatto_nodes"]}
{"id": "C30", "title": "Clenshaw-Curtis quadrature is exact to its advertised degree", "statement": "ClenshawCurtisQuadrature(N) integrates every polynomial of degree <= exact_to exactly over [-1,1]; nodes include both ends.", "quantifier": "all N >= 1", "why_tests_cant": "all N; FFT-based weights hide off-by-one errors", "anchors": ["modepy/quadrature/clenshaw_curtis.py:_make_clenshaw_curtis_nodes_and_weights", "modepy/quadrature/clenshaw_curtis.py:ClenshawCurtisQuadrature"]}
{"id": "C31", "title": "Fejer quadratures (first and second kind) are interpolatory", "statement": "FejerQuadrature(N, kind) integrates every polynomial of degree less than its number of nodes exactly over [-1,1] (exact_to).", "quantifier": "all N, both kinds", "why_tests_cant": "all N; FFT-based weights hide off-by-one errors", "anchors": ["modepy/quadrature/clenshaw_curtis.py:_make_fejer1_nodes_and_weights", "modepy/quadrature/clenshaw_curtis.py:_make_fejer2_nodes_and_weights"]}
{"id": "C32", "title": "Grundmann-Moeller quadrature is exact to degree 2s+1 in every dimension", "statement": "GrundmannMoellerSimplexQuadrature(s, d) integrates every polynomial of total degree <= exact_to = 2s+1 exactly over the reference d-simplex; every node lies in the simplex.", "quantifier": "every order s >= 0 and dimension d >= 1, every polynomial", "why_tests_cant": "tests sample small orders and dims to a tolerance", "anchors": ["modepy/quadrature/grundmann_moeller.py:GrundmannMoellerSimplexQuadrature"]}
{"id": "C33", "title": "Grundmann-Moeller fraction bookkeeping", "statement": "_extended_euclidean returns Bezout coefficients and a common divisor; reducing a node's fraction keeps its rational value and gives one representative per value, so equal nodes are merged with summed weights and nothing else is.", "quantifier": "all integers", "why_tests_cant": "integers are unbounded", "anchors": ["modepy/quadrature/grundmann_moeller.py:_extended_euclidean", "modepy/quadrature/grundmann_moeller.py:_simplify_fraction"]}
{"id": "C34", "title": "Tensor product quadrature", "statement": "TensorProductQuadrature(quads) applied to a function of the stacked coordinates equals the iterated application of the base quadratures; it is exact for products of functions each base is exact for; its weights are products of base weights; exact_to is the minimum of the bases'.", "quantifier": "every list of base quadratures and every integrand", "why_tests_cant": "for all integrands and numbers of factors", "anchors": ["modepy/quadrature/__init__.py:TensorProductQuadrature"]}
{"id": "C35", "title": "Transformed 1D quadrature", "statement": "Transformed1DQuadrature(quad, left, right) integrates polynomials of degree <= quad.exact_to exactly over [left, right] for all left < right and keeps the claimed exactness; an empty or reversed interval (left >= right) is rejected with ValueError.", "quantifier": "all real endpoints and base rules", "why_tests_cant": "for all endpoints, degrees", "anchors": ["modepy/quadrature/__init__.py:Transformed1DQuadrature"]}
{"id": "C36", "title": "quadrature_for_space always returns a sufficiently exact rule", "statement": "quadrature_for_space(space, shape) returns a rule with exact_to >= space.order for every PN space, falling back to Grundmann-Moeller when tables end; for tensor product spaces it returns a product rule exact for the space, for every choice of base orders.", "quantifier": "every dimension, order and order tuple", "why_tests_cant": "the fallback path and mixed orders are unbounded", "anchors": ["modepy/quadrature/__init__.py:_quadrature_for_pn", "modepy/quadrature/__init__.py:_quadrature_for_tp"]}
{"id": "C37", "title": "Quadrature infinity order", "statement": "The inf object used for exact_to compares greater than every number from both sides, equal to itself, and min() over exact_to values that include it is the minimum of the others.", "quantifier": "every list of integers and infs", "why_tests_cant": "order axioms are universally quantified", "anchors": ["modepy/quadrature/__init__.py:_Inf"]}
{"id": "C38", "title": "Vandermonde and resampling", "statement": "resampling_matrix(basis, new_nodes, old_nodes) maps the nodal values of every function in the span of the basis to its values at new_nodes; resampling to the same nodes is the identity and resampling composes; the least-squares branch reproduces functions in the span as well.", "quantifier": "every basis, node sets with invertible Vandermonde matrix, every function in the span", "why_tests_cant": "for all functions and bases", "anchors": ["modepy/matrices.py:vandermonde", "modepy/matrices.py:resampling_matrix"]}
{"id": "C39", "title": "Differentiation matrices", "statement": "differentiation_matrices(basis, grad_basis, nodes)[k] maps nodal values of every function in the span to the nodal values of its k-th partial derivative; with from_nodes it differentiates from one node set to another.", "quantifier": "every basis, node set with invertible Vandermonde matrix, function in the span", "why_tests_cant": "for all functions in the span", "anchors": ["modepy/matrices.py:differentiation_matrices", "modepy/matrices.py:multi_vandermonde"]}
{"id": "C40", "title": "Differentiation matrices of different axes are permutations of each other", "statement": "diff_matrix_permutation(node_tuples, k) is an involution on node indices, and for equispaced nodes with a polynomial basis, differentiation matrix k equals matrix 0 with rows and columns permuted by it.", "quantifier": "every dimension, order and axis", "why_tests_cant": "for all orders and dims", "anchors": ["modepy/matrices.py:diff_matrix_permutation"]}
{"id": "C41", "title": "Mass matrices", "statement": "inverse_mass_matrix and mass_matrix are inverse to each other, symmetric, and mass_matrix entry (i,j) is the inner product of nodal (Lagrange) basis functions i and j, so u^T M v is the L2 inner product of interpolants.", "quantifier": "every orthonormal basis and unisolvent node set", "why_tests_cant": "for all bases and nodal vectors", "anchors": ["modepy/matrices.py:inverse_mass_matrix", "modepy/matrices.py:mass_matrix"]}
{"id": "C42", "title": "Nodal quadrature matrices", "statement": "nodal_quadrature_test_matrix and nodal_quadrature_bilinear_form_matrix compute exactly sum_j w_j phi_i(r_j) u_j and sum_k w_k psi_i(r_k) phi_j(r_k) for the Lagrange bases; spectral_diag_nodal_mass_matrix equals the quadrature mass matrix when nodes coincide with quadrature nodes.", "quantifier": "every basis, node set and quadrature", "why_tests_cant": "for all bases and vectors", "anchors": ["modepy/matrices.py:nodal_quadrature_test_matrix", "modepy/matrices.py:nodal_quadrature_bilinear_form_matrix", "modepy/matrices.py:spectral_diag_nodal_mass_matrix"]}
{"id": "C43", "title": "Affine maps", "statement": "AffineMap.inverse is a two-sided inverse for every invertible matrix and its jacobian is the reciprocal; inverse of inverse is the original map.", "quantifier": "every dimension, invertible matrix, offset and point", "why_tests_cant": "for all real points", "anchors": ["modepy/tools.py:AffineMap"]}
{"id": "C44", "title": "Coordinate conversions on simplices", "statement": "unit_to_barycentric and barycentric_to_unit are mutually inverse (on coordinates summing to 1) in every dimension, barycentric coordinates sum to 1, the unit vertices are mapped to the coordinate vectors, membership in the simplex is nonnegativity; equilateral_to_unit(barycentric_to_equilateral(b)) = barycentric_to_unit(b) in dims 1-3.", "quantifier": "every dimension and point", "why_tests_cant": "for all real points", "anchors": ["modepy/tools.py:barycentric_to_unit", "modepy/tools.py:unit_to_barycentric", "modepy/tools.py:barycentric_to_equilateral", "modepy/tools.py:equilateral_to_unit"]}
{"id": "C45", "title": "Monomial reference integrals and derivatives", "statement": "Monomial.__call__ is factor * prod ((x_i+1)/2)^e_i; simplex_integral is its exact integral over the reference simplex; 2^n * hypercube_integral is its exact integral over [-1,1]^n; diff(k) is its derivative with respect to the [0,1] coordinate.", "quantifier": "every exponent tuple and factor", "why_tests_cant": "tests rely on these as ground truth; they hold for all exponents", "anchors": ["modepy/tools.py:Monomial"]}
{"id": "C46", "title": "Random nodes lie in the shape", "statement": "random_nodes_for_shape(shape, nnodes, rng) returns exactly nnodes nodes and every one lies in the shape, whatever the generator returns.", "quantifier": "every stream of random batches, every dimension and nnodes", "why_tests_cant": "randomised loop; must hold for every stream", "anchors": ["modepy/nodes.py:_random_nodes_for_simplex", "modepy/nodes.py:_random_nodes_for_tp"]}
{"id": "C47", "title": "Warp & blend nodes", "statement": "warp_and_blend_nodes(2, n) keeps the vertices, keeps every edge node on its edge at the Legendre-Gauss-Lobatto position, and the node set is invariant under the symmetries of the triangle; warp_factor vanishes at the endpoints.", "quantifier": "every order n >= 1", "why_tests_cant": "face conformity must hold for all orders", "anchors": ["modepy/nodes.py:warp_factor", "modepy/nodes.py:_2d_equilateral_shift", "modepy/nodes.py:warp_and_blend_nodes_2d"]}
{"id": "C48", "title": "Transplanted maps are smooth reparametrisations of [-1,1]", "statement": "map_sausage and map_kosloff_tal_ezer return (g, g') with g' the exact derivative of g, g(-1) = -1, g(1) = 1, g odd, and (sausage) g' > 0; invalid parameters raise ValueError.", "quantifier": "every admissible degree/parameter and point", "why_tests_cant": "for all degrees and real points", "anchors": ["modepy/quadrature/transplanted.py:map_sausage", "modepy/quadrature/transplanted.py:map_kosloff_tal_ezer", "modepy/quadrature/transplanted.py:_arcsin_taylor_coefficients"]}
{"id": "C49", "title": "Transplanted quadrature is a change of variables", "statement": "transplanted_1d_quadrature(quad, map) applied to f equals quad applied to (f o g) * g', is exact whenever quad is exact for that product, and claims a polynomial exactness only for the identity map.", "quantifier": "every base rule, map and integrand", "why_tests_cant": "for all integrands", "anchors": ["modepy/quadrature/transplanted.py:transplanted_1d_quadrature"]}
{"id": "C50", "title": "Linear combinations of integrands", "statement": "linearly_combine(c, fs) either raises or returns a function whose value at every point is sum_i c_i fs_i(x), also when fs are themselves linear combinations that get flattened.", "quantifier": "every list of coefficients and functions", "why_tests_cant": "for all nestings and shapes of inputs", "anchors": ["modepy/quadrature/construction.py:linearly_combine", "modepy/quadrature/construction.py:LinearCombinationIntegrand"]}
{"id": "C51", "title": "orthogonalize_basis returns an orthonormal basis of the same span", "statement": "Given an inner product positive definite on the functions (Cholesky exists), the functions returned by orthogonalize_basis are orthonormal and span the same space (triangularly).", "quantifier": "every basis and inner product", "why_tests_cant": "for all bases", "anchors": ["modepy/quadrature/construction.py:orthogonalize_basis", "modepy/quadrature/construction.py:_mass_matrix"]}
{"id": "C52", "title": "Quadrature residual Jacobian and Gauss-Newton step", "statement": "quad_residual_and_jacobian returns the residual sum_j w_j f_i(x_j) - integral_i and its exact Jacobian with respect to weights and nodes; quad_gauss_newton_increment splits the least squares step into weight and node increments consistently with that layout.", "quantifier": "every set of integrands, nodes and weights", "why_tests_cant": "layout and derivative for all sizes and points", "anchors": ["modepy/quadrature/construction.py:quad_residual_and_jacobian", "modepy/quadrature/construction.py:quad_gauss_newton_increment"]}
{"id": "C53", "title": "Kronrod rule assembly and evaluation agree", "statement": "For half-rules as returned by kronrod(n), make_kronrod_quadrature builds a rule with 2n+1 nodes symmetric about 0, whose embedded Gauss rule has n nodes, and the adaptive integrator's evaluation of a segment equals the Kronrod rule and |Kronrod - Gauss| applied to the affinely transformed integrand.", "quantifier": "every n >= 1, every half-rule data, every integrand and segment", "why_tests_cant": "index arithmetic for odd and even n of any size", "anchors": ["modepy/quadrature/kronrod.py:make_kronrod_quadrature", "modepy/quadrature/kronrod.py:_evalrule"]}
{"id": "C54", "title": "Adaptive quadrature bookkeeping invariants and termination", "statement": "During quadgk the heap's segments always partition the integration path, running approximation/error equal the sums over the heap, the evaluation count is (2n+1)*(segments evaluated), the worst segment is split, and the loop stops, with error within tolerance or at least maxevals evaluations.", "quantifier": "every integrand, tolerance, maxevals, breakpoints", "why_tests_cant": "invariant over every execution", "anchors": ["modepy/quadrature/kronrod.py:_do_quadgk"]}
{"id": "C55", "title": "Infinite interval transforms are correct changes of variables", "statement": "quadgk maps infinite and half-infinite intervals to finite ones by monotone changes of variables: the transformed integrand is f(x(t)) x'(t) with x(t) covering the requested interval in the requested orientation.", "quantifier": "every integrand and every combination of finite/infinite endpoints", "why_tests_cant": "for all integrands, endpoints, orientations", "anchors": ["modepy/quadrature/kronrod.py:quadgk", "modepy/quadrature/kronrod.py:_transform_both_inf", "modepy/quadrature/kronrod.py:_transform_semi_inf_pos", "modepy/quadrature/kronrod.py:_transform_semi_inf_neg"]}
{"id": "C56", "title": "Tridiagonal characteristic polynomial and eigenvector helpers", "statement": "_eigpoly(b, z) returns the characteristic polynomial det(zI - H) of the symmetric tridiagonal matrix with zero diagonal and off-diagonals b, together with its derivative in z; _eigvec1 returns a positive-first-entry unit vector solving all rows but the last of (zI - H)v = 0.", "quantifier": "every size, off-diagonal and z", "why_tests_cant": "for all sizes", "anchors": ["modepy/quadrature/kronrod.py:_eigpoly", "modepy/quadrature/kronrod.py:_eigvec1"]}
{"id": "C57", "title": "Modal degree vector and estimator matrix", "statement": "degree_vector lists the total degree (simplex) or per-element maximal/selected degree of every mode in mode order; interp_error_coefficient_estimator_matrix maps nodal values to exactly the modal coefficients of the top-degree modes.", "quantifier": "every space, order and nodal vector", "why_tests_cant": "for all orders and functions", "anchors": ["modepy/modal_decay.py:degree_vector", "modepy/modal_decay.py:simplex_interp_error_coefficient_estimator_matrix", "modepy/modal_decay.py:interp_error_coefficient_estimator_matrix"]}
{"id": "C58", "title": "Skyline pessimization", "statement": "skyline_pessimize(modes) is nonincreasing along each row, dominates the input, and is the least such vector away from the last entry, which is replaced by the maximum of the last two.", "quantifier": "every array with at least two modes", "why_tests_cant": "for all arrays", "anchors": ["modepy/modal_decay.py:skyline_pessimize"]}
{"id": "C59", "title": "Modal decay fit recovers exact power laws", "statement": "Given coefficients that follow |c_k| = C * k^(-s) exactly for k >= 1 the least squares fit in fit_modal_decay returns that s and C (before clipping), and the relative residual of the fit is zero.", "quantifier": "every C > 0, real s, number of modes", "why_tests_cant": "for all real decay rates", "anchors": ["modepy/modal_decay.py:fit_modal_decay", "modepy/modal_decay.py:get_decay_fit_matrix"]}
{"id": "C60", "title": "Symbolic and numeric evaluation of modes agree", "statement": "symbolicize_function(f) builds an expression whose evaluation at any point equals f evaluated numerically at that point, without dividing by zero, for every mode, gradient and derivative of every basis returned by basis_for_space, orthonormal_basis_for_space and monomial_basis_for_space; both raise the same exception otherwise.", "quantifier": "every space, shape, basis function and point", "why_tests_cant": "tests compare a few modes at a few points; the collapsed vertex and edge are a null set", "anchors": ["modepy/modes.py:symbolicize_function", "modepy/modes.py:_where"]}
{"id": "C61", "title": "Shapes and spaces survive pickling", "statement": "Pickling and unpickling a Simplex, Hypercube, TensorProductShape, PN, QN or TensorProductSpace returns an object of the same class with equal attributes (an equal object, for shapes).", "quantifier": "every constructible shape and space", "why_tests_cant": "tests pickle only Simplex/Hypercube and their spaces from space_for_shape", "anchors": ["modepy/shapes.py:Hypercube.__getnewargs__", "modepy/spaces.py:TensorProductSpace.__getnewargs__"]}
{"id": "C62", "title": "Equispaced nodes determine the polynomials of the space", "statement": "For every dimension and order, the nodes of equispaced_nodes_for_space for PN (and for tensor products of spaces of positive order) are unisolvent: the Vandermonde matrix of any basis of the space at these nodes is nonsingular, so resampling, differentiation and mass matrices never fail there.", "quantifier": "every dimension, order, and basis of the space", "why_tests_cant": "tests invert Vandermonde matrices for a handful of orders", "anchors": ["modepy/nodes.py:equispaced_nodes_for_space", "modepy/nodes.py:equidistant_nodes", "modepy/matrices.py:vandermonde"]}
{"id": "C63", "title": "Node guesses of the multiplication operator stay in the domain and are Gauss nodes in one dimension", "statement": "guess_nodes_vioreanu_rokhlin(integrate, onb) returns len(onb) nodes; if integrate has nonnegative weights at points of a convex set and onb is orthonormal for it, every returned node lies in that set; if onb is an orthonormal basis of the polynomials of degree < n, the returned nodes are the roots of the orthogonal polynomial of degree n (the Gauss nodes).", "quantifier": "every orthonormal family, every nonnegative quadrature, every lawful eigenvalue routine", "why_tests_cant": "a test sees particular domains and degrees; a node outside the domain makes the later Gauss-Newton process diverge or evaluate undefined integrands", "anchors": ["modepy/quadrature/construction.py:guess_nodes_vioreanu_rokhlin"]}
{"id": "C64", "title": "Undetermined coefficients reproduce any exact rule", "statement": "find_weights_undetermined_coefficients(integrands, nodes, reference_integrals) returns one weight per node; whenever some weights at these nodes integrate all integrands exactly, the returned ones do; mismatched numbers of integrals are rejected.", "quantifier": "all integrands, nodes and reference integrals", "why_tests_cant": "exactness has to hold for all node sets that admit a rule, including rank deficient ones", "anchors": ["modepy/quadrature/construction.py:find_weights_undetermined_coefficients"]}
{"id": "C65", "title": "Smoothness estimate independent of scaling", "statement": "fit_modal_decay(c) and fit_modal_decay(t*c) report the same decay exponent for every nonzero t: rescaling the solution (changing units) does not change the smoothness estimate.", "quantifier": "all coefficient arrays, all nonzero scalars t", "why_tests_cant": "A tester would compare a handful of scalings with a tolerance, and the discrepancy depends on the relative size of the coefficients and the added baseline; only an exact formula for the fitted data settles it.", "anchors": ["modepy/modal_decay.py"]}
{"id": "C66", "title": "Relative residual estimate range and value", "statement": "estimate_relative_expansion_residual returns for each element either NaN or a number in [0, 1]. With a fitted decay C k^e, e < -1/2, it is C * sqrt(integral from n+1 to infinity of x^(2e)) / ||c||, replaced by zero if above one; it is NaN exactly when e >= -1/2, and in particular for every function when n = 1.", "quantifier": "all coefficient rows, dimensions, orders", "why_tests_cant": "The improper integral and the NaN boundary are statements about all real exponents; samples do not exhibit the n = 1 degeneracy unless specifically sought.", "anchors": ["modepy/modal_decay.py"]}
{"id": "C67", "title": "gauss(n) of the Kronrod module is the Gauss-Legendre rule", "statement": "kronrod.gauss(n) returns n strictly increasing nodes in (-1, 1) and positive weights, exact for polynomials of degree up to 2n-1, identical to LegendreGaussQuadrature(n-1), provided the eigenvalue routine returns the eigenvalues; n < 1 raises ValueError.", "quantifier": "every n and every eigenvalue routine meeting its documentation", "why_tests_cant": "exactness for all polynomials and all n", "anchors": ["modepy/quadrature/kronrod.py:gauss", "modepy/quadrature/kronrod.py:_eignewt", "modepy/quadrature/kronrod.py:_eigvec1"]}
{"id": "C68", "title": "Laurie's algorithm yields a Gauss-Kronrod rule", "statement": "make_kronrod_quadrature(n) returns a rule on [-1, 1] that contains the nodes of the n-point Gauss-Legendre rule, interlaced with n+1 further nodes, is symmetric, has all nodes strictly inside the interval and positive weights, is exact up to exact_to = 3n+1, and whose embedded rule is the Gauss-Legendre rule, exact up to 2n-1.", "quantifier": "every n >= 1, every eigvalsh meeting its documentation", "why_tests_cant": "the in-place mixed-moment recursion must produce a matrix whose trailing block is isospectral to its leading block, for every n", "anchors": ["modepy/quadrature/kronrod.py:kronrod", "modepy/quadrature/kronrod.py:make_kronrod_quadrature"]}
{"id": "C69", "title": "The strip map is a smooth reparametrisation and its parameter is determined by rho", "statement": "map_strip rejects end points and rho <= 1; the parameter m found for rho solves K(1-m)/K(m) = 4 log(rho)/pi, is unique, and is found for every rho between 1.1 and 1000; the map is odd, strictly increasing, continuous on [-1,1], fixes the end points and comes with its positive derivative; transplanting a rule with interior nodes is a change of variables.", "quantifier": "every rho, every list of points, every integrand, every base rule", "why_tests_cant": "needs identities of elliptic functions for all parameters; tests check a few values", "anchors": ["modepy/quadrature/transplanted.py:map_strip", "modepy/quadrature/transplanted.py:_strip_map_parameter_m", "modepy/quadrature/transplanted.py:transplanted_1d_quadrature"]}
{"id": "C70", "title": "Tensor-product Gauss and Gauss-Lobatto nodes determine the product space", "statement": "legendre_gauss_tensor_product_nodes(d, n) and legendre_gauss_lobatto_tensor_product_nodes(d, n) return (n+1)^d nodes which are the grid of the one-dimensional rule's nodes in F order (first axis fastest) and which determine every function of QN(d, n) uniquely; Gauss nodes are strictly inside the cube. More generally tensor_product_nodes of node sets that are unisolvent for the factors is unisolvent for the product space.", "quantifier": "every dimension, every order, every list of factor node sets", "why_tests_cant": "unisolvence is the invertibility of a Vandermonde matrix for every order and dimension; tests look at condition numbers of a few", "anchors": ["modepy/nodes.py:legendre_gauss_tensor_product_nodes", "modepy/nodes.py:legendre_gauss_lobatto_tensor_product_nodes", "modepy/nodes.py:tensor_product_nodes"]}
{"id": "C71", "title": "edge_clustered_nodes_for_space: rejections, edge nodes and unisolvence", "statement": "edge_clustered_nodes_for_space rejects mismatched classes and dimensions; for PN it returns dim PN nodes whose edge nodes are the Legendre-Gauss-Lobatto nodes of the edge (dimensions 1 to 3), the Lobatto nodes in one dimension, equispaced nodes in dimension 0 and 4 and above and for order up to two; the nodes determine the polynomials of PN (the Vandermonde matrix is invertible) in dimension up to one and from four on for every order, and on triangle and tetrahedron for every order up to five; for product spaces the nodes are the product of the factors' nodes, in particular the Lobatto grid for QN on the hypercube, and they are unisolvent whenever the factors' are.", "quantifier": "every space, shape, order below 10^8 and set iteration order", "why_tests_cant": "dispatch over all classes and orders, and unisolvence of products for all orders", "anchors": ["modepy/nodes.py:edge_clustered_nodes_for_space"]}
{"id": "C72", "title": "Every basis of a space spans it, and all bases are related by invertible matrices", "statement": "basis_for_space, monomial_basis_for_space and orthonormal_basis_for_space return dim(space) functions whose values are an invertible linear combination of the monomials of the space's modes, at every point away from the tolerance strips around the collapsed edges; any two of them differ by an invertible matrix, so the Vandermonde matrix of one is invertible iff that of any other is; orthonormal bases are available exactly when every factor has dimension at most three.", "quantifier": "every space (PN, QN, products), every dimension and order", "why_tests_cant": "spanning and basis independence quantify over all orders, spaces and node sets", "anchors": ["modepy/modes.py:basis_for_space", "modepy/modes.py:monomial_basis_for_space", "modepy/modes.py:orthonormal_basis_for_space", "modepy/matrices.py:vandermonde"]}
{"id": "C73", "title": "estimate_lebesgue_constant samples the Lebesgue function", "statement": "estimate_lebesgue_constant(n, nodes, shape) returns the maximum over an equispaced lattice of the sum of absolute values of the Lagrange functions of the nodes: it is at least one, it never exceeds a bound of the Lebesgue function on the shape, and it is the smallest factor by which interpolation can amplify nodal data at the sample points; non-unisolvent nodes raise LinAlgError, nodes of the wrong dimension ValueError, and visualize only works in one and two dimensions.", "quantifier": "every shape, order and unisolvent node set", "why_tests_cant": "tests compare a few constants with tabulated bounds; the relation to the Lagrange functions and the operator norm is for all nodes and orders", "anchors": ["modepy/tools.py:estimate_lebesgue_constant", "modepy/tools.py:_evaluate_lebesgue_function"]}
{"id": "C74", "title": "Every tabulated rule has positive weights, interior nodes and its declared degree", "statement": "WitherdenVincentQuadrature, JaskowiecSukumarQuadrature, VioreanuRokhlinSimplexQuadrature and XiaoGimbutasSimplexQuadrature are available for exactly the orders in their tables (everything else raises QuadratureRuleUnavailable), have positive weights and nodes in the reference domain, and integrate every polynomial of degree at most exact_to over the reference domain up to 1e-14 times the sum of the moduli of its coefficients (in powers of (x+1)/2); Vioreanu-Rokhlin rules of order n have dim P^n nodes and their weights sum to the volume; quadrature_for_space is accurate in the same sense where the Xiao-Gimbutas tables apply and exact elsewhere.", "quantifier": "every order and dimension argument, every table entry as written in the data files, every polynomial of the declared degree", "why_tests_cant": "tests integrate a handful of monomials at float tolerance; this covers all polynomials, all table entries and the availability for all integers", "anchors": ["modepy/quadrature/witherden_vincent.py:WitherdenVincentQuadrature", "modepy/quadrature/jaskowiec_sukumar.py:JaskowiecSukumarQuadrature", "modepy/quadrature/vioreanu_rokhlin.py:VioreanuRokhlinSimplexQuadrature", "modepy/quadrature/xiao_gimbutas.py:XiaoGimbutasSimplexQuadrature", "modepy/quadrature/__init__.py:quadrature_for_space"]}
{"id": "C75", "title": "Mass matrices built from the library's bases are exact for the whole space", "statement": "For the orthonormal basis (and the basis chosen by basis_for_space) of a space whose factors have dimension 1 to 3, and any unisolvent node set, mass_matrix(basis, nodes) succeeds and u^T M v is the integral of u v over the reference domain for any two functions of the space given by their nodal values; the modes are orthonormal with respect to that integral. Factors of dimension 0 make the result wrong by a factor 4 each. Monomial bases, and orthonormal bases in dimension four or more, are refused with NotImplementedError. On the equispaced nodes of the library the hypotheses on the nodes always hold.", "quantifier": "every space and shape, every unisolvent node set away from the tolerance strips, all functions of the space, every order", "why_tests_cant": "tests check a few orders and compare floats for a few functions; the zero-dimensional factor is never tested", "anchors": ["modepy/matrices.py:mass_matrix", "modepy/matrices.py:inverse_mass_matrix", "modepy/modes.py:orthonormal_basis_for_space", "modepy/modes.py:basis_for_space", "modepy/modes.py:TensorProductBasis.orthonormality_weight", "modepy/nodes.py:equispaced_nodes_for_space"]}
{"id": "C76", "title": "Differentiation matrices built from the library's bases are exact for the whole space", "statement": "For every basis the library constructs for a space (orthonormal, basis_for_space, monomial) on a unisolvent set of from-nodes, diff_matrices succeeds and applied to the nodal values of a function of the space gives its partial derivatives at the evaluation nodes, which may be any points away from the collapsed strips. With a zero-dimensional simplex the orthonormal gradients are refused with NotImplementedError, and on a space of dimension zero the monomials, whose gradients have no components, with ValueError.", "quantifier": "every space and basis, every unisolvent node set, any evaluation nodes, all functions of the space", "why_tests_cant": "tests differentiate one function at a few orders; here for all functions, nodes and tensor products", "anchors": ["modepy/matrices.py:diff_matrices", "modepy/matrices.py:differentiation_matrices", "modepy/modes.py:TensorProductBasis.gradients", "modepy/modes.py:_SimplexONB.gradients", "modepy/modes.py:grad_monomial"]}
{"id": "C77", "title": "Resampling matrices reproduce the whole space and do not depend on the basis", "statement": "For every basis the library constructs for a space, resampling_matrix(basis, new_nodes, old_nodes) maps the nodal values of every function of the space at unisolvent old nodes to its values at any new nodes, with or without least_squares_ok; with more old nodes than functions and least_squares_ok it does so through the pseudo-inverse. With as many nodes as functions the matrix is the same for every choice of basis.", "quantifier": "every space, every pair of bases, all node sets, all functions of the space", "why_tests_cant": "tests resample one function; independence of the basis is not tested", "anchors": ["modepy/matrices.py:resampling_matrix", "modepy/matrices.py:vandermonde", "modepy/modes.py:orthonormal_basis_for_space", "modepy/modes.py:monomial_basis_for_space"]}
{"id": "C78", "title": "Faces, face maps and normals satisfy the divergence theorem", "statement": "For every shape with faces, every face has a normal and a map, and for every continuous F with continuous derivative G in direction k, the integral of G over the shape equals the sum over faces_for_shape(shape) of face_normal(face, normalize=False)[k] / 2**face.dim times the integral over the reference face of F(face.map_to_volume(.)). The unnormalised normal is the unit normal times its length, so this weight is the unit normal times the surface element of the map.", "quantifier": "every shape with faces, every continuous function with a continuous partial derivative, every direction", "why_tests_cant": "tests integrate a few monomials; consistency of orientation, map and normal on every face for all functions is not testable", "anchors": ["modepy/shapes.py:faces_for_shape", "modepy/shapes.py:face_normal", "modepy/shapes.py:faces_for_simplex", "modepy/shapes.py:faces_for_hypercube", "modepy/shapes.py:Face.map_to_volume"]}
{"id": "C79", "title": "Mass, differentiation, face mass and restriction matrices satisfy summation by parts", "statement": "On every shape with faces, for the orthonormal basis of a space of order N, unisolvent volume nodes and, for each face, unisolvent face nodes of a face space of order N and a quadrature exact for products of its polynomials: mass_matrix, diff_matrices, nodal_quadrature_bilinear_form_matrix (test functions mapped with face.map_to_volume) and resampling_matrix to the mapped face nodes all succeed, and M D_k + D_k^T M equals the sum over the faces of face_normal(face, normalize=False)[k] / 2**face.dim times face mass matrix times restriction, for every direction k. v\u1d40 A u of the bilinear form matrix of any two bases is the quadrature sum of the product of the interpolants; A R is the exact integral of the product of traces.", "quantifier": "every shape with faces, every order, any unisolvent nodes away from the tolerance strips, any exact face quadratures, every direction", "why_tests_cant": "tests check it for a few orders and one node family to a tolerance; it involves the conventions of five modules at once", "anchors": ["modepy/matrices.py:nodal_quadrature_bilinear_form_matrix", "modepy/matrices.py:mass_matrix", "modepy/matrices.py:diff_matrices", "modepy/matrices.py:resampling_matrix", "modepy/shapes.py:faces_for_shape", "modepy/shapes.py:face_normal"]}
{"id": "C80", "title": "The spectral diagonal mass matrix is the mass matrix for Gauss-Legendre nodes and only approximate for Gauss-Lobatto nodes", "statement": "For every dimension dims >= 1 and order n: LegendreGaussTensorProductQuadrature(n, dims) has exactly the nodes legendre_gauss_tensor_product_nodes(dims, n), spectral_diag_nodal_mass_matrix accepts it, and the matrix with that diagonal equals mass_matrix of the (orthonormal) basis of QN(dims, n) on Hypercube(dims) at those nodes. With the Gauss-Lobatto rule and nodes (n >= 1) the diagonal integrates products whose orders add up to at most 2n-1 exactly, but mass_matrix at those nodes has a nonzero off-diagonal entry, as the docstring's 'approximate' says.", "quantifier": "every dimension, every order, every eigh meeting its documentation", "why_tests_cant": "the docstring claims exactness for all orders; a test compares a handful of sizes to a tolerance and cannot show non-diagonality for every order", "anchors": ["modepy/matrices.py:spectral_diag_nodal_mass_matrix", "modepy/matrices.py:mass_matrix", "modepy/quadrature/__init__.py:LegendreGaussTensorProductQuadrature", "modepy/nodes.py:legendre_gauss_tensor_product_nodes"]}
{"id": "C81", "title": "Gauss-Lobatto spectral elements satisfy diagonal-norm summation by parts", "statement": "For every dimension and order n >= 1, with the nodes legendre_gauss_lobatto_tensor_product_nodes(dims, n), w = spectral_diag_nodal_mass_matrix(LegendreGaussLobattoTensorProductQuadrature(n, dims)) and D_k = diff_matrices of the (orthonormal) basis of QN(dims, n) at the nodes: diag(w) D_k + D_k^T diag(w) is diagonal, with the product of the other one-dimensional weights at nodes on the face x_k = 1, minus that on x_k = -1, and zero at all other nodes.", "quantifier": "every dimension, order, direction, every eigh meeting its documentation", "why_tests_cant": "the energy stability of spectral element schemes rests on this identity for every order; it needs node ordering, weights and differentiation to agree", "anchors": ["modepy/matrices.py:spectral_diag_nodal_mass_matrix", "modepy/matrices.py:diff_matrices", "modepy/quadrature/__init__.py:LegendreGaussLobattoTensorProductQuadrature", "modepy/nodes.py:legendre_gauss_lobatto_tensor_product_nodes"]}
{"id": "C82", "title": "quadgk evaluates the integrand only strictly inside the segments of the path", "statement": "The result of quadgk (value, error estimate, evaluation count or exception) depends only on the values of the integrand strictly between consecutive break points, so integrands singular at break points (1/sqrt(x) on (0, 1)) are accepted; if the integrand is finite strictly inside, quadgk succeeds. The same holds for infinite end points in the supported orientations.", "quantifier": "every integrand, path of real or complex break points, order, tolerance and budget", "why_tests_cant": "the nodes come from an eigenvalue computation; that none of them is an end point, for every order and after every bisection, needs the location of the Kronrod nodes", "anchors": ["modepy/quadrature/kronrod.py:quadgk", "modepy/quadrature/kronrod.py:_evalrule", "modepy/quadrature/kronrod.py:_do_quadgk", "modepy/quadrature/kronrod.py:kronrod"]}
{"id": "C83", "title": "quadgk meets its tolerance on continuous integrands", "statement": "For an integrand continuous on each closed segment of the path, order n >= 1 and abstol > 0 there is an evaluation count after which quadgk has met one of its tolerances, so that with any larger maxevals it returns an error estimate within tolerance and uses no more evaluations; for a Lipschitz integrand with constant K on a path of length L the count is at most (2n+1)(segments + 8 K L^2 / abstol).", "quantifier": "every continuous integrand, path, order, positive absolute tolerance, relative tolerance", "why_tests_cant": "termination by tolerance rather than by budget is a statement about all integrands and all bisection sequences", "anchors": ["modepy/quadrature/kronrod.py:quadgk", "modepy/quadrature/kronrod.py:_do_quadgk", "modepy/quadrature/kronrod.py:_evalrule"]}
{"id": "C84", "title": "Gauss, Lobatto, Clenshaw-Curtis, Fejer, Kronrod and tensor product rules converge for every continuous integrand", "statement": "For each continuous integrand on the reference interval (cube) the values returned by Jacobi-Gauss (against its weight), Chebyshev-Gauss, Legendre-Gauss-Lobatto, Clenshaw-Curtis, Fejer (both kinds), Gauss-Kronrod and transplanted Legendre-Gauss rules and by the Legendre-Gauss and Gauss-Lobatto tensor products tend to the integral as the order grows; for each order (except for transplanted rules) the error is at most twice the mass of the weight times the distance of the integrand to the polynomials of the advertised degree.", "quantifier": "every continuous integrand, every order, every dimension of the cube, every admissible pair of Jacobi exponents", "why_tests_cant": "convergence is a limit statement over all continuous integrands, including those without any smoothness; tests sample a few orders of smooth functions", "anchors": ["modepy/quadrature/jacobi_gauss.py:JacobiGaussQuadrature", "modepy/quadrature/jacobi_gauss.py:JacobiGaussLobattoQuadrature", "modepy/quadrature/clenshaw_curtis.py:ClenshawCurtisQuadrature", "modepy/quadrature/clenshaw_curtis.py:FejerQuadrature", "modepy/quadrature/kronrod.py:make_kronrod_quadrature", "modepy/quadrature/__init__.py:LegendreGaussTensorProductQuadrature"]}
{"id": "C85", "title": "Resampling is quasi-optimal and estimate_lebesgue_constant bounds its error", "statement": "For unisolvent old nodes of a space, every row of resampling_matrix adds up to one and holds the values of the Lagrange polynomials; for an arbitrary function f and any q of the space within eps of f at the nodes involved, the resampled value is within (1 + sum_j |R_ij|) eps of f, and no smaller factor would do. If the new nodes belong to the sample lattice of estimate_lebesgue_constant, sum_j |R_ij| is at most its value Lambda, so the error is at most (1 + Lambda) eps.", "quantifier": "every space, basis, node set, every function f, every approximation q", "why_tests_cant": "the bound is over all functions and all approximations; tests check a few smooth functions", "anchors": ["modepy/matrices.py:resampling_matrix", "modepy/tools.py:estimate_lebesgue_constant"]}
{"id": "C86", "title": "The differentiation matrices of one node set commute, annihilate exactly the constants, are nilpotent, and commute with resampling", "statement": "For every library basis of a space with factors of positive dimension and unisolvent nodes: diff_matrices gives D_k with D_k D_l = D_l D_k, rows adding up to zero, (D_k u = 0 for all k) iff u is constant, D_k^(N+1) = 0 when all orders are at most N; on a simplex of order N any product of more than N of them is zero while D_k^N is not. They are the same for every basis. With R = resampling_matrix to other unisolvent nodes, diff_matrices(basis, new, from_nodes=old) = R D_k(old) = D_k(new) R.", "quantifier": "every space, basis, order, node set, direction, vector of nodal values", "why_tests_cant": "identities between matrices for every order, node set and basis; tests check finitely many", "anchors": ["modepy/matrices.py:differentiation_matrices", "modepy/matrices.py:diff_matrices", "modepy/matrices.py:resampling_matrix"]}
{"id": "C87", "title": "Mass matrices are positive definite, their row sums are quadrature weights, and they transform with resampling", "statement": "For every library basis with orthonormality weight one of a space whose factors have dimension one to three, and unisolvent nodes: mass_matrix is symmetric positive definite, its row sums are the weights of a quadrature at the nodes that integrates every function of the space exactly, its entries add up to the volume prod 2^d/d! of the reference domain, it is the same for each such basis, and with R = resampling_matrix from old to new nodes, M(old) = R^T M(new) R.", "quantifier": "every such space, basis, order, pair of unisolvent node sets", "why_tests_cant": "definiteness and congruence are statements for all vectors and node sets; tests check sample matrices numerically", "anchors": ["modepy/matrices.py:mass_matrix", "modepy/matrices.py:inverse_mass_matrix", "modepy/matrices.py:resampling_matrix"]}
{"id": "C88", "title": "One-dimensional rules are mirror images: exchanging the parameters reflects a Gauss-Jacobi rule, symmetric rules integrate odd functions to zero", "statement": "The nodes of JacobiGaussQuadrature(beta, alpha, N) are the negatives of those of JacobiGaussQuadrature(alpha, beta, N) in reverse order, with the same weights, so applying one to f(t) is applying the other to f(-t); likewise for the Gauss-Lobatto nodes. With equal parameters, and for ChebyshevGauss, GaussLobatto, ClenshawCurtis and Fejer rules, the rule is its own mirror image and every odd function, smooth or not, is integrated to exactly zero. ClenshawCurtis with even N is therefore exact to degree N+1, one more than its exact_to, and the Fejer rules with an odd number of nodes gain a degree too.", "quantifier": "every order, all parameters accepted, every function", "why_tests_cant": "the eigenvalue solver returns nodes for one order at a time; the symmetry for all orders and all odd functions is a uniqueness statement", "anchors": ["modepy/quadrature/jacobi_gauss.py:JacobiGaussQuadrature", "modepy/quadrature/jacobi_gauss.py:JacobiGaussLobattoQuadrature", "modepy/quadrature/clenshaw_curtis.py:ClenshawCurtisQuadrature", "modepy/quadrature/clenshaw_curtis.py:FejerQuadrature"]}
{"id": "C89", "title": "The degrees of the one-dimensional and tensor product rules are sharp: exact_to is met and the true degree of each rule is known", "statement": "No rule with m nodes is exact to degree 2m. LegendreGaussQuadrature(N) has degree exactly 2N+1 and LegendreGaussLobattoQuadrature(N) exactly 2N-1, their exact_to; in any dimension the tensor products of these rules have the same total degree and no more. ClenshawCurtisQuadrature(N) has degree exactly N for odd N and N+1 for even N; FejerQuadrature(N, 1) has degree N for odd N and N-1 for even N; FejerQuadrature(N, 2) has degree N-1 for even N and N-2 for odd N. The Gauss-Kronrod rule with parameter n integrates odd functions to zero, is exact to 3n+2 for odd n, and is not exact to degree 4n+2.", "quantifier": "every order, every dimension, every polynomial", "why_tests_cant": "a test that a rule is inexact one degree above its claim checks one order; the exact degree as a function of the order needs the closed form of the error", "anchors": ["modepy/quadrature/jacobi_gauss.py:LegendreGaussQuadrature", "modepy/quadrature/jacobi_gauss.py:LegendreGaussLobattoQuadrature", "modepy/quadrature/clenshaw_curtis.py:ClenshawCurtisQuadrature", "modepy/quadrature/clenshaw_curtis.py:FejerQuadrature", "modepy/quadrature/__init__.py:LegendreGaussTensorProductQuadrature"]}
{"id": "C90", "title": "No quadrature rule has fewer nodes than its exactness demands", "statement": "A rule on the d-simplex or d-hypercube that integrates every polynomial of total degree at most 2k exactly has at least C(k+d, d) nodes, whatever its nodes and weights. In particular the rule quadrature_for_space returns for PN(d, N) has at least C(N//2+d, d) nodes, GrundmannMoellerSimplexQuadrature(s, n) at least C(s+n, n), and an entry of the Xiao-Gimbutas tables that delivers order N lists at least that many points; a shorter entry cannot meet its claim.", "quantifier": "every dimension, every degree, every choice of nodes and weights", "why_tests_cant": "a lower bound over all rules cannot be sampled; it fails only for a rule that a test would have to construct", "anchors": ["modepy/quadrature/__init__.py:Quadrature", "modepy/quadrature/__init__.py:quadrature_for_space", "modepy/quadrature/grundmann_moeller.py:GrundmannMoellerSimplexQuadrature", "modepy/quadrature/xiao_gimbutas.py:XiaoGimbutasSimplexQuadrature"]}
{"id": "C91", "title": "quadgk is exact for polynomials, stops at once on those of low degree, and its error estimate can be deceived", "statement": "On a path of real or complex break points quadgk with order n returns the exact integral of every polynomial, scalar or vector valued, of degree at most 3n+1, whatever the tolerances and the budget. For degree at most 2n-1 its error estimate is zero and it uses 2n+1 evaluations per given segment. The estimate is no bound: for every order and interval there is a non-negative polynomial with integral one for which quadgk returns 0 with error estimate 0, for every tolerance and budget.", "quantifier": "every order, every path, every polynomial, every tolerance and budget", "why_tests_cant": "exactness on all polynomials and paths is a universal statement; the deceiving integrand depends on the order and never appears among sampled integrands", "anchors": ["modepy/quadrature/kronrod.py:quadgk", "modepy/quadrature/kronrod.py:_do_quadgk", "modepy/quadrature/kronrod.py:_evalrule", "modepy/quadrature/kronrod.py:kronrod"]}
{"id": "C92", "title": "Weak forms assembled by quadrature agree with the mass, differentiation and resampling matrices", "statement": "With any quadrature and node map, nodal_quadrature_bilinear_form_matrix for the functions or for derivatives(axis) of a basis of the test space gives the quadrature sum of the interpolating polynomial, or of its partial derivative, at the mapped nodes times the interpolating polynomial of the trial space; nodal_quadrature_test_matrix gives the same without the trial function. With the rule quadrature_for_space returns for the space of doubled orders: the form of the functions of any basis is mass_matrix; the form with derivatives(axis) is D_axis^T M, so inverse_mass_matrix times its transpose is the differentiation matrix; the test matrix times the resampling matrix to the quadrature nodes is the same matrix. On hypercubes of every dimension and order with Gauss nodes all of this succeeds.", "quantifier": "all spaces with factors of dimension 1 to 3, all orders, all bases of the library, all regular unisolvent node sets, all axes", "why_tests_cant": "test_bilinear_forms checks simplices and hypercubes up to dimension three for four orders, one basis, one function; the identity of the matrices for every space, basis and node set is a theorem about exactness of the rule on the doubled space", "anchors": ["modepy/matrices.py:nodal_quadrature_bilinear_form_matrix", "modepy/matrices.py:nodal_quadrature_test_matrix", "modepy/matrices.py:mass_matrix", "modepy/matrices.py:diff_matrices", "modepy/quadrature/__init__.py:quadrature_for_space", "modepy/modes.py:Basis.derivatives"]}
{"id": "C93", "title": "Operators on tensor product node sets are Kronecker products of the operators of the factors", "statement": "At the nodes of tensor_product_nodes of node sets of the factors, mass_matrix with any orthonormal basis of the tensor product space has entry (i, j) equal to the product over the factors of the entries of the factors' mass matrices, where the factor indices are the digits of i and j with the first factor varying fastest; resampling_matrix to another tensor product of node sets, with any numbers of nodes, is the Kronecker product of the factors' resampling matrices in the same order; diff_matrices along an axis is the differentiation matrix of the factor which the axis belongs to, and the identity on all other factors. The bases used for the product and for the factors are arbitrary and need not be related. In particular this holds for equispaced_nodes_for_space of every product of simplices.", "quantifier": "all lists of simplex spaces of positive dimension (up to three for orthonormal bases), all orders, all regular unisolvent node sets of the factors, all bases of the library, all new node sets", "why_tests_cant": "sum factorization in codes using the library rests on the order of indices being the same in the nodes, in the basis and in the matrices; no test checks it, and sampling cannot cover all numbers of factors", "anchors": ["modepy/nodes.py:tensor_product_nodes", "modepy/nodes.py:equispaced_nodes_for_space", "modepy/matrices.py:mass_matrix", "modepy/matrices.py:diff_matrices", "modepy/matrices.py:resampling_matrix", "modepy/modes.py:TensorProductBasis"]}
{"id": "C94", "title": "Neighbouring elements put the same nodes on a shared face", "statement": "For every two faces f and g returned by faces_for_shape of a simplex and every matching of their vertices, a point of the reference face is a node of the element seen through f.map_to_volume if and only if the matched point is a node seen through g.map_to_volume; this holds for equispaced_nodes_for_space and edge_clustered_nodes_for_space (warp & blend). For faces of squares and cubes the same holds for every exchange of axes and reflection of the face, for equispaced and edge-clustered nodes. The nodes on a face are exactly the images of the nodes of the face's own space for equispaced nodes of simplices and hypercubes and for edge-clustered nodes of hypercubes. Legendre-Gauss tensor product nodes lie on no face.", "quantifier": "all orders at least one (below 10^8 for warp & blend), all dimensions for which faces exist, all pairs of faces, all vertex matchings", "why_tests_cant": "conforming discretizations need this for every pair of faces, orientation and order; tests only look at single elements", "anchors": ["modepy/nodes.py:equispaced_nodes_for_space", "modepy/nodes.py:edge_clustered_nodes_for_space", "modepy/nodes.py:warp_and_blend_nodes", "modepy/nodes.py:legendre_gauss_tensor_product_nodes", "modepy/shapes.py:faces_for_shape", "modepy/shapes.py:Face.map_to_volume"]}
{"id": "C95", "title": "Modal coefficients, filters and truncation", "statement": "For V = vandermonde(basis.functions, nodes) with an orthonormal basis, V is invertible and la.solve(V, u) are the coefficients of the interpolating polynomial in the basis functions; sums of products of modal coefficients are integrals of products (Parseval). A filter V diag(sigma) V^-1 does not increase the L2 norm if no factor exceeds one in absolute value, keeps all integrals against polynomials of a smaller space if the factors of the modes with mode ids of that space are one (conservation), and is the L2-best approximation by the smaller space if the other factors are zero. On a simplex: dropping the modes whose mode ids add up to more than r is the L2 projection onto the polynomials of degree r.", "quantifier": "all spaces with factors of dimension one to three, all orders, all regular unisolvent nodes, all smaller spaces with the same factors, all polynomials and factors", "why_tests_cant": "optimality and conservation are statements about all competing polynomials, and need the ordering of mode ids, functions and coefficients to agree for every space", "anchors": ["modepy/modes.py:basis_for_space", "modepy/modes.py:orthonormal_basis_for_space", "modepy/modes.py:Basis.mode_ids", "modepy/matrices.py:vandermonde"]}
{"id": "C96", "title": "Composite one-dimensional rules converge with the order their degree promises", "statement": "If a rule with nodes in [-1, 1] is transformed by Transformed1DQuadrature to n equal pieces of [a, b] and the results are added, then: for a rule exact to degree m and a function with m+1 continuous derivatives the error is at most (sum|w|/2 + 1)(b-a) C h^(m+1)/m! with h = (b-a)/n and C a bound for derivative m+1; if the rule is exact for constants, the composite rules converge for every continuous function. LegendreGaussQuadrature(N) has order 2N+2.", "quantifier": "all rules, intervals, numbers of pieces, degrees and functions", "why_tests_cant": "an order of convergence is a statement about all n and all functions", "anchors": ["modepy/quadrature/__init__.py:Transformed1DQuadrature", "modepy/quadrature/jacobi_gauss.py:LegendreGaussQuadrature"]}
{"id": "C97", "title": "Integrals and rules on the submesh of a simplex", "statement": "For equispaced_nodes_for_space(PN(d, n), Simplex(d)) and the elements of submesh_for_shape there is exactly one AffineMap per element taking the reference vertices (unit_vertices_for_shape) to the nodes of the element, its jacobian is 1/n^d, and for every continuous f the integral over the simplex is the sum over the elements of |jacobian| times the integral of f(map(y)) over the reference simplex. A rule exact to degree m on the reference simplex yields a composite rule exact to degree m; if on every element f is within delta of a polynomial of degree m the error is at most 2 delta sum|w|; if the rule is exact for constants and has its nodes in the simplex, the composite rules converge for every continuous function as n grows. In particular for Grundmann-Moeller rules, whose weights are not positive.", "quantifier": "dimensions one to three, all orders n, all rules, all continuous functions", "why_tests_cant": "the elements must fill the simplex without gaps and overlaps for every n, in the measure theoretic sense; convergence concerns all functions and all n", "anchors": ["modepy/shapes.py:submesh_for_shape", "modepy/shapes.py:unit_vertices_for_shape", "modepy/nodes.py:equispaced_nodes_for_space", "modepy/tools.py:AffineMap", "modepy/quadrature/grundmann_moeller.py:GrundmannMoellerSimplexQuadrature"]}
{"id": "C98", "title": "Modal coefficients computed with a quadrature rule give the discrete least squares approximation, and interpolation at Gauss nodes converges", "statement": "Let V = vandermonde(basis.functions, quad.nodes) for the orthonormal basis of a space and a rule that integrates products of two polynomials of the space (quadrature_for_space for twice the orders is such a rule). Then V.T @ diag(weights) @ V is the identity. With nonnegative weights the polynomial p with coefficients V.T @ (weights*u) minimises the weighted sum of squared residuals, the integral of p^2 is at most sum(weights*u^2), and p is the polynomial the values come from if there is one. If u are the values of a continuous f, the integral of (f-p)^2 is at most 4 vol delta^2 for every polynomial of the space within delta of f, so it tends to zero as the orders grow. With as many nodes as modes p interpolates; in particular the interpolants of every continuous function at legendre_gauss_tensor_product_nodes(d, n) converge in the mean square.", "quantifier": "all spaces with factors of dimension one to three, all rules exact on products, all values, all continuous functions", "why_tests_cant": "optimality is over all polynomials; convergence concerns all continuous functions and all orders", "anchors": ["modepy/matrices.py:vandermonde", "modepy/modes.py:orthonormal_basis_for_space", "modepy/quadrature/__init__.py:quadrature_for_space", "modepy/nodes.py:legendre_gauss_tensor_product_nodes"]}
{"id": "C99", "title": "The diagonal mass matrix of Gauss-Lobatto nodes is equivalent to the mass matrix, and interpolation at Gauss-Lobatto nodes converges", "statement": "Let M be the mass matrix of QN(d, n), n >= 1, at legendre_gauss_lobatto_tensor_product_nodes(d, n), and w the result of spectral_diag_nodal_mass_matrix for the rule with the same nodes. For all nodal values u, u.T M u <= sum(w*u^2) <= (2+1/n)^d u.T M u, and both constants are attained. Every continuous function has exactly one interpolant in QN(d, n) at these nodes; the integral over the cube of the squared interpolation error is at most 4*2^d*delta^2 if the space has a polynomial within delta of the function, and so tends to zero with n.", "quantifier": "all d >= 1, all n >= 1, all nodal vectors, all continuous functions", "why_tests_cant": "an equivalence of norms over all vectors with constants uniform in the order; convergence concerns all continuous functions", "anchors": ["modepy/matrices.py:spectral_diag_nodal_mass_matrix", "modepy/matrices.py:mass_matrix", "modepy/nodes.py:legendre_gauss_lobatto_tensor_product_nodes"]}
{"id": "C100", "title": "The diagonal of the inverse mass matrix bounds point values and quadrature weights, and traces obey the sharp trace inequality", "statement": "For an orthonormal basis of a space and any nodes, inverse_mass_matrix(basis, nodes)[i, i] = sum(vandermonde(basis.functions, nodes)[i]**2) is the greatest p(x_i)^2 over the polynomials p of the space with integral of p^2 equal to one; it is positive and does not depend on the basis. A rule with nonnegative weights that integrates all products of the space has no weight above the inverse of that entry, and if it has as many nodes as the space has modes the inverse mass matrix is diag(1/weights), as for the Gauss-Legendre tensor product nodes. At a vertex of the cube the entry for QN(d, n) is ((n+1)^2/2)^d, and for every face returned by faces_for_shape for the square and the cube the greatest integral of p^2 over the face is (n+1)^2/2.", "quantifier": "all spaces with factors of dimension one to three, all nodes, all rules, all orders, all polynomials", "why_tests_cant": "a maximum over all polynomials of a space, for all orders", "anchors": ["modepy/matrices.py:inverse_mass_matrix", "modepy/matrices.py:vandermonde", "modepy/shapes.py:faces_for_shape", "modepy/matrices.py:spectral_diag_nodal_mass_matrix"]}
{"id": "C101", "title": "Edge-clustered nodes lie in the element, and the matrices built on them are exact with no assumption on the nodes", "statement": "edge_clustered_nodes_for_space on the interval (any order) and on triangle and tetrahedron (order at most five) gives nodes in the closed simplex: the barycentric coordinate of a corner is zero where the node tuple of the node has a zero and positive (on triangle and tetrahedron at least 1/30) elsewhere, so no node falls into a tolerance strip of the orthonormal basis except exactly on the collapsed set. For every product of such factors edge_clustered_nodes_for_space and orthonormal_basis_for_space succeed, mass_matrix gives the integrals of the products of the polynomials of the space, diff_matrices their derivatives, resampling_matrix their values at any regular nodes, all from the values at the nodes, and mass and differentiation matrices are the Kronecker combinations of those of the factors.", "quantifier": "all products of factors of dimension one to three, of order at most five on triangle and tetrahedron and below 10^8 on the interval, all polynomials", "why_tests_cant": "all orders on the interval and all numbers of factors; an identity of integrals and derivatives of all polynomials", "anchors": ["modepy/nodes.py:edge_clustered_nodes_for_space", "modepy/nodes.py:warp_and_blend_nodes", "modepy/matrices.py:mass_matrix", "modepy/matrices.py:diff_matrices", "modepy/matrices.py:resampling_matrix"]}
{"id": "C102", "title": "Gauss-Lobatto nodes are Fekete points with small Lebesgue constants, equispaced nodes have exponentially growing ones", "statement": "On the nodes of legendre_gauss_lobatto_tensor_product_nodes(dims, n), the squares of the Lagrange functions add up to at most one everywhere in the cube, so no polynomial of the space exceeds the root of the sum of its squared nodal values, every row of resampling_matrix to points of the cube has Euclidean norm at most one, and no other choice of nodes in the cube gives the Vandermonde matrix of the space a larger determinant. estimate_lebesgue_constant reports at most (n+1)^(dims/2) for them on Hypercube(dims), and at least 2^n/(4 n^2) for equispaced_nodes_for_space on every shape of positive dimension.", "quantifier": "all dimensions and orders (up to 10^8 for estimate_lebesgue_constant), all bases, all points, all node sets, all constructible shapes", "why_tests_cant": "an extremum over all node sets in the cube and over all points, at every order", "anchors": ["modepy/nodes.py:legendre_gauss_lobatto_tensor_product_nodes", "modepy/nodes.py:equispaced_nodes_for_space", "modepy/matrices.py:resampling_matrix", "modepy/tools.py:estimate_lebesgue_constant", "modepy/matrices.py:vandermonde"]}
{"id": "C103", "title": "Interpolation at Gauss-Lobatto nodes converges uniformly for smooth functions, interpolation at equispaced nodes diverges for some continuous function", "statement": "If some polynomial of QN(dims, n) is within delta of a function on the cube, then interpolating the function at the tensor product Gauss-Lobatto nodes and resampling with resampling_matrix to any points of the cube is within (1 + (n+1)^(dims/2)) delta of it. On the interval, for a function whose derivative is Lipschitz continuous with constant M, the error is at most (1 + sqrt(n+1)) M / n at every point, so it tends to zero uniformly. There is one bounded continuous function for which resampling from the equispaced nodes of the interval to the midpoint of the first two nodes exceeds every bound at arbitrarily high orders.", "quantifier": "all orders, dimensions, bases, points and functions with the stated smoothness", "why_tests_cant": "limits in the order, over all functions; the divergence is an existence statement no sample of functions settles", "anchors": ["modepy/nodes.py:legendre_gauss_lobatto_tensor_product_nodes", "modepy/nodes.py:equispaced_nodes_for_space", "modepy/matrices.py:resampling_matrix"]}
{"id": "C104", "title": "Integration over the submesh of a hypercube: composite rules keep their degree and converge", "statement": "For equispaced nodes of any orders along the axes, submesh_for_shape cuts the hypercube into boxes for which exactly one AffineMap each takes the unit vertices of the hypercube to the vertices of the element in order. Its Jacobian is one over the number of elements, the integral over the cube is the sum of the Jacobian times the integral of the function composed with the map, a rule of degree m on the reference cube becomes a composite rule of degree m, the error is at most twice the sum of the absolute weights times the distance to piecewise polynomials, and with all orders growing the composite rules converge for every continuous function; tensor product Gauss-Lobatto rules are instances.", "quantifier": "all dimensions from two, all orders per axis, all rules exact for constants with nodes in the cube, all continuous functions", "why_tests_cant": "integrals of all continuous functions over meshes of every size", "anchors": ["modepy/shapes.py:submesh_for_shape", "modepy/tools.py:AffineMap", "modepy/quadrature/__init__.py:Quadrature", "modepy/shapes.py:unit_vertices_for_shape"]}
{"id": "C105", "title": "Face maps accept only points with as many rows as the face has dimensions", "statement": "face.map_to_volume(p) for a face returned by faces_for_shape maps arrays with face.dim rows and raises ValueError for arrays with any other number of rows. (Violated: a single row is used for all coordinates of the face, so a two-dimensional face maps it to its diagonal; an edge accepts any number of rows and adds them up as fractions of the edge, so the image of points of a square under an edge of a triangle leaves the triangle. All other row counts raise ValueError.)", "quantifier": "all faces of all simplices and hypercubes that have faces, all arrays", "why_tests_cant": "the result is an array of the expected shape either way; which row counts are accepted and what they give concerns all of them", "anchors": ["modepy/shapes.py:_simplex_face_to_vol_map", "modepy/shapes.py:_hypercube_face_to_vol_map", "modepy/shapes.py:faces_for_shape"]}
{"id": "C106", "title": "Traces on the faces of simplices and values at their vertices obey sharp bounds", "statement": "For every face returned by faces_for_shape for the interval, the triangle and the tetrahedron, the greatest integral over the face of p^2, over the polynomials p of PN(d, n) with integral of p^2 over the simplex equal to one, is (n+1)(n+d)/2. At every vertex given by unit_vertices_for_shape(Simplex(d)), d any positive dimension, the greatest p^2 is d!/2^d times the square of the dimension of PN(d, n); this is the diagonal entry of inverse_mass_matrix at a node placed there, and no rule with nonnegative weights that integrates the products of the space gives a vertex more than the share 1/dim(PN(d, n))^2 of the volume.", "quantifier": "all orders, all faces, all vertices, all polynomials, all rules", "why_tests_cant": "a maximum over all polynomials of a space, at every order", "anchors": ["modepy/shapes.py:faces_for_shape", "modepy/shapes.py:unit_vertices_for_shape", "modepy/matrices.py:inverse_mass_matrix", "modepy/spaces.py:PN"]}
{"id": "C107", "title": "Discontinuous Galerkin operators assembled from the matrices are stable", "statement": "Let M, D_i be mass_matrix and diff_matrices for a space PN or QN on its shape and, for each face, A its face mass matrix from nodal_quadrature_bilinear_form_matrix and R the resampling_matrix from the volume nodes to the face nodes. Then each A R is symmetric positive semidefinite, u^T A R u is at most K u^T M u with K = (n+1)(n+d)/2 on simplices (d at most 3) and (n+1)^2/2 on hypercubes, and some nonzero u attains it. The upwind operator built from them for a constant velocity satisfies the energy identity 2 u^T G u = -sum |a.n| u^T A R u, so u^T M u does not grow along solutions of M u' = G u and every eigenvalue of the pencil has nonpositive real part. The symmetric interior penalty form built from them is coercive once the penalty of every face is twice the number of faces times K times the square of the scaled normal.", "quantifier": "all orders, all unisolvent nodes, all velocities, all nodal vectors, all solutions, all eigenvalues", "why_tests_cant": "stability of every solution for every velocity and a matrix inequality for all vectors at every order", "anchors": ["modepy/matrices.py:mass_matrix", "modepy/matrices.py:diff_matrices", "modepy/matrices.py:nodal_quadrature_bilinear_form_matrix", "modepy/matrices.py:resampling_matrix", "modepy/shapes.py:faces_for_shape", "modepy/shapes.py:face_normal"]}
