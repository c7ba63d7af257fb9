{"id": "C01", "title": "Nested vector behaves as a list of lists", "statement": "After any sequence of public operations on an initially empty nested vector (push, begin_array with any number of push_single, element writes through get_mut / last_mut, clear), len, get(i) for every i, first, last, iter, iter_array_elements and total_num_elements all answer exactly what a plain list of lists that received the same operations would answer; no operation changes an array it was not addressed to.", "quantifier": "every element type, every finite history of operations, every index", "why_tests_cant": "the flat data plus two offset tables can only drift apart after particular histories (empty arrays, clear followed by push, write through a view); tests sample a few histories", "anchors": ["fenris-nested-vec/src/lib.rs: NestedVec::{new,push,begin_array,get,get_mut,first,last,last_mut,iter,iter_array_elements,total_num_elements,len,clear}, ArrayAppender::{push_single,count,drop}"]}
{"id": "C02", "title": "Nested vector round-trips with Vec<Vec<T>>", "statement": "Converting any Vec<Vec<T>> to a nested vector and back returns the same Vec<Vec<T>>, and converting any nested vector obtained from the API to Vec<Vec<T>> and back gives a nested vector with the same observable contents.", "quantifier": "every vector of vectors; every nested vector reachable through the API", "why_tests_cant": "a round trip over all shapes (empty outer vector, empty inner vectors, any lengths) is unbounded", "anchors": ["fenris-nested-vec/src/lib.rs: From<Vec<Vec<T>>> for NestedVec, From<NestedVec> for Vec<Vec<T>>"]}
{"id": "C03", "title": "Disjoint-subset validation accepts exactly the disjoint families", "statement": "DisjointSubsets::try_from_disjoint_subsets returns Ok if and only if no index occurs in two different subsets; on Ok the subsets and labels are stored unchanged and the stored maximum index is the maximum of all indices (none when there are no indices). It panics only when the number of labels differs from the number of subsets.", "quantifier": "every nested vector of indices and every label vector", "why_tests_cant": "this check is the only guard in front of unsafe parallel writes; a missed sharing pattern is a data race and cannot be found by sampling families", "anchors": ["fenris-paradis/src/lib.rs: DisjointSubsets::{try_from_disjoint_subsets, compute_max_index, max_index, subsets, labels}"]}
{"id": "C04", "title": "Parallel subset iteration visits every subset exactly once under every split schedule", "statement": "However the runtime splits the parallel iterator over subsets (any binary tree of split_at positions permitted by the producer contract) and whether each piece is consumed from the front, the back or both, every subset is delivered exactly once, paired with its own label, and pieces concatenated in tree order give the original order.", "quantifier": "every family of disjoint subsets, every split tree, every interleaving of next and next_back", "why_tests_cant": "the split tree is chosen by a work-stealing scheduler; tests see a handful of schedules", "anchors": ["fenris-paradis/src/lib.rs: DisjointSubsetsParIter / DisjointSubsetsProducer::{split_at,into_iter}, iterator next/next_back/len"]}
{"id": "C05", "title": "Race-free writes: parallel mutation through disjoint subsets equals sequential mutation", "statement": "If each worker only mutates storage through the subset access objects it is handed, then for every interleaving of the individual element updates of all workers the final storage equals the storage obtained by running the subsets one after the other, and every access is inside the bounds of the storage.", "quantifier": "every valid disjoint family, every storage with more elements than the maximum index, every per-subset program of element updates, every interleaving", "why_tests_cant": "interleavings are unbounded in number and chosen by the OS scheduler", "anchors": ["fenris-paradis/src/lib.rs: DisjointSubsets::subsets_par_iter, SubsetAccess::{get,get_mut,len}; fenris-paradis/src/slice.rs: ParallelSliceAccess"]}
{"id": "C06", "title": "Greedy colouring is a proper colouring covering every subset", "statement": "sequential_greedy_coloring terminates on every family of index sets; every input subset appears in exactly one colour, exactly once, with its contents unchanged and its input position as label; and two different subsets in one colour never share an index, so each colour is a valid disjoint family.", "quantifier": "every nested vector of indices (including empty subsets and repeated indices)", "why_tests_cant": "colouring correctness is what makes parallel assembly race-free; it quantifies over all connectivity graphs", "anchors": ["fenris-paradis/src/coloring.rs: sequential_greedy_coloring"]}
{"id": "C07", "title": "Greedy colouring is first-fit and uses a bounded number of colours", "statement": "A subset is placed in colour c only if it shares an index with some earlier subset in every colour before c (so no subset could have been placed earlier); consequently no colour is empty and the number of colours is at most one plus the maximum number of other subsets that intersect any given subset, and at most the number of subsets.", "quantifier": "every nested vector of indices", "why_tests_cant": "performance guarantee over all conflict graphs; tests look at a few graphs", "anchors": ["fenris-paradis/src/coloring.rs: sequential_greedy_coloring"]}
{"id": "C08", "title": "Block adapter exposes disjoint consecutive blocks", "statement": "BlockAdapter::with_block_size accepts a slice exactly when the block size is positive and divides the length; element i of block b is element b*block_size+i of the slice, different (block, element) pairs denote different slice elements, every slice element belongs to exactly one block, and out-of-range element indices are refused.", "quantifier": "every slice length, block size, block index and element index", "why_tests_cant": "aliasing of blocks would be a data race in parallel assembly; arithmetic must hold for all sizes", "anchors": ["fenris-paradis/src/adapter.rs: BlockAdapter, BlockAccess"]}
{"id": "C09", "title": "Utility scans: exclusive prefix sum and vertical stacking", "statement": "prefix_sum(x, x0) yields for every position the initial value plus the sum of all strictly earlier entries (same length as the input). flatten_vertically of column-compatible matrices gives a matrix whose rows are the rows of the inputs in order and None only for an empty input.", "quantifier": "every sequence and initial value; every list of matrices with equal column count", "why_tests_cant": "offset tables for all assembly structures are produced by this scan; it must hold for all lengths", "anchors": ["util/src/lib.rs: prefix_sum, flatten_vertically, flatten_vertically_into"]}
{"id": "C10", "title": "Permutation construction accepts exactly the permutations", "statement": "Permutation::from_vec(v) returns Ok exactly when v contains every index 0..v.len() exactly once, and otherwise reports an error value without panicking.", "quantifier": "every vector of indices", "why_tests_cant": "the set of non-permutations is unbounded", "anchors": ["src/mesh/reorder.rs: Permutation::from_vec"]}
{"id": "C11", "title": "Permutation inverse, reverse and application laws", "statement": "For every permutation p: inverse is again a permutation, inverse(inverse(p)) = p, source_index of the inverse undoes source_index of p in both orders, reverse is a permutation and is an involution, and applying p then its inverse to any slice of matching length restores the slice; apply moves element p.source_index(i) to position i.", "quantifier": "every permutation of every length, every slice", "why_tests_cant": "group laws quantify over all permutations", "anchors": ["src/mesh/reorder.rs: Permutation::{inverse, reverse, source_index, apply_to_slice}"]}
{"id": "C12", "title": "Cuthill-McKee returns a permutation for every sparsity pattern", "statement": "cuthill_mckee and reverse_cuthill_mckee terminate and return a permutation of all rows for every square sparsity pattern with consistent indices, connected or not; for structurally symmetric patterns every connected component is numbered consecutively, and every vertex that is not first of its component is adjacent to an earlier-numbered one.", "quantifier": "every square sparsity pattern", "why_tests_cant": "loss or duplication of a vertex depends on graph shape (several components, isolated rows, self loops)", "anchors": ["src/mesh/reorder.rs: cuthill_mckee, reverse_cuthill_mckee"]}
{"id": "C13", "title": "Mesh reordering preserves the mesh", "statement": "Applying a mesh permutation to a mesh only renumbers: cell k of the result is cell perm(k) of the input with the same sequence of vertex coordinates, the vertex list is a permutation of the original one, and the result is a valid mesh. reorder_mesh_par produces such permutations for every valid mesh, and orders the cells by their least new vertex index.", "quantifier": "every mesh with in-bounds connectivity and every pair of vertex and cell permutations of matching sizes", "why_tests_cant": "must hold for every mesh and every permutation pair", "anchors": ["src/mesh/reorder.rs: MeshPermutation::apply, reorder_mesh_par"]}
{"id": "C14", "title": "Boundary faces are exactly the faces used by one cell", "statement": "find_boundary_faces lists a (cell, local face) pair exactly when no other (cell, local face) pair has the same vertex set; each such face is listed once with its own cell index and local face index, independent of the orientation or starting vertex of the shared face. find_boundary_vertices is the sorted duplicate-free list of the vertices of those faces and find_boundary_cells the corresponding cells.", "quantifier": "every mesh, i.e. every list of cells with faces", "why_tests_cant": "depends on global coincidences between faces of all cells", "anchors": ["src/mesh.rs: Mesh::{find_boundary_faces, find_boundary_cells, find_boundary_vertices}"]}
{"id": "C15", "title": "Sub-mesh extraction keeps exactly the selected cells", "statement": "keep_cells(idx) returns a mesh whose k-th cell has the same vertex coordinates in the same order as cell idx[k] of the input, whose vertices are exactly the vertices referenced by the kept cells, each once and in original relative order; it panics exactly when an index is out of range. The same holds for polyhedral meshes with faces.", "quantifier": "every valid mesh and every list of cell indices (with repetition)", "why_tests_cant": "renumbering must be consistent for every selection", "anchors": ["src/mesh.rs: Mesh::keep_cells", "fenris-geometry/src/polymesh.rs: PolyMesh3d::keep_cells"]}
{"id": "C16", "title": "Uniform refinement covers the parent and stays conforming", "statement": "Uniform refinement replaces each triangle by four children that tile it: the signed areas of the children add up to the signed area of the parent and each child has a quarter of it; children inherit orientation. Every new vertex is the parent vertex or the midpoint of a parent edge, the midpoint of an edge shared by several cells gets one vertex index only, different parent entities get different indices, and all indices are in bounds. refine_uniformly_repeat(n) multiplies the number of cells by 4^n and preserves the total signed area.", "quantifier": "every valid triangle mesh, every vertex coordinates, every number of repetitions", "why_tests_cant": "conformity is a global statement over all meshes; repetition count is unbounded", "anchors": ["src/mesh/refinement.rs, src/mesh/refinement/detail.rs: refine_mesh, UniformRefinement for Tri3d2, refine_uniformly_repeat"]}
{"id": "C17", "title": "Procedural rectangular quad meshes are valid and tile the rectangle", "statement": "create_rectangular_uniform_quad_mesh_2d produces units_x*cells_per_unit by units_y*cells_per_unit cells, (nx+1)(ny+1) vertices, only in-bounds indices, four distinct vertices per quad, each quad an axis-aligned square of side unit_length/cells_per_unit counter-clockwise oriented, distinct grid positions give distinct vertices, and the union of cells is the whole rectangle; if a count is zero the mesh is empty.", "quantifier": "every unit length, unit counts, resolution and corner", "why_tests_cant": "index arithmetic must be right for all sizes", "anchors": ["src/mesh/procedural.rs: create_rectangular_uniform_quad_mesh_2d, create_unit_square_uniform_quad_mesh_2d, voxelize_bounding_box_2d"]}
{"id": "C18", "title": "Procedural hexahedral meshes are valid and tile the box", "statement": "create_rectangular_uniform_hex_mesh produces nx*ny*nz hexahedra over (nx+1)(ny+1)(nz+1) vertices with in-bounds indices, eight distinct vertices per cell at the corners of an axis-aligned cube in the reference ordering (positive volume); neighbouring cells share exactly the vertices of the common face. If any count is zero the mesh has no cells.", "quantifier": "every unit length, unit counts and resolution", "why_tests_cant": "index arithmetic over three nested loops for all sizes", "anchors": ["src/mesh/procedural.rs: create_rectangular_uniform_hex_mesh, create_unit_box_uniform_hex_mesh_3d"]}
{"id": "C19", "title": "Order elevation is conforming and geometry preserving", "statement": "Converting a linear mesh to a higher-order one (Tri3 to Tri6, Quad4 to Quad9, Tet4 to Tet10, Hex8 to Hex20/Hex27, Tet4 to Tet20) keeps all original vertex coordinates of each cell, places each additional node at the average of the vertices of the edge/face/cell it belongs to, gives the same index to the node of an entity shared by several cells, and gives different indices to nodes of different entities.", "quantifier": "every linear mesh with in-bounds connectivity", "why_tests_cant": "global gluing must be right for every mesh topology", "anchors": ["src/mesh_convert.rs: FromTemp impls / From<&Mesh..> impls"]}
{"id": "C20", "title": "Assembled sparsity pattern is exact", "statement": "The CSR pattern computed by the assembler (serial or parallel) has an entry (i,j) exactly when some element contains both the node of row i and the node of column j; row offsets are monotone, column indices strictly increasing and in bounds in each row, and the serial and parallel algorithms agree.", "quantifier": "every element connectivity and solution dimension", "why_tests_cant": "a missing entry makes assembly panic and a spurious entry is silent; quantifies over all connectivities", "anchors": ["src/assembly/global.rs: CsrAssembler::assemble_pattern, CsrParAssembler::assemble_pattern"]}
{"id": "C21", "title": "Global matrix assembly is the sum of element contributions", "statement": "If all nodes exist, no element lists a node twice and all element matrices are produced without error, the assembled matrix entry for (s*I+i, s*J+j) equals its initial value plus the sum over all elements and local node pairs mapped to (I,J) of the corresponding element matrix entry; entries outside element couplings are unchanged. If some element fails, the first failing element's error is returned. (An element listing a node twice makes the assembler panic.)", "quantifier": "every connectivity, every positive solution dimension, every element matrices, every matrix whose pattern contains the element couplings", "why_tests_cant": "must hold for all meshes; index arithmetic with blocks", "anchors": ["src/assembly/global.rs: CsrAssembler::{assemble, assemble_into_csr}, add_element_row_to_csr_row"]}
{"id": "C22", "title": "Parallel matrix and vector assembly equals serial assembly for every schedule", "statement": "With a colouring computed by color_nodes, parallel assembly of matrices and vectors gives, for every order in which the elements of a colour are executed and however their row updates interleave, the same result as serial assembly up to the order in which contributions are summed (identical over exact arithmetic), and no two concurrently executed elements write the same entry.", "quantifier": "every connectivity, every schedule, every element data", "why_tests_cant": "schedules are chosen at run time", "anchors": ["src/assembly/global.rs: CsrParAssembler::{assemble, assemble_into_csr}, VectorParAssembler, color_nodes"]}
{"id": "C23", "title": "Global vector assembly is the sum of element contributions", "statement": "assemble_vector gives out[s*I+i] = sum over elements e and local nodes a with node(e,a)=I of the local vector entry s*a+i; assemble_vector_into adds this to the existing content; local gather then reads exactly these entries.", "quantifier": "every connectivity, solution dimension and local vectors", "why_tests_cant": "unbounded sizes and index arithmetic", "anchors": ["src/assembly/global.rs: VectorAssembler, add_local_to_global, gather_global_to_local"]}
{"id": "C24", "title": "Scalar assembly is the sum over elements and propagates errors", "statement": "assemble_scalar returns the sum of the element scalars, or the error of the first failing element; the parallel version returns the same sum for every reduction tree and an error exactly when some element fails.", "quantifier": "every number of elements, every reduction tree, every failure pattern", "why_tests_cant": "reduction trees are chosen by the runtime", "anchors": ["src/assembly/global.rs: assemble_scalar, par_assemble_scalar"]}
{"id": "C25", "title": "Homogeneous Dirichlet conditions", "statement": "After applying homogeneous Dirichlet conditions for a set of nodes, every row and column of a constrained degree of freedom is zero except for its diagonal entry, which is a nonzero scale; all other entries are unchanged, and the right-hand side is zero on constrained degrees of freedom and unchanged elsewhere. Hence any solution of the modified system vanishes on the constrained degrees of freedom and satisfies the free equations of the original one.", "quantifier": "every square matrix (dense or CSR), every solution dimension, every node set", "why_tests_cant": "must hold for every sparsity pattern and node list, including repeated nodes", "anchors": ["src/assembly/global.rs: apply_homogeneous_dirichlet_bc_csr, apply_homogeneous_dirichlet_bc_matrix, apply_homogeneous_dirichlet_bc_rhs"]}
{"id": "C26", "title": "Aggregated element assemblers act as concatenation", "statement": "An aggregate of element assemblers over the same nodes behaves as one assembler whose elements are those of the parts in order: element count is the sum, and every query for element index e is answered by the part that owns e with the right local index; indices beyond the total are rejected.", "quantifier": "every non-empty list of assemblers (with any numbers of elements each) and every element index", "why_tests_cant": "dispatch uses a binary search over offsets with possible duplicates", "anchors": ["src/assembly/local.rs: AggregateElementAssembler::{from_assemblers, find_assembler_and_offset_for_element_index, ...}"]}
{"id": "C27", "title": "Compact quadrature tables mean the same as expanded ones", "statement": "A compact quadrature table returns for every element exactly the points, weights and data of the rule assigned to the element, the same as a general table with the rule repeated per element; a uniform table returns the same rule for every element; and the conversions preserve every element's rule.", "quantifier": "every list of rules, every element-to-rule map, every element index", "why_tests_cant": "indirection tables over all sizes", "anchors": ["src/assembly/local/quadrature_table.rs: GeneralQuadratureTable, UniformQuadratureTable, CompactQuadratureTable"]}
{"id": "C28", "title": "Element matrices of symmetric operators are symmetric and match the weak form", "statement": "The element matrix computed for an elliptic operator equals the quadrature sum of w |det J| C(grad u; grad phi_I, grad phi_J); for an operator declared symmetric (upper triangle computed then mirrored) the result is the full symmetric matrix, the same as computing all blocks, whenever the contraction satisfies C(b,a)=C(a,b)^T. A singular Jacobian at a quadrature point yields an error.", "quantifier": "every element, quadrature rule, solution and operator satisfying the symmetry contract", "why_tests_cant": "for all element sizes and dimensions", "anchors": ["src/assembly/local/elliptic.rs, src/assembly/operators.rs, src/util.rs: clone_upper_to_lower"]}
{"id": "C29", "title": "Element mass matrix and source vector", "statement": "The element mass matrix equals the quadrature sum of density w |det J| phi_I phi_J on the diagonal of each s-by-s block and zero off it, it is symmetric, and (with partition of unity) its entries sum to s times the element mass; the source vector equals the quadrature sum of w |det J| phi_I f(x).", "quantifier": "every element node count, quadrature rule, density and solution dimension", "why_tests_cant": "all sizes", "anchors": ["src/assembly/local/mass.rs, src/assembly/local/source.rs"]}
{"id": "C30", "title": "Conjugate gradient: outcome contract", "statement": "For every operator, preconditioner, stopping criterion and iteration limit, the solver terminates within the iteration limit; Ok(k) implies the stopping criterion held for the final iterate and k operator steps were made (or b is zero and x is zero); MaxIterationsReached is returned only after exactly max_iter steps with the criterion still failing; IndefiniteOperator / IndefinitePreconditioner only when p.Ap <= 0 or z.r <= 0 was observed; operator or preconditioner errors are passed through.", "quantifier": "every linear operator (even failing ones), right-hand side, initial guess, limit", "why_tests_cant": "unbounded iteration histories", "anchors": ["fenris-sparse/src/cg.rs: ConjugateGradient::solve_with_guess"]}
{"id": "C31", "title": "Conjugate gradient: maintained residual and conjugacy", "statement": "Over exact arithmetic the residual the solver maintains equals b - A x at every step for every linear operator; with the relative criterion Ok therefore means |b - A x| <= tol |b|. For symmetric positive definite A and SPD preconditioner the search directions are mutually A-conjugate and residuals mutually P-orthogonal, so the solver stops after at most n steps, never reports indefiniteness.", "quantifier": "every dimension, operator, right-hand side, initial guess, number of steps", "why_tests_cant": "statement about all steps of all runs", "anchors": ["fenris-sparse/src/cg.rs: ConjugateGradient::solve_with_guess, RelativeResidualCriterion"]}
{"id": "C32", "title": "Newton iteration: outcome contract", "statement": "newton / newton_line_search returns Ok(k) only if the residual norm at the returned x is at most the tolerance, after exactly k solved steps; it reports MaximumIterationsReached only if the limit was hit with the residual above tolerance; a failing linear solve or line search is passed through; x always equals the initial guess plus the accumulated accepted steps; with the plain step and an affine function with invertible exact Jacobian solve it converges in at most one step.", "quantifier": "every function, Jacobian solver (including failing ones), settings, initial guess", "why_tests_cant": "unbounded iteration histories", "anchors": ["fenris-optimize/src/newton.rs: newton, newton_line_search, NoLineSearch"]}
{"id": "C33", "title": "Backtracking line search: sufficient decrease and termination", "statement": "BacktrackingLineSearch terminates after a bounded number of trials for every merit function; on success x = x0 + alpha p for the returned alpha in (0,1], the residual output belongs to that x and satisfies the sufficient decrease condition; on failure x is still of the form x0 + alpha p with the last trial alpha and no trial with larger alpha satisfied the condition; the first acceptable trial is taken.", "quantifier": "every function, direction and starting point", "why_tests_cant": "all functions", "anchors": ["fenris-optimize/src/newton.rs: BacktrackingLineSearch::step"]}
{"id": "C34", "title": "Finite-difference derivatives", "statement": "approximate_gradient_fd and approximate_jacobian(_fd) with step h > 0 return exact derivatives for every polynomial of degree at most two, restore the evaluation point, and evaluate only at x +- h e_i.", "quantifier": "every dimension, quadratic function, point and step", "why_tests_cant": "all functions of the class", "anchors": ["fenris-optimize/src/calculus.rs: approximate_gradient_fd, approximate_jacobian, approximate_jacobian_fd"]}
{"id": "C35", "title": "Partition of unity", "statement": "At every reference point (inside the element or not) the basis functions of every element type add up to one and their gradients to zero.", "quantifier": "every element type, every point, every field of characteristic zero", "why_tests_cant": "a polynomial identity over an infinite field cannot be sampled", "anchors": ["src/element/segment.rs", "src/element/triangle.rs", "src/element/quadrilateral.rs", "src/element/tetrahedron.rs", "src/element/hexahedron.rs", "src/element.rs: phi_linear_1d, phi_quadratic_1d"]}
{"id": "C36", "title": "Nodal (Kronecker delta) property and interpolation of nodal values", "statement": "Basis function i of every element type is one at reference node i and zero at the other reference nodes; hence the interpolant takes the prescribed value at each node for all nodal values.", "quantifier": "every element type, all pairs of nodes, all nodal values", "why_tests_cant": "finite for the tables, but the consequence quantifies over all nodal value vectors", "anchors": ["src/element/*.rs"]}
{"id": "C37", "title": "Basis gradients are the derivatives of the basis functions", "statement": "For every element type, every basis function, every point and direction, the gradient reported equals the derivative of the basis function value (as a formal derivative of polynomials and as a derivative over the reals).", "quantifier": "every element type, basis function, point", "why_tests_cant": "identity over an infinite domain", "anchors": ["src/element/*.rs: populate_basis_gradients / gradients"]}
{"id": "C38", "title": "Polynomial reproduction", "statement": "Interpolating the nodal values of a polynomial of the element's order (1 for linear/bilinear/trilinear types, 2 for quadratic, 3 for cubic; tensor degree for quads and hexes) reproduces that polynomial at every point; in particular the geometric map of a higher-order element whose extra nodes are midpoints coincides with the linear map, and the Jacobian is the derivative of the geometric map.", "quantifier": "every element type, polynomial of the right degree, point", "why_tests_cant": "identity over all polynomials and points", "anchors": ["src/element/*.rs: map_reference_coords, reference_jacobian"]}
{"id": "C39", "title": "Inter-element continuity", "statement": "On each face of an element the interpolant depends only on the values at the nodes the connectivity lists for that face; two elements sharing a face therefore produce the same trace there.", "quantifier": "every element type, local face, nodal values and point of the face", "why_tests_cant": "conformity of all meshes at all points", "anchors": ["src/element/*.rs", "src/connectivity.rs: get_face_connectivity"]}
{"id": "C40", "title": "Quadrature subdivision preserves exactness", "statement": "subdivide_univariate(rule, n) and subdivide_triangle(rule, n) for n >= 1 integrate exactly every polynomial that the base rule integrates exactly (up to the same total degree), the weights add up to the same total, points stay in the reference domain and weights keep their sign.", "quantifier": "every base rule, n >= 1 and polynomial", "why_tests_cant": "all n and rules", "anchors": ["src/quadrature/subdivide.rs: subdivide_univariate, subdivide_triangle"]}
{"id": "C41", "title": "Tensor-product quadrature", "statement": "The quadrilateral and hexahedron Gauss rules built from a one-dimensional rule integrate x^a y^b (z^c) to the product of the one-dimensional results, in the enumeration order of the tensor product; weights are the products and the number of points is n^d.", "quantifier": "every one-dimensional rule and exponents", "why_tests_cant": "all rules", "anchors": ["fenris-quadrature/src/tensor.rs: quadrilateral_gauss, hexahedron_gauss", "src/quadrature/tensor.rs"]}
{"id": "C42", "title": "Legendre recurrence", "statement": "The recurrence evaluator used to build Gauss rules returns the Legendre polynomial P_n(x) together with P_{n-1}(x), and the derivative formula gives P_n'(x) for x not in {-1, 1}; Gauss point lists are symmetric about zero with equal weights on mirrored points. P_n has exactly n roots, all simple and inside of the interval. From guesses close enough to the roots the function returns, for every tolerance, with points within the tolerance of the roots; and if the points are the roots, the rule has positive weights and is exact for polynomials of degree 2 n - 1.", "quantifier": "every n and x; every n, tolerance and close guesses for the rule", "why_tests_cant": "all degrees", "anchors": ["fenris-quadrature/src/univariate.rs: LegendreRecurrence, gauss, try_gauss_lobatto"]}
{"id": "C43", "title": "Minimum-strength rule selection", "statement": "Selecting a quadrature rule by total order returns the available rule of smallest strength not below the requested one, or NoRuleAvailable exactly when every available rule is weaker; selection always terminates.", "quantifier": "every set of available strengths and every request", "why_tests_cant": "generated match tables; all requests", "anchors": ["fenris-quadrature/build.rs, fenris-quadrature/src/polyquad.rs"]}
{"id": "C44", "title": "Quadrature file parser", "statement": "parse2d / parse3d return one point per non-blank line, in order, with coordinates and weight equal to the parsed numbers, and fail exactly when a non-blank line has a wrong number of columns or an unparsable number.", "quantifier": "every input text", "why_tests_cant": "all texts", "anchors": ["polyquad-parse/src/lib.rs: parse2d, parse3d, parse_helper"]}
{"id": "C45", "title": "Bounding boxes: enclosure, intersection, containment", "statement": "The box of a point set contains every point and is contained in every box containing them; enclose is the least upper bound; intersects holds exactly when the boxes share a point; contains_point is coordinatewise; corners enumerate all 2^d corner combinations.", "quantifier": "every dimension, points and boxes", "why_tests_cant": "all points and dimensions", "anchors": ["fenris-geometry/src/lib.rs: AxisAlignedBoundingBox::{from_points, enclose, intersects, contains_point, corners_iter, grow_uniformly, uniformly_scale}"]}
{"id": "C46", "title": "Bounding boxes: distances", "statement": "closest_point_to returns the point of the box closest to the query, dist2_to its squared distance (zero exactly for contained points), furthest_point_to/max_dist2_to the point of the box with the largest distance.", "quantifier": "every box, query point and dimension", "why_tests_cant": "optimality over all points of the box", "anchors": ["fenris-geometry/src/lib.rs: AxisAlignedBoundingBox::{closest_point_to, dist2_to, furthest_point_to, max_dist2_to}"]}
{"id": "C47", "title": "Line and segment projections and intersections", "statement": "closest_point on a segment minimises the distance over the segment (also for degenerate segments); the returned parameter is in [0,1]; line-line and segment-segment intersection return parameters exactly for a common point, which is unique for non-parallel lines; intersection of a segment with a half-plane returns the exact sub-segment inside it; the closest point to a plane minimises the distance to the plane.", "quantifier": "every segment, line, plane, point over an ordered field", "why_tests_cant": "optimality over all points", "anchors": ["fenris-geometry/src/primitives/line.rs"]}
{"id": "C48", "title": "Segment-disk intersection", "statement": "LineSegment2d::intersect_disk(_parametric) returns the part of the segment inside the disk and None exactly when no point of the segment lies in the disk.", "quantifier": "every segment and disk", "why_tests_cant": "all configurations", "anchors": ["fenris-geometry/src/primitives/line.rs: LineSegment2d::intersect_disk_parametric"]}
{"id": "C49", "title": "Convex polygon clipping", "statement": "Clipping a convex polygon with a half-plane yields a polygon all of whose vertices lie in the polygon's convex hull and in the half-plane, that contains every vertex of the original lying in the half-plane, and every point of the original inside the half-plane is a convex combination of the result's vertices; intersecting with another polygon clips with each of its half-planes.", "quantifier": "every polygon and half-plane", "why_tests_cant": "all configurations, unbounded number of vertices", "anchors": ["fenris-geometry/src/polytope.rs: ConvexPolygon::{intersect_halfplane, intersect_polygon}", "fenris-geometry/src/polygon.rs: SimplePolygon3d::intersect_half_space"]}
{"id": "C50", "title": "Polygon area and fan triangulation", "statement": "The signed area of a polygon does not depend on the starting vertex, changes sign under reversal, is translation invariant, and equals the sum of the signed areas of its fan triangulation (also about an arbitrary interior point).", "quantifier": "every polygon with any number of vertices", "why_tests_cant": "unbounded number of vertices", "anchors": ["fenris-geometry/src/polygon.rs", "fenris-geometry/src/polytope.rs: ConvexPolygon::triangulate"]}
{"id": "C51", "title": "Triangle signed distance and containment", "statement": "For a counter-clockwise triangle the signed distance query is negative exactly inside, its magnitude is the distance to the closest boundary point, and the point returned is a closest boundary point.", "quantifier": "every counter-clockwise non-degenerate triangle and point", "why_tests_cant": "all configurations", "anchors": ["fenris-geometry/src/primitives/triangle.rs: Triangle2d::query_signed_distance"]}
{"id": "C52", "title": "Quadrilateral splitting", "statement": "Splitting a quadrilateral into two triangles gives triangles whose signed areas add up to the signed area of the quadrilateral and, for a simple quadrilateral (convex or concave), both triangles lie inside it; area() is its area.", "quantifier": "every simple quadrilateral", "why_tests_cant": "all configurations", "anchors": ["fenris-geometry/src/primitives/quad.rs: Quad2d::{concave_corner, split_into_triangle_connectivities, area}"]}
{"id": "C53", "title": "Polygon-segment intersection test", "statement": "A general polygon's intersects_segment returns true exactly when some point of the segment lies in the polygon.", "quantifier": "every simple polygon and segment", "why_tests_cant": "all configurations", "anchors": ["fenris-geometry/src/polygon.rs: GeneralPolygon::intersects_segment"]}
{"id": "C54", "title": "Closest-element search over the spatial index is exact", "statement": "For a space with at least one element the search over the spatial index returns an element whose closest point is at least as close to the query as the closest point of every other element, and if some element contains the point such an element is returned; None exactly for a space without elements.", "quantifier": "every set of elements contained in their bounding boxes and every query point", "why_tests_cant": "pruning by bounding boxes must never discard the best candidate", "anchors": ["src/space/spatially_indexed.rs: SpatiallyIndexed::find_closest_element_and_reference_coords"]}
{"id": "C55", "title": "Fixed interpolators agree with direct interpolation", "statement": "Building a fixed interpolator for a list of points and evaluating it for any coefficient vector gives, at every point, the same value as direct interpolation; building it in parallel gives the same table; for a space without elements it returns None.", "quantifier": "every space, list of points and coefficient vector", "why_tests_cant": "all spaces and lengths", "anchors": ["src/space/fixed_interpolator.rs: FixedInterpolator::{from_space_and_points, interpolate, from_compressed_values}"]}
{"id": "C56", "title": "Stress is the derivative of energy", "statement": "For every material (linear elastic, St. Venant-Kirchhoff, Neo-Hookean where J > 0), every displacement gradient and direction, the stress tensor contracted with the direction is the directional derivative of the strain energy density with respect to the deformation gradient; energy and stress vanish at the undeformed state.", "quantifier": "every dimension, material parameters, deformation gradient and direction", "why_tests_cant": "identity over an infinite domain", "anchors": ["fenris-solid/src/materials.rs"]}
{"id": "C57", "title": "Stress contraction is the derivative of stress and is symmetric", "statement": "compute_stress_contraction(F,a,b) applied to a vector equals the contraction of the directional derivative of the stress, satisfies C(b,a)=C(a,b)^T, and the batched contraction accumulates alpha times the same blocks into the upper triangle it is asked for.", "quantifier": "every dimension, material, deformation gradient, pair of vectors", "why_tests_cant": "identity over an infinite domain", "anchors": ["fenris-solid/src/materials.rs", "fenris-solid/src/lib.rs: compute_batch_contraction"]}
{"id": "C58", "title": "log det F", "statement": "log_det_F(du/dX) returns ln det(I + du/dX) in one, two and three dimensions, and None exactly when that determinant is not positive.", "quantifier": "every displacement gradient", "why_tests_cant": "identity over an infinite domain", "anchors": ["fenris-solid/src/logdet.rs: log_det_F"]}
{"id": "C59", "title": "Elastic parameter conversion and deformation gradient round-trip", "statement": "Converting Young/Poisson to Lame parameters satisfies the defining relations E = mu(3 lambda+2 mu)/(lambda+mu), nu = lambda/(2(lambda+mu)); deformation gradient and displacement gradient conversions are mutually inverse.", "quantifier": "every admissible parameter pair; every matrix", "why_tests_cant": "identities over infinite domains", "anchors": ["fenris-solid/src/materials.rs: LameParameters", "fenris-solid/src/lib.rs: compute_deformation_gradient"]}
{"id": "C60", "title": "Mesh file loading", "statement": "Loading a msh file keeps the vertices in node-block order and the cells of exactly the matching element type in order with indices one less than the node tags; files with no nodes, no elements, no matching element block, wrong node counts per element or sparse tags are rejected rather than producing out-of-bounds connectivity.", "quantifier": "every parsed msh content", "why_tests_cant": "all files", "anchors": ["src/io/msh.rs"]}
{"id": "C61", "title": "VTK export layout", "statement": "The exported legacy cell array decodes to exactly the mesh's cells (node count then indices, in VTK order), points are padded with zeros to three components, vector attributes likewise; mapping to VTK node order is a permutation of the element's nodes for complete elements, placing each edge node on the edge VTK expects.", "quantifier": "every mesh", "why_tests_cant": "all meshes", "anchors": ["src/io/vtk.rs: FiniteElementMeshDataSetBuilder::try_build, VtkCellConnectivity"]}
{"id": "C62", "title": "Polyhedral mesh concatenation and face deduplication", "statement": "Concatenating polyhedral meshes gives the vertices, faces and cells in order with consistent offsets (each face has the same coordinates as before); dedup_faces leaves each cell with topologically the same faces, leaves no two faces with equal vertex sets, and keeps the first representative; results are always in bounds.", "quantifier": "every list of valid polyhedral meshes", "why_tests_cant": "all meshes", "anchors": ["fenris-geometry/src/polymesh.rs: PolyMesh::{concatenate, dedup_faces, from_poly_data, find_boundary_faces, compute_face_cell_connectivity}"]}
{"id": "C63", "title": "Polyhedral edge splitting", "statement": "split_edges inserts exactly one vertex per undirected edge at its midpoint, faces that share an edge share the new vertex, every face doubles its number of vertices and keeps the originals in order, cells are unchanged; n repetitions give 2^n times as many vertices per face.", "quantifier": "every valid polyhedral mesh and n", "why_tests_cant": "all meshes and repetition counts", "anchors": ["fenris-geometry/src/polymesh.rs: PolyMesh::{split_edges, split_edges_n_times}"]}
{"id": "C64", "title": "Polyhedral triangulation", "statement": "triangulate fails exactly when some face has fewer than three vertices; otherwise every cell of the result has four triangular faces over four vertices (a tetrahedron), all tetrahedra of a cell share the cell's least vertex, faces are split independently of the cell so neighbouring cells agree on the split of a shared face, and indices are in bounds; for a convex cell the signed volumes of its tetrahedra add up to its volume.", "quantifier": "every valid polyhedral mesh", "why_tests_cant": "all meshes", "anchors": ["fenris-geometry/src/polymesh.rs: PolyMesh3d::triangulate"]}
{"id": "C65", "title": "Cyclic-shift equality and index-set power enumeration", "statement": "slices_are_equal_shift_invariant(a,b) holds exactly when b is a rotation of a; the power index iterator enumerates every D-tuple over 0..n exactly once, with the first index varying fastest.", "quantifier": "every pair of slices; every n and D", "why_tests_cant": "all lengths", "anchors": ["fenris-geometry/src/util.rs: slices_are_equal_shift_invariant, index_set_nth_power_iter"]}
{"id": "C66", "title": "Element integrals are quadrature sums and linear", "statement": "integrate_over_element returns sum of w |J| f(x,u_h) over quadrature points (sqrt det J^T J for embedded elements), is additive and homogeneous in the integrand, and integrating the constant 1 gives the quadrature approximation of the measure; the volume version fails exactly on a singular Jacobian at some point.", "quantifier": "every element, rule, integrand and coefficient vector", "why_tests_cant": "all integrands and sizes", "anchors": ["src/integrate.rs: integrate_over_element, integrate_over_volume_element, volume_form"]}
{"id": "C67", "title": "Error norms are consistent", "statement": "The squared L2 error computed for an element is non-negative, zero exactly when the interpolant equals the reference solution at every quadrature point (for positive weights and non-degenerate Jacobian), and the global error is the square root of the sum over elements.", "quantifier": "every element, rule, functions", "why_tests_cant": "all inputs", "anchors": ["src/error.rs"]}
{"id": "C68", "title": "Renaming element nodes relocates the assembled entries", "statement": "Assembling with element nodes mapped by an injective function into a (larger) node range gives a matrix with every original entry at the renamed row and column and zero in every row or column that is not a renamed degree of freedom.", "quantifier": "every connectivity, element matrices, solution dimension and injective node map", "why_tests_cant": "all connectivities and maps", "anchors": ["src/assembly/local.rs: ElementConnectivityAssembler::map_element_nodes, MapElementNodes; src/assembly/global.rs: CsrAssembler"]}
{"id": "C69", "title": "End-to-end assembly of an elliptic problem", "statement": "Assembling the global matrix, vector or energy from a finite element space, an elliptic operator, a quadrature table and a solution vector succeeds when no Jacobian at a quadrature point is singular, and gives in each entry the sum over all elements of the element's quadrature sums with the solution taken at the element's nodes, whatever the thread workspace and the output buffers held before.", "quantifier": "every space, operator obeying its declared symmetry, table, solution vector, workspace content, hash order and sort", "why_tests_cant": "all meshes, operators and workspace histories", "anchors": ["src/assembly/local/elliptic.rs: ElementEllipticAssembler; src/assembly/buffers.rs; src/assembly/global.rs: CsrAssembler, VectorAssembler, assemble_scalar"]}
{"id": "C70", "title": "Closest-point queries of simplices are exact", "statement": "For triangles in the plane, triangles in space and tetrahedra, degenerate or not, closest_point never panics and returns reference coordinates of a point to which no point of the element is closer to the query; the coordinates lie in the reference element up to the documented tolerance; InElement is answered only with the coordinates of the query point, and for every interior point.", "quantifier": "every element, query point and tolerance", "why_tests_cant": "all positions, including degenerate elements and points on the boundary", "anchors": ["src/element/triangle.rs: Tri3d2Element::closest_point, Tri3d3Element::closest_point; src/element/tetrahedron.rs: Tet4Element::closest_point"]}
{"id": "C71", "title": "Assembled vectors and matrices are derivatives of the assembled energy", "statement": "If the operator's flux is the derivative of its energy density and its contraction the derivative of its flux, then the assembled vector at u is the gradient at u of the assembled energy and the assembled matrix the derivative at u of the assembled vector, in every direction, for single elements and for the whole mesh. The Laplace, linear elastic and St. Venant-Kirchhoff operators have that property.", "quantifier": "every space, table, solution vector, direction and operator", "why_tests_cant": "all meshes, solutions and directions; derivatives are limits", "anchors": ["src/assembly/local/elliptic.rs; src/assembly/global.rs; src/assembly/operators.rs: EllipticEnergy, EllipticOperator, EllipticContraction; src/assembly/operators/laplace.rs; fenris-solid/src/lib.rs: MaterialEllipticOperator"]}
{"id": "C72", "title": "Material energies are objective and have the right sign", "statement": "The energy densities of the St. Venant-Kirchhoff and Neo-Hookean materials do not change when the deformed body or the material is rotated, and the stress turns along; the linear elastic energy is unchanged by infinitesimal rotations; for mu > 0, lambda >= 0 the linear elastic and St. Venant-Kirchhoff energies are non-negative and vanish only without strain.", "quantifier": "every deformation gradient, rotation and parameters", "why_tests_cant": "all matrices", "anchors": ["fenris-solid/src/materials.rs: LinearElasticMaterial, StVKMaterial, NeoHookeanMaterial"]}
{"id": "C73", "title": "Clipping a polyhedral mesh by a half-space or a convex polyhedron", "statement": "intersect_half_space never panics on a valid mesh and returns a valid mesh: the faces clipped at the boundary plane with their vertices shared, the old cells in order with their clipped faces, and caps along the cuts. Every vertex lies in the half-space and is an old vertex or the point of an edge on the plane; watertight cells stay watertight; a mesh inside is unchanged and a mesh outside disappears. intersect_convex_polyhedron leaves only vertices on the inner side of every face of the polyhedron.", "quantifier": "every valid mesh, half-space and convex polyhedron, including vertices exactly on the plane", "why_tests_cant": "all meshes and planes; the stringing of cut edges has to work for every cell", "anchors": ["fenris-geometry/src/polymesh.rs: PolyMesh3d::intersect_half_space, intersect_convex_polyhedron"]}
{"id": "C74", "title": "Winding numbers of closed triangle surfaces", "statement": "compute_winding_number_for_triangles_3d of a closed oriented surface is a whole number away from the surface: one at points enclosed once by outward triangles, zero at points outside, constant while the point moves without crossing the surface; it does not depend on the order of the triangles or on their first vertices, and changes sign with the orientation.", "quantifier": "every closed surface of triangles and every point", "why_tests_cant": "all surfaces and points; the sum of the angles is a whole number of turns only by a global argument", "anchors": ["fenris-geometry/src/primitives/triangle.rs: Triangle3d::compute_solid_angle, compute_winding_number_for_triangles_3d"]}
{"id": "C75", "title": "Point queries of convex polygons and polyhedra in space", "statement": "For a strictly convex planar polygon in space closest_point returns a point of the polygon to which no other is closer, with its distance. For a convex polyhedron contains_point answers whether the point is in the convex hull of the vertices, and compute_signed_distance returns a closest point of the surface, the face it lies on and a distance whose sign tells inside from outside; tetrahedra and parallelepiped hexahedra are convex polyhedra with these faces, their distance is the distance to the solid, and the volume of a tetrahedron is the absolute value of a sixth of its determinant.", "quantifier": "every convex polygon and polyhedron and every query point", "why_tests_cant": "all polyhedra and points, including points on edges, faces and vertices", "anchors": ["fenris-geometry/src/lib.rs: ConvexPolygon3d::closest_point, ConvexPolyhedron; fenris-geometry/src/primitives/tetrahedron.rs; fenris-geometry/src/primitives/hexahedron.rs; fenris-geometry/src/primitives/triangle.rs: Triangle3d"]}
{"id": "C76", "title": "A workspace is a map from types to values", "statement": "Workspace::get_or_insert_with and get_or_default never panic: every type has at most one value, which is created on the first access with this type only, is handed out on every later access with the changes made to it, and is not affected by accesses with other types, in any order. with_thread_local_workspace panics exactly if the same thread-local workspace is used again inside the closure.", "quantifier": "every history of accesses with any types, and every nesting of thread-local workspaces", "why_tests_cant": "all histories; the entries move inside the workspace on every access", "anchors": ["src/workspace.rs: Workspace::get_or_insert_with, get_or_default, with_thread_local_workspace"]}
{"id": "C77", "title": "Signed distance functions measure distances", "statement": "The signed distance functions of circles and axis-aligned boxes are negative or zero exactly in the shape and are everywhere the distance to its boundary; a union is negative or zero exactly in the union of the shapes, is the distance to it outside and never more than the distance to the outside inside. Gradients of circles are unit vectors along which the function grows with slope one and exist except in the centre; gradients of boxes are the normals of the sides; bounding boxes contain the shapes.", "quantifier": "every circle, box and union, and every point", "why_tests_cant": "all shapes and points, including centres, corners and points on the boundary", "anchors": ["fenris-geometry/src/sdf.rs: SdfCircle, SdfAxisAlignedBox, SdfUnion"]}
{"id": "C78", "title": "Rows of a CSR matrix can be processed in parallel", "statement": "ParallelCsrRowCollection gives access to exactly the rows of the matrix: record i has the columns and the values of row i, writing to it changes only these values, different records never share a value and together they cover all values, so that every interleaving of workers on different rows has the same result.", "quantifier": "every valid CSR matrix, including empty rows, and every interleaving of workers", "why_tests_cant": "all matrices and schedules; the access uses raw pointers", "anchors": ["fenris-sparse/src/sparse.rs: ParallelCsrRowCollection, CsrParallelRowAccess, ParCsrRow, ParCsrRowMut"]}
{"id": "C79", "title": "The boundary of a mesh encloses the mesh", "statement": "In a mesh whose neighbouring cells see their common faces with opposite orientations, everything that changes sign with the orientation of a face has the same sum over the faces of all cells as over the faces listed by find_boundary_faces. So the boundary of a tetrahedral or hexahedral mesh is a closed surface, the boundary of a triangle or quadrilateral mesh consists of closed curves, and the volume (area) they enclose is the sum of the volumes (areas) of the cells. A tetrahedral mesh with positive volumes whose cells lie on different sides of their common faces is such a mesh, which is the case whenever no two cells overlap, and extract_surface_mesh of it is a closed surface with whole winding numbers.", "quantifier": "every consistently oriented mesh of any size, and every additive quantity", "why_tests_cant": "all meshes and quantities; the statement is global, no local check of a face shows it", "anchors": ["src/mesh.rs: Mesh::find_boundary_faces, extract_surface_mesh; src/connectivity.rs: get_face_connectivity of Tri3d2, Quad4d2, Tet4 and Hex8"]}
{"id": "C80", "title": "Conversions between finite element and polyhedral meshes", "statement": "PolyMesh::from(&mesh) keeps the vertices and cells, lists every face once however many cells share it and with the vertex order of its first appearance, and every cell gets the faces of its element in their order; its boundary faces are those of the mesh. Tet4Mesh::try_from(&poly_mesh) succeeds exactly if every cell has four faces that fit a tetrahedron, and then has the same vertices and one tetrahedron of non-negative volume with the vertices of each cell; converting a tetrahedral mesh there and back gives the same cells, up to the order of vertices and with the absolute volumes. Tet4Mesh::from(&hex_mesh) never panics, keeps the vertices, and splits each cell that is a parallelepiped into six tetrahedra of a sixth of its volume.", "quantifier": "every mesh with vertex indices in bounds, every polyhedral mesh whose first faces are triangles", "why_tests_cant": "all meshes, with any sharing of faces, orders of vertices and orientations", "anchors": ["src/mesh_convert.rs: From<&Mesh> for PolyMesh, TryFrom<&PolyMesh3d> for Tet4Mesh, From<&HexMesh> for Tet4Mesh"]}
{"id": "C81", "title": "Splitting quadrilateral meshes, translations and bounding boxes of meshes", "statement": "QuadMesh2d::split_into_triangles keeps the vertices and the total signed area and replaces every quadrilateral by two triangles that tile it if it is strictly convex; the uniform triangle mesh of the unit square has 2n^2 triangles of the same positive area that tile the square. transform_vertices calls the closure once per vertex in order and changes nothing else; translate moves every vertex by the vector and keeps volumes and areas, and is undone by the opposite translation. bounding_box is the smallest box with all vertices of all cells, and the origin without cells.", "quantifier": "every mesh of any size with indices in bounds, every vector and every resolution", "why_tests_cant": "all meshes, vectors and resolutions", "anchors": ["src/mesh.rs: QuadMesh2d::split_into_triangles, Mesh::translate, transform_vertices, bounding_box; src/mesh/procedural.rs: create_unit_square_uniform_tri_mesh_2d"]}
{"id": "C82", "title": "Meshes for signed distance functions", "statement": "voxelize_bounding_box_2d panics exactly without a positive cell size or without extent in some direction; otherwise it tiles a region around the box with squares of one size that is at most the given one. voxelize_sdf_2d keeps exactly the squares with a vertex in the shape; every point deeper in the shape than half the diagonal of a cell is covered, and no point of a cell is farther from the shape than a diagonal. The quadrilateral and triangle meshes have the kept cells, with the vertices outside moved by their distance into the shape and the others unchanged.", "quantifier": "every signed distance function with a box of positive extents (for the moved vertices: with unit gradients that lead into the shape, such as circles and unions of them), and every positive cell size", "why_tests_cant": "all shapes and resolutions", "anchors": ["src/mesh/procedural.rs: voxelize_bounding_box_2d, voxelize_sdf_2d, approximate_quad_mesh_for_sdf_2d, approximate_triangle_mesh_for_sdf_2d"]}
{"id": "C83", "title": "Uniform tetrahedral meshes of boxes", "statement": "create_rectangular_uniform_tet_mesh is empty if a count is zero; otherwise its vertices are the points of the grid and the centres of its cells, and its 12 tetrahedra per cell have four distinct vertices in bounds, positive orientation and the same volume, a twelfth of a cell. The tetrahedra tile the box: every point of the box is in one of them, no point outside is, and no two interiors meet. The mesh is conforming: two tetrahedra with a common face lie on different sides of it, every face that is not in a side of the box belongs to exactly two tetrahedra, and the boundary faces are exactly those in the sides; they enclose the volume of the box.", "quantifier": "every positive unit length, all numbers of units and every resolution", "why_tests_cant": "all sizes and resolutions; overlap, gaps and hanging faces are global properties", "anchors": ["src/mesh/procedural.rs: create_rectangular_uniform_tet_mesh"]}
{"id": "C84", "title": "Inverting the reference map of an element", "statement": "map_physical_coordinates returns for every element and every point. Coordinates that it returns are mapped to the point up to the tolerance, and an error means that 20 rounds were not enough or a singular Jacobian. On a triangle, tetrahedron, parallelogram or parallelepiped that is not degenerate it never fails and its answer is exact (or the accepted centre of the reference element); a degenerate one is reported. diameter is the largest distance of two points of the element. project_physical_coordinates panics exactly if the reference dimension is larger, and its answer satisfies the condition for a closest point up to the tolerance; on segments, triangles and parallelograms in space it returns the closest point of the line or plane in two rounds.", "quantifier": "every element kind, every list of vertices and every point", "why_tests_cant": "all elements and points; convergence and termination of an iteration cannot be tested", "anchors": ["src/element.rs: map_physical_coordinates, project_physical_coordinates, FiniteElement::diameter"]}
{"id": "C85", "title": "Rotations and frames", "statement": "compute_orthonormal_vectors_3d completes every unit vector to a right-handed orthonormal frame; so do the tangents of planes. rotation_svd turns a singular value decomposition into one with two rotations, with the sign of the determinant on the smallest singular value. apd returns a unit quaternion for every matrix, tolerance and number of rounds; it returns an initial guess that already is the polar factor unchanged, rotating the matrix and the guess rotates the result, each round moves along a direction of descent of the distance between rotation and matrix, and with tolerance zero a result that one more round does not change is a polar factor. It need not converge, however near the guess is. orient2d_inexact is twice the signed area, cross_product_matrix multiplies like the cross product and diag_left_mul is the product with a diagonal matrix.", "quantifier": "every vector, matrix, unit quaternion, tolerance and number of rounds", "why_tests_cant": "all matrices and initial guesses; convergence of an iteration", "anchors": ["src/util.rs: rotation_svd, apd, diag_left_mul, cross_product_matrix; fenris-geometry/src/util.rs: compute_orthonormal_vectors_3d; fenris-geometry/src/primitives/plane.rs; fenris-geometry/src/predicates.rs"]}
{"id": "C86", "title": "Eigenvalues and condition numbers of symmetric matrices", "statement": "min_eigenvalue_symmetric returns the smallest eigenvalue of a symmetric matrix, which is the smallest value of its quadratic form on unit vectors, and min_max_symmetric_eigenvalues also the largest; they panic exactly for matrices without rows. condition_number_symmetric returns the condition number of every symmetric positive definite matrix. For matrices with negative eigenvalues it may return something else.", "quantifier": "every symmetric matrix of every size, given by its spectral decomposition", "why_tests_cant": "all sizes and matrices; the bound of the quadratic form ranges over all vectors", "anchors": ["src/util.rs: min_eigenvalue_symmetric, min_max_symmetric_eigenvalues, condition_number_symmetric"]}
{"id": "C87", "title": "The shipped quadrature rules", "statement": "For every strength up to 20 (triangle), 21 (quadrilateral), 10 (tetrahedron, prism, pyramid) and 11 (hexahedron) the functions of fenris_quadrature::polyquad return a rule: as many weights as points, positive weights, points in the reference domain, and every polynomial of total degree at most the strength is integrated with an error of at most 10^-36 times the sum of the absolute values of its coefficients (the rules are shipped with 38 digits). No shipped rule of sufficient strength has fewer points. Larger strengths are reported as not available.", "quantifier": "every strength, and every polynomial of at most that degree", "why_tests_cant": "all polynomials with real coefficients; tests of the repository check monomials with tolerance", "anchors": ["fenris-quadrature/src/polyquad.rs: triangle, quadrilateral, tetrahedron, hexahedron, prism, pyramid; fenris-quadrature/rules/polyquad/expanded; fenris-quadrature/build.rs"]}
{"id": "C88", "title": "Canonical quadratures integrate mass and stiffness matrices", "statement": "The element mass matrix assembled with canonical_mass_quadrature has the entries rho * integral over the element of phi_I phi_J, and the element Laplace matrix assembled with canonical_stiffness_quadrature has the entries integral over the element of grad phi_I . grad phi_J. This holds for all triangles and tetrahedra of every order (up to 10^-31 relative to the size of the element, because of the tabulated points), exactly for the mass matrices of all quadrilaterals, of parallelepipeds and extruded quadrilaterals, and exactly for the stiffness matrices of parallelograms and parallelepipeds. It is false for the mass matrices of general hexahedra and for the stiffness matrices of general quadrilaterals, contrary to the documentation.", "quantifier": "every element type with a canonical quadrature, every position of its vertices, every density, every pair of basis functions", "why_tests_cant": "all real vertex positions; the tests of the repository compare on a few elements", "anchors": ["src/quadrature/canonical.rs: CanonicalMassQuadrature, CanonicalStiffnessQuadrature; src/quadrature/tensor.rs; src/quadrature/total_order.rs; src/assembly/local/mass.rs; src/assembly/local/elliptic.rs"]}
{"id": "C89", "title": "The patch test", "statement": "Assemble the internal forces of any elliptic operator for the nodal values of an affine function on a consistently oriented mesh of triangles, quadrilaterals, tetrahedra or hexahedra with positively oriented elements. On every element the gradient of the interpolant is that of the function, the entries at vertices that are not on the boundary of the mesh (find_boundary_vertices) are zero, and those at boundary vertices are the constant stress times the integral of the basis function times the outward normal over the boundary faces (find_boundary_faces). The matrix of a linear operator times the nodal values gives the same. The canonical stiffness quadratures suffice, although hexahedra and quadrilaterals are not integrated exactly in general; for triangles and tetrahedra there is a common factor that differs from one by less than 10^-36. It holds for the uniform tetrahedral meshes of all resolutions.", "quantifier": "every mesh of the four kinds (also distorted ones), every operator, every affine function, every uniform parameter, every quadrature of sufficient degree", "why_tests_cant": "all meshes and all affine functions; a test takes one mesh and one function", "anchors": ["src/space/space_impl.rs; src/assembly/global.rs: VectorAssembler, CsrAssembler; src/assembly/local/elliptic.rs; src/mesh.rs: find_boundary_faces, find_boundary_vertices; src/quadrature/canonical.rs"]}
{"id": "C90", "title": "Interpolation buffers do not depend on their history", "statement": "Prepare an InterpolationBuffer, whatever it was used for before, for an element of any space and update its reference point any number of times. Then interpolate returns the interpolant at the point of the latest update that included the basis values, interpolate_ref_gradient its gradient at the point of the latest update that included the gradients, and position and Jacobian are those at the last point; after an update of both everything belongs to the same point. Interpolating values or gradients at many points with one thread-local buffer gives the same results and failures as doing it point by point, whatever the buffer holds. Before the first update the values are left over from the previous element.", "quantifier": "every content of the buffer, every space with one basis function and gradient per node, every element, every sequence of updates, every list of points", "why_tests_cant": "all histories of a buffer that is shared by all spaces and elements of a thread", "anchors": ["src/assembly/buffers.rs: BasisFunctionBuffer, InterpolationBuffer, InterpolationElementBuffer; src/space/interpolate.rs: interpolate_at_points, interpolate_gradient_at_points"]}
{"id": "C91", "title": "Vectors of nodal values and matrix files", "statement": "global_vector_from_point_fn calls its function once for each point, in order, and stores the components point after point (so the vector of an affine function satisfies the hypothesis of the patch test). extract_by_node_index returns the components of the listed nodes and panics exactly when one is out of range; extracting from the vector of a function gives the vector of the function at these nodes. A reader of the matrix market format finds in the file written by dump_csr_matrix_to_mm_file the numbers of rows and columns and exactly the stored entries, and no two matrices have the same file. The files of dump_mesh_connectivity_matrices hold the pairs of vertices with a common element and the vertices of each element, no position twice; vertices out of range panic. A matrix with at least one column can be read back from the file of dump_matrix_to_file.", "quantifier": "every list of points, function, list of nodes, sparse or dense matrix, and mesh; every number format that can be read back", "why_tests_cant": "all matrices and meshes; round trips", "anchors": ["src/util.rs: global_vector_from_point_fn, extract_by_node_index, dump_matrix_to_file, dump_csr_matrix_to_mm_file, dump_mesh_connectivity_matrices"]}
{"id": "C92", "title": "Tabulated Gauss-Lobatto rules", "statement": "try_gauss_lobatto returns a rule exactly for 2 to 32, 64, 128, 256 and 512 points. Each rule has as many positive weights and increasing points as requested, starts at -1 and ends at 1, and the weighted sum of the values of any polynomial of degree at most 2 n - 3 differs from its integral over [-1, 1] by at most 10^-14 times the sum of the absolute values of its coefficients. In particular the weights add up to 2 within 10^-14.", "quantifier": "every number of points; every polynomial of degree at most 2 n - 3 with real coefficients", "why_tests_cant": "all polynomials, for 35 tables with 1487 points in total; a sample of integrands cannot exclude a wrong digit", "anchors": ["fenris-quadrature/src/codegen/gauss_lobatto_rules.rs: gauss_lobatto_2 ... gauss_lobatto_512, try_gauss_lobatto; fenris-quadrature/src/univariate.rs: try_gauss_lobatto"]}
{"id": "C93", "title": "Interpolation at arbitrary points of a mesh", "statement": "Wrap a mesh of triangles in the plane or of tetrahedra in SpatiallyIndexed, take the nodal values of an affine function and interpolate at any point: the result is the value of the function at the nearest point of the mesh, which is the given point when it is in the mesh. In meshes without degenerate elements the interpolated gradient is the gradient of the function at every point. A fixed interpolator built for points of the mesh returns the values of the function at these points. None of these calls panics for a well-formed mesh with at least one cell.", "quantifier": "every well-formed mesh of triangles or tetrahedra with at least one cell (including degenerate and overlapping elements for the values), every affine function with any number of components, every point, every order in which the tree yields boxes of equal distance", "why_tests_cant": "all meshes, points and orders of the tree; the claim connects the search, the closest-point queries and the basis functions", "anchors": ["src/space/spatially_indexed.rs: SpatiallyIndexed; src/space/interpolate.rs: interpolate_at_points, interpolate_gradient_at_points; src/space/fixed_interpolator.rs: FixedInterpolator"]}
{"id": "C94", "title": "Uniform quadrilateral and hexahedral meshes are conforming", "statement": "In the meshes of create_rectangular_uniform_quad_mesh_2d and create_rectangular_uniform_hex_mesh every face belongs to at most two cells, and two cells with a common face run through it in opposite directions. find_boundary_faces returns exactly the faces that lie in the sides of the rectangle or box, so every other face belongs to two cells. On these meshes, with the canonical quadrature, any operator and the nodal values of any affine function, the assembled vector is zero at all vertices inside the domain.", "quantifier": "every positive unit length, all positive numbers of units, every resolution; every operator and affine function with any number of components", "why_tests_cant": "all sizes and resolutions", "anchors": ["src/mesh/procedural.rs: create_rectangular_uniform_quad_mesh_2d, create_rectangular_uniform_hex_mesh; src/mesh.rs: find_boundary_faces; src/connectivity.rs: Quad4d2Connectivity, Hex8Connectivity; src/assembly/local/elliptic.rs"]}
{"id": "C95", "title": "Reusing a workspace does not change what the conjugate gradient solver computes", "statement": "The outcome of solve_with_guess (content of x, number of iterations, verdict) does not depend on the content or the size of the workspace, so that a program solving any sequence of systems of any sizes with one workspace gets the same results as with a new workspace for each system, even if earlier solves failed. The operator and the preconditioner must overwrite their output. Dense matrices and the identity do so for scalars of any kind, CSR matrices in exact arithmetic; with NaN values left in the workspace CSR matrices do not.", "quantifier": "every solver configuration, operators that fail or change from call to call, all scalars with any operations (nothing is assumed about them), every workspace, every sequence of systems", "why_tests_cant": "all histories of solves with a workspace; the operators are arbitrary code", "anchors": ["fenris-sparse/src/cg.rs: CgWorkspace, ConjugateGradient::with_workspace, solve_with_guess, LinearOperator, IdentityOperator"]}
{"id": "C96", "title": "Linear problems with prescribed values have one solution, and the solver finds it", "statement": "Assembling the matrix of a linear, symmetric operator with non-negative energy (with quadrature rules of positive weights and regular elements) and applying homogeneous Dirichlet conditions to matrix and right-hand side gives a symmetric positive definite system if and only if zero is the only function without energy that vanishes at the prescribed nodes. In that case there is exactly one vector that is zero at the prescribed nodes and satisfies all other equations, and the conjugate gradient solver, from every guess and with every workspace, returns Ok after at most as many iterations as there are unknowns, with a residual within the tolerance. For the Laplace operator on meshes of any two- or three-dimensional element kind (linear or of higher order) with the canonical quadrature this is so exactly if from every vertex one can walk through the cells to a prescribed vertex; on the uniform quadrilateral, triangle, hexahedral and tetrahedral meshes prescribing one vertex is enough.", "quantifier": "every such operator, discretisation, set of prescribed nodes, right-hand side, guess, workspace and tolerance; every assembly order; every mesh of every element kind and every resolution of the uniform meshes (exact arithmetic)", "why_tests_cant": "the whole chain from the mesh to the solution, for all meshes and data; tests solve a few problems on a few meshes", "anchors": ["src/assembly/local/elliptic.rs: ElementEllipticAssembler; src/assembly/global.rs: CsrAssembler::assemble, apply_homogeneous_dirichlet_bc_csr, apply_homogeneous_dirichlet_bc_rhs; fenris-sparse/src/cg.rs: ConjugateGradient::solve_with_guess; src/assembly/operators/laplace.rs: LaplaceOperator; src/quadrature/canonical.rs: CanonicalStiffnessQuadrature"]}
{"id": "C97", "title": "The solution has the least energy, and affine solutions are found exactly", "statement": "For a linear problem with any prescribed values, a vector satisfies the assembled equations at the nodes without prescribed value if and only if it has the least energy (the value of the scalar assembler minus the work of the right-hand side) among all vectors with the prescribed values. There is exactly one such vector: any vector g with the prescribed values plus the solution of the system with homogeneous Dirichlet conditions and the right-hand side b - A g, as computed by the conjugate gradient solver. If on a consistent mesh of triangles, quadrilaterals, tetrahedra or hexahedra with the canonical quadrature the values of an affine function are prescribed at the boundary vertices found by find_boundary_vertices, then the computed solution of the homogeneous equations is this function at all vertices; in particular for Poisson problems on the uniform quadrilateral, triangle, hexahedral and tetrahedral meshes.", "quantifier": "every linear symmetric operator with non-negative energy, every discretisation, every right-hand side and prescribed values; every consistent mesh; every affine function; every assembly order, workspace and guess (exact arithmetic)", "why_tests_cant": "all meshes and data; the minimum is over all vectors", "anchors": ["src/assembly/local/elliptic.rs: ElementEllipticAssembler, assemble_element_elliptic_energy; src/assembly/global.rs: CsrAssembler::assemble, assemble_scalar, apply_homogeneous_dirichlet_bc_csr, apply_homogeneous_dirichlet_bc_rhs; src/mesh.rs: find_boundary_vertices; fenris-sparse/src/cg.rs: solve_with_guess; src/mesh/procedural.rs: create_rectangular_uniform_quad_mesh_2d, create_unit_square_uniform_tri_mesh_2d, create_rectangular_uniform_hex_mesh, create_rectangular_uniform_tet_mesh"]}
{"id": "C98", "title": "Mass matrices and source vectors", "statement": "Assembling the element mass matrices of a finite element space gives a symmetric matrix M such that for all vectors v, w the number v M w is the quadrature of density times v_h times w_h over all elements, where v_h, w_h are the functions with these nodal values; different components are not coupled; and the entries of each component add up to the total mass. The assembled source vector b satisfies the same with the source instead of density times w_h. If the density is positive and the rule of each element determines its functions, then M is positive definite exactly if every node belongs to an element; this is so for all element kinds that have a canonical mass quadrature. If the source is the density times a function of the space, then solving M x = b with conjugate gradients returns the nodal values of the function. The content of the workspace and of the output buffers does not matter.", "quantifier": "every finite element space, number of components, quadrature table and density; every mesh of every element kind with a canonical quadrature and elements that are not degenerate at the quadrature points; all vectors; every assembly order, workspace, guess (exact arithmetic)", "why_tests_cant": "all spaces, tables and vectors; positive definiteness is a statement about all vectors", "anchors": ["src/assembly/local/mass.rs: ElementMassAssembler; src/assembly/local/source.rs: ElementSourceAssembler; src/assembly/global.rs: CsrAssembler::assemble, VectorAssembler::assemble_vector; src/quadrature/canonical.rs: CanonicalMassQuadrature; fenris-sparse/src/cg.rs: solve_with_guess"]}
{"id": "C99", "title": "Problems of linear elasticity have one solution exactly if rigid motions are prevented", "statement": "If the shear modulus mu is positive and 2 mu + d lambda is positive (which holds for every Young modulus > 0 and Poisson ratio between -1 and 1/2, the conversion from_young_poisson), the linear elastic material has no negative energies, and exactly the skew displacement gradients have none. With the canonical stiffness quadrature, a displacement of a mesh of affine cells that hang together (any walk through pairs of cells whose common nodes leave no room for a relative rigid motion) has energy zero exactly if it is an infinitesimal rigid motion of the whole mesh. The system with homogeneous Dirichlet conditions has exactly one solution (and the solver finds it) if and only if the prescribed nodes leave no room for a rigid motion: in the plane two different points, in space three points that are not on a line. On the uniform quadrilateral and triangle meshes this means two different vertices, on the uniform hexahedral and tetrahedral meshes three vertices not on a line.", "quantifier": "every two- and three-dimensional element kind, every mesh of affine cells, all positive moduli, every set of prescribed nodes, every displacement; every resolution of the uniform meshes (exact arithmetic)", "why_tests_cant": "all meshes, materials and displacements; that nothing but rigid motions has energy zero is a statement about all vectors, and under-integration would break it silently", "anchors": ["fenris-solid/src/materials.rs: LinearElasticMaterial, LameParameters, YoungPoisson; fenris-solid/src/lib.rs: MaterialEllipticOperator; src/assembly/local/elliptic.rs: ElementEllipticAssembler; src/quadrature/canonical.rs: CanonicalStiffnessQuadrature; src/mesh/procedural.rs: create_rectangular_uniform_quad_mesh_2d, create_unit_square_uniform_tri_mesh_2d, create_rectangular_uniform_hex_mesh, create_rectangular_uniform_tet_mesh"]}
{"id": "C100", "title": "Combined and transformed element assemblers", "statement": "Assemblers for the same nodes, combined in an aggregate, assemble to the sum of their matrices, vectors and scalars, and exactly the positions stored by one of them are stored. Several bodies, each with its nodes moved behind those of the bodies before it and then combined in an aggregate, assemble to the block diagonal matrix of the matrices of the bodies, without any entry that couples different bodies, the vector that consists of their vectors, and the sum of their scalars. Transforming the element matrices (vectors, scalars) changes nothing but them: the transformed ones are assembled at the same positions; scaling and transposing them scales and transposes the result; if the transformed element matrices are positive semi-definite then so is the assembled matrix; if an element or a transformation fails, the first such error is returned.", "quantifier": "every list of assemblers of any sizes and element node counts, every transformation, every assembly order and every search routine that meets the contract of binary_search (with no empty part, or with a search that finds the last of equal offsets)", "why_tests_cant": "all lists of assemblers and all functions as transformations; offsets that are off by one part or one node only show for particular combinations", "anchors": ["src/assembly/local.rs: AggregateElementAssembler, MapElementNodes, TransformElementMatrix, TransformElementVector, TransformElementScalar; src/assembly/global.rs: CsrAssembler::assemble, VectorAssembler::assemble_vector, assemble_scalar"]}
{"id": "C101", "title": "Sphere meshes enclose the ball", "statement": "create_simple_stupid_sphere never panics for a positive radius and a positive number of sweeps, and returns a valid mesh with watertight cells whose vertices lie on the inner side of the tangent plane of every sampled point of the sphere, so that the mesh encloses the ball.", "quantifier": "every centre, every positive radius, every number of sweeps (exact arithmetic)", "why_tests_cant": "every radius and number of sweeps; there is no test of this function", "anchors": ["src/mesh/procedural.rs: create_simple_stupid_sphere; fenris-geometry/src/polymesh.rs: PolyMesh3d::intersect_half_space, translate; fenris-geometry/src/primitives/half_space.rs: HalfSpace::contains_point"]}
{"id": "C102", "title": "The parts of a solid that is cut along a plane", "statement": "The cells of intersect_half_space of a mesh are the parts of its cells, in order, without the empty ones: the clipped faces of the cell with their orientations, followed by caps in the boundary plane. If a cell is closed (its outward oriented faces run through every edge as often in one direction as in the other) then with suitable orientations of the caps its part is closed too; each cap as stored follows the outline of the cut throughout in one direction. If the faces are planar, then the volumes of the parts of a cell in a half-space and in its complement add up to the volume of the cell.", "quantifier": "every valid polyhedral mesh with any number and shapes of cells, convex or not; every plane, also through vertices, edges and faces of the mesh; every closed cell in which no oriented edge occurs twice (exact arithmetic)", "why_tests_cant": "all polyhedra and all planes; degenerate positions of the plane, and cells whose section has several outlines, are not sampled by tests", "anchors": ["fenris-geometry/src/polymesh.rs: PolyMesh3d::intersect_half_space, compute_volume; fenris-geometry/src/primitives/half_space.rs: HalfSpace::complement"]}
{"id": "C103", "title": "Refinement enlarges the space of functions", "statement": "Uniform refinement of a triangle mesh keeps all functions: for each coefficient vector on the mesh there is exactly one on the refined mesh whose values at the refined vertices are those of the function, and on each of the four children of a triangle it is the same function, at every point and with the same gradient. The assembled energy of a function is the same on both meshes, for every energy density and every quadrature rule, and after any number of refinements. Hence the solution on the refined mesh, with the same prescribed values and loads, has at most the energy of any function on the mesh that was refined.", "quantifier": "every triangle mesh in the plane without degenerate triangles, every coefficient vector with any number of components, every operator, uniform quadrature table and assembly order, any number of refinements (exact arithmetic)", "why_tests_cant": "all meshes and all functions; numbering of midpoints and children interact with the assembly", "anchors": ["src/mesh/refinement.rs: refine_uniformly, refine_uniformly_repeat; src/mesh/refinement/detail.rs; src/assembly/local/elliptic.rs: ElementEllipticAssembler; src/assembly/global.rs: assemble_scalar, CsrAssembler::assemble"]}
{"id": "C104", "title": "Discrete maximum principle", "statement": "If on each element the inner products of the gradients of different basis functions have a quadrature that is not positive, then Poisson solutions obey the maximum principle: when the load is not positive (not negative) at the vertices without a prescribed value, no value of the computed solution is larger (smaller) than all prescribed values; without load it lies between the smallest and the largest of them. The assumption holds for all triangle meshes without obtuse angles, for the uniform triangle and quadrilateral meshes of rectangles and the uniform hexahedral meshes of boxes of every resolution, with the canonical quadrature. It is needed: on an obtuse triangle a solution leaves the range of the prescribed values.", "quantifier": "every finite element space, table of rules, set of prescribed vertices and values, load; every triangle mesh without obtuse angles and every resolution of the uniform meshes; every assembly order, workspace and guess (exact arithmetic)", "why_tests_cant": "all meshes, loads and prescribed values; a sign error or a dropped contribution in the assembly shows as values outside the range only for particular data", "anchors": ["src/assembly/operators/laplace.rs: LaplaceOperator; src/assembly/local/elliptic.rs: ElementEllipticAssembler; src/assembly/global.rs: CsrAssembler::assemble, apply_homogeneous_dirichlet_bc_csr, apply_homogeneous_dirichlet_bc_rhs; fenris-sparse/src/cg.rs: solve_with_guess; src/mesh/procedural.rs: create_unit_square_uniform_tri_mesh_2d, create_rectangular_uniform_quad_mesh_2d, create_rectangular_uniform_hex_mesh; src/mesh.rs: split_into_triangles"]}
{"id": "C105", "title": "The forces a body exerts on itself are in balance", "statement": "For every elliptic operator, every mesh of any element kind and every u, the vector that the elliptic assembler assembles does virtual work: v dot f is the quadrature of the operator at grad u against grad v, for every v. Hence its components of each direction add up to zero. For the St. Venant-Kirchhoff and Neo-Hookean materials, on Tri3, Quad4, Tet4 and Hex8 meshes and on meshes of affine images of the reference element of any kind, the forces have no total moment when they act at the displaced nodes; for the linear elastic material they have none about the undeformed nodes. The vector assembled from the gravity source adds up to the mass times the acceleration, so that in equilibrium the constrained nodes carry the weight. Linear elasticity does not balance moments about the displaced nodes.", "quantifier": "all operators, meshes, element kinds, quadrature rules, nodal values u, material parameters, accelerations, densities, contents of workspaces and outputs", "why_tests_cant": "Conservation of momentum and of angular momentum is an identity in all nodal values; a sampled state can balance by symmetry although a sign or a transposition in the stress or the assembly is wrong", "anchors": ["src/assembly/local/elliptic.rs: ElementEllipticAssembler::assemble_element_vector_into; src/assembly/local/source.rs: ElementSourceAssembler; src/assembly/global.rs: VectorAssembler::assemble_vector; fenris-solid/src/lib.rs: MaterialEllipticOperator; fenris-solid/src/materials.rs: LinearElasticMaterial, StVKMaterial, NeoHookeanMaterial; fenris-solid/src/gravity_source.rs: GravitySource"]}
{"id": "C106", "title": "Moving a body rigidly turns its forces and keeps its energy", "statement": "If two displacements put the nodes of a mesh at positions that differ by a rotation and a translation, then for the St. Venant-Kirchhoff and Neo-Hookean materials the assembled forces differ by that rotation, the assembled tangent matrices by that rotation on both sides, and the assembled energies are equal; a body that is only moved, not deformed, exerts no forces. For the linear elastic material the forces do not change when an infinitesimal rigid motion is added. If the mesh itself is moved along, and the nodal values are turned along (vectors) or kept (scalars), then the moved mesh can be assembled on whenever the original can, the assembled vectors turn along, the assembled matrices turn along on both sides and the assembled energies are equal, for every operator whose flux and contraction turn along with the gradient; the Laplace operator and all materials are such operators.", "quantifier": "every element kind and mesh, all nodal values, quadrature tables, material parameters, rotations and translations, contents of workspaces and outputs (exact arithmetic; Tri3, Quad4, Tet4 and Hex8 meshes or affine cells where displaced positions are compared; orthogonal maps including reflections where the mesh is moved along)", "why_tests_cant": "Independence of the coordinate system is an identity in all rotations and all nodal values; tests use axis-aligned meshes, on which transposed or swapped components go unnoticed", "anchors": ["src/assembly/local/elliptic.rs: ElementEllipticAssembler::assemble_element_vector_into, assemble_element_matrix_into, assemble_element_scalar; src/assembly/global.rs: CsrAssembler::assemble, VectorAssembler::assemble_vector, assemble_scalar; src/assembly/operators/laplace.rs: LaplaceOperator; fenris-solid/src/lib.rs: MaterialEllipticOperator; fenris-solid/src/materials.rs: LinearElasticMaterial, StVKMaterial, NeoHookeanMaterial"]}
{"id": "C107", "title": "Computed solutions are best approximations in the error norms of the library", "statement": "L2 projection: with the mass matrix of density one and the source vector of a function u, assembled with the same quadrature points, a vector solves the system exactly if no other coefficient vector has a smaller error as estimate_L2_error computes it with these points. Poisson problems: if du is the gradient of a function that satisfies the weak equations at the quadrature points, then among all vectors with given prescribed values those that satisfy the assembled equations at the other nodes are exactly those with the least error as estimate_H1_seminorm_error computes it. In both cases the square of the error of any other such vector is the square of the error of the solution plus the square of the estimated norm of their difference. For the nodal values of an affine function on Tri3, Quad4, Tet4 and Hex8 meshes both estimated errors are zero.", "quantifier": "every finite element space, table of quadrature rules with weights that are not negative, function u or field du, set of prescribed nodes and values; every assembly order, workspace and output contents (exact real arithmetic)", "why_tests_cant": "optimality compares the computed solution with all other coefficient vectors; a factor or sign error that assembly and error estimation do not share shows only in convergence rates", "anchors": ["src/error.rs: estimate_L2_error, estimate_H1_seminorm_error; src/assembly/local/mass.rs: ElementMassAssembler; src/assembly/local/source.rs: ElementSourceAssembler; src/assembly/local/elliptic.rs: ElementEllipticAssembler; src/assembly/global.rs: CsrAssembler::assemble, VectorAssembler::assemble_vector"]}
{"id": "C108", "title": "Splitting quadrilaterals into triangles keeps the boundary and the orientation of a mesh", "statement": "If the ends of the diagonal along which split_into_triangles splits a quadrilateral are not vertices of a common other quadrilateral, then the triangle mesh has exactly the boundary edges of the quadrilateral mesh, run through in the same direction, and the same boundary vertices, and it is consistently oriented if the quadrilateral mesh is. The uniform triangle mesh of a rectangle is consistently oriented, and its boundary edges are exactly the edges in the sides of the rectangle. The assumption is needed: a concave quadrilateral beside a square gives an edge that belongs to four triangles, and a triangle with negative area.", "quantifier": "every mesh of quadrilaterals with four different vertices, of any number of cells and any coordinates; every resolution of the uniform triangle mesh (exact arithmetic)", "why_tests_cant": "all meshes and all coordinates (which decide about the diagonal); the neighbourhood of all pairs of cells", "anchors": ["src/mesh.rs: split_into_triangles, find_boundary_faces, find_boundary_vertices; src/mesh/procedural.rs: create_unit_square_uniform_tri_mesh_2d; fenris-geometry/src/primitives/quad.rs: split_into_triangles, split_into_triangle_connectivities, concave_corner"]}
{"id": "C109", "title": "Homogeneous deformations of elastic bodies are computed exactly", "statement": "Linear elasticity without loads on a consistently oriented mesh of affine triangles, quadrilaterals, tetrahedra or hexahedra that hangs together, with the canonical stiffness quadrature and positive shear and bulk moduli: if the displacements of the vertices found by find_boundary_vertices are prescribed as those of an affine displacement, then the assembled equations have exactly one solution, the affine displacement at all vertices, and assembling the matrix, applying the homogeneous Dirichlet conditions to matrix and right-hand side and solving with conjugate gradients returns it. This holds for the uniform quadrilateral, triangle, hexahedral and tetrahedral meshes of every resolution.", "quantifier": "every such mesh, all moduli, every affine displacement (stretches, shears, rotations, translations), every assembly order, workspace, guess and state u at which the matrix is assembled (exact arithmetic)", "why_tests_cant": "all meshes, materials and deformations; tests deform a few meshes in a few ways, up to a tolerance that hides small inconsistencies between quadrature, assembly and boundary conditions", "anchors": ["src/mesh.rs: find_boundary_vertices; fenris-solid/src/materials.rs: LinearElasticMaterial; fenris-solid/src/lib.rs: MaterialEllipticOperator; src/assembly/local/elliptic.rs: ElementEllipticAssembler; src/assembly/global.rs: CsrAssembler::assemble, apply_homogeneous_dirichlet_bc_csr, apply_homogeneous_dirichlet_bc_rhs; src/quadrature/canonical.rs: CanonicalStiffnessQuadrature; fenris-sparse/src/cg.rs: solve_with_guess; src/mesh/procedural.rs: create_rectangular_uniform_quad_mesh_2d, create_unit_square_uniform_tri_mesh_2d, create_rectangular_uniform_hex_mesh, create_rectangular_uniform_tet_mesh"]}
{"id": "C110", "title": "Reordering a mesh relabels what is computed on it", "statement": "Apply any permutation of the vertices and cells to a mesh, and carry the nodal values and the quadrature rules of the cells over to the new numbering. Then everything can be assembled on the reordered mesh that can be assembled on the original: the stiffness matrix of every elliptic operator and the mass matrix are the original ones with rows and columns renumbered with the nodes, the assembled vectors and load vectors have the same components at every vertex, and the energy is the same. The equations with homogeneous Dirichlet conditions at the carried over nodes are solved by exactly the carried over solutions. reorder_mesh_par computes permutations of this kind for every mesh, under every schedule.", "quantifier": "every element kind and mesh with vertex indices in range, all permutations, operators, nodal values, quadrature tables, sources, densities, right-hand sides and sets of Dirichlet nodes; every assembly order, schedule, content of workspaces and outputs (exact arithmetic)", "why_tests_cant": "a wrong direction of the permutation shows only for permutations that are not their own inverse, and on symmetric meshes and data not even there; the claim is about all permutations and everything assembled", "anchors": ["src/mesh/reorder.rs: MeshPermutation::apply, reorder_mesh_par; src/space/space_impl.rs: FiniteElementConnectivity for Mesh, FiniteElementSpace for Mesh; src/assembly/local/elliptic.rs: ElementEllipticAssembler; src/assembly/local/mass.rs: ElementMassAssembler; src/assembly/local/source.rs: ElementSourceAssembler; src/assembly/global.rs: CsrAssembler::assemble, VectorAssembler::assemble_vector, assemble_scalar"]}
{"id": "C111", "title": "Superposition, reciprocity and stiffness of computed solutions", "statement": "For a linear symmetric elliptic operator with non-negative energy, any discretisation with positive weights and any supports (nodes with homogeneous Dirichlet conditions): linear combinations of solutions of the assembled equations solve them for the same linear combinations of the loads; the work that one load does on the solution for another load is the work that the other load does on the solution for the first; the energy that the scalar assembler computes for a solution is half the work of its load; supporting more nodes, or replacing the material by one for which at every quadrature point no gradient has less energy (for linear elasticity: larger Lame parameters), never increases the work of a load, which is never negative.", "quantifier": "every finite element space, quadrature table, operator of this kind, set of supports, pair of loads and of solutions, assembly order, content of workspaces and outputs (exact arithmetic)", "why_tests_cant": "identities and inequalities between the solutions for all pairs of loads, supports and materials; an unsymmetric or wrongly scaled contribution shows only for particular pairs", "anchors": ["src/assembly/local/elliptic.rs: ElementEllipticAssembler; src/assembly/global.rs: CsrAssembler::assemble, assemble_scalar, apply_homogeneous_dirichlet_bc_csr; src/assembly/operators/laplace.rs: LaplaceOperator; fenris-solid/src/materials.rs: LinearElasticMaterial, LameParameters; fenris-solid/src/lib.rs: MaterialEllipticOperator"]}
{"id": "C112", "title": "Newton's method solves an assembled linear problem in one step", "statement": "Give newton or newton_line_search the residual that the vector assembler computes for a linear symmetric elliptic operator (internal forces minus loads, with apply_homogeneous_dirichlet_bc_rhs applied), and a Jacobian solver that assembles the matrix at the current state, applies apply_homogeneous_dirichlet_bc_csr and runs the conjugate gradient solver with tolerance zero. If the problem is well posed, then from every start, without line search or with BacktrackingLineSearch, and with any iteration limit other than zero, the method returns Ok(0) with the start if the residual is within the tolerance there, and otherwise Ok(1) with the only function that has the values of the start at the prescribed nodes and whose internal forces are equal to the loads in all other degrees of freedom. The internal forces are the assembled matrix, assembled at any state, times the nodal values. Without loads, and with the values of an affine function at the boundary vertices that find_boundary_vertices finds, that one step leads to the affine function. If the conjugate gradient solver has a positive relative tolerance and starts with zero, every step makes the residual smaller by that factor at least and keeps the prescribed values exactly, without line search and, in the Euclidean norm and for factors whose square is at most 1 - 1/10000, with backtracking, which then takes the full step; below factor one the method always returns Ok, after at most n steps if the n-th power of the factor times the first residual is within the tolerance and the limit is not below n.", "quantifier": "every finite element space, quadrature table with positive weights, linear symmetric operator, set of prescribed nodes that makes the problem definite, load, start, tolerance, iteration limit; every assembly order, content of workspaces and outputs, guess and workspace of the linear solver (exact arithmetic)", "why_tests_cant": "a mismatch of sign, scale or boundary treatment between residual and matrix only slows the convergence of a particular run; that one step suffices is a statement about all starts and loads", "anchors": ["fenris-optimize/src/newton.rs: newton, newton_line_search, BacktrackingLineSearch, NoLineSearch; src/assembly/local/elliptic.rs: ElementEllipticAssembler; src/assembly/global.rs: CsrAssembler::assemble, VectorAssembler::assemble_vector, apply_homogeneous_dirichlet_bc_csr, apply_homogeneous_dirichlet_bc_rhs; fenris-sparse/src/cg.rs: solve_with_guess"]}
