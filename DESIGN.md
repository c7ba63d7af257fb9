# Formal model of fenris: design

Subject: InteractiveComputerGraphics/fenris (Rust), source in `/repo`, read as text only.
Tool: Lean 4.33.0 with single Mathlib modules. The project is `/verif/lean`.

## Layout

* `lean/Verif/Model/*.lean`: executable (or at least definitional) transcription of the Rust functions.
  Every definition cites file and lines and says what was simplified.
* `lean/Verif/Spec/*.lean`: small independent specifications, where the English needs vocabulary
  that is not already in core Lean or Mathlib.
* `lean/Verif/Lemmas/*.lean`: helper lemmas.
* `lean/Verif/Props/*.lean`: the property theorems (names start with the property id, e.g. `C06_...`)
  with non-vacuity `example`s beside them.
* `properties.jsonl`, `MANIFEST.json`: the claims and where they are proved.
* `seeded/LOG.jsonl`: record of seeded-bug experiments.

## Modelling conventions

* `usize` is `Nat`. Wrap-around of `usize` arithmetic and allocation failure are not modelled.
  Subtractions that could underflow are guarded explicitly (the debug-mode panic becomes `none`).
* `&mut self` methods return the new value. `Option`/`Result` stay data. A panic (`assert!`, slice
  indexing, `unwrap`, `expect`) is an explicit `none`/`Except.error` value of the model function.
* `Vec<T>`, slices: `List T` (or `Array T` when only indexing matters). `HashMap`/`BTreeMap` are
  association lists in insertion order, respectively sorted order; `HashSet` iteration order is
  never relied upon.
* Floating point scalars (`T: Real`) are elements of an arbitrary field / ordered field (`ℝ` where
  square roots or logarithms are needed). Rounding, overflow, NaN and infinities are not modelled;
  where the code returns NaN/infinity on purpose this is an explicit model value.
* Threads: a parallel loop is modelled as *every* interleaving of the atomic steps of its workers
  (or every order / every split tree); theorems quantify over the interleaving.
* Trait objects and closures supplied by the user are universally quantified parameters (possibly
  failing: they return `Except`).
* Debug-only assertions are modelled when they matter and then named as such.

## Plan per property

| id | modelled | proof |
|----|----------|-------|
| C01, C02 | `NestedVec` with its three vectors, all operations incl. forgotten appenders | refinement to `List (List α)` by induction over the operation history |
| C03 | `try_from_disjoint_subsets` loop with the two index sets | loop invariant; iff with pairwise disjointness |
| C04 | producer ranges, `split_at`, iterator `next`/`next_back`, `bridge` recursion as an arbitrary split tree | induction over split trees and over call sequences |
| C05 | element writes of workers through subset accesses | commutation of updates at different indices, induction over interleavings |
| C06, C07 | `sequential_greedy_coloring` incl. visited table with resizing | loop invariants relating table to the current colour's used nodes |
| C08 | `BlockAdapter` index arithmetic | `Nat` division lemmas |
| C09 | `prefix_sum`, `flatten_vertically` | induction |
| C10, C11 | `Permutation` | list/permutation lemmas; out-of-range entry panics (negation proved) |
| C12 | `cuthill_mckee` BFS with queue, in-place sort of the queue tail | invariants over the two loops |
| C13 | `MeshPermutation::apply`, `reorder_mesh_par` | index calculation over C11/C12 |
| C14 | `find_boundary_faces` (key map with counts) | map fold invariant |
| C15 | `keep_cells` for `Mesh` and `PolyMesh` | renumbering lemma for sorted duplicate-free lists |
| C16 | `refine_mesh`, Tri3 refinement, repetition | label-table invariant, area identities by `ring` |
| C17, C18 | procedural quad/hex meshes | index arithmetic |
| C19 | mesh conversions via labels | same label-table invariant as C16 |
| C20-C24 | pattern/matrix/vector/scalar assembly, colour-parallel assembly as interleavings | folds, commutation, C05/C06 |
| C25 | Dirichlet conditions for dense and CSR | pointwise description of the result |
| C26 | aggregate assembler with `binary_search_by` as any-match relation | sortedness of prefix sums; negation for empty parts |
| C27 | quadrature tables | list lemmas |
| C28, C29 | local matrices: upper-triangle computation and mirroring | pointwise description |
| C30, C31 | CG loop with failing operators | invariants over the loop; conjugacy by induction |
| C32, C33 | Newton loop, line searches | loop invariants |
| C34 | finite differences | algebra |
| C35-C39 | bases of all element types over a field | `ring`/`field_simp`, derivations of polynomials |
| C40-C42 | subdivision, tensor rules, Legendre recurrence; Newton loop of `gauss` with given guesses and tolerance | sums, `Polynomial`; orthogonality to the product of the sign changes gives n roots; near a simple root each Newton step halves the distance. That the guesses of the code are close enough is not proved |
| C43, C44 | rule selection, parser | well-founded recursion; list lemmas |
| C45, C46 | AABB over an ordered field | coordinatewise order lemmas |
| C47-C53 | segments, polygons, clipping | ordered-field algebra |
| C54 | spatial index search over any distance-sorted enumeration | pruning argument |
| C55 | fixed interpolator | list lemmas; panic for an empty space proved |
| C56-C59 | materials over `Matrix` | derivatives via Mathlib / exact expansion |
| C60 | `loadMsh` from the parsed content of a file | exactly the accepted files load, and what the mesh is (`C60_load`); no panic unless a dimension is negative, a tag is zero or an element has too many nodes (`C60_no_panic`); the node orders agree with Gmsh's (`C60_gmsh_node_order`); indices in bounds only if tags are (`C60_in_bounds_partial`), larger tags are not rejected |
| C61 | `tryBuild` and attributes up to the data set | decoding the legacy cell array gives the written cells (`C61_decodes`); node orders against VTK's (`C61_node_order_partial`, all elements but `Quad9`); attributes entry by entry |
| C62 | `from_poly_data`, face-cell connectivity, boundary faces, `dedup_faces`, `concatenate` | loop invariants over label maps; results compared with coordinates of cells |
| C63 | `split_edges`, `split_edges_n_times` | invariant of the edge map; dyadic positions by induction on `n` |
| C64 | `triangulate`, `compute_volume` | the loops compute the fans and cones of a specification; conformity from the fans; volume by the divergence theorem (antisymmetric sums over closed edge lists) |
| C65 | utilities | list lemmas |
| C66 | integration loops, per-element and mesh integrators over ℝ | induction over the rule; Gram determinants (Mathlib); measures of segments, triangles, tetrahedra as instances |
| C67 | error functions on top of C66 | positivity of quadrature functionals; Minkowski by a discriminant argument |
| C70 | `closest_point` of triangles and tetrahedra | barycentric coordinates, leaving the simplex through its boundary, normal equations |
| C68 | `MapElementNodes` composed with the CSR assembler | reindexing of the sums of C21 |
| C69 | `ElementEllipticAssembler` with its workspace, composed with C21, C23, C24, C27, C28 | composition |
| C71 | nothing new: C28, C69 and the operators | `HasDerivAt` of finite sums along lines `u + t v` |
| C72 | materials as in C56 | matrix algebra |
| C73 | `intersect_half_space`, `intersect_convex_polyhedron` | the face loop is Sutherland–Hodgman clipping; the stringing loop walks trails that close because every cap vertex has even degree in a watertight cell |
| C74 | `compute_solid_angle`, `compute_winding_number_for_triangles_3d` over ℝ | the complex number with the angle of a triangle is, up to a positive factor, a product over its directed edges of pairings of spinors; over a closed surface the product is positive, so the angles add up to whole turns; continuity gives constancy. Partial: only for triangles seen under less than `π`, beyond which the code takes the wrong branch of the arctangent |
| C75 | `ConvexPolygon3d`, `ConvexPolyhedron`, tetrahedra, hexahedra in space | the region cut out by the face planes is the hull (a ray leaves the region through a face); the closest point by projection onto the prism or the edges |
| C76 | `Workspace` as a list of values with their types, thread-local borrows as a flag | simulation by a map from types to values, induction over histories and nested programs |
| C77 | signed distance functions over an ordered field with a norm | triangle inequality, closest points of boxes (C46), case analysis |
| C78 | CSR arrays with raw row access | the arrays are the concatenation of the rows; interleavings as in C05 |
| C79 | boundary faces of C14 with the local faces of C39 | faces with the same vertices cancel in pairs, the others are boundary faces; enclosed volume from the divergence theorem of one cell |
| C80 | faces deduplicated by sorted vertices, orientation by the sign of the first triangle's normal | invariant of the two passes over the cells; case analysis of the four faces of a tetrahedron; determinants of the twelve tetrahedra of a parallelepiped |
| C81 | one function per operation, closures numbered by call | the splitting of C52 cell by cell, the tiling of C17 square by square, smallest boxes of C45 |
| C82 | rounding up as a parameter, the shape as an `Sdf` of C77; selection by `keepCells` of C15 | the grid tiles by C17; the nearest corner of a cell is at most half a diagonal away; list of the kept cells equals the filtered list of cells |
| C83 | the loops as lists over a lattice, vertex and centre numbers as in the code | groups of tetrahedra around one side of one cell: a point inside determines the nearest side and hence the group; finitely many shapes of groups up to translation for cover, disjointness and volume; faces matched by the edges of the sides of a cell; disjoint tetrahedra give a mesh for C79 (`C79_disjoint_cells`) |
| C84 | Newton's method of C32 with the reference map and Jacobian of C38; norm and linear solver as parameters that are exact; the loop of the projection with fuel | C32 for the outcome; the Jacobian of an affine map is constant (comparison of polynomials); convexity of balls and of the image for the diameter; normal equations and Pythagoras for the projection; an orbit of length two for the finding |
| C85 | quaternions as four numbers; the loop of `apd` by recursion on the rounds; the singular value decomposition, the index of the smallest entry and `copysign` as parameters | identities of polynomials; induction on the rounds; the exact change of the distance in a round; an orbit of length two for the finding |
| C86 | the list of eigenvalues that nalgebra computes is a parameter; smallest and largest by folds | with a spectral decomposition `A = Q diag(l) Q^T` the quadratic form and the norm of the image are weighted sums of squares |
| C87 | the 65 rule files as lists of integers in units of the last decimal, transcribed by a script; the selection as in C43 | a check with integers for every monomial, evaluated by the kernel; its correctness by proof, for all polynomials by linearity; the integrals of the monomials in closed form |
| C88 | the table of rules in `canonical.rs` over the shipped rules (C87) and the Gauss rules (C41, C42); the element matrices of C28, C29 | degrees and sums of coefficients of all basis functions, gradients and bilinear Jacobians, closed under sums and products; exactness of the rules for polynomials; two counterexamples by explicit integration |
| C89 | the finite element space of a mesh; the assembly of C69, the boundary faces of C14 and C79 | the interpolant of an affine function has a constant gradient; the quadrature sum of a physical gradient is the integral of the cofactors, equal to the shares of the face normals (identities of polynomials, for hexahedra a table of the products of the one-dimensional integrals); inner faces cancel by C79 |
| C90 | the buffers between prepare and the updates; the loops over points with the buffer of the thread | invariant over the list of updates: which point the values and the gradients belong to; induction over the points, generalised over the content of the buffer. Findings: stale values after preparation, values and gradients of different points |
| C91 | the vectors of nodal values and the texts of the files; a reader of the formats in the specification | reading what was written: splitting at separators that the parts do not contain; invariants over the loops; the pattern of C20. Finding: matrices without columns |
| C92 | the 35 tables of Gauss-Lobatto weights and points, exactly as the decimals of the file; the replacement of the ends | a check with natural numbers of the moments up to `2 n - 3` that the kernel evaluates (`decide +kernel`, long tables in several parts), a proof that the check bounds the error of every moment, and from moments to all polynomials |
| C93 | the indexed mesh as a space for interpolation: the models of C54 (search), C70 (closest points) and C55 (interpolation) put together | the search gives coordinates whose image is the nearest point (C54); sums over the nodes of a cell with the partition of unity (C35) and the Jacobian give affine functions and their gradients |
| C94 | the grids of C17 and C18 with the local faces of C38, the search for boundary faces of C14 and the assembly of C89 | the centre of a face is determined by its vertices in whatever order, and determines the cell and the face up to the neighbour; the neighbour runs through the face backwards; the elements are squares and cubes, so that C89 applies |
| C95 | the conjugate gradient solver on the buffers of a workspace that is kept between solves; operators see the old content of their output buffer; scalars with any operations | simulation between runs on two workspaces, and between the buffers and the vectors of C30. Finding: NaN values with CSR matrices |
| C96 | the chain element matrices, assembly, Dirichlet conditions, conjugate gradients (models of C21, C25, C28, C69, C95) | the quadratic form of the assembled matrix is the quadrature of the energy density; hence definite iff only zero has no energy; Laplace: walks through the cells, both directions; canonical rules have positive weights and enough points (Nullstellensatz on grids of Gauss points, integer check for shipped rules), for all element kinds; uniform meshes (quadrilaterals, hexahedra, tetrahedra; triangles through C104) are connected |
| C97 | the same chain with the scalar assembler (C69) and the boundary vertices (C14) | minima of convex quadratic functions with fixed coordinates; shift by a vector with the prescribed values; patch test of the matrix (C89) with uniqueness (C96); uniform meshes of all four linear kinds |
| C98 | `ElementMassAssembler`, `ElementSourceAssembler` on top of C27, C29, C21, C23; the canonical mass rules of C88 | bilinear form of a sum of contributions; positive definiteness from rules that determine the functions: integer check of a diagonally dominant inverse for the shipped rules (evaluated by the kernel), Nullstellensatz on the grid of Gauss points for tensor rules; solver by C31, C95 |
| C99 | linear elastic material (C56, C57) in the chain of C96; canonical stiffness rules of all element kinds (C88) | energy density bounded below by the strain (Cauchy-Schwarz on the trace); the gradient of the strain-free polynomial vanishes on the rule, hence everywhere; rigid motions of neighbours agree on common nodes; both directions of the equivalence; `Fixes` characterised in 2-D and 3-D; the triangles and tetrahedra of the uniform meshes hang together through common edges and faces |
| C100 | element assemblers as records of their answers; aggregate, renumbering and transformation adapters; global assembly through the models of C21, C23, C24 | assembled entries as sums over elements; the sum over the elements of an aggregate splits into those of the parts (owner of C26); a moved body through C68; nodes of different bodies are different; the form of the assembled matrix is the sum of the element forms |
| C101 | `create_simple_stupid_sphere` on top of the uniform hexahedral mesh, the conversion to polyhedral meshes (C80) and the clipping (C73); sine, cosine, π and the normalization are parameters, instantiated with those of the reals | the loop is an intersection with a convex polyhedron (C73); the sums of sines and cosines over a full turn vanish. Finding: the half-spaces keep the wrong side, so the mesh is empty for every number of sweeps but one |
| C102 | the intersection of polyhedral meshes with half-spaces (C73) and the volume of cells as a sum of signed cones (C64) | the caps are strung from the directed outline of the cut, which enters and leaves every new vertex once; the parts are closed because the image of a closed cell is. Volumes: with the apex of the cones in the cutting plane the caps contribute nothing, and each face is split into two by a point of the face in the plane, from which the edges of the cut contribute nothing. Finding: the caps are stored inwards |
| C103 | refinement (C16) and the assembly of energies and matrices (C69, C96) on triangle meshes | a function on a triangle is affine, its values at midpoints are averages, so the gradient on the four children is the same and their areas are a quarter; sums over the elements; Dirichlet's principle (C97) with the prolonged function as a competitor |
| C104 | assembly, boundary conditions and solver of Poisson problems (C69, C96, C97), uniform meshes (C17, C18, C81) | entries off the diagonal are sums of inner products of gradients, rows sum to zero; test the equations with the positive part of `x - M`, which is zero at the prescribed nodes, and use definiteness; angles of triangles from the explicit inverse of the Jacobian, squares and cubes from the Gauss points `±1/√3` |
| C105 | the vector of the elliptic assembler (C69), the materials (C56), the source assembler (C98) | virtual work from the assembled vector formula; constants have no gradient; on the displaced positions the gradient is `F`, and `F Pᵀ` is symmetric; the triangle `plate` as counterexample for linear elasticity |
| C106 | the vector, the matrix and the energy of the elliptic assembler (C69), the materials (C56, C72), the elements of a mesh (C89) | the force at a node and the block of a pair of nodes as sums over the quadrature points; on moved positions the deformation gradient is `Q F`; on a moved mesh the Jacobian is `Q J` and the gradient `Q G Rᵀ`; isotropy of each material |
| C107 | the error estimators (C67) on the space of the assemblers; mass matrix and source vector (C98), Laplace matrix (C97) | both errors as sums over the quadrature points; the squared error is `yᵀAy - 2 b·y` plus a constant, so stationary means least, and the excess of any other vector is the form of the difference; affine functions: the value and the gradient at each quadrature point |
| C108 | `split_into_triangles` on meshes (C81) and the boundary faces (C14) | the edges of the two halves are those of the quadrilateral and the diagonal in both directions; count the faces with the same vertices before and after; uniform meshes from the grid (C17, C94). Finding: concave cells (C52) |
| C109 | the chain of C99 with prescribed affine displacements (C97), boundary vertices (C14) | patch test (C89) and uniqueness (C99); a face of an affine cell prevents rigid motions; a consistently oriented body has a boundary, since otherwise two different affine functions would solve one Poisson problem with one prescribed value (C96) |
| C110 | `MeshPermutation::apply`, `reorder_mesh_par` (C13), a mesh as a space (C89), element and global assembly (C69, C98) | cell `k` of the result has the nodes of cell `source_index(k)`, renumbered; element quantities are equal; sums over elements and degrees of freedom are rearranged; source and mass by unit test vectors |
| C111 | assembled matrices and energies of linear problems (C96, C97, C69) | symmetry of the assembled form; the work of the load is the maximum of `2 b·v - vᵀ A v` over the `v` that respect the supports, compared for two sets of supports and two forms |
| C112 | vector and matrix assembly, Dirichlet conditions, conjugate gradients and Newton's method together (C69, C25, C96, C32, C33) | internal forces of a linear operator are its matrix times the values; the Newton system has one solution, the full step makes the residual zero, which both line searches accept; uniqueness from C96; affine solutions by the patch test (C89); rough solver: conjugate gradients stay in the subspace of vectors that vanish at the prescribed nodes, so that the residual after a step is the residual of the linear solver; induction over the steps |

## Trusted base

* Lean's kernel; the axioms `propext`, `Classical.choice`, `Quot.sound` at most (checked with
  `#print axioms`). No axioms of our own, no `sorry`, no `native_decide`, no `bv_decide`.
* The faithfulness of the transcription from Rust to the model (by reading; see the citations).
* The simplifications listed above and in the comments of each definition.

## What is modelled, and what is not

| module (`Verif/Model`) | code | left out |
|---|---|---|
| `NestedVec` | `fenris-nested-vec/src/lib.rs` | serde, `Debug` |
| `Paradis` | `fenris-paradis/src/{lib,coloring,adapter,slice}.rs` | rayon's scheduler (every split tree / interleaving instead), memory model below one read-modify-write |
| `Util` | `prefix_sum`, `flatten_vertically` | other helpers in `src/util.rs` that are not in `Interpolate`, `Rotation`, `EigenUtil` or `Dump`: `coerce_col_major_slice`, `try_transmute_*` |
| `Sort`, `Permutation`, `ReorderPar` | `src/mesh/reorder.rs` | none of the public functions |
| `MeshOps` | `find_boundary_faces`, `keep_cells` | |
| `Refinement`, `Procedural` | `src/mesh/refinement.rs`, quad and hex meshes of `src/mesh/procedural.rs` | tetrahedral meshes are in `TetGrid`, meshes of shapes in `VoxelSdf` |
| `Element` | bases and gradients in `src/element/*.rs` | coordinate inversion is in `InverseMap` |
| `MeshConvert` | `src/mesh_convert.rs` order elevation | conversion to and from polyhedral meshes is in `PolyConvert` |
| `Pattern`, `Assembly` | `src/assembly/global.rs` (pattern, matrix, vector, scalar, gather) | reuse of the workspace buffers (element matrices are values) |
| `Dirichlet` | `apply_homogeneous_dirichlet_bc_{csr,matrix,rhs}` | nothing |
| `QuadratureTable` | `src/assembly/local/quadrature_table.rs`, quadrature buffers of `src/assembly/buffers.rs` | serde |
| `ElementAssembly` | loops of `src/assembly/local/{elliptic,mass,source}.rs` over one element, `LaplaceOperator` | nalgebra's determinant, inverse and gemm (their mathematical meaning is used) |
| `EllipticAssembler` | `ElementEllipticAssembler` with its workspace | `RefCell`/thread-local mechanics |
| `MassAssembler` | `ElementMassAssembler`, `ElementSourceAssembler` with their workspaces | `RefCell`/thread-local mechanics |
| `Cg` | `fenris-sparse/src/cg.rs` | nalgebra's dot product, norm, gemv and CSR product (their mathematical meaning); operators that do not overwrite their output (for those see `CgWorkspace`) |
| `CgWorkspace` | `fenris-sparse/src/cg.rs` with the buffers | the order in which dot products are summed up (here from the right); the source of nalgebra and nalgebra-sparse is not available: `gemv` with `β = 0` is taken to overwrite and `spmm_csr_dense` to compute `β y + α A x`, as documented |
| `Newton`, `Calculus` | `fenris-optimize/src/{newton,calculus}.rs` | stateful functions under evaluation, debug output |
| `Quadrature` | `fenris-quadrature/src/{univariate,tensor}.rs`, `src/quadrature/subdivide.rs` (Gauss, Gauss-Lobatto table lookup, tensor rules, subdivision) | convergence of the root finder (points are exact roots or the loop has stopped within its tolerance) |
| `Polyquad` | `polyquad-parse/src/lib.rs`, `fenris-quadrature/build.rs`, `fenris-quadrature/src/polyquad.rs` | the file system, number parsing (any function); the numbers in the shipped rule files are in `ShippedRules` |
| `GeometryUtil` | `fenris-geometry/src/util.rs` (shift-invariant comparison, index power iterator) | |
| `Aabb` | `fenris-geometry/src/lib.rs` (`AxisAlignedBoundingBox`) | square roots (distances are squared distances); rounding |
| `Lines` | `fenris-geometry/src/primitives/{line,half_space}.rs` and the plane queries | square root, norm and `signum` are parameters with their defining properties; rounding |
| `Polygon` | `fenris-geometry/src/polytope.rs`, `fenris-geometry/src/polygon.rs` | square root and norm are parameters |
| `Triangle` | `fenris-geometry/src/primitives/{triangle,quad}.rs` in the plane | triangles in space, solid angles |
| `ClosestPoint` | `closest_point` of `Tri3d2Element`, `Tri3d3Element`, `Tet4Element` | rounding (the tolerance is any non-negative number) |
| `SpatialIndex` | `src/space/spatially_indexed.rs` over any space, and over meshes of triangles and tetrahedra | the R-tree of the crate `rstar` (any iterator that yields every box once, nearest first) |
| `Interpolate` | `src/space/{interpolate,fixed_interpolator}.rs`, interpolation helpers of `src/util.rs` | serde; the thread-local buffer is in `Buffers` |
| `Solid` | `fenris-solid/src/{lib,logdet,materials,gravity_source}.rs` | nalgebra's determinant and inverse (mathematical meaning); `MaterialEllipticOperator` for materials with infinite energies |
| `Integrate` | `src/integrate.rs`, `src/error.rs` | the builder's `Option`s (a missing part panics); `SpaceInterpolationFn`; buffers for basis values (overwritten before use) |
| `PolyMesh` | `fenris-geometry/src/polymesh.rs` (construction, connectivity, dedup, concatenate, split, triangulate, keep, volume) | hash maps are association lists (only looked up); `translate`, display |
| `PolyClip` | `fenris-geometry/src/polymesh.rs` (`intersect_half_space`, `intersect_convex_polyhedron`) | the planes of the polyhedron are parameters; loops that remove an edge per step carry fuel; maps as above |
| `Polyhedron` | `fenris-geometry/src/lib.rs` (`ConvexPolygon3d`, `ConvexPolyhedron`), `primitives/{triangle,tetrahedron,hexahedron}.rs` in space | norm and square root are parameters; `T::max_value()` is `none`; hexahedra with faces that are not plane are modelled but have no theorem |
| `Winding` | `fenris-geometry/src/primitives/triangle.rs` (`compute_solid_angle`, `compute_winding_number_for_triangles_3d`) | over ℝ; division by zero as for floating-point numbers, without signed zeros |
| `Workspace` | `src/workspace.rs` | `TypeId`s are elements of a type with decidable equality; the assemblers use the same code from the crate `davenport` |
| `Sdf` | `fenris-geometry/src/sdf.rs` | the norm is a parameter |
| `CsrRows` | `fenris-sparse/src/sparse.rs` (parallel row access) | commented-out code is not modelled |
| `Surface` (Spec, Props only) | `src/mesh.rs` boundary faces with `src/connectivity.rs` local faces | uses the models `MeshOps`, `Element`, `Winding` |
| `PolyConvert` | `src/mesh_convert.rs` 490-655 | `norm` is a parameter; the hash map of faces is an association list; failures of `try_from` keep no message |
| `MeshUtil` | `src/mesh.rs` 219-295, `src/mesh/procedural.rs` 22-28 | `transform_all_vertices` only hands out the vertices and is not modelled |
| `VoxelSdf` | `src/mesh/procedural.rs` 94-213 | `f64` conversions are left out, `ceil` is a parameter with the specification `IsCeil` |
| `TetGrid` | `src/mesh/procedural.rs` 36-41, 276-403 | `cycle().take(5).tuple_windows()` as the pairs of neighbours; coordinates over a field |
| `InverseMap` | `src/element.rs` 299-455, `diameter` of all elements | `full_piv_lu` as an exact solver that fails exactly on singular matrices; tolerance `1e-12` as a rational number; the message after 1000 rounds left out |
| `Rotation` | `src/util.rs` 125-261, 323-325, `fenris-geometry/src/util.rs`, `primitives/plane.rs`, `predicates.rs` | the algorithm of `svd` (nalgebra); `UnitQuaternion` products and matrices as in nalgebra |
| `EigenUtil` | `src/util.rs` 409-479 (`min_eigenvalue_symmetric`, `min_max_symmetric_eigenvalues`, `condition_number_symmetric`) | the algorithm of `symmetric_eigenvalues` (nalgebra), assumed to return a spectral decomposition |
| `ShippedRules` | `fenris-quadrature/src/polyquad.rs`, all files in `rules/polyquad/expanded` | the conversion of the decimals to `f64` (the numbers are exact decimals); that the transcription by the script equals the text of the files |
| `Canonical` | `src/quadrature/{canonical,tensor,total_order}.rs` | the conversion from `f64`; the Gauss rule enters as a rule with the properties of C42 (`C88_gauss_rule`) |
| `MeshSpace` | `src/space/space_impl.rs` 17-150 (the space that a mesh is) | nothing; the element of a cell is the one of C35-C38 |
| `Buffers` | `src/assembly/buffers.rs` 10-90, 222-345, the buffered loops of `src/space/interpolate.rs` | the lifetime of borrowed buffers (an element buffer is a value that is released) |
| `Dump` | `src/util.rs` 327-407, 427-441, 800-829 | errors of the file system; formatting and parsing of floating-point numbers (parameters that invert each other); `CsrMatrix::from(&CooMatrix)` and `triplet_iter` as in nalgebra-sparse |
| `Lobatto`, `Lobatto/*` | `fenris-quadrature/src/codegen/gauss_lobatto_rules.rs` (all tables), generated from the file by a script | the rounding of the decimals to `f64` and the rounding of the sums that use them |
| `IndexedSpace` | `src/space/spatially_indexed.rs` 137-366 | as for `SpatialIndex`; elements other than Tri3 in the plane and Tet4 |
| `Io` | `src/io/msh.rs`, `src/io/vtk.rs` (`try_build`, attributes, `VtkCellConnectivity`) | parsing (`mshio`) and serialisation (`vtkio`) are external and not modelled; polygonal and polyhedral data sets do not occur (that code is commented out) |
| `Aggregate` | `AggregateElementAssembler`, `MapElementNodes` (connectivity) | |
| `Combinators` | element assemblers with all their queries; `AggregateElementAssembler`, `MapElementNodes`, `TransformElementMatrix`, `TransformElementVector`, `TransformElementScalar` and the delegated queries | element outputs as views into a shared buffer (a transformation gets the entries and returns new ones) |
| `SphereMesh` | `create_simple_stupid_sphere` |

## Findings (the code does not do what the property says for all inputs)

* C04: `split_at(len)` panics (rayon's contract allows it): `C04_split_at_len_panics`.
* C05: a family with only empty subsets trips a debug assertion: `C05_only_empty_subsets_panics_in_debug`.
* C10: `Permutation::from_vec` panics on out-of-range entries instead of returning `Err`.
* C18: a hexahedral mesh with `units_z == 0` keeps unused vertices.
* C20: a connectivity that mentions a missing node makes pattern assembly panic.
* C21: an element that lists a node twice makes matrix assembly panic: `C21_repeated_node_panics`.
* C25: `apply_homogeneous_dirichlet_bc_csr` leaves a zero row when the diagonal entry is not stored, and
  does not clear columns of unsymmetric patterns; the dense version writes zero when the whole diagonal is
  zero: `C25_missing_diagonal_leaves_zero_row`, `C25_unsymmetric_pattern_keeps_column`,
  `C25_dense_zero_diagonal_leaves_zero_row`.
* C26: the aggregate accepts the index one past the end (`C26_one_past_the_end_is_not_rejected`), and with
  an empty part the choice `binary_search` makes among equal offsets decides whether a valid index is sent
  to the empty part (`C26_empty_part_may_be_selected`).
* C47: two overlapping parallel segments are reported as not intersecting:
  `C47_overlapping_segments_not_reported`.
* C48: a segment outside a disk can be reported as intersecting it, and a segment of length zero makes
  the query divide by zero: `C48_disjoint_segment_reported`, `C48_degenerate_segment`.
* C49: an empty polygon "contains" every point and acts as the whole plane in intersections; for two
  segments the second acts as its whole line: `C49_empty_contains`, `C49_intersect_empty`,
  `C49_collinear_segments`.
* C52: `concave_corner` never finds a corner, so a concave quadrilateral may be split along the wrong
  diagonal and its area is wrong: `C52_concave_corner_never_found`, `C52_concave_area_wrong`.
* C53: `intersects_segment` ignores the edges a segment crosses, so a segment through the whole
  polygon is reported as not intersecting it: `C53_crossing_not_reported`.
* C55: building a fixed interpolator over a space without elements panics as soon as there are two points,
  although the documentation promises `None`: `C55_empty_space_panics`.
* C70 (scope): `closest_point` on triangles and tetrahedra reports "in element" by signed tests with a
  tolerance; with a positive tolerance a point slightly outside may be reported as inside. The theorems bound
  by how much: its barycentric coordinates are at least minus half the tolerance.
* C56, C58: in one dimension `log_det_F` computes `ln (du/dX)` instead of `ln (1 + du/dX)`, so the
  Neo-Hookean energy is infinite in the undeformed state: `C58_one_dimension_wrong`,
  `C56_neo_hookean_one_dimension`. In two and three dimensions the property holds.
* C57: where `det F ≤ 0` the single contraction of the Neo-Hookean material is NaN, the batched one panics
  (`todo!`): `C57_neo_hookean_batch_panics`. The documentation says that the batched contraction panics for arrays of
  different lengths; the code accepts them (`C57_batch_contraction` covers that case).
* C64: `compute_volume` of a polyhedral mesh is only right if the boundary faces are consistently oriented;
  `keep_cells` does not preserve that, since a face between two cells is stored for one of them. Two tetrahedra of
  total volume 1/2 have a sub-mesh for which `compute_volume` gives 2/3 instead of 1/3:
  `C64_volume_of_sub_mesh_wrong`.
* C62 (scope): `dedup_faces` compares sorted vertex lists, i.e. multisets; the documentation says sets. They agree
  for faces without repeated vertices: `C62_dedup_is_by_vertex_sets`.
* C60: node tags beyond the number of nodes are accepted, so that a loaded mesh may have indices out of bounds:
  `C60_tags_are_not_checked`. Too many nodes in an element are a panic instead of an error:
  `C60_too_many_nodes_panic`.
* C61: a cell of a `Quad9` mesh is exported with nine nodes as a `QuadraticQuad`, which has eight:
  `C61_quad9_has_too_many_nodes`.
* C74: the solid angle is computed with `atan` instead of `atan2`, so that a triangle seen under more than `π` is counted on
  the wrong branch. The winding number at points strictly inside a tetrahedron is less than one:
  `C74_tetrahedron_inside`, `C74_inside_false`.
* C77: the gradient of a box is computed by central differences and normalised without a check; in the centre of a box all
  differences are zero, so the result is not a number: `C77_box_gradient_centre`.
* C77: inside a union the value is not the distance to the boundary; on a common side of two boxes it is zero:
  `C77_union_inside_false`.
* C80: the conversion of a polyhedral mesh to tetrahedra only checks that the four faces of a cell use four vertices, so it also
  accepts cells that are not tetrahedra: `C80_accepts_other_cells`.
* C82: a shape that contains no corner of the grid is missed. For a circle and a maximal cell size above its enlarged bounding box
  the mesh is empty: `C82_coarse_grid_misses_circle`. A shape without extent in one direction panics: `C82_grid_panics`.
* C84: `project_physical_coordinates` has no limit of rounds (it only prints a message after 1000) and may not terminate. For the
  strictly convex quadrilateral (13, 0), (15, -2), (21, 0), (15, 2) and the origin it alternates between two points:
  `C84_projection_may_not_terminate`. `map_physical_coordinates` gives up on it after 20 rounds: `C84_map_may_reach_limit`.
* C85: the matrix in the step of `apd` is `tr B - 2 diag B + sym B` instead of the second derivative `tr B - sym B` (the off-diagonal entries
  have the wrong sign). As a consequence `apd` does not converge in general: for the symmetric positive definite matrix
  `[[2,1,0],[1,2,0],[0,0,1]]`, whose rotation is the identity, and a guess as near to the identity as we like, every round conjugates the
  guess, so that the result is as far away as the guess after any number of rounds: `C85_apd_may_not_converge`.
* C86: `condition_number_symmetric` divides the absolute values of the largest and the smallest eigenvalue instead of the largest and the
  smallest absolute value. For `diag(-2, -1)` it returns one half, and the condition number is 2: `C86_condition_number_of_negative_matrix`.
* C88: the canonical quadratures are documented to integrate mass and stiffness terms exactly. For the frustum with corners `(±2, ±2, -1)`,
  `(±4, ±4, 1)` the first entry of the Hex8 mass matrix is too small by 8/405: `C88_mass_not_exact`. For the trapezoid `(-1,-1)`, `(1,-1)`,
  `(3,1)`, `(-3,1)` the first entry of the Quad4 stiffness matrix is too small: `C88_stiffness_not_exact`.
* C90: `prepare_element_in_space` sets the reference point to the origin but leaves the basis values and gradients of the previous element in
  the buffer. `interpolate` before the first update returns zero for the constant function one with a new buffer, and a mixture of the new
  nodal values with the old basis values otherwise: `C90_stale_values`, `C90_left_over`. After an update of the values alone, position and
  Jacobian are those of the new point and the gradient is that of the earlier one: `C90_mixed_points`.
* C91: `dump_matrix_to_file` panics for every matrix with rows but without columns: `C91_dense_without_columns`.
* C95: CSR matrices as operators compute `0 * y + A x`. If an earlier solve left a NaN in the workspace (say, because its right-hand side contained one), a later solve of a sound system with the same workspace never converges and, without an iteration limit, never returns: `C95_finding_nan_survives`. A new workspace works. This rests on the documented meaning of `spmm_csr_dense`; over a field (no NaN) the workspace has no influence: `C95_csr_overwrites`, `C95_history_independent`.
* C101: `create_simple_stupid_sphere` gives its half-spaces normals that point to the centre, but a half-space contains the points against its normal. So every cut keeps what lies beyond the tangent plane. The result is the empty mesh for every radius and every number of sweeps from two on (`C101_sphere_is_empty`), and a flat mesh at the top of the cube for one sweep (`C101_sphere_is_flat`).
* C102: `intersect_half_space` strings its caps in the direction of the edges of the clipped faces. In a consistently oriented surface a neighbour runs through an edge in the other direction, so the caps of a cell whose faces are stored outwards are all stored inwards (`C102_closed`). `compute_volume` adds up the boundary faces as they are stored; after a cut it is wrong: for the lower half of the unit cube it gives 1/6 instead of 1/2 (`C102_volume_of_part_wrong`).
* C104: on meshes with obtuse angles the computed solutions of Poisson problems need not lie between the prescribed values (`C104_obtuse_triangle`: values 1 and 0 are prescribed, the third vertex gets -1/2). This is a property of linear elements, not a programming error, but users who rely on bounds (concentrations, temperatures) must choose their meshes accordingly.
* C105: the forces of the linear elastic material have a moment about the displaced nodes (`C105_linear_moments_deformed`: `-2` for one stretched triangle); about the undeformed nodes they have none. This is the usual limitation of linear elasticity, not an error of the code.
* C108: since `concave_corner` never finds a corner (C52), `split_into_triangles` may split a concave cell outside of it. Beside a square that contains this diagonal the result is not a conforming mesh: an edge belongs to four triangles, and one triangle has negative area (`C108_finding_concave_cell`).
