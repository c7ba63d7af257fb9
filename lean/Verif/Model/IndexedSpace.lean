import Verif.Model.SpatialIndex
import Verif.Model.Interpolate
/-! # A spatially indexed mesh as a space in which one interpolates (`src/space/spatially_indexed.rs:137-366`) -/
set_option autoImplicit false

namespace Fenris.Index
open Fenris.Geometry Fenris.Element Fenris.Interpolate
variable {K : Type} [Field K] [LinearOrder K]

/-- The points of a cell; `connectivity.element(vertices).unwrap()` (src/space/space_impl.rs:17-150) panics where this has a default, which
does not happen for well-formed meshes. -/
def pointsOf {d : Nat} (mesh : Mesh (Point d K)) (e : Nat) : List (Point d K) :=
  ((mesh.cells[e]?).getD []).map fun v => (mesh.vertices[v]?).getD 0

/-- `impl FiniteElementConnectivity`, `impl FiniteElementSpace` and `impl FindClosestElement for SpatiallyIndexed`
(spatially_indexed.rs:186-333): nodes, basis functions and Jacobians are those of the mesh, elements are found with the index. `S` holds the
queries of the mesh and `entries` the tree. The functions of the code panic for an element that does not exist, here they return nothing; the
search finds existing elements only. A panic of the search (it does not occur, `C54_closest_element`) is not told apart from a search
without result here. -/
def indexed (kind : Kind) (mesh : Mesh (Point kind.dim K)) (S : IndexSpace kind.dim kind.dim K)
    (nn : List (Aabb kind.dim K × Nat) → Point kind.dim K → List (Aabb kind.dim K × Nat)) (entries : List (Aabb kind.dim K × Nat)) :
    InterpSpace kind.dim K where
  find p := (find S nn entries p).join
  nodes e := (mesh.cells[e]?).getD []
  basis e xi := ((mesh.cells[e]?).map fun _ => basis kind xi).getD []
  gradients e xi := ((mesh.cells[e]?).map fun _ => gradients kind xi).getD []
  jacobian e xi := Matrix.of (referenceJacobian kind (pointsOf mesh e) xi)

/-- `SpatiallyIndexed::from_space(mesh)` for a mesh of triangles in the plane; `none` is a panic. -/
def indexedTriangles (eps : K) (mesh : Mesh (Point 2 K)) (nn : List (Aabb 2 K × Nat) → Point 2 K → List (Aabb 2 K × Nat)) :
    Option (InterpSpace 2 K) :=
  (fromSpace (triSpace2 eps mesh)).map (indexed .tri3 mesh (triSpace2 eps mesh) nn)

/-- `SpatiallyIndexed::from_space(mesh)` for a mesh of tetrahedra; `none` is a panic. -/
def indexedTetrahedra (eps : K) (mesh : Mesh (Point 3 K)) (nn : List (Aabb 3 K × Nat) → Point 3 K → List (Aabb 3 K × Nat)) :
    Option (InterpSpace 3 K) :=
  (fromSpace (tetSpace eps mesh)).map (indexed .tet4 mesh (tetSpace eps mesh) nn)

end Fenris.Index
