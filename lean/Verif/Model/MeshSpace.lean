import Verif.Model.MeshOps
import Verif.Model.EllipticAssembler
/-! # A mesh as a finite element space, `src/space/space_impl.rs:17-150` -/
set_option autoImplicit false

namespace Fenris.Local
open Fenris.Element
variable {K : Type} [Field K] [LinearOrder K]

/-- `connectivity.element(vertices).unwrap()` (src/element/triangle.rs:279-284,299-311, quadrilateral.rs:350-366,371-384,
tetrahedron.rs:25-78, hexahedron.rs:20-36,345-360,573-588): the element made of the vertices of the cell; `none` is the panic for a vertex
index that is out of bounds. The nodes of the element are the vertices of the cell (space_impl.rs:40-51). -/
def cellElement (kind : Kind) (mesh : Mesh (Point kind.dim K)) (c : List Nat) : Option (VolElement kind.dim K × List Nat) :=
  (c.mapM fun i => mesh.vertices[i]?).map fun vs => (elementOfKind kind vs, c)

/-- src/space/space_impl.rs:17-150 `impl FiniteElementConnectivity` and `impl FiniteElementSpace for Mesh`: one element per cell, one node
per vertex. The elements are made when they are asked for; here they are made together. -/
def meshSpace (kind : Kind) (mesh : Mesh (Point kind.dim K)) : Option (Space kind.dim K) :=
  mesh.cells.mapM (cellElement kind mesh)

end Fenris.Local
