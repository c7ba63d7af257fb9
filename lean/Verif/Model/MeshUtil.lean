import Verif.Model.Procedural
import Verif.Model.Triangle
import Verif.Model.Aabb
/-! # Model of the remaining mesh operations of `src/mesh.rs`, and of the triangle mesh of `src/mesh/procedural.rs` -/
set_option autoImplicit false

namespace Fenris
namespace MeshUtil
open Geometry
variable {K : Type} [Field K] [LinearOrder K] {d : Nat}

/-- The vertices of a cell (`CellConnectivity::cell`); `none` is an index out of bounds. -/
def cellPoints (vertices : List (Point d K)) (cell : List Nat) : Option (List (Point d K)) := cell.mapM fun v => vertices[v]?

/-- The closure of src/mesh.rs:280-291 for one quadrilateral; `none` is a panic. -/
def splitQuad (vertices : List (Point 2 K)) (cell : List Nat) : Option (List (List Nat)) :=
  (cellPoints vertices cell).bind fun pts =>
    match pts with
    | [p0, p1, p2, p3] =>
      let split := Quad.splitConnectivities ![p0, p1, p2, p3]
      (split.1.mapM fun i => cell[i]?).bind fun tri1 => (split.2.mapM fun i => cell[i]?).map fun tri2 => [tri1, tri2]
    | _ => none

/-- src/mesh.rs:276-295 `QuadMesh2d::split_into_triangles`. -/
def splitIntoTriangles (mesh : Mesh (Point 2 K)) : Option (Mesh (Point 2 K)) :=
  (mesh.cells.mapM (splitQuad mesh.vertices)).map fun triangles => ⟨mesh.vertices, triangles.flatten⟩

/-- src/mesh/procedural.rs:22-28 `create_unit_square_uniform_tri_mesh_2d`. -/
def unitSquareTriMesh (cellsPerDim : Nat) : Option (Mesh (Point 2 K)) :=
  splitIntoTriangles (Procedural.quadMesh 1 1 1 cellsPerDim 0 1)

/-- src/mesh.rs:255-262 `transform_vertices`: the closure may keep a state, so its first argument numbers the calls. -/
def transformVertices {P : Type} (f : Nat → P → P) (mesh : Mesh P) : Mesh P := ⟨mesh.vertices.mapIdx f, mesh.cells⟩

/-- src/mesh.rs:244-252 `translate` and `translated`. -/
def translate (t : Point d K) (mesh : Mesh (Point d K)) : Mesh (Point d K) := transformVertices (fun _ p i => p i + t i) mesh

/-- `bounding_box` of a cell: `from_points(..).unwrap()` in `fenris-geometry/src/primitives/`. -/
def cellBox (vertices : List (Point d K)) (cell : List Nat) : Option (Aabb d K) :=
  (cellPoints vertices cell).bind fun pts => (Aabb.fromPoints pts).bind id

/-- src/mesh.rs:229-234 `bounding_box`; `none` is a panic. The iterator is lazy, but a panic ends the call either way. -/
def boundingBox (mesh : Mesh (Point d K)) : Option (Aabb d K) :=
  (mesh.cells.mapM (cellBox mesh.vertices)).bind fun bbs =>
    match bbs with
    | [] => Aabb.ofPoint 0
    | b :: bs => bs.foldlM Aabb.enclose b

end MeshUtil
end Fenris
