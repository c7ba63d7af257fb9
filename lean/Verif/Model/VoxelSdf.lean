import Verif.Model.MeshUtil
import Verif.Model.MeshOps
import Verif.Model.Sdf
/-! # Model of the meshes for signed distance functions (`src/mesh/procedural.rs:94-213`)

The conversions to and from `f64` are left out, and `ceil` followed by `as usize` is a parameter. -/
set_option autoImplicit false

namespace Fenris
namespace VoxelSdf
open Geometry
variable {K : Type} [Field K] [LinearOrder K]

/-- src/mesh/procedural.rs:103 `enlarged_bounds`. -/
def enlarged (bounds : Aabb 2 K) : Option (Aabb 2 K) :=
  Aabb.new (fun i => bounds.min i - bounds.extents i * (1 / 100)) (fun i => bounds.max i + bounds.extents i * (1 / 100))

/-- src/mesh/procedural.rs:111-119: the cell size for the extents `e`. Without extent in some direction the quotient is `0 / 0`, and
`NotNan::new(..).unwrap()` panics. -/
def cellSize (ceil : K → Nat) (maxCellSize : K) (e : Point 2 K) : Option K :=
  let nx := ceil (e 0 / maxCellSize)
  let ny := ceil (e 1 / maxCellSize)
  if nx = 0 ∨ ny = 0 then none else some (Min.min (e 0 / (nx : K)) (e 1 / (ny : K)))

/-- src/mesh/procedural.rs:95-137 `voxelize_bounding_box_2d`; `none` is a panic. -/
def voxelizeBox (ceil : K → Nat) (bounds : Aabb 2 K) (maxCellSize : K) : Option (Mesh (Point 2 K)) :=
  if 0 < maxCellSize then
    (enlarged bounds).bind fun b =>
      let e := b.extents
      (cellSize ceil maxCellSize e).map fun size =>
        let nx := ceil (e 0 / size)
        let ny := ceil (e 1 / size)
        Procedural.quadMesh size nx ny 1 (bounds.center 0 - (nx : K) * size / 2) (bounds.center 1 + (ny : K) * size / 2)
  else none

/-- src/mesh/procedural.rs:145-150 and 183-194: the indices of the cells with a vertex in the shape; `none` is an index out of
bounds. -/
def desired (s : Sdf.Sdf K) (mesh : Mesh (Point 2 K)) : Option (List Nat) :=
  (mesh.cells.mapM (MeshUtil.cellPoints mesh.vertices)).map fun cells =>
    (cells.zipIdx.filter fun q => q.1.any fun v => decide (s.eval v ≤ 0)).map Prod.snd

/-- src/mesh/procedural.rs:140-153 `voxelize_sdf_2d`. -/
def voxelizeSdf (ceil : K → Nat) (s : Sdf.Sdf K) (maxCellSize : K) : Option (Mesh (Point 2 K)) :=
  s.boundingBox.bind fun bounds => (voxelizeBox ceil bounds maxCellSize).bind fun mesh =>
    (desired s mesh).bind fun is => mesh.keepCells is

/-- The closure of src/mesh/procedural.rs:162-169 and 198-205; `none` is the failed `expect`. -/
def moveVertex (s : Sdf.Sdf K) (x : Point 2 K) : Option (Point 2 K) :=
  if 0 < s.eval x then (s.gradient x).map fun g i => x i - g i * s.eval x else some x

/-- `transform_vertices` with this closure. -/
def moveVertices (s : Sdf.Sdf K) (mesh : Mesh (Point 2 K)) : Option (Mesh (Point 2 K)) :=
  (mesh.vertices.mapM (moveVertex s)).map fun vs => ⟨vs, mesh.cells⟩

/-- src/mesh/procedural.rs:156-172 `approximate_quad_mesh_for_sdf_2d`. -/
def approximateQuads (ceil : K → Nat) (s : Sdf.Sdf K) (maxCellSize : K) : Option (Mesh (Point 2 K)) :=
  (voxelizeSdf ceil s maxCellSize).bind (moveVertices s)

/-- src/mesh/procedural.rs:174-208 `approximate_triangle_mesh_for_sdf_2d`. -/
def approximateTriangles (ceil : K → Nat) (s : Sdf.Sdf K) (maxCellSize : K) : Option (Mesh (Point 2 K)) :=
  (voxelizeSdf ceil s maxCellSize).bind fun quads => (MeshUtil.splitIntoTriangles quads).bind fun mesh =>
    (desired s mesh).bind fun is => (mesh.keepCells is).bind (moveVertices s)

end VoxelSdf
end Fenris
