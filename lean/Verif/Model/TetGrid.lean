import Verif.Model.Procedural
import Mathlib.Data.Fin.VecNotation
/-! # Model of the uniform tetrahedral meshes of boxes (`src/mesh/procedural.rs:276-403`) -/
set_option autoImplicit false

namespace Fenris
namespace TetGrid
variable {K : Type} [Field K]

/-- The coordinates `[i, j, k]` of a vertex or a cell. -/
abbrev Idx := Fin 3 → Nat

/-- procedural.rs:331-335 `positive_face_deltas_for_each_axis`. -/
def faceDeltas : Fin 3 → List Idx
  | 0 => [![1, 0, 1], ![1, 1, 1], ![1, 1, 0], ![1, 0, 0]]
  | 1 => [![0, 1, 0], ![1, 1, 0], ![1, 1, 1], ![0, 1, 1]]
  | 2 => [![0, 1, 1], ![1, 1, 1], ![1, 0, 1], ![0, 0, 1]]

/-- procedural.rs:324 `vertex_to_global_idx`, for `n` cells. -/
def vertexIdx (n : Idx) (q : Idx) : Nat := (n 0 + 1) * (n 1 + 1) * q 2 + (n 0 + 1) * q 1 + q 0

/-- The number of vertices of the grid, `cell_center_offset` of procedural.rs:315. -/
def centerOffset (n : Idx) : Nat := (n 0 + 1) * (n 1 + 1) * (n 2 + 1)

/-- procedural.rs:325 `cell_to_global_midpoint_idx`. -/
def centerIdx (n : Idx) (q : Idx) : Nat := n 0 * n 1 * q 2 + n 0 * q 1 + q 0 + centerOffset n

/-- `cell_delta` of procedural.rs:342. -/
def axisDelta (axis : Fin 3) : Idx := fun a => if a = axis then 1 else 0

/-- procedural.rs:337-357 `connect_centers_with_tets`; `cycle().take(5).tuple_windows()` are the pairs of neighbours in the list
followed by its first element. -/
def connectCenters (n cell : Idx) (axis : Fin 3) : List (List Nat) :=
  let face := (faceDeltas axis).map fun delta => vertexIdx n fun a => cell a + delta a
  let c1 := centerIdx n cell
  let c2 := centerIdx n fun a => cell a + axisDelta axis a
  let around := face ++ face.take 1
  (around.zip around.tail).map fun e => [c1, c2, e.2, e.1]

/-- The vertices of a side of a cell, procedural.rs:360-370. The subtraction does not underflow: the deltas are `1` in the direction
of the axis. -/
def faceVertices (cell : Idx) (axis : Fin 3) (positive : Bool) : List Idx :=
  let face := (faceDeltas axis).map fun delta => fun a => cell a + delta a
  if positive then face else face.reverse.map fun q => fun a => if a = axis then q a - 1 else q a

/-- procedural.rs:359-384 `make_pyramid`. -/
def makePyramid (n cell : Idx) (axis : Fin 3) (positive : Bool) : List (List Nat) :=
  let face := (faceVertices cell axis positive).map (vertexIdx n)
  let a := face.getD 0 0
  let b := face.getD 1 0
  let c := face.getD 2 0
  let d := face.getD 3 0
  let center := centerIdx n cell
  if (cell 0 + cell 1 + cell 2) % 2 = 0 then [[a, b, c, center], [a, c, d, center]]
  else [[a, b, d, center], [b, c, d, center]]

/-- The body of the loop over the cells, procedural.rs:387-399. -/
def cellTets (n cell : Idx) : List (List Nat) :=
  ([0, 1, 2] : List (Fin 3)).flatMap fun axis =>
    (if cell axis + 1 < n axis then connectCenters n cell axis else []) ++
    (if cell axis = 0 then makePyramid n cell axis false else []) ++
    if cell axis + 1 = n axis then makePyramid n cell axis true else []

/-- `iproduct!(0..n[2], 0..n[1], 0..n[0])` as coordinates. -/
def lattice (n : Idx) : List Idx :=
  (List.range (n 2)).flatMap fun (k : Nat) => (List.range (n 1)).flatMap fun (j : Nat) =>
    (List.range (n 0)).map fun (i : Nat) => (![i, j, k] : Idx)

/-- src/mesh/procedural.rs:285-403 `create_rectangular_uniform_tet_mesh`. -/
def tetMesh (unitLength : K) (unitsX unitsY unitsZ cellsPerUnit : Nat) : Mesh (Point 3 K) :=
  if unitsX = 0 ∨ unitsY = 0 ∨ unitsZ = 0 ∨ cellsPerUnit = 0 then ⟨[], []⟩
  else
    let cellSize := unitLength / (cellsPerUnit : K)
    let n : Idx := ![unitsX * cellsPerUnit, unitsY * cellsPerUnit, unitsZ * cellsPerUnit]
    ⟨((lattice fun a => n a + 1).map fun q => (fun a => cellSize * (q a : K) : Point 3 K)) ++
      (lattice n).map fun q => (fun a => cellSize * (1 / 2 + (q a : K)) : Point 3 K),
     (lattice n).flatMap (cellTets n)⟩

/-- src/mesh/procedural.rs:36-41 `create_unit_box_uniform_tet_mesh_3d`. -/
def unitBoxTetMesh (cellsPerDim : Nat) : Mesh (Point 3 K) := tetMesh 1 1 1 1 cellsPerDim

end TetGrid
end Fenris
