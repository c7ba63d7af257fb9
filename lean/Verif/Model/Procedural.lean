import Verif.Model.Refinement
/-! # Model of `src/mesh/procedural.rs`: rectangular quad, hexahedral and tetrahedral meshes

The grid spacing `unit_length / cells_per_unit` is computed in the scalar field (the Rust code goes
through `f64`). -/
set_option autoImplicit false

namespace Fenris
namespace Procedural
variable {K : Type} [Field K]

/-- A point in the plane. -/
def pt2 (x y : K) : Point 2 K := fun i => if i = 0 then x else y

/-- A point in space. -/
def pt3 (x y z : K) : Point 3 K := fun i => if i = 0 then x else if i = 1 then y else z

/-- src/mesh/procedural.rs:46-93 `create_rectangular_uniform_quad_mesh_2d`. -/
def quadMesh (unitLength : K) (unitsX unitsY cellsPerUnit : Nat) (x0 y0 : K) :
    Mesh (Point 2 K) :=
  if cellsPerUnit = 0 ∨ unitsX = 0 ∨ unitsY = 0 then ⟨[], []⟩
  else
    let cellSize := unitLength / (cellsPerUnit : K)
    let nx := unitsX * cellsPerUnit
    let ny := unitsY * cellsPerUnit
    let idx := fun i j => (nx + 1) * j + i
    ⟨(List.range (ny + 1)).flatMap (fun (j : Nat) => (List.range (nx + 1)).map (fun (i : Nat) =>
        pt2 (x0 + (i : K) * cellSize) (y0 + (-(j : K)) * cellSize))),
     (List.range ny).flatMap (fun (j : Nat) => (List.range nx).map (fun (i : Nat) =>
        [idx i (j + 1), idx (i + 1) (j + 1), idx (i + 1) j, idx i j]))⟩

/-- src/mesh/procedural.rs:15-20 `create_unit_square_uniform_quad_mesh_2d`. -/
def unitSquareQuadMesh (cellsPerDim : Nat) : Mesh (Point 2 K) := quadMesh 1 1 1 cellsPerDim 0 1

/-- src/mesh/procedural.rs:216-277 `create_rectangular_uniform_hex_mesh`.  The emptiness check does
not look at `units_z`, as in the code. -/
def hexMesh (unitLength : K) (unitsX unitsY unitsZ cellsPerUnit : Nat) : Mesh (Point 3 K) :=
  if cellsPerUnit = 0 ∨ unitsX = 0 ∨ unitsY = 0 then ⟨[], []⟩
  else
    let cellSize := unitLength / (cellsPerUnit : K)
    let nx := unitsX * cellsPerUnit
    let ny := unitsY * cellsPerUnit
    let nz := unitsZ * cellsPerUnit
    let idx := fun i j k => ((nx + 1) * (ny + 1)) * k + (nx + 1) * j + i
    ⟨(List.range (nz + 1)).flatMap (fun (k : Nat) => (List.range (ny + 1)).flatMap (fun (j : Nat) =>
        (List.range (nx + 1)).map (fun (i : Nat) =>
          pt3 ((i : K) * cellSize) ((j : K) * cellSize) ((k : K) * cellSize)))),
     (List.range nz).flatMap (fun (k : Nat) => (List.range ny).flatMap (fun (j : Nat) =>
        (List.range nx).map (fun (i : Nat) =>
          [idx i j k, idx (i + 1) j k, idx (i + 1) (j + 1) k, idx i (j + 1) k,
           idx i j (k + 1), idx (i + 1) j (k + 1), idx (i + 1) (j + 1) (k + 1),
           idx i (j + 1) (k + 1)])))⟩

/-- src/mesh/procedural.rs:29-34 `create_unit_box_uniform_hex_mesh_3d`. -/
def unitBoxHexMesh (cellsPerDim : Nat) : Mesh (Point 3 K) := hexMesh 1 1 1 1 cellsPerDim

end Procedural
end Fenris
