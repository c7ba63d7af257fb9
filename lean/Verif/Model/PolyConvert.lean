import Verif.Model.PolyMesh
import Verif.Model.Polyhedron
import Verif.Model.Permutation
import Verif.Spec.Surface
/-! # Conversions between finite element meshes and polyhedral meshes (src/mesh_convert.rs:490-656) -/
set_option autoImplicit false

namespace Fenris
namespace Poly

/-! ### From a mesh to a polyhedral mesh -/

/-- The inner loop of mesh_convert.rs:540-556 over the faces of one cell. `sorted` are the sorted faces of all cells, `g` is
`global_cell_face_index`, `map` is the `HashMap` as an association list, `faces` the faces so far and `cell` the numbers of the
faces of this cell. The result is the new `g`, `map`, `faces` and `cell`. -/
def convertFaces (sorted : List (List Nat)) :
    List (List Nat) → Nat → List (List Nat × Nat) → List (List Nat) → List Nat →
      Option (Nat × List (List Nat × Nat) × List (List Nat) × List Nat)
  | [], g, map, faces, cell => some (g, map, faces, cell)
  | f :: fs, g, map, faces, cell =>
    sorted[g]?.bind fun key =>
      (map.lookup key).elim
        (convertFaces sorted fs (g + 1) ((key, faces.length) :: map) (faces ++ [f]) (cell ++ [faces.length]))
        fun i => convertFaces sorted fs (g + 1) map faces (cell ++ [i])

/-- The outer loop of mesh_convert.rs:538-557 over the cells, given by their faces. -/
def convertCells (sorted : List (List Nat)) :
    List (List (List Nat)) → Nat → List (List Nat × Nat) → List (List Nat) → List (List Nat) →
      Option (List (List Nat) × List (List Nat))
  | [], _, _, faces, cells => some (faces, cells)
  | c :: cs, g, map, faces, cells =>
    (convertFaces sorted c g map faces []).bind fun r => convertCells sorted cs r.1 r.2.1 r.2.2.1 (cells ++ [r.2.2.2])

/-- mesh_convert.rs:504-563, `From<&Mesh<T, D, C>> for PolyMesh<T, D>`. `facesOf` are the faces of a cell
(`get_face_connectivity` for `0..num_faces()`). -/
def ofMesh {P : Type} (facesOf : List Nat → List (List Nat)) (mesh : Mesh P) : Option (PolyMesh P) :=
  let sorted := mesh.cells.flatMap fun c => (facesOf c).map Mesh.sortNat
  (convertCells sorted (mesh.cells.map facesOf) 0 [] [] []).bind fun r =>
    if r.2.length = mesh.cells.length then fromPolyData mesh.vertices r.1 r.2 else none

/-! ### From a polyhedral mesh to a tetrahedral mesh -/

section
variable {K : Type} [Field K] [LinearOrder K]

/-- The loop of mesh_convert.rs:606-619: whether the faces have no vertices besides the base and the apex. -/
def noExtraVertices (faces : List (List Nat)) (base : Nat × Nat × Nat) (apex : Nat) : List Nat → Option Bool
  | [] => some true
  | f :: fs => faces[f]?.bind fun face =>
    if face.all fun v => [base.1, base.2.1, base.2.2].contains v || apex == v then noExtraVertices faces base apex fs
    else some false

/-- mesh_convert.rs:621-641: the vertices of the tetrahedron, such that the apex is not below the base. -/
def orientTet (norm : Point 3 K → K) (vertices : List (Point 3 K)) (base : Nat × Nat × Nat) (apex : Nat) : Option (List Nat) :=
  vertices[base.1]?.bind fun a => vertices[base.2.1]?.bind fun b => vertices[base.2.2]?.bind fun c =>
    vertices[apex]?.map fun d =>
      if Geometry.Tetrahedron.pointOrientation norm ⟨a, b, c⟩ d = .negative then [base.2.1, base.1, base.2.2, apex]
      else [base.1, base.2.1, base.2.2, apex]

/-- mesh_convert.rs:583-644: one cell. `.error` is the `Err` that is returned, `none` a panic: a face that does not exist, or a
first face that is not a triangle (`clone_from_slice`). -/
def tetOfCell (norm : Point 3 K → K) (m : PolyMesh (Point 3 K)) (cell : List Nat) : Option (Except Unit (List Nat)) :=
  match cell with
  | [f0, f1, f2, f3] =>
    (m.faces[f0]?.bind triple).bind fun base =>
      m.faces[f1]?.bind fun face =>
        (face.find? fun v => !([base.1, base.2.1, base.2.2].contains v)).elim (some (.error ())) fun apex =>
          (noExtraVertices m.faces base apex [f1, f2, f3]).bind fun ok =>
            if ok then (orientTet norm m.vertices base apex).map .ok else some (.error ())
  | _ => some (.error ())

/-- The loop of mesh_convert.rs:583-648. -/
def toTetLoop (norm : Point 3 K → K) (m : PolyMesh (Point 3 K)) :
    List (List Nat) → List (List Nat) → Option (Except Unit (List (List Nat)))
  | [], conn => some (.ok conn)
  | c :: cs, conn => (tetOfCell norm m c).bind fun r => r.toOption.elim (some (.error ())) fun t => toTetLoop norm m cs (conn ++ [t])

/-- mesh_convert.rs:565-655, `TryFrom<&PolyMesh3d<T>> for Tet4Mesh<T>`. -/
def toTets (norm : Point 3 K → K) (m : PolyMesh (Point 3 K)) : Option (Except Unit (Mesh (Point 3 K))) :=
  (toTetLoop norm m m.cells []).map fun r => r.map fun conn => ⟨m.vertices, conn⟩

/-- mesh_convert.rs:490-502, `From<&HexMesh<T>> for Tet4Mesh<T>`; `none` is a panic, in particular the failure of an `expect`. -/
def hexToTets (norm : Point 3 K → K) (mesh : Mesh (Point 3 K)) : Option (Mesh (Point 3 K)) :=
  (ofMesh (Surface.facesOf .hex8) mesh).bind fun p =>
    (triangulate p).bind fun t => t.toOption.bind fun t => (toTets norm t).bind fun r => r.toOption

end

end Poly
end Fenris
