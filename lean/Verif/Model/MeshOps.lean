import Verif.Model.Permutation
/-! # Model of `src/mesh.rs`: boundary faces, sub-meshes, surface meshes -/
set_option autoImplicit false

namespace Fenris
namespace Mesh
variable {α : Type}

/-- `sort_unstable` on a `usize` slice (equal numbers are indistinguishable, so stability is
irrelevant). -/
def sortNat (l : List Nat) : List Nat := stableSort (fun a b => a ≤ b) l

/-- Lexicographic comparison of slices (`Ord` for `[usize]`), the key order of the `BTreeMap`. -/
def lexLe : List Nat → List Nat → Bool
  | [], _ => true
  | _ :: _, [] => false
  | a :: as, b :: bs => if a < b then true else if b < a then false else lexLe as bs

/-- src/mesh.rs:171-183, the double loop of `find_boundary_faces`: for each cell and each local
face index, the face with its cell index and local index.  `facesOf` is
`get_face_connectivity(0..num_faces)` of the connectivity type (src/connectivity.rs). -/
def faceInfo (facesOf : List Nat → List (List Nat)) (cells : List (List Nat)) :
    List (List Nat × Nat × Nat) :=
  cells.zipIdx.flatMap (fun p => (facesOf p.1).zipIdx.map (fun q => (q.1, p.2, q.2)))

/-- One iteration of src/mesh.rs:190-195: `entry(key).and_modify(count += 1).or_insert((i, 1))`.
The `BTreeMap` is an association list (its order is restored by `intoIter`). -/
def bump (key : List Nat) (i : Nat) :
    List (List Nat × Nat × Nat) → List (List Nat × Nat × Nat)
  | [] => [(key, i, 1)]
  | (k, j, c) :: rest => if k = key then (k, j, c + 1) :: rest else (k, j, c) :: bump key i rest

/-- src/mesh.rs:189-195: the loop over all sorted slices; `i` is the loop index. -/
def countLoop : List (List Nat) → Nat → List (List Nat × Nat × Nat) →
    List (List Nat × Nat × Nat)
  | [], _, m => m
  | key :: rest, i, m => countLoop rest (i + 1) (bump key i m)

/-- `BTreeMap::into_iter`: in increasing key order. -/
def intoIter (m : List (List Nat × Nat × Nat)) : List (List Nat × Nat × Nat) :=
  stableSort (fun a b => lexLe a.1 b.1) m

/-- src/mesh.rs:165-204 `find_boundary_faces`; `none` is an index panic. -/
def findBoundaryFaces (facesOf : List Nat → List (List Nat)) (mesh : Mesh α) :
    Option (List (List Nat × Nat × Nat)) :=
  let info := faceInfo facesOf mesh.cells
  let sortedSlices := info.map (fun f => sortNat f.1)
  ((intoIter (countLoop sortedSlices 0 [])).filter (fun e => e.2.2 == 1)).mapM
    (fun e => info[e.2.1]?)

/-- `Vec::dedup`: removes consecutive repetitions. -/
def dedup : List Nat → List Nat
  | [] => []
  | [a] => [a]
  | a :: b :: l => if a = b then dedup (b :: l) else a :: dedup (b :: l)

/-- src/mesh.rs:152-161 `find_boundary_cells`. -/
def findBoundaryCells (facesOf : List Nat → List (List Nat)) (mesh : Mesh α) :
    Option (List Nat) :=
  (findBoundaryFaces facesOf mesh).map (fun fs => dedup (sortNat (fs.map (fun f => f.2.1))))

/-- src/mesh.rs:208-217 `find_boundary_vertices`. -/
def findBoundaryVertices (facesOf : List Nat → List (List Nat)) (mesh : Mesh α) :
    Option (List Nat) :=
  (findBoundaryFaces facesOf mesh).map (fun fs => dedup (sortNat (fs.flatMap (fun f => f.1))))

/-- src/mesh.rs:305-307: the marking loop for one cell. -/
def markVertices : List Nat → List Bool → Option (List Bool)
  | [], table => some table
  | v :: vs, table => if v < table.length then markVertices vs (table.set v true) else none

/-- src/mesh.rs:300-311 `vertex_keep_table`. -/
def keepTable (cells : List (List Nat)) : List Nat → List Bool → Option (List Bool)
  | [], table => some table
  | i :: is, table =>
    match cells[i]? with
    | none => none
    | some c =>
      match markVertices c table with
      | none => none
      | some table' => keepTable cells is table'

/-- src/mesh.rs:313-323 `old_to_new_label_map` (a `HashMap` filled with distinct keys, as an
association list); `i` is the enumeration index. -/
def labelMap : List Bool → Nat → Nat → List (Nat × Nat)
  | [], _, _ => []
  | true :: rest, i, next => (i, next) :: labelMap rest (i + 1) (next + 1)
  | false :: rest, i, next => labelMap rest (i + 1) next

/-- src/mesh.rs:338-342, the indices of kept vertices in order. -/
def keptIndices : List Bool → Nat → List Nat
  | [], _ => []
  | true :: rest, i => i :: keptIndices rest (i + 1)
  | false :: rest, i => keptIndices rest (i + 1)

/-- src/mesh.rs:297-347 `keep_cells`; `none` is a panic (index out of bounds or `expect`). -/
def keepCells (mesh : Mesh α) (cellIndices : List Nat) : Option (Mesh α) :=
  match keepTable mesh.cells cellIndices (List.replicate mesh.vertices.length false) with
  | none => none
  | some table =>
    let map := labelMap table 0 0
    match cellIndices.mapM (fun i => mesh.cells[i]?) with
    | none => none
    | some kept =>
      match kept.mapM (fun c => c.mapM (fun v => map.lookup v)),
          (keptIndices table 0).mapM (fun i => mesh.vertices[i]?) with
      | some cells, some vertices => some ⟨vertices, cells⟩
      | _, _ => none

/-- src/mesh.rs:503-514 `extract_surface_mesh`. -/
def extractSurfaceMesh (facesOf : List Nat → List (List Nat)) (mesh : Mesh α) :
    Option (Mesh α) :=
  match findBoundaryFaces facesOf mesh with
  | none => none
  | some fs =>
    let newMesh : Mesh α := ⟨mesh.vertices, fs.map (fun f => f.1)⟩
    newMesh.keepCells (List.range newMesh.cells.length)

end Mesh
end Fenris
