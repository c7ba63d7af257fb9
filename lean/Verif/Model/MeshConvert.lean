import Verif.Model.MeshOps
import Verif.Model.Element
/-! # Model of `src/mesh_convert.rs`: conversion of linear meshes to higher-order meshes -/
set_option autoImplicit false

namespace Fenris
namespace MeshConvert
open Element Refine
variable {K : Type} [Field K] {d : Nat}

/-- What `RefineFrom::refine` pushes for one new node (src/mesh_convert.rs:26-39): the child index,
the parents (vertices of the original mesh), and the position. -/
structure NewNode (V : Type) where
  child : Nat
  parents : List Nat
  vertex : V

/-- `coords.lerp(&other, 0.5)` of nalgebra: `self * (1 - t) + other * t`. -/
def lerpHalf (p q : Point d K) : Point d K := fun r => p r * (1 - 1 / 2) + q r * (1 / 2)

/-- src/mesh_convert.rs:58-62, 101-105, 184-188: "Add vertex nodes" for one vertex. -/
def vertexNode (vs : List (Point d K)) (v : Nat) : Option (NewNode (Point d K)) :=
  match vs[v]? with
  | some p => some ⟨0, [v], p⟩
  | none => none

/-- src/mesh_convert.rs:64-73, 107-116, 190-199: `add_edge_node`. -/
def edgeNode (vs : List (Point d K)) (global : List Nat) (e : Nat × Nat) :
    Option (NewNode (Point d K)) :=
  match global[e.1]?, global[e.2]? with
  | some a, some b =>
    match vs[a]?, vs[b]? with
    | some p, some q => some ⟨0, [a, b], lerpHalf p q⟩
    | _, _ => none
  | _, _ => none

/-- src/mesh_convert.rs:132-155: `add_face_node` and the centre node; `elem` are the vertices of
`connectivity.element(mesh_vertices)`. -/
def mappedNode (elem : List (Point 3 K)) (global : List Nat) (f : List Nat × Point 3 K) :
    Option (NewNode (Point 3 K)) :=
  match f.1.mapM (global[·]?) with
  | some ps => some ⟨0, ps, mapReferenceCoords .hex8 elem f.2⟩
  | none => none

/-- The calls to `add_edge_node` of Tet4 → Tet10 (src/mesh_convert.rs:75-80). -/
def tet10Edges : List (Nat × Nat) := [(0, 1), (1, 2), (0, 2), (0, 3), (2, 3), (1, 3)]

/-- The calls to `add_edge_node` of Hex8 → Hex27 and Hex8 → Hex20
(src/mesh_convert.rs:118-129, 201-212). -/
def hexEdges : List (Nat × Nat) :=
  [(0, 1), (0, 3), (0, 4), (1, 2), (1, 5), (2, 3), (2, 6), (3, 7), (4, 5), (4, 7), (5, 6), (6, 7)]

/-- The calls to `add_face_node` of Hex8 → Hex27 and its centre node
(src/mesh_convert.rs:145-158). -/
def hexFaces : List (List Nat × Point 3 K) :=
  [([0, 1, 2, 3], ![0, 0, -1]), ([0, 1, 4, 5], ![0, -1, 0]), ([0, 3, 4, 7], ![-1, 0, 0]),
   ([1, 2, 5, 6], ![1, 0, 0]), ([2, 3, 6, 7], ![0, 1, 0]), ([4, 5, 6, 7], ![0, 0, 1]),
   ([0, 1, 2, 3, 4, 5, 6, 7], ![0, 0, 0])]

/-- Concatenation of the nodes pushed by the consecutive parts of a `refine`. -/
def allNodes {V : Type} (parts : List (Option (List (NewNode V)))) : Option (List (NewNode V)) :=
  (parts.mapM id).map List.flatten

/-- `RefineFrom<Tet4Connectivity> for Tet10Connectivity` (src/mesh_convert.rs:42-83).  The returned
connectivity is `0..10`, so the nodes are listed in the order of the new connectivity. -/
def tet10Nodes' (vs : List (Point 3 K)) (c : List Nat) : Option (List (NewNode (Point 3 K))) :=
  allNodes [c.mapM (vertexNode vs), tet10Edges.mapM (edgeNode vs c)]

/-- `RefineFrom<Hex8Connectivity> for Hex20Connectivity` (src/mesh_convert.rs:168-217). -/
def hex20Nodes' (vs : List (Point 3 K)) (c : List Nat) : Option (List (NewNode (Point 3 K))) :=
  allNodes [c.mapM (vertexNode vs), hexEdges.mapM (edgeNode vs c)]

/-- `RefineFrom<Hex8Connectivity> for Hex27Connectivity` (src/mesh_convert.rs:85-166). -/
def hex27Nodes' (vs : List (Point 3 K)) (c : List Nat) : Option (List (NewNode (Point 3 K))) :=
  match c.mapM (vs[·]?) with
  | none => none
  | some elem =>
    allNodes [c.mapM (vertexNode vs), hexEdges.mapM (edgeNode vs c),
      hexFaces.mapM (mappedNode elem c)]

/-- The key of `vertex_label_map`: child index and sorted parents (src/mesh_convert.rs:279-283,
307-311). -/
def NewNode.key {V : Type} (n : NewNode V) : Nat × List Nat := (n.child, Mesh.sortNat n.parents)

/-- src/mesh_convert.rs:227-329 `FromTemp::from`.  The intermediate arrays of all cells are laid out
linearly there and the connectivity indexes into them; here each cell carries its own nodes.
`final_vertices` is pushed to exactly when the map is inserted into, so it is the list of vertices
of the map entries in insertion order. -/
def fromTemp {V : Type} (refine : List V → List Nat → Option (List (NewNode V))) (mesh : Mesh V) :
    Option (Mesh V) :=
  match mesh.cells.mapM (refine mesh.vertices) with
  | none => none
  | some nodes =>
    some ⟨(internCells NewNode.key nodes ([], 0)).2.1.map (fun e => e.1.vertex),
      (internCells NewNode.key nodes ([], 0)).1⟩

/-- `Tet10Mesh::from(&Tet4Mesh)` (src/mesh_convert.rs:444-452). -/
def toTet10 (mesh : Mesh (Point 3 K)) : Option (Mesh (Point 3 K)) := fromTemp tet10Nodes' mesh
/-- `Hex27Mesh::from(&Hex8Mesh)` (src/mesh_convert.rs:472-479). -/
def toHex27 (mesh : Mesh (Point 3 K)) : Option (Mesh (Point 3 K)) := fromTemp hex27Nodes' mesh
/-- `Hex20Mesh::from(&Hex8Mesh)` (src/mesh_convert.rs:481-488). -/
def toHex20 (mesh : Mesh (Point 3 K)) : Option (Mesh (Point 3 K)) := fromTemp hex20Nodes' mesh

/-- The growing vertex list and `edge_vertex_index_map`. -/
abbrev EdgeState (K : Type) := List (Point 2 K) × List ((Nat × Nat) × Nat)

/-- `HashMap::get`. -/
def edgeLookup (k : Nat × Nat) : List ((Nat × Nat) × Nat) → Option Nat
  | [] => none
  | (k', i) :: rest => if k' = k then some i else edgeLookup k rest

/-- src/mesh_convert.rs:361-374, 414-427: one edge; `none` is an index panic. -/
def addEdge (st : EdgeState K) (e : Nat × Nat) : Option (Nat × EdgeState K) :=
  match edgeLookup (min e.1 e.2, max e.1 e.2) st.2 with
  | some i => some (i, st)
  | none =>
    match st.1[e.1]?, st.1[e.2]? with
    | some p, some q =>
      some (st.1.length, (st.1 ++ [fun r => (p r + q r) / 2],
        st.2 ++ [((min e.1 e.2, max e.1 e.2), st.1.length)]))
    | _, _ => none

/-- The loop over the edges of one cell. -/
def addEdges : List (Nat × Nat) → EdgeState K → Option (List Nat × EdgeState K)
  | [], st => some ([], st)
  | e :: es, st =>
    match addEdge st e with
    | none => none
    | some (i, st') =>
      match addEdges es st' with
      | none => none
      | some (is, st'') => some (i :: is, st'')

/-- `vertex_indices.iter().cycle().take(num_vertices + 1).tuple_windows()`
(src/mesh_convert.rs:349-353, 402-406). -/
def cyclicEdges (c : List Nat) : List (Nat × Nat) := c.zip (c.tail ++ c.take 1)

/-- src/mesh_convert.rs:343-378: the loop over the cells of Tri3 → Tri6. -/
def tri6Loop : List (List Nat) → EdgeState K → Option (List (List Nat) × EdgeState K)
  | [], st => some ([], st)
  | c :: cs, st =>
    match addEdges (cyclicEdges c) st with
    | none => none
    | some (is, st') =>
      match tri6Loop cs st' with
      | none => none
      | some (out, st'') => some ((c ++ is) :: out, st'')

/-- `Tri6d2 mesh from Tri3d2 mesh` (src/mesh_convert.rs:332-383). -/
def toTri6 (mesh : Mesh (Point 2 K)) : Option (Mesh (Point 2 K)) :=
  match tri6Loop mesh.cells (mesh.vertices, []) with
  | none => none
  | some (cells, st) => some ⟨st.1, cells⟩

/-- src/mesh_convert.rs:396-437: the loop over the cells of Quad4 → Quad9; `vs` are the original
vertices, from which the cell centre is computed (:430-433). -/
def quad9Loop (vs : List (Point 2 K)) :
    List (List Nat) → EdgeState K → Option (List (List Nat) × EdgeState K)
  | [], st => some ([], st)
  | c :: cs, st =>
    match addEdges (cyclicEdges c) st with
    | none => none
    | some (is, st') =>
      match c.mapM (vs[·]?) with
      | none => none
      | some elem =>
        match quad9Loop vs cs
            (st'.1 ++ [mapReferenceCoords .quad4 elem (fun _ => 0)], st'.2) with
        | none => none
        | some (out, st'') => some ((c ++ is ++ [st'.1.length]) :: out, st'')

/-- `Quad9d2 mesh from Quad4d2 mesh` (src/mesh_convert.rs:385-442). -/
def toQuad9 (mesh : Mesh (Point 2 K)) : Option (Mesh (Point 2 K)) :=
  match quad9Loop mesh.vertices mesh.cells (mesh.vertices, []) with
  | none => none
  | some (cells, st) => some ⟨st.1, cells⟩

/-- `normalized_edge` (src/mesh_convert.rs:684-691). -/
def normalizedEdge (start stop loc : Nat) : List Nat :=
  if start > stop then [stop, start, (loc + 1) % 2, 1] else [start, stop, loc, 1]

/-- `normalized_face` (src/mesh_convert.rs:692-696). -/
def normalizedFace (a b c : Nat) : List Nat := Mesh.sortNat [a, b, c] ++ [2]

/-- `unlabeled_vertices_for_tet4_element` (src/mesh_convert.rs:698-721); `none` cannot happen for
the fixed-size Rust array. -/
def tet20Labels : List Nat → Option (List (List Nat))
  | [v0, v1, v2, v3] =>
    some [[v0, 0, 0, 0], [v1, 0, 0, 0], [v2, 0, 0, 0], [v3, 0, 0, 0],
      normalizedEdge v0 v1 0, normalizedEdge v0 v1 1, normalizedEdge v0 v2 0,
      normalizedEdge v0 v2 1, normalizedEdge v0 v3 0, normalizedEdge v0 v3 1,
      normalizedEdge v1 v2 0, normalizedEdge v1 v2 1, normalizedEdge v1 v3 0,
      normalizedEdge v1 v3 1, normalizedEdge v2 v3 0, normalizedEdge v2 v3 1,
      normalizedFace v0 v1 v2, normalizedFace v0 v1 v3, normalizedFace v0 v2 v3,
      normalizedFace v1 v2 v3]
  | _ => none

/-- `Vec::dedup` on labels. -/
def dedupLabels : List (List Nat) → List (List Nat)
  | [] => []
  | [a] => [a]
  | a :: b :: l => if a = b then dedupLabels (b :: l) else a :: dedupLabels (b :: l)

/-- `binary_search(&x)` on a strictly increasing slice: the position of `x`, if it occurs. -/
def searchLabel (x : List Nat) (l : List (List Nat)) : Option Nat := l.findIdx? (· == x)

/-- src/mesh_convert.rs:747-771: the position of a labelled vertex; `none` is an index panic (or
`unreachable!()`). -/
def tet20Vertex (vs : List (Point 3 K)) : List Nat → Option (Point 3 K)
  | [a, b, c, kind] =>
    if kind = 0 then vs[a]?
    else if kind = 1 then
      match vs[a]?, vs[b]? with
      | some p, some q => some (fun r => p r + (q r - p r) * (((c + 1 : Nat) : K) / 3))
      | _, _ => none
    else if kind = 2 then
      match vs[a]?, vs[b]?, vs[c]? with
      | some p, some q, some s => some (fun r => (p r + q r + s r) / 3)
      | _, _, _ => none
    else none
  | _ => none

/-- `Tet20Mesh::from(&Tet4Mesh)` (src/mesh_convert.rs:659-774). -/
def toTet20 (mesh : Mesh (Point 3 K)) : Option (Mesh (Point 3 K)) :=
  match mesh.cells.mapM tet20Labels with
  | none => none
  | some labels =>
    let unlabeled := dedupLabels (stableSort Mesh.lexLe labels.flatten)
    match labels.mapM (fun ls => ls.mapM (fun l => searchLabel l unlabeled)),
        unlabeled.mapM (tet20Vertex mesh.vertices) with
    | some cells, some vs => some ⟨vs, cells⟩
    | _, _ => none

/-- `Tet4Mesh::from(&Tet10Mesh)` (src/mesh_convert.rs:454-470): the first four nodes of each cell
(`Tet4Connectivity::from(&Tet10Connectivity)`, src/connectivity.rs:914-919), then `keep_cells` of
all cells. -/
def tet10ToTet4 (mesh : Mesh (Point 3 K)) : Option (Mesh (Point 3 K)) :=
  Mesh.keepCells ⟨mesh.vertices, mesh.cells.map (·.take 4)⟩ (List.range mesh.cells.length)

end MeshConvert
end Fenris
