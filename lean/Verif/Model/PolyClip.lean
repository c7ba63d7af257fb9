import Verif.Model.PolyMesh
/-! # Model of `PolyMesh3d::intersect_half_space` (fenris-geometry/src/polymesh.rs) -/
set_option autoImplicit false

namespace Fenris
namespace Poly

open Geometry

/-- polymesh.rs:19-23 `UndirectedEdge`: a vertex of the result, as the point of the half-space's boundary on an edge, or
as a vertex if both ends are equal. -/
abbrev Node := Nat × Nat

/-- polymesh.rs:26-30 -/
def undirected (a b : Nat) : Node := (min a b, max a b)

/-- polymesh.rs:534-537 `is_intersection_vertex` -/
def isIntersection (n : Node) : Bool := n.1 != n.2

/-- polymesh.rs:515-520 `Classification` -/
inductive Classification where
  | inside
  | outside
  | cut
  deriving DecidableEq

/-- The loop of polymesh.rs:596-610 over the edges of a face. -/
def clipLoop (marks : List Bool) : List (Nat × Nat) → List Node → Classification → Option (List Node × Classification)
  | [], nodes, cls => some (nodes, cls)
  | e :: es, nodes, cls => marks[e.1]?.bind fun aIn => marks[e.2]?.bind fun bIn =>
    clipLoop marks es
      ((nodes ++ if aIn then [undirected e.1 e.1] else []) ++ if aIn != bIn then [undirected e.1 e.2] else [])
      (if aIn != bIn then .cut else cls)

/-- polymesh.rs:590-619: one face. -/
def clipFace (marks : List Bool) (face : List Nat) : Option (List Node × Classification) :=
  (clipLoop marks (edges face) [] .inside).map fun r => (r.1, if r.1.length = 0 then .outside else r.2)

/-- The edges of a clipped face between two intersection vertices (polymesh.rs:646-657). -/
def faceIntersections (face : List Node) : List (Node × Node) :=
  (edges face).filter fun e => isIntersection e.1 && isIntersection e.2

/-- The loop of polymesh.rs:636-660 over the faces of a cell: the faces it keeps and the intersection edges. -/
def gather (newFaces : List (List Node)) (cls : List Classification) :
    List Nat → List Nat → List (Node × Node) → Option (List Nat × List (Node × Node))
  | [], fs, es => some (fs, es)
  | f :: rest, fs, es => cls[f]?.bind fun c =>
    if c = .inside then gather newFaces cls rest (fs ++ [f]) es
    else if c = .outside then gather newFaces cls rest fs es
    else newFaces[f]?.bind fun vs => gather newFaces cls rest (fs ++ [f]) (es ++ faceIntersections vs)

/-- `Vec::swap_remove`: the last element takes the place of the removed one. -/
def swapRemove {α : Type} (l : List α) (i : Nat) (last : α) : List α := (l.set i last).dropLast

/-- The inner loop of polymesh.rs:679-691: strings intersection edges together from the vertex `next`. Every step removes
an edge; `fuel` is at least their number. -/
def strand : Nat → List (Node × Node) → Node → List Node → List Node × List (Node × Node)
  | 0, es, _, nodes => (nodes, es)
  | fuel + 1, es, next, nodes =>
    match es.findIdx? (fun e => e.1 == next || e.2 == next) with
    | none => (nodes, es)
    | some i =>
      match es[i]?, es.getLast? with
      | some e, some last =>
        if e.1 = next then strand fuel (swapRemove es i last) e.2 (nodes ++ [e.1])
        else strand fuel (swapRemove es i last) e.1 (nodes ++ [e.2])
      | _, _ => (nodes, es)

/-- The outer loop of polymesh.rs:667-695: the new faces of a cell. Every step removes an edge; `fuel` is at least their
number. -/
def strands : Nat → List (Node × Node) → List (List Node)
  | 0, _ => []
  | fuel + 1, es =>
    match es.getLast? with
    | none => []
    | some start =>
      let r := strand es.length es.dropLast start.2 [start.1]
      r.1 :: strands fuel r.2

/-- The loop of polymesh.rs:632-696 over the cells. -/
def clipCells (cls : List Classification) :
    List (List Nat) → List (List Node) → List (List Nat) → Option (List (List Node) × List (List Nat))
  | [], newFaces, newCells => some (newFaces, newCells)
  | c :: cs, newFaces, newCells => (gather newFaces cls c [] []).bind fun r =>
    clipCells cls cs (newFaces ++ strands r.2.length r.2)
      (newCells ++ [r.1 ++ (List.range (strands r.2.length r.2).length).map (newFaces.length + ·)])

/-- polymesh.rs:747-764 `generate_edge_repr_vertex_labels`: the vertices of the result, in the order of their labels; the
label of a vertex is its position. -/
def firstSeen : List Node → List Node → List Node
  | [], seen => seen
  | n :: ns, seen => firstSeen ns (if seen.contains n then seen else seen ++ [n])

/-- The loop of polymesh.rs:779-799 (`relabel_face_edge_representations`); `i` is the index of the next face. The
`HashMap` is an association list. -/
def relabelFaces (labels : List Node) :
    List (List Node) → Nat → List (List Nat) → List (Nat × Nat) → Option (List (List Nat) × List (Nat × Nat))
  | [], _, faces, map => some (faces, map)
  | f :: fs, i, faces, map =>
    if f.isEmpty then relabelFaces labels fs (i + 1) faces map
    else (f.mapM fun n => labels.idxOf? n).bind fun g =>
      relabelFaces labels fs (i + 1) (faces ++ [g]) ((i, faces.length) :: map)

section

variable {K : Type} [Field K] [LinearOrder K]

/-- The coordinates of a vertex of the result (polymesh.rs:710-719). -/
def nodePos (signum : K → K) (h : HalfSpace 3 K) (vertices : List (Point 3 K)) (n : Node) : Option (Point 3 K) :=
  vertices[n.1]?.bind fun a =>
    if n.1 = n.2 then some a
    else vertices[n.2]?.map fun b => (Segment.mk a b).closestPointToPlane signum h

/-- polymesh.rs:698-743: the mesh from the faces and cells in terms of points on edges. -/
def assembleMesh (signum : K → K) (h : HalfSpace 3 K) (vertices : List (Point 3 K)) (newFaces : List (List Node))
    (newCells : List (List Nat)) : Option (PolyMesh (Point 3 K)) :=
  let labels := firstSeen newFaces.flatten []
  (labels.mapM (nodePos signum h vertices)).bind fun finalVertices =>
    (relabelFaces labels newFaces 0 [] []).bind fun r =>
      ((newCells.filter fun c => !c.isEmpty).mapM fun (c : List Nat) => c.mapM fun f => r.2.lookup f).bind fun finalCells =>
        fromPolyData finalVertices r.1 finalCells

/-- polymesh.rs:576-744 `intersect_half_space`. -/
def intersectHalfSpace (signum : K → K) (h : HalfSpace 3 K) (m : PolyMesh (Point 3 K)) : Option (PolyMesh (Point 3 K)) :=
  let marks := m.vertices.map h.containsPoint
  (m.faces.mapM (clipFace marks)).bind fun clipped =>
    (clipCells (clipped.map (·.2)) m.cells (clipped.map (·.1)) []).bind fun r =>
      assembleMesh signum h m.vertices r.1 r.2

/-- polymesh.rs:564-574 `intersect_convex_polyhedron`. `planes` are the results of `compute_plane` on the faces of the
polyhedron, as a point and a normal; `None` (a face without a plane) is skipped. `Plane::flipped` negates the normal and
`HalfSpace::from_plane` keeps both. -/
def intersectConvexPolyhedron (signum : K → K) :
    List (Option (HalfSpace 3 K)) → PolyMesh (Point 3 K) → Option (PolyMesh (Point 3 K))
  | [], m => some m
  | none :: ps, m => intersectConvexPolyhedron signum ps m
  | some p :: ps, m => (intersectHalfSpace signum p.complement m).bind (intersectConvexPolyhedron signum ps)

end

end Poly
end Fenris
