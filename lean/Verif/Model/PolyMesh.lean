import Verif.Model.MeshOps
import Verif.Model.Lines
/-! # Model of `fenris-geometry/src/polymesh.rs` and of the polyhedron volume in `fenris-geometry/src/lib.rs`

`none` is a panic (an index out of bounds, a failing `expect` or `unwrap`). Nested arrays are lists of lists. -/
set_option autoImplicit false

namespace Fenris
namespace Poly

open Geometry

variable {P : Type}

/-- polymesh.rs:64-77 `PolyMesh`. -/
structure PolyMesh (P : Type) where
  vertices : List P
  faces : List (List Nat)
  cells : List (List Nat)
  deriving DecidableEq

/-- polymesh.rs:92-109 `from_poly_data`. -/
def fromPolyData (vertices : List P) (faces cells : List (List Nat)) : Option (PolyMesh P) :=
  if faces.flatten.any (fun i => decide (vertices.length ≤ i)) then none
  else if cells.flatten.any (fun i => decide (faces.length ≤ i)) then none
  else some ⟨vertices, faces, cells⟩

/-- polymesh.rs:88-90 `new_empty`. -/
def newEmpty : Option (PolyMesh P) := fromPolyData [] [] []

/-- polymesh.rs:127-132 `face_vertices`; a face index out of range gives no vertices. -/
def faceVertices (m : PolyMesh P) (face : Nat) : Option (List P) :=
  ((m.faces[face]?).getD []).mapM fun v => m.vertices[v]?

/-! ### Faces and cells -/

/-- The inner loop of polymesh.rs:167-169. -/
def pushCell (cell : Nat) : List Nat → List (List Nat) → Option (List (List Nat))
  | [], conn => some conn
  | f :: fs, conn => conn[f]?.bind fun l => pushCell cell fs (conn.set f (l ++ [cell]))

/-- The loop of polymesh.rs:166-170; `k` is the index of the next cell. -/
def pushCells : List (List Nat) → Nat → List (List Nat) → Option (List (List Nat))
  | [], _, conn => some conn
  | c :: cs, k, conn => (pushCell k c conn).bind fun conn' => pushCells cs (k + 1) conn'

/-- polymesh.rs:160-178 `compute_face_cell_connectivity`. -/
def faceCellConnectivity (m : PolyMesh P) : Option (List (List Nat)) :=
  pushCells m.cells 0 (List.replicate m.faces.length [])

/-- The inner loop of polymesh.rs:228-230. -/
def countFaces : List Nat → List Nat → Option (List Nat)
  | [], occ => some occ
  | f :: fs, occ => occ[f]?.bind fun n => countFaces fs (occ.set f (n + 1))

/-- The loop of polymesh.rs:227-231. -/
def countCells : List (List Nat) → List Nat → Option (List Nat)
  | [], occ => some occ
  | c :: cs, occ => (countFaces c occ).bind fun occ' => countCells cs occ'

/-- polymesh.rs:224-238 `find_boundary_faces`. -/
def findBoundaryFaces (m : PolyMesh P) : Option (List Nat) :=
  (countCells m.cells (List.replicate m.faces.length 0)).map fun occ =>
    (occ.zipIdx.filter fun ci => decide (ci.1 ≤ 1)).map (·.2)

/-- The loop of polymesh.rs:195-210. The `HashMap` is an association list; `Mesh.sortNat` is `sort_unstable`
(polymesh.rs:185-189). -/
def dedupLoop : List (List Nat) → List (List Nat × Nat) → List (List Nat) → List Nat → List (List Nat) × List Nat
  | [], _, newFaces, relabel => (newFaces, relabel)
  | f :: fs, map, newFaces, relabel =>
    match map.lookup (Mesh.sortNat f) with
    | some i => dedupLoop fs map newFaces (relabel ++ [i])
    | none => dedupLoop fs ((Mesh.sortNat f, newFaces.length) :: map) (newFaces ++ [f]) (relabel ++ [newFaces.length])

/-- polymesh.rs:184-221 `dedup_faces`. -/
def dedupFaces (m : PolyMesh P) : Option (PolyMesh P) :=
  let r := dedupLoop m.faces [] [] []
  (m.cells.mapM fun (c : List Nat) => c.mapM fun f => r.2[f]?).map fun cells => ⟨m.vertices, r.1, cells⟩

/-- The loop of polymesh.rs:253-272. -/
def concatLoop : List (PolyMesh P) → List P → List (List Nat) → List (List Nat) → Nat → Nat →
    List P × List (List Nat) × List (List Nat)
  | [], vs, fs, cs, _, _ => (vs, fs, cs)
  | m :: ms, vs, fs, cs, vo, fo =>
    concatLoop ms (vs ++ m.vertices) (fs ++ m.faces.map fun f => f.map (· + vo))
      (cs ++ m.cells.map fun c => c.map (· + fo)) (vo + m.vertices.length) (fo + m.faces.length)

/-- polymesh.rs:244-275 `concatenate`. -/
def concatenate (ms : List (PolyMesh P)) : Option (PolyMesh P) :=
  let r := concatLoop ms [] [] [] 0 0
  fromPolyData r.1 r.2.1 r.2.2

/-! ### Splitting edges -/

/-- `face.iter().copied().cycle().take(face.len() + 1).tuple_windows()` (polymesh.rs:300-305), and
`face.iter().chain(face.first()).tuple_windows()` (polymesh.rs:596-597,649-650): the edges of a closed polygon. -/
def edges {α : Type} (face : List α) : List (α × α) := (face ++ face.take 1).zip (face ++ face.take 1).tail

/-- `[v1.min(v2), v1.max(v2)]` (polymesh.rs:308) -/
def edgeKey (e : Nat × Nat) : Nat × Nat := (min e.1 e.2, max e.1 e.2)

/-- The map of edges and the additional vertices. -/
structure SplitState (P : Type) where
  map : List ((Nat × Nat) × Nat)
  added : List P

/-- `subdivided_edges.entry(edge).or_insert_with(..)` (polymesh.rs:309-314): the index of the vertex on an edge. `mid`
computes `(a + b) * 0.5`. -/
def splitEdge (mid : P → P → P) (vertices : List P) (st : SplitState P) (e : Nat × Nat) : Option (Nat × SplitState P) :=
  match st.map.lookup (edgeKey e) with
  | some i => some (i, st)
  | none => vertices[e.1]?.bind fun a => vertices[e.2]?.map fun b =>
      (vertices.length + st.added.length,
        ⟨(edgeKey e, vertices.length + st.added.length) :: st.map, st.added ++ [mid a b]⟩)

/-- The loop of polymesh.rs:307-317 over the edges of a face. -/
def splitFace (mid : P → P → P) (vertices : List P) :
    List (Nat × Nat) → List Nat → SplitState P → Option (List Nat × SplitState P)
  | [], face, st => some (face, st)
  | e :: es, face, st => (splitEdge mid vertices st e).bind fun r => splitFace mid vertices es (face ++ [e.1, r.1]) r.2

/-- The loop of polymesh.rs:299-318 over the faces. -/
def splitFaces (mid : P → P → P) (vertices : List P) :
    List (List Nat) → List (List Nat) → SplitState P → Option (List (List Nat) × SplitState P)
  | [], faces, st => some (faces, st)
  | f :: fs, faces, st => (splitFace mid vertices (edges f) [] st).bind fun r =>
      splitFaces mid vertices fs (faces ++ [r.1]) r.2

/-- polymesh.rs:293-322 `split_edges`. -/
def splitEdges (mid : P → P → P) (m : PolyMesh P) : Option (PolyMesh P) :=
  (splitFaces mid m.vertices m.faces [] ⟨[], []⟩).map fun r => ⟨m.vertices ++ r.2.added, r.1, m.cells⟩

/-- polymesh.rs:285-289 `split_edges_n_times`. -/
def splitEdgesN (mid : P → P → P) : Nat → PolyMesh P → Option (PolyMesh P)
  | 0, m => some m
  | n + 1, m => (splitEdges mid m).bind (splitEdgesN mid n)

/-- `OPoint::from((&a.coords + &b.coords) * 0.5)` (polymesh.rs:311) -/
def midpoint {K : Type} [Field K] {d : Nat} (a b : Point d K) : Point d K := fun k => (a k + b k) * (1 / 2)

/-! ### Triangulation -/

/-- `iter().enumerate().min_by_key(|(_, v)| *v)` (polymesh.rs:365-369): the index of the first least entry. `best` is the
index and value of the least entry so far, `i` the index of the next entry. -/
def minIdxLoop : List Nat → Nat → Nat × Nat → Nat
  | [], _, best => best.1
  | v :: vs, i, best => minIdxLoop vs (i + 1) (if v < best.2 then (i, v) else best)

/-- polymesh.rs:365-369; `none` is the `unwrap` of an empty face. -/
def minIdx : List Nat → Option Nat
  | [] => none
  | v :: vs => some (minIdxLoop vs 1 (0, v))

/-- The triangles of one face (polymesh.rs:371-377). -/
def fan (face : List Nat) : Option (List (List Nat)) :=
  (minIdx face).bind fun m =>
    (List.range (face.length - 2)).mapM fun i =>
      face[m]?.bind fun a => face[(i + 1 + m) % face.length]?.bind fun b =>
        face[(i + 2 + m) % face.length]?.map fun c => [a, b, c]

/-- The loop of polymesh.rs:355-378: `.error` if some face has fewer than three vertices. `tris` are the triangles and
`fmap` the numbers of the triangles of each face. -/
def fanFaces : List (List Nat) → List (List Nat) → List (List Nat) →
    Option (Except Unit (List (List Nat) × List (List Nat)))
  | [], tris, fmap => some (.ok (tris, fmap))
  | f :: fs, tris, fmap =>
    if f.length < 3 then some (.error ())
    else (fan f).bind fun ts =>
      fanFaces fs (tris ++ ts) (fmap ++ [(List.range ts.length).map (tris.length + ·)])

/-- `assert_eq!(tri_face_vertices.len(), 3)` and the reads that follow (polymesh.rs:411-417). -/
def triple : List Nat → Option (Nat × Nat × Nat)
  | [a, b, c] => some (a, b, c)
  | _ => none

/-- polymesh.rs:409-432: connects the vertex `v` to the triangles numbered `ids`. -/
def connect (v : Nat) : List Nat → List (List Nat) → List (List Nat) → Option (List (List Nat) × List (List Nat))
  | [], tris, tets => some (tris, tets)
  | id :: ids, tris, tets =>
    (tris[id]?.bind triple).bind fun t =>
      connect v ids (tris ++ [[t.1, t.2.1, v], [t.2.1, t.2.2, v], [t.2.2, t.1, v]])
        (tets ++ [[id, tris.length, tris.length + 1, tris.length + 2]])

/-- polymesh.rs:400-435: the loop over the faces of a cell. -/
def cellFaces (faces fmap : List (List Nat)) (v : Nat) :
    List Nat → List (List Nat) → List (List Nat) → Option (List (List Nat) × List (List Nat))
  | [], tris, tets => some (tris, tets)
  | f :: fs, tris, tets => faces[f]?.bind fun vs =>
    if vs.contains v then cellFaces faces fmap v fs tris tets
    else fmap[f]?.bind fun ids => (connect v ids tris tets).bind fun r => cellFaces faces fmap v fs r.1 r.2

/-- `Iterator::min` -/
def least : List Nat → Option Nat
  | [] => none
  | v :: vs => some (vs.foldl min v)

/-- `min()` of the vertices of a cell (polymesh.rs:384-393). -/
def minVertex (faces : List (List Nat)) (cell : List Nat) : Option Nat :=
  (cell.mapM fun f => faces[f]?).bind fun vss => least vss.flatten

/-- polymesh.rs:380-437: the loop over the cells. -/
def cellsLoop (faces fmap : List (List Nat)) :
    List (List Nat) → List (List Nat) → List (List Nat) → Option (List (List Nat) × List (List Nat))
  | [], tris, tets => some (tris, tets)
  | c :: cs, tris, tets =>
    if c.length > 0 then
      (minVertex faces c).bind fun v => (cellFaces faces fmap v c tris tets).bind fun r => cellsLoop faces fmap cs r.1 r.2
    else cellsLoop faces fmap cs tris tets

/-- What `triangulate` does after the faces are split (polymesh.rs:380-441). -/
def triangulateCells (m : PolyMesh P) (tris fmap : List (List Nat)) : Option (PolyMesh P) :=
  (cellsLoop m.faces fmap m.cells tris []).bind fun r =>
    (fromPolyData m.vertices r.1 r.2).bind dedupFaces

/-- The early return of polymesh.rs:356-361, or the rest of the function. -/
def triangulateRest (m : PolyMesh P) :
    Except Unit (List (List Nat) × List (List Nat)) → Option (Except Unit (PolyMesh P))
  | .error e => some (.error e)
  | .ok tf => (triangulateCells m tf.1 tf.2).map .ok

/-- polymesh.rs:337-442 `triangulate`. -/
def triangulate (m : PolyMesh P) : Option (Except Unit (PolyMesh P)) :=
  (fanFaces m.faces [] []).bind (triangulateRest m)

/-! ### Sub-meshes -/

/-- Collecting into a `BTreeSet` and iterating over it. -/
def btreeSet (l : List Nat) : List Nat := Mesh.dedup (Mesh.sortNat l)

/-- polymesh.rs:444-500 `keep_cells`. A map from old to new indices is the list of old indices in order; looking an index
up in the map is finding its position. -/
def keepCells (m : PolyMesh P) (idx : List Nat) : Option (PolyMesh P) :=
  (idx.mapM fun i => m.cells[i]?).bind fun kept =>
    let keepFaces := btreeSet kept.flatten
    (keepFaces.mapM fun f => m.faces[f]?).bind fun oldFaces =>
      let keepVertices := btreeSet oldFaces.flatten
      (keepVertices.mapM fun v => m.vertices[v]?).bind fun newVertices =>
        (oldFaces.mapM fun (f : List Nat) => f.mapM fun v => keepVertices.idxOf? v).bind fun newFaces =>
          (kept.mapM fun (c : List Nat) => c.mapM fun f => keepFaces.idxOf? f).bind fun newCells =>
            fromPolyData newVertices newFaces newCells

/-! ### Volume -/

section Volume

variable {K : Type} [Field K] [LinearOrder K]

/-- `a × b` -/
def cross (a b : Point 3 K) : Point 3 K :=
  ![a 1 * b 2 - a 2 * b 1, a 2 * b 0 - a 0 * b 2, a 0 * b 1 - a 1 * b 0]

/-- The loop of lib.rs:431-437 (`compute_area_vector`) over the vertices after the first. -/
def areaLoop (a : Point 3 K) : List (Point 3 K) → Point 3 K → Point 3 K
  | b :: c :: rest, acc =>
    areaLoop a (c :: rest) (fun k => acc k + cross (fun k => b k - a k) (fun k => c k - a k) k * (1 / 2))
  | _, acc => acc

/-- lib.rs:421-440 `ConvexPolygon3d::compute_area_vector`; fewer than three vertices are a panic. -/
def areaVector : List (Point 3 K) → Option (Point 3 K)
  | a :: b :: c :: rest => some (areaLoop a (b :: c :: rest) fun _ => 0)
  | _ => none

/-- One face in the loop of lib.rs:627-642. `norm` is `magnitude`; `normalize` divides by it. -/
def faceVolume (norm : Point 3 K → K) (face : List (Point 3 K)) : Option K :=
  match face with
  | x0 :: b :: c :: rest => (areaVector (x0 :: b :: c :: rest)).map fun av =>
      if norm av > 0 then dot (fun k => av k / norm av) x0 * norm av else 0
  | _ => some 0

/-- lib.rs:618-649 `compute_polyhedron_volume_from_faces` -/
def volumeFromFaces (norm : Point 3 K → K) (faces : List (List (Point 3 K))) : Option K :=
  (faces.mapM (faceVolume norm)).map fun vs => |vs.foldl (· + ·) 0| / 3

/-- polymesh.rs:555-562 `compute_volume`. -/
def computeVolume (norm : Point 3 K → K) (m : PolyMesh (Point 3 K)) : Option K :=
  (findBoundaryFaces m).bind fun bs => (bs.mapM fun f => faceVertices m f).bind fun faces =>
    volumeFromFaces norm faces

/-- polymesh.rs:543-547 `translate`. -/
def translate (t : Point 3 K) (m : PolyMesh (Point 3 K)) : PolyMesh (Point 3 K) :=
  ⟨m.vertices.map fun v k => v k + t k, m.faces, m.cells⟩

end Volume

end Poly
end Fenris
