import Verif.Model.ClosestPoint
import Verif.Model.Aabb
import Verif.Model.Permutation
/-! # Model of the spatial index (`src/space/spatially_indexed.rs`)

The R-tree of the crate `rstar` is outside the repository: its `nearest_neighbor_iter` is a parameter
`nn`, of which the specification (`Spec.NearestFirst`) says that it yields every entry once, in order of
increasing distance.  The conversion of coordinates to `f64` is the identity. -/
set_option autoImplicit false

namespace Fenris.Index
open Fenris.Geometry Fenris.Closest
variable {K : Type} [Field K] [LinearOrder K] {d r : Nat}

/-- What `BoundsForElementInSpace` and `ClosestPointInElementInSpace` provide (src/space/mod.rs:160-207);
`none` is a panic. -/
structure IndexSpace (d r : Nat) (K : Type) where
  numElements : Nat
  bounds : Nat → Option (Aabb d K)
  closest : Nat → Point d K → Option (ClosestPoint r K)
  map : Nat → Point r K → Option (Point d K)

/-- One entry of the tree: the box, enlarged by one percent, with its element
(spatially_indexed.rs:92-108). -/
def entry (S : IndexSpace d r K) (i : Nat) : Option (Aabb d K × Nat) :=
  (S.bounds i).bind fun b => (b.uniformlyScale (101 / 100)).map fun c => (c, i)

/-- `SpatiallyIndexed::from_space` (spatially_indexed.rs:164-172, 84-112): the entries of the tree. -/
def fromSpace (S : IndexSpace d r K) : Option (List (Aabb d K × Nat)) :=
  (List.range S.numElements).mapM (entry S)

/-- `closest_cell_candidates` (spatially_indexed.rs:114-135), on the entries in the order of the
iterator. -/
def candidates (p : Point d K) : List (Aabb d K × Nat) → List Nat
  | [] => []
  | e :: es => ((e :: es).takeWhile fun a => decide (a.1.dist2To p ≤ e.1.maxDist2To p)).map (·.2)

/-- lines 316-326: the update of the running minimum; `best` is `min_dist2` with `closest_result`. -/
def better (dist2 : K) (i : Nat) (xi : Point r K) : Option (K × Nat × Point r K) → Option (K × Nat × Point r K)
  | none => some (dist2, i, xi)
  | some (d2, j, eta) => if dist2 ≤ d2 then some (dist2, i, xi) else some (d2, j, eta)

/-- The loop of `find_closest_element_and_reference_coords` (spatially_indexed.rs:308-332). -/
def findLoop (S : IndexSpace d r K) (p : Point d K) :
    Option (K × Nat × Point r K) → List Nat → Option (Option (Nat × Point r K))
  | best, [] => some (best.map fun b => b.2)
  | best, i :: is =>
    match S.closest i p with
    | none => none
    | some (.inElement xi) => some (some (i, xi))
    | some (.closestPoint xi) =>
      match S.map i xi with
      | none => none
      | some x => findLoop S p (better (normSq fun k => x k - p k) i xi best) is

/-- `find_closest_element_and_reference_coords` (spatially_indexed.rs:296-333); the outer `none` is a panic. -/
def find (S : IndexSpace d r K) (nn : List (Aabb d K × Nat) → Point d K → List (Aabb d K × Nat))
    (entries : List (Aabb d K × Nat)) (p : Point d K) : Option (Option (Nat × Point r K)) :=
  findLoop S p none (candidates p (nn entries p))

/-! ### Meshes of triangles and tetrahedra -/

/-- `conn.element(self.vertices()).unwrap()` (src/space/space_impl.rs:153-190): the vertices of a cell. -/
def cellPoints (mesh : Mesh (Point d K)) (i : Nat) : Option (List (Point d K)) :=
  (mesh.cells[i]?).bind fun c => c.mapM fun v => mesh.vertices[v]?

/-- A `Tri3Connectivity` has three vertices. -/
def toTri : List (Point d K) → Option (Tri d K)
  | [a, b, c] => some ⟨a, b, c⟩
  | _ => none

/-- A `Tet4Connectivity` has four vertices. -/
def toTet : List (Point d K) → Option (Fin 4 → Point d K)
  | [a, b, c, e] => some ![a, b, c, e]
  | _ => none

/-- `element_bounds` of these elements (triangle.rs:529-533, 599-603, tetrahedron.rs:610-614). -/
def cellBounds (mesh : Mesh (Point d K)) (i : Nat) : Option (Aabb d K) :=
  (cellPoints mesh i).bind fun ps => (Aabb.fromPoints ps).bind id

/-- A mesh of triangles in the plane as a space. -/
def triSpace2 (eps : K) (mesh : Mesh (Point 2 K)) : IndexSpace 2 2 K where
  numElements := mesh.cells.length
  bounds := cellBounds mesh
  closest i p := ((cellPoints mesh i).bind toTri).bind fun t => triClosest2 eps t p
  map i xi := ((cellPoints mesh i).bind toTri).map fun t => triMap t xi

/-- A mesh of triangles in space. -/
def triSpace3 (eps : K) (mesh : Mesh (Point 3 K)) : IndexSpace 3 2 K where
  numElements := mesh.cells.length
  bounds := cellBounds mesh
  closest i p := ((cellPoints mesh i).bind toTri).bind fun t => triClosest3 eps t p
  map i xi := ((cellPoints mesh i).bind toTri).map fun t => triMap t xi

/-- A mesh of tetrahedra. -/
def tetSpace (eps : K) (mesh : Mesh (Point 3 K)) : IndexSpace 3 3 K where
  numElements := mesh.cells.length
  bounds := cellBounds mesh
  closest i p := ((cellPoints mesh i).bind toTet).bind fun V => tetClosest eps V p
  map i xi := ((cellPoints mesh i).bind toTet).map fun V => tetMap V xi

end Fenris.Index
