import Verif.Spec.Polygon
import Verif.Model.Polyhedron
/-! # Specification of convex polygons in space and convex polyhedra -/
set_option autoImplicit false

namespace Fenris.Spec
open Fenris.Geometry
variable {K : Type} [Field K] [LinearOrder K]

/-- A strictly convex polygon in a plane with normal `N`, counter-clockwise seen from the tip of `N`:
every vertex lies strictly on the left of every edge that it is not an end point of. -/
structure ConvexFace (N : Point 3 K) (V : List (Point 3 K)) : Prop where
  three : 3 ≤ V.length
  nodup : V.Nodup
  plane : ∀ v ∈ V, ∀ w ∈ V, dot N (fun i => w i - v i) = 0
  left : ∀ e ∈ cyclicPairs V, ∀ w ∈ V, w = e.1 ∨ w = e.2 ∨ 0 < orient3 N e.1 e.2 w

/-- The faces of a convex polyhedron, with normals that point into it: a vertex of a face lies strictly
on the inner side of every face that it is not a vertex of, and every edge belongs to a second face. -/
structure ConvexSolid (faces : List (List (Point 3 K))) : Prop where
  nonempty : faces ≠ []
  convex : ∀ f ∈ faces, ∃ N, ConvexFace N f ∧
    ∀ g ∈ faces, ∀ w ∈ g, w ∈ f ∨ ∀ v ∈ f, 0 < dot N fun i => w i - v i
  closed : ∀ f ∈ faces, ∀ e ∈ cyclicPairs f, ∃ g ∈ faces, e.1 ∈ g ∧ e.2 ∈ g ∧ ∃ w ∈ f, w ∉ g

/-- The points of a convex polyhedron: the convex hull of the vertices of its faces. -/
def solid (faces : List (List (Point 3 K))) : Set (Point 3 K) := hull faces.flatten

/-- The surface of a polyhedron: the points of its faces. -/
def surface (faces : List (List (Point 3 K))) : Set (Point 3 K) := {x | ∃ f ∈ faces, x ∈ hull f}

/-- Six times the signed volume of a tetrahedron. -/
def tetDet (V : Fin 4 → Point 3 K) : K :=
  dot (cross3 (fun i => V 1 i - V 0 i) fun i => V 2 i - V 0 i) fun i => V 3 i - V 0 i

/-- The vertices of the parallelepiped at `o` with the edges `a`, `b`, `c`, in the order of a hexahedron. -/
def parallelepiped (o a b c : Point 3 K) : Fin 8 → Point 3 K := fun i k =>
  o k + (![0, 1, 1, 0, 0, 1, 1, 0] : Fin 8 → K) i * a k + (![0, 0, 1, 1, 0, 0, 1, 1] : Fin 8 → K) i * b k
    + (![0, 0, 0, 0, 1, 1, 1, 1] : Fin 8 → K) i * c k

/-- The properties of a signed distance to a convex polyhedron. -/
structure IsSignedDistance (faces : List (List (Point 3 K))) (p : Point 3 K) (r : Polyhedron.Signed K) : Prop where
  /-- The reported point belongs to the reported face. -/
  on_face : ∃ f, faces[r.featureId]? = some f ∧ r.point ∈ hull f
  /-- The absolute value is the distance to the reported point. -/
  dist : r.signedDistance ^ 2 = dist2 r.point p
  /-- No point of the surface is closer. -/
  closest : ∀ x ∈ surface faces, dist2 r.point p ≤ dist2 x p
  /-- The sign tells whether the point is in the polyhedron. -/
  sign : r.signedDistance ≤ 0 ↔ p ∈ solid faces
  /-- For points outside no point of the polyhedron is closer. -/
  outside : p ∉ solid faces → ∀ x ∈ solid faces, dist2 r.point p ≤ dist2 x p

end Fenris.Spec
