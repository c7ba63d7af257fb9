import Verif.Model.PolyMesh
import Verif.Model.Triangle
/-! # Model of the convex polygons and polyhedra of `fenris-geometry/src/lib.rs`, and of
`primitives/{triangle,tetrahedron,hexahedron}.rs` in space

A polygon is the list of its vertices, a polyhedron the list of its faces. The Euclidean norm and the
square root are parameters. A search that starts with `T::max_value()` starts with `none`. -/
set_option autoImplicit false

namespace Fenris.Geometry
variable {K : Type} [Field K] [LinearOrder K]

/-- `PolygonClosestPoint` (lib.rs:367-376). -/
structure PolygonClosest (K : Type) where
  point : Point 3 K
  distance : K

/-- `OrientationTestResult` (lib.rs:361-365). -/
inductive Orientation
  | positive | zero | negative
  deriving DecidableEq, Repr

namespace Polygon3

/-- `compute_normal` (lib.rs:442-457); `none` is the panic for fewer than three vertices. -/
def normal (norm : Point 3 K → K) (V : List (Point 3 K)) : Option (Point 3 K) :=
  (SimplePolygon.computeAreaVector V).map (normalize norm)

/-- `compute_half_space` (lib.rs:406-413); `none` is the panic in `compute_normal`, which comes before
the test for an empty polygon. -/
def halfSpace (norm : Point 3 K → K) (V : List (Point 3 K)) : Option (HalfSpace 3 K) :=
  (normal norm V).map fun n => ⟨SimplePolygon.vertex V 0, fun i => -n i⟩

/-- The half-space of edge `i` of the extruded polygon (lib.rs:474-486). -/
def prismSide (norm : Point 3 K → K) (V : List (Point 3 K)) (n : Point 3 K) (i : Nat) : HalfSpace 3 K :=
  ⟨SimplePolygon.vertex V i,
    normalize norm (cross3 (fun k => SimplePolygon.vertex V (i + 1) k - SimplePolygon.vertex V i k) n)⟩

/-- The first loop of `closest_point` (lib.rs:471-492). -/
def insidePrism (norm : Point 3 K → K) (V : List (Point 3 K)) (n p : Point 3 K) : Bool :=
  (List.range V.length).all fun (i : Nat) => (prismSide norm V n i).containsPoint p

/-- The body of the second loop of `closest_point` (lib.rs:514-523). -/
def edgeStep (V : List (Point 3 K)) (p : Point 3 K) (best : Option (K × Point 3 K)) (i : Nat) :
    Option (K × Point 3 K) :=
  let projected := Segment.closestPoint ⟨SimplePolygon.vertex V i, SimplePolygon.vertex V (i + 1)⟩ p
  let dist2 := normSq fun k => p k - projected k
  if SimplePolygon.below dist2 (best.map Prod.fst) then some (dist2, projected) else best

/-- `closest_point` (lib.rs:459-530). -/
def closestPoint (norm : Point 3 K → K) (sqrt : K → K) (V : List (Point 3 K)) (p : Point 3 K) :
    Option (PolygonClosest K) :=
  (normal norm V).bind fun n =>
    if insidePrism norm V n p then
      let sd := dot n fun k => p k - SimplePolygon.vertex V 0 k
      some ⟨fun k => p k - n k * sd, |sd|⟩
    else
      ((List.range V.length).foldl (edgeStep V p) none).map fun b => ⟨b.2, sqrt b.1⟩

end Polygon3

namespace Polyhedron

/-- `SignedDistanceResult` (lib.rs) for polyhedra. -/
structure Signed (K : Type) where
  featureId : Nat
  point : Point 3 K
  signedDistance : K

/-- The loop of `compute_signed_distance` (lib.rs:550-570): the faces from index `i` on. -/
def signedLoop (norm : Point 3 K → K) (sqrt : K → K) (p : Point 3 K) :
    List (List (Point 3 K)) → Nat → Bool → Option (K × Nat × Point 3 K) →
      Option (Bool × Option (K × Nat × Point 3 K))
  | [], _, inside, best => some (inside, best)
  | face :: faces, i, inside, best =>
    (Polygon3.closestPoint norm sqrt face p).bind fun r =>
      (Polygon3.normal norm face).bind fun n =>
        let half : HalfSpace 3 K := ⟨r.point, fun k => -n k⟩
        signedLoop norm sqrt p faces (i + 1) (if half.containsPoint p then inside else false)
          (if SimplePolygon.below r.distance (best.map Prod.fst) then some (r.distance, i, r.point) else best)

/-- `compute_signed_distance` (lib.rs:540-578); `none` is a panic. -/
def signedDistance (norm : Point 3 K → K) (sqrt : K → K) (faces : List (List (Point 3 K))) (p : Point 3 K) :
    Option (Signed K) :=
  if faces.length < 4 then none
  else (signedLoop norm sqrt p faces 0 true none).bind fun st =>
    st.2.map fun b => ⟨b.2.1, b.2.2, (if st.1 then -1 else 1) * b.1⟩

/-- `contains_point` (lib.rs:594-613); `none` is a panic. -/
def containsPoint (norm : Point 3 K → K) : List (List (Point 3 K)) → Point 3 K → Option Bool
  | [], _ => some true
  | face :: faces, p =>
    (Polygon3.normal norm face).bind fun n =>
      let half : HalfSpace 3 K := ⟨SimplePolygon.vertex face 0, fun k => -n k⟩
      if half.containsPoint p then containsPoint norm faces p else some false

/-- `compute_volume` (lib.rs:580-589). -/
def volume (norm : Point 3 K → K) (faces : List (List (Point 3 K))) : Option K := Poly.volumeFromFaces norm faces

end Polyhedron

namespace Tetrahedron

/-- `get_face` (tetrahedron.rs:67-79). -/
def faces (V : Fin 4 → Point 3 K) : List (List (Point 3 K)) :=
  [[V 0, V 1, V 2], [V 0, V 3, V 1], [V 1, V 3, V 2], [V 0, V 2, V 3]]

/-- The triangles of `distance` (tetrahedron.rs:89-96). -/
def outward (V : Fin 4 → Point 3 K) : List (Tri 3 K) :=
  [⟨V 2, V 1, V 0⟩, ⟨V 1, V 2, V 3⟩, ⟨V 0, V 1, V 3⟩, ⟨V 2, V 0, V 3⟩]

/-- `point_orientation` (triangle.rs:161-177). -/
def pointOrientation (norm : Point 3 K → K) (t : Tri 3 K) (p : Point 3 K) : Orientation :=
  let dist := dot (normalize norm t.normalDir) fun k => p k - t.a k
  if 0 < dist then .positive else if dist < 0 then .negative else .zero

/-- The loop of `distance` (tetrahedron.rs:102-111). -/
def distanceLoop (norm : Point 3 K → K) (sqrt : K → K) (p : Point 3 K) :
    List (Tri 3 K) → Bool → Option K → Option (Bool × Option K)
  | [], inside, best => some (inside, best)
  | t :: ts, inside, best =>
    (Polygon3.closestPoint norm sqrt [t.a, t.b, t.c] p).bind fun r =>
      distanceLoop norm sqrt p ts (if pointOrientation norm t p = .positive then false else inside)
        (some (best.elim r.distance fun b => min b r.distance))

/-- `distance` (tetrahedron.rs:86-119). -/
def distance (norm : Point 3 K → K) (sqrt : K → K) (V : Fin 4 → Point 3 K) (p : Point 3 K) : Option K :=
  (distanceLoop norm sqrt p (outward V) true none).bind fun st => if st.1 then some 0 else st.2

end Tetrahedron

namespace Hexahedron

/-- `get_face` (hexahedron.rs:85-99). -/
def faces (V : Fin 8 → Point 3 K) : List (List (Point 3 K)) :=
  [[V 0, V 1, V 2, V 3], [V 4, V 5, V 1, V 0], [V 5, V 6, V 2, V 1], [V 6, V 7, V 3, V 2],
    [V 0, V 3, V 7, V 4], [V 4, V 7, V 6, V 5]]

/-- `query_signed_distance` (hexahedron.rs:70-73). -/
def signedDistance (norm : Point 3 K → K) (sqrt : K → K) (V : Fin 8 → Point 3 K) (p : Point 3 K) :
    Option (Polyhedron.Signed K) := Polyhedron.signedDistance norm sqrt (faces V) p

/-- `distance` (hexahedron.rs:60-63). -/
def distance (norm : Point 3 K → K) (sqrt : K → K) (V : Fin 8 → Point 3 K) (p : Point 3 K) : Option K :=
  (Polyhedron.signedDistance norm sqrt (faces V) p).map fun r => max r.signedDistance 0

end Hexahedron
end Fenris.Geometry
