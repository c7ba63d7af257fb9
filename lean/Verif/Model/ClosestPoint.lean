import Verif.Model.ElementAssembly
import Verif.Model.Polygon
/-! # Model of the closest-point queries of elements: `src/element.rs:457-493`,
`src/element/triangle.rs:444-603`, `src/element/tetrahedron.rs:571-575,610-665`

`eps` is `4 * T::default_epsilon()`.  `try_inverse` is the model of `Model/ElementAssembly`. -/
set_option autoImplicit false

namespace Fenris
namespace Closest
open Fenris.Geometry Fenris.Element Fenris.Local
variable {K : Type} [Field K] [LinearOrder K] {g : Nat}

/-- `ClosestPoint` (src/element.rs:461-473) -/
inductive ClosestPoint (r : Nat) (K : Type)
  | inElement (xi : Point r K)
  | closestPoint (xi : Point r K)

/-- src/element.rs:481-485 -/
def ClosestPoint.point {r : Nat} : ClosestPoint r K → Point r K
  | .inElement xi => xi
  | .closestPoint xi => xi

/-- nalgebra's `distance_squared`. -/
def distanceSquared (p q : Point g K) : K := normSq fun i => q i - p i

/-- `Iterator::min_by` with a comparison of keys: the first of the smallest items. -/
def minBy {α : Type} (key : α → K) : List α → Option α
  | [] => none
  | x :: xs => some (xs.foldl (fun best y => if key y < key best then y else best) x)

/-- src/element/triangle.rs:444-448 -/
def likelyInTri (eps : K) (xi : Point 2 K) : Bool :=
  decide (-1 - eps ≤ xi 0 ∧ -1 - eps ≤ xi 1 ∧ xi 0 + xi 1 ≤ eps)

/-- src/element/tetrahedron.rs:571-575 -/
def likelyInTet (eps : K) (xi : Point 3 K) : Bool :=
  decide (-1 - eps ≤ xi 0 ∧ -1 - eps ≤ xi 1 ∧ -1 - eps ≤ xi 2 ∧ xi 0 + xi 1 + xi 2 ≤ -1 + eps)

/-- `map_reference_coords` of the triangles in the plane and in space. -/
def triMap (t : Tri g K) (xi : Point 2 K) : Point g K := mapReferenceCoords .tri3 [t.a, t.b, t.c] xi

/-- `reference_jacobian` at the origin. -/
def triJacobian (t : Tri g K) : Matrix (Fin g) (Fin 2) K :=
  Matrix.of fun r c => referenceJacobian .tri3 [t.a, t.b, t.c] (fun _ => 0) r c

/-- The candidates on the edges: index, parameter, squared distance (triangle.rs:488-499,
559-571). -/
def edgeCandidates (t : Tri g K) (p : Point g K) : List (Nat × K × K) :=
  ([(t.a, t.b), (t.b, t.c), (t.c, t.a)].map fun e => (⟨e.1, e.2⟩ : Segment g K)).zipIdx.map fun e =>
    (e.2, e.1.closestPointParametric p,
      distanceSquared p (e.1.pointFromParameter (e.1.closestPointParametric p)))

/-- Reference coordinates of a point on an edge (triangle.rs:511-515, 581-585). -/
def edgeRefCoords (idx : Nat) (t : K) : Point 2 K :=
  let a := tri3Nodes.getD ((idx + 0) % 3) 0
  let b := tri3Nodes.getD ((idx + 1) % 3) 0
  (⟨a, b⟩ : Segment 2 K).pointFromParameter t

/-- `xi_interior` for triangles in the plane (triangle.rs:471-484). -/
def triInterior2 (eps : K) (t : Tri 2 K) (p : Point 2 K) : Option (Point 2 K) :=
  ((tryInverse (triJacobian t)).map fun inv =>
    inv.mulVec fun k => p k - triMap t (fun _ => 0) k).filter (likelyInTri eps)

/-- The choice between the candidate in the interior and the best one on the edges
(triangle.rs:511-525, 578-596). -/
def triPick (mk : Point 2 K → ClosestPoint 2 K) (t : Tri g K) (p : Point g K) (c : Nat × K × K) :
    Option (Point 2 K) → ClosestPoint 2 K
  | some xi =>
    if distanceSquared p (triMap t xi) < c.2.2 then mk xi else .closestPoint (edgeRefCoords c.1 c.2.1)
  | none => .closestPoint (edgeRefCoords c.1 c.2.1)

/-- `Tri3d2Element::closest_point` (triangle.rs:450-527); `none` would be the panic of `expect`. -/
def triClosest2 (eps : K) (t : Tri 2 K) (p : Point 2 K) : Option (ClosestPoint 2 K) :=
  (minBy (fun c => c.2.2) (edgeCandidates t p)).map fun c =>
    triPick .inElement t p c (triInterior2 eps t p)

/-- `xi_interior` for triangles in space (triangle.rs:541-553). -/
def triInterior3 (eps : K) (t : Tri 3 K) (p : Point 3 K) : Option (Point 2 K) :=
  let A := triJacobian t
  ((tryInverse (A.transpose * A)).map fun inv =>
    inv.mulVec (A.transpose.mulVec fun k => p k - triMap t (fun _ => 0) k)).filter (likelyInTri eps)

/-- `Tri3d3Element::closest_point` (triangle.rs:536-597); `none` would be the panic of `expect`. -/
def triClosest3 (eps : K) (t : Tri 3 K) (p : Point 3 K) : Option (ClosestPoint 2 K) :=
  (minBy (fun c => c.2.2) (edgeCandidates t p)).map fun c =>
    triPick .closestPoint t p c (triInterior3 eps t p)

/-- `map_reference_coords` of the tetrahedron with vertices `V`. -/
def tetMap (V : Fin 4 → Point g K) (xi : Point 3 K) : Point g K :=
  mapReferenceCoords .tet4 [V 0, V 1, V 2, V 3] xi

/-- `reference_jacobian` at the origin. -/
def tetJacobian (V : Fin 4 → Point 3 K) : Matrix (Fin 3) (Fin 3) K :=
  Matrix.of fun r c => referenceJacobian .tet4 [V 0, V 1, V 2, V 3] (fun _ => 0) r c

/-- `Tet4Connectivity([0, 1, 2, 3]).get_face_connectivity(i).element(vertices)`
(src/connectivity.rs:532-543). -/
def tetFace (V : Fin 4 → Point 3 K) (i : Nat) : Tri 3 K :=
  if i = 0 then ⟨V 0, V 2, V 1⟩
  else if i = 1 then ⟨V 0, V 1, V 3⟩
  else if i = 2 then ⟨V 1, V 2, V 3⟩
  else ⟨V 0, V 3, V 2⟩

/-- The vertices of the reference element. -/
def tetReference (i : Fin 4) : Point 3 K := tet4Nodes.getD i 0

/-- `xi_interior` (tetrahedron.rs:619-632). -/
def tetInterior (eps : K) (V : Fin 4 → Point 3 K) (p : Point 3 K) : Option (Point 3 K) :=
  ((tryInverse (tetJacobian V)).map fun inv =>
    inv.mulVec fun k => p k - tetMap V (fun _ => 0) k).filter (likelyInTet eps)

/-- The candidates on the faces: index, reference coordinates in the face, squared distance
(tetrahedron.rs:639-647). -/
def faceCandidate (eps : K) (V : Fin 4 → Point 3 K) (p : Point 3 K) (i : Nat) :
    Option (Nat × Point 2 K × K) :=
  (triClosest3 eps (tetFace V i) p).map fun r =>
    (i, r.point, distanceSquared (triMap (tetFace V i) r.point) p)

/-- `Tet4Element::closest_point` (tetrahedron.rs:616-672); `none` would be a panic. -/
def tetClosest (eps : K) (V : Fin 4 → Point 3 K) (p : Point 3 K) : Option (ClosestPoint 3 K) :=
  ((List.range 4).mapM (faceCandidate eps V p)).bind fun cs =>
    (minBy (fun c => c.2.2) cs).map fun c =>
      let onFace : ClosestPoint 3 K := .closestPoint (triMap (tetFace tetReference c.1) c.2.1)
      match tetInterior eps V p with
      | some xi => if distanceSquared p (tetMap V xi) < c.2.2 then .inElement xi else onFace
      | none => onFace

end Closest
end Fenris
