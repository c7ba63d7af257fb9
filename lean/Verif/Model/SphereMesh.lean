import Verif.Model.Element
import Verif.Model.MeshUtil
import Verif.Model.PolyClip
import Verif.Model.PolyConvert
import Verif.Model.Procedural
/-! # Model of `create_simple_stupid_sphere` (src/mesh/procedural.rs)

`sin`, `cos`, the number `pi` and the normalization of vectors are parameters. -/
set_option autoImplicit false

namespace Fenris
namespace SphereMesh

open Geometry Poly Procedural

variable {K : Type} [Field K] [LinearOrder K]

/-- The faces of a hexahedron (src/connectivity.rs:612-634). -/
def hexFaces (cell : List Nat) : List (List Nat) := (Element.localFaces .hex8).map fun f => f.map fun i => cell.getD i 0

/-- src/mesh/procedural.rs:408-411: the cube around the origin, as a polyhedral mesh. -/
def cube (radius : K) : Option (PolyMesh (Point 3 K)) :=
  ofMesh hexFaces (MeshUtil.translate (pt3 (-radius) (-radius) (-radius)) (Procedural.hexMesh (2 * radius) 1 1 1 1))

/-- src/mesh/procedural.rs:415-423: the point of the sphere for the indices of the two loops. -/
def spherePoint (sin cos : K → K) (pi radius : K) (numSweeps iTheta jPhi : Nat) : Point 3 K :=
  let theta := pi * (iTheta : K) / (numSweeps : K)
  let phi := 2 * pi * (jPhi : K) / (numSweeps : K)
  pt3 (radius * sin theta * cos phi) (radius * sin theta * sin phi) (radius * cos theta)

/-- src/mesh/procedural.rs:424-426: the half-space for a point `x` of the sphere. `Unit::new_normalize` normalizes the
normalized vector once more. -/
def halfSpaceAt (normalize : Point 3 K → Point 3 K) (x : Point 3 K) : HalfSpace 3 K :=
  ⟨x, normalize fun i => -normalize x i⟩

/-- The loops of src/mesh/procedural.rs:413-429 over the points of the sphere. -/
def cutLoop (signum : K → K) (normalize : Point 3 K → Point 3 K) :
    List (Point 3 K) → PolyMesh (Point 3 K) → Option (PolyMesh (Point 3 K))
  | [], m => some m
  | x :: xs, m => (intersectHalfSpace signum (halfSpaceAt normalize x) m).bind (cutLoop signum normalize xs)

/-- The points of the sphere in the order of the loops. -/
def spherePoints (sin cos : K → K) (pi radius : K) (numSweeps : Nat) : List (Point 3 K) :=
  (List.range numSweeps).flatMap fun i => (List.range numSweeps).map fun j => spherePoint sin cos pi radius numSweeps i j

/-- src/mesh/procedural.rs:405-434 `create_simple_stupid_sphere`; `none` is a panic. -/
def sphere (sin cos : K → K) (pi : K) (normalize : Point 3 K → Point 3 K) (signum : K → K) (center : Point 3 K) (radius : K)
    (numSweeps : Nat) : Option (PolyMesh (Point 3 K)) :=
  if numSweeps > 0 then
    (cube radius).bind fun m =>
      (cutLoop signum normalize (spherePoints sin cos pi radius numSweeps) m).map (translate center)
  else none

end SphereMesh
end Fenris
