import Verif.Model.Element
import Verif.Spec.Element
/-! Faces of the reference elements (specification side of C39). -/
set_option autoImplicit false

namespace Fenris
open Element Spec
variable {K : Type} [Field K]

/-- The kind of the `FaceConnectivity` of each connectivity type (src/connectivity.rs:199,246,334,
408,526,610,670,734,922); segments and the cubic tetrahedron have no faces (:108,979). -/
def faceKind : Kind → Option FaceKind
  | .segment2 => none | .tri3 => some .seg2 | .tri6 => some .seg3 | .quad4 => some .seg2
  | .quad9 => some .seg3 | .tet4 => some .tri3 | .tet10 => some .tri6 | .tet20 => none
  | .hex8 => some .quad4 | .hex20 => some .quad8 | .hex27 => some .quad9

/-- The point of the reference element with coordinates `s` on the face with local nodes `f`. -/
def facePoint (e : Kind) (k : FaceKind) (f : List Nat) (s : Point k.dim K) : Point e.dim K :=
  combine (k.corners.map (fun c => (refNodes e).getD (f.getD c 0) (fun _ => 0))) (k.weights s)

/-- The interpolant with nodal values `u 0, u 1, …`. -/
def interpolant (e : Kind) (u : Nat → K) (x : Point e.dim K) : K :=
  interpolate ((List.range e.numNodes).map u) (basis e x)

end Fenris
