import Verif.Spec.PolyClip
/-! # Specification of the parts of cut polyhedral cells -/
set_option autoImplicit false

namespace Fenris
namespace Poly
namespace Spec

open Geometry

variable {K : Type} [Field K] [LinearOrder K]

/-- `part`, a list of faces of the mesh `r` with the orientations `o`, is the part of the cell `c` of the mesh `m` in a
half-space: it consists of the clipped faces of `c` that are not empty, with their orientations, and of `caps`, which lie in
the boundary of the half-space. -/
def IsPart (h : HalfSpace 3 K) (m r : PolyMesh (Point 3 K)) (outward : Nat → Bool) (c : List Nat) (o : Nat → Bool)
    (part caps : List Nat) : Prop :=
  ∃ kept : List Nat, part = kept ++ caps ∧
    (kept.map fun f => (o f, (faceOf r f).map (pos r))) =
      (c.filter fun f => !(clip (insideOf h m) (faceOf m f)).isEmpty).map (fun f =>
        (outward f, (clip (insideOf h m) (faceOf m f)).map (nodePoint h m))) ∧
    ∀ f ∈ caps, ∀ v ∈ faceOf r f, Fenris.Spec.height h (pos r v) = 0

end Spec
end Poly
end Fenris
