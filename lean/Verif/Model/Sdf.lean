import Verif.Model.Aabb
import Mathlib.Data.Fin.VecNotation
/-! # Model of `fenris-geometry/src/sdf.rs`

A signed distance function is an object with the methods `eval` and `gradient`; together with `bounding_box` it is a record of
functions.  The Euclidean norm is a parameter. -/
set_option autoImplicit false

namespace Fenris.Sdf
open Fenris.Geometry
variable {K : Type} [Field K] [LinearOrder K]

/-- sdf.rs:7-37 `SignedDistanceFunction2d` and `BoundedSdf`. -/
structure Sdf (K : Type) where
  eval : Point 2 K → K
  gradient : Point 2 K → Option (Point 2 K)
  boundingBox : Option (Aabb 2 K)

/-- The offset `y` of sdf.rs:81 and 86. -/
def offset (center x : Point 2 K) : Point 2 K := fun i => x i - center i

/-- sdf.rs:62-97 `SdfCircle`. -/
def circle (norm : Point 2 K → K) (radius : K) (center : Point 2 K) : Sdf K where
  eval x := norm (offset center x) - radius
  gradient x :=
    if norm (offset center x) = 0 then none
    else some fun i => offset center x i / norm (offset center x)
  boundingBox :=
    let eps := radius * (1 / 100)
    Aabb.new (fun i => center i - 1 * (radius + eps)) (fun i => center i + 1 * (radius + eps))

/-- sdf.rs:99-132 `SdfUnion`; the bounding box panics if one of the two does. -/
def union (left right : Sdf K) : Sdf K where
  eval x := Min.min (left.eval x) (right.eval x)
  gradient x := if left.eval x < right.eval x then left.gradient x else right.gradient x
  boundingBox := left.boundingBox.bind fun a => right.boundingBox.bind fun b => a.enclose b

/-- The vector `d` of sdf.rs:149-151. -/
def boxOffset (a : Aabb 2 K) (x : Point 2 K) : Point 2 K := fun i =>
  Max.max (x i - a.center i) (-(x i - a.center i)) - a.extents i / 2

/-- sdf.rs:148-155 `SdfAxisAlignedBox::eval`; `d[d.imax()]` is the largest component. -/
def boxEval (norm : Point 2 K → K) (a : Aabb 2 K) (x : Point 2 K) : K :=
  norm (fun i => Max.max (boxOffset a x i) 0) + Min.min 0 (Max.max (boxOffset a x 0) (boxOffset a x 1))

/-- The vector `dx` of sdf.rs:165-166 added to `x`. -/
def shifted (x : Point 2 K) (i : Fin 2) (h : K) : Point 2 K := fun j => x j + if j = i then h else 0

/-- sdf.rs:163-168: the central differences, with the step `h`. -/
def boxDifferences (norm : Point 2 K → K) (a : Aabb 2 K) (h : K) (x : Point 2 K) : Point 2 K := fun i =>
  (boxEval norm a (shifted x i h) - boxEval norm a (shifted x i (-h))) / (2 * h)

/-- sdf.rs:134-172 `SdfAxisAlignedBox`, for the step `h` (`1e-4` in the code).  `normalize_mut` divides by the norm without a
check. -/
def box (norm : Point 2 K → K) (h : K) (a : Aabb 2 K) : Sdf K where
  eval := boxEval norm a
  gradient x := some fun i => boxDifferences norm a h x i / norm (boxDifferences norm a h x)
  boundingBox := some a

end Fenris.Sdf
