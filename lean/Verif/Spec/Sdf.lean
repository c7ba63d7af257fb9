import Verif.Model.Sdf
import Verif.Spec.Aabb
import Verif.Spec.Polygon
/-! # Specification of signed distance functions -/
set_option autoImplicit false

namespace Fenris.Sdf.Spec
open Fenris.Geometry Fenris.Spec
variable {K : Type} [Field K] [LinearOrder K]

/-- The points of a disk. -/
def Disk (r : K) (c x : Point 2 K) : Prop := dist2 x c ≤ r ^ 2

/-- The boundary of a disk. -/
def Circle (r : K) (c x : Point 2 K) : Prop := dist2 x c = r ^ 2

/-- The boundary of a box. -/
def BoxBoundary (a : Aabb 2 K) (x : Point 2 K) : Prop := InAabb a x ∧ ∃ i, x i = a.min i ∨ x i = a.max i

/-- `f` is a signed distance function of a region: negative or zero exactly in the region, outside of it the distance to the
region, and inside of it in absolute value at most the distance to any point outside. -/
structure IsSdf (region : Point 2 K → Prop) (f : Point 2 K → K) : Prop where
  sign : ∀ x, f x ≤ 0 ↔ region x
  outside : ∀ x, ¬ region x → (∃ q, region q ∧ dist2 x q = f x ^ 2) ∧ ∀ q, region q → f x ^ 2 ≤ dist2 x q
  inside : ∀ x, region x → ∀ q, ¬ region q → f x ^ 2 ≤ dist2 x q

/-- The absolute value of `f` is everywhere the distance to the boundary. -/
def IsExact (boundary : Point 2 K → Prop) (f : Point 2 K → K) : Prop :=
  ∀ x, (∃ q, boundary q ∧ dist2 x q = f x ^ 2) ∧ ∀ q, boundary q → f x ^ 2 ≤ dist2 x q

end Fenris.Sdf.Spec
