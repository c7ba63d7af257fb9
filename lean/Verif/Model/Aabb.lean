import Verif.Model.GeometryUtil
import Verif.Model.Refinement
import Mathlib.Algebra.Order.Field.Basic
import Mathlib.Algebra.BigOperators.Group.Finset.Basic
import Mathlib.Data.Fintype.Basic
/-! # Model of `AxisAlignedBoundingBox` (`fenris-geometry/src/lib.rs:82-352`)

Floating-point numbers are elements of a linearly ordered field.  `none` models a panic. -/
set_option autoImplicit false

namespace Fenris.Geometry
open Fenris.GeomUtil
variable {K : Type} [Field K] [LinearOrder K]

/-- `norm_squared` / `magnitude_squared` of nalgebra. -/
def normSq {d : Nat} (v : Point d K) : K := ∑ i, v i * v i

/-- lib.rs:87-95.  The fields are private, so every box a user sees comes from the functions below. -/
structure Aabb (d : Nat) (K : Type) where
  min : Point d K
  max : Point d K

namespace Aabb
variable {d : Nat}

/-- `new` (lib.rs:115-120); the assertion panics when some `min[i] > max[i]`. -/
def new (min max : Point d K) : Option (Aabb d K) :=
  if ∀ i, min i ≤ max i then some ⟨min, max⟩ else none

/-- `From<OPoint>` (lib.rs:137-139). -/
def ofPoint (p : Point d K) : Option (Aabb d K) := new p p

/-- `enclose` (lib.rs:149-165). -/
def enclose (a b : Aabb d K) : Option (Aabb d K) :=
  new (fun i => Min.min (a.min i) (b.min i)) (fun i => Max.max (a.max i) (b.max i))

/-- The fold of `from_points` (lib.rs:170-172). -/
def encloseAll : Aabb d K → List (Point d K) → Option (Aabb d K)
  | a, [] => some a
  | a, p :: ps =>
    match ofPoint p with
    | none => none
    | some b =>
      match enclose a b with
      | none => none
      | some c => encloseAll c ps

/-- `from_points` (lib.rs:167-174): outer `none` = panic, `some none` = the `None` returned for no
points. -/
def fromPoints : List (Point d K) → Option (Option (Aabb d K))
  | [] => some none
  | p :: ps =>
    match ofPoint p with
    | none => none
    | some a => (encloseAll a ps).map some

/-- `extents` (lib.rs:176-178). -/
def extents (a : Aabb d K) : Point d K := fun i => a.max i - a.min i

/-- `center` (lib.rs:184-186). -/
def center (a : Aabb d K) : Point d K := fun i => (a.max i + a.min i) / 2

/-- `uniformly_scale` (lib.rs:203-212). -/
def uniformlyScale (a : Aabb d K) (s : K) : Option (Aabb d K) :=
  if 0 ≤ s then
    some ⟨fun i => a.center i + (a.min i - a.center i) * s,
      fun i => a.center i + (a.max i - a.center i) * s⟩
  else none

/-- `contains_point` (lib.rs:214-216). -/
def containsPoint (a : Aabb d K) (p : Point d K) : Bool :=
  decide (∀ i, a.min i ≤ p i ∧ p i ≤ a.max i)

/-- `intervals_intersect` (lib.rs:337-339). -/
def intervalsIntersect (l1 u1 l2 u2 : K) : Bool := decide (l2 ≤ u1 ∧ l1 ≤ u2)

/-- `intersects` (lib.rs:218-225). -/
def intersects (a b : Aabb d K) : Bool :=
  decide (∀ i, intervalsIntersect (a.min i) (a.max i) (b.min i) (b.max i) = true)

/-- `grow_uniformly` (lib.rs:240-244). -/
def growUniformly (a : Aabb d K) (distance : K) : Option (Aabb d K) :=
  new (fun i => a.min i - distance) (fun i => a.max i + distance)

/-- lib.rs:254-259: the corner of a multi-index; any entry other than 0 or 1 is `unreachable!()`. -/
def cornerOf (a : Aabb d K) (idx : List Nat) : Option (Point d K) :=
  if ∀ i ∈ idx, i = 0 ∨ i = 1 then
    some fun i => if idx.getD i 0 = 0 then a.min i else a.max i
  else none

/-- `corners_iter` (lib.rs:247-261). -/
def corners (a : Aabb d K) : Option (List (Point d K)) :=
  (indexPower d 2).mapM a.cornerOf

/-- `closest_point_to` (lib.rs:264-277). -/
def closestPointTo (a : Aabb d K) (p : Point d K) : Point d K := fun i =>
  if p i ≤ a.min i then a.min i else if a.max i ≤ p i then a.max i else p i

/-- `dist2_to` (lib.rs:285-287). -/
def dist2To (a : Aabb d K) (p : Point d K) : K := normSq fun i => a.closestPointTo p i - p i

/-- `furthest_point_to` (lib.rs:291-308). -/
def furthestPointTo (a : Aabb d K) (p : Point d K) : Point d K := fun i =>
  if p i < (a.min i + a.max i) / 2 then a.max i else a.min i

/-- `max_dist2_to` (lib.rs:315-321). -/
def maxDist2To (a : Aabb d K) (p : Point d K) : K := normSq fun i => a.furthestPointTo p i - p i

end Aabb
end Fenris.Geometry
