import Verif.Spec.Aabb
import Verif.Model.Lines
/-! # Specification of segments, lines, half-spaces and disks as point sets -/
set_option autoImplicit false

namespace Fenris.Spec
open Fenris.Geometry
variable {K : Type} [Field K] [LinearOrder K] {d : Nat}

/-- The point dividing the segment from `a` to `b` in the ratio `t : 1 - t`. -/
def lerp (a b : Point d K) (t : K) : Point d K := fun i => (1 - t) * a i + t * b i

/-- The points of a segment. -/
def OnSegment (s : Segment d K) (x : Point d K) : Prop :=
  ∃ t, 0 ≤ t ∧ t ≤ 1 ∧ x = lerp s.start s.stop t

/-- The points of a line. -/
def OnLine (l : Line d K) (x : Point d K) : Prop := ∃ t : K, x = fun i => l.point i + t * l.dir i

/-- The value `(x - point) · normal`: for a unit normal the signed distance of `x` from the surface. -/
def height (h : HalfSpace d K) (x : Point d K) : K := ∑ i, (x i - h.point i) * h.normal i

/-- The points of a half-space, as in its documentation: `(y - x) · n ≤ 0`. -/
def InHalfSpace (h : HalfSpace d K) (x : Point d K) : Prop := height h x ≤ 0

/-- The points of a ball. -/
def InBall (b : Ball d K) (x : Point d K) : Prop := dist2 x b.center ≤ b.radius ^ 2

/-- Twice the signed area spanned by two plane vectors; zero exactly for parallel vectors. -/
def cross (u v : Point 2 K) : K := u 0 * v 1 - u 1 * v 0

/-- A square root. -/
def IsSqrt (sqrt : K → K) : Prop := ∀ x, 0 ≤ x → 0 ≤ sqrt x ∧ sqrt x ^ 2 = x

/-- A sign function: positive and negative numbers have different signs, all positive numbers have
the same sign and all negative numbers have the same sign.  Nothing is said about zero. -/
def IsSignum (signum : K → K) : Prop :=
  (∀ x, 0 < x → signum x = 1) ∧ ∀ x, x < 0 → signum x = -1

end Fenris.Spec
