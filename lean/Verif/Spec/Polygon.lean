import Verif.Spec.Lines
import Verif.Model.Polygon
import Mathlib.Analysis.Convex.Hull
/-! # Specification of convex polygons as point sets -/
set_option autoImplicit false

namespace Fenris.Spec
open Fenris.Geometry
variable {K : Type} [Field K] [LinearOrder K] {d : Nat}

/-- Twice the signed area of the triangle `a b c`: positive exactly if it is counter-clockwise. -/
def orient2 (a b c : Point 2 K) : K := (b 0 - a 0) * (c 1 - a 1) - (b 1 - a 1) * (c 0 - a 0)

/-- A convex polygon with vertices in counter-clockwise order: any three vertices, taken in the order
of the list, form a counter-clockwise or degenerate triangle. -/
def ConvexCcw (V : List (Point 2 K)) : Prop := ∀ a b c, [a, b, c].Sublist V → 0 ≤ orient2 a b c

/-- A strictly convex polygon: any three vertices, in the order of the list, form a counter-clockwise
triangle with positive area. -/
def StrictlyConvexCcw (V : List (Point 2 K)) : Prop :=
  ∀ a b c, [a, b, c].Sublist V → 0 < orient2 a b c

/-- The points of a convex polygon: the convex hull of its vertices. -/
def hull (V : List (Point d K)) : Set (Point d K) := convexHull K {v | v ∈ V}

/-- The volume spanned by `N` and the triangle `a b c`, for orienting triangles in a plane with
normal `N`. -/
def orient3 (N a b c : Point 3 K) : K := dot N (cross3 (fun i => b i - a i) fun i => c i - a i)

/-- A convex polygon in the plane with normal `N` through `o`, counter-clockwise with respect to
`N`. -/
def PlanarConvexCcw (N o : Point 3 K) (V : List (Point 3 K)) : Prop :=
  (∀ v ∈ V, dot N (fun i => v i - o i) = 0) ∧
  ∀ a b c, [a, b, c].Sublist V → 0 ≤ orient3 N a b c

/-- A function that is positive on non-zero vectors, as the Euclidean norm is. -/
def PosNorm (norm : Point d K → K) : Prop := ∀ v, v ≠ 0 → 0 < norm v

/-- The Euclidean norm. -/
def IsNorm (norm : Point d K → K) : Prop := ∀ v, 0 ≤ norm v ∧ norm v ^ 2 = ∑ i, v i ^ 2

/-- The points of a triangle. -/
def InTriangle (t : Tri d K) (x : Point d K) : Prop :=
  ∃ α β γ : K, 0 ≤ α ∧ 0 ≤ β ∧ 0 ≤ γ ∧ α + β + γ = 1 ∧
    x = fun i => α * t.a i + β * t.b i + γ * t.c i

/-- The points in the interior of a triangle. -/
def InsideTriangle (t : Tri d K) (x : Point d K) : Prop :=
  ∃ α β γ : K, 0 < α ∧ 0 < β ∧ 0 < γ ∧ α + β + γ = 1 ∧
    x = fun i => α * t.a i + β * t.b i + γ * t.c i

/-- Every vertex with its successor, the last vertex with the first one. -/
def cyclicPairs {α : Type} (V : List α) : List (α × α) := V.zip (V.rotate 1)

/-- Gauss's area formula: half the sum of the cross products of consecutive vertices. -/
def shoelace (V : List (Point 2 K)) : K :=
  1 / 2 * ((cyclicPairs V).map fun e => e.1 0 * e.2 1 - e.1 1 * e.2 0).sum

end Fenris.Spec
