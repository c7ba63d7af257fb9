import Verif.Model.Winding
import Verif.Spec.Polyhedron
/-! # Specification of winding numbers -/
set_option autoImplicit false

namespace Fenris.Spec
open Fenris.Geometry

/-- The directed edges of triangles. -/
def triangleEdges (T : List (Tri 3 ℝ)) : List (Point 3 ℝ × Point 3 ℝ) := T.flatMap fun t => [(t.a, t.b), (t.b, t.c), (t.c, t.a)]

/-- A closed oriented surface of triangles: every directed edge occurs as often as its reverse. -/
def ClosedSurface (T : List (Tri 3 ℝ)) : Prop := (triangleEdges T).Perm ((triangleEdges T).map Prod.swap)

/-- The triangle is seen from `p` under a solid angle of less than `π`, a quarter of the sphere, on either side: with the
vectors `a`, `b`, `c` from `p` to the vertices, `|a||b||c| + (a·b)|c| + (b·c)|a| + (c·a)|b|` is positive. -/
def SmallAngle (t : Tri 3 ℝ) (p : Point 3 ℝ) : Prop :=
  let a : Point 3 ℝ := fun i => t.a i - p i
  let b : Point 3 ℝ := fun i => t.b i - p i
  let c : Point 3 ℝ := fun i => t.c i - p i
  let len : Point 3 ℝ → ℝ := fun v => Real.sqrt (∑ i, v i ^ 2)
  0 < len a * len b * len c + (∑ i, a i * b i) * len c + (∑ i, b i * c i) * len a + (∑ i, c i * a i) * len b

/-- The faces of a tetrahedron, with normals that point out of it when its determinant is positive. -/
def tetSurface (V : Fin 4 → Point 3 ℝ) : List (Tri 3 ℝ) :=
  [⟨V 0, V 2, V 1⟩, ⟨V 0, V 1, V 3⟩, ⟨V 1, V 2, V 3⟩, ⟨V 0, V 3, V 2⟩]

/-- The points strictly inside a tetrahedron. -/
def InsideTet (V : Fin 4 → Point 3 ℝ) (p : Point 3 ℝ) : Prop :=
  ∃ l : Fin 4 → ℝ, (∀ i, 0 < l i) ∧ ∑ i, l i = 1 ∧ ∀ k, p k = ∑ i, l i * V i k

end Fenris.Spec
