import Verif.Model.Polygon
import Mathlib.Analysis.SpecialFunctions.Trigonometric.Arctan
/-! # Model of the winding numbers of `fenris-geometry/src/primitives/triangle.rs`

Over the real numbers, with the real square root and arctangent. A division by zero follows the floating-point numbers:
a positive number over zero has arctangent `π / 2`, and `0 / 0` is not a number, written `none`. -/
set_option autoImplicit false

namespace Fenris.Geometry
noncomputable section

/-- `Vector3::norm` -/
def norm3 (v : Point 3 ℝ) : ℝ := Real.sqrt (v 0 * v 0 + v 1 * v 1 + v 2 * v 2)

/-- The determinant of the matrix with the columns `a`, `b`, `c`. -/
def det3 (a b c : Point 3 ℝ) : ℝ :=
  a 0 * (b 1 * c 2 - c 1 * b 2) - b 0 * (a 1 * c 2 - c 1 * a 2) + c 0 * (a 1 * b 2 - b 1 * a 2)

/-- The denominator (triangle.rs:281) -/
def angleDen (a b c : Point 3 ℝ) : ℝ :=
  norm3 a * norm3 b * norm3 c + dot a b * norm3 c + dot b c * norm3 a + dot c a * norm3 b

/-- The arctangent of a quotient of floating-point numbers. -/
def atanDiv (num den : ℝ) : Option ℝ :=
  if den = 0 then
    if num = 0 then none else if 0 < num then some (Real.pi / 2) else some (-(Real.pi / 2))
  else some (Real.arctan (num / den))

/-- `compute_solid_angle` (triangle.rs:271-284) -/
def Tri.solidAngle (t : Tri 3 ℝ) (p : Point 3 ℝ) : Option ℝ :=
  let a : Point 3 ℝ := fun i => t.a i - p i
  let b : Point 3 ℝ := fun i => t.b i - p i
  let c : Point 3 ℝ := fun i => t.c i - p i
  (atanDiv (det3 a b c) (angleDen a b c)).map fun r => 2 * r

/-- `acc + angle`, with `none` for a result that is not a number. -/
def addAngle (acc angle : Option ℝ) : Option ℝ := acc.bind fun s => angle.map fun r => s + r

/-- `map` and `reduce` (triangle.rs:293-297); `none` inside is a result that is not a number. -/
def angleSum (T : List (Tri 3 ℝ)) (p : Point 3 ℝ) : Option ℝ :=
  match T.map fun t => t.solidAngle p with
  | [] => some 0
  | x :: xs => xs.foldl addAngle x

/-- `compute_winding_number_for_triangles_3d` (triangle.rs:287-299) -/
def windingNumber (T : List (Tri 3 ℝ)) (p : Point 3 ℝ) : Option ℝ := (angleSum T p).map fun s => s / (4 * Real.pi)

end
end Fenris.Geometry
