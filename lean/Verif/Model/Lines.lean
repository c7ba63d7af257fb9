import Verif.Model.Aabb
import Mathlib.Data.Fin.VecNotation
/-! # Model of `fenris-geometry/src/primitives/{line,half_space,plane,ball}.rs`

Numbers are elements of a linearly ordered field.  nalgebra's `Unit` vectors are modelled as
arbitrary vectors: none of the functions below uses that they have length one. -/
set_option autoImplicit false

namespace Fenris.Geometry
variable {K : Type} [Field K] [LinearOrder K] {d : Nat}

/-- nalgebra's dot product. -/
def dot (u v : Point d K) : K := ∑ i, u i * v i

/-- nalgebra's `clamp(val, min, max)`. -/
def clamp (v lo hi : K) : K := if lo < v then (if v < hi then v else hi) else lo

/-- `LineSegment` (line.rs:48-57). -/
structure Segment (d : Nat) (K : Type) where
  start : Point d K
  stop : Point d K

/-- `Line` (line.rs:275-284). -/
structure Line (d : Nat) (K : Type) where
  point : Point d K
  dir : Point d K

/-- `HalfSpace` (half_space.rs:16-23) and `Plane` (plane.rs:4-8). -/
structure HalfSpace (d : Nat) (K : Type) where
  point : Point d K
  normal : Point d K

/-- `Hyperball` (ball.rs:10-18). -/
structure Ball (d : Nat) (K : Type) where
  center : Point d K
  radius : K

namespace HalfSpace

/-- half_space.rs:33-36 -/
def signedDistanceToPoint (h : HalfSpace d K) (p : Point d K) : K :=
  dot h.normal fun i => p i - h.point i

/-- half_space.rs:38-40 -/
def containsPoint (h : HalfSpace d K) (p : Point d K) : Bool :=
  decide (h.signedDistanceToPoint p ≤ 0)

/-- half_space.rs:57-59 -/
def complement (h : HalfSpace d K) : HalfSpace d K := ⟨h.point, fun i => -h.normal i⟩

/-- `HalfPlane::surface` (half_space.rs:80-83) -/
def surface (h : HalfSpace 2 K) : Line 2 K := ⟨h.point, ![h.normal 1, -h.normal 0]⟩

end HalfSpace

namespace Line

/-- line.rs:345-347 -/
def pointFromParameter (l : Line d K) (t : K) : Point d K := fun i => l.point i + l.dir i * t

/-- line.rs:327-337 -/
def projectPointParametric (l : Line d K) (p : Point d K) : K :=
  if normSq l.dir = 0 then 0 else dot (fun i => p i - l.point i) l.dir / normSq l.dir

/-- line.rs:340-343 -/
def projectPoint (l : Line d K) (p : Point d K) : Point d K :=
  l.pointFromParameter (l.projectPointParametric p)

/-- `Line2d::intersect_line_parametric` (line.rs:364-381), with nalgebra's `try_inverse` of a 2×2
matrix (`None` exactly when the determinant is zero) written out. -/
def intersectLineParametric (l m : Line 2 K) : Option (K × K) :=
  let r0 := m.point 0 - l.point 0
  let r1 := m.point 1 - l.point 1
  let m11 := l.dir 0
  let m21 := l.dir 1
  let m12 := -m.dir 0
  let m22 := -m.dir 1
  let det := m11 * m22 - m21 * m12
  if det = 0 then none
  else some (m22 / det * r0 + -m12 / det * r1, -m21 / det * r0 + m11 / det * r1)

/-- `Line2d::intersect` (line.rs:354-357) -/
def intersect (l m : Line 2 K) : Option (Point 2 K) :=
  (l.intersectLineParametric m).map fun t => l.pointFromParameter t.1

/-- `Line2d::intersect_disk_parametric` (line.rs:391-416); `sqrt` is the square root.  The outer
`none` stands for the division by zero of a line whose direction is zero (a failed debug assertion,
NaN otherwise). -/
def intersectDiskParametric (sqrt : K → K) (l : Line 2 K) (b : Ball 2 K) :
    Option (Option (K × K)) :=
  let a0 : Point 2 K := fun i => l.point i - b.center i
  let alpha := dot l.dir l.dir
  let beta := 2 * dot l.dir a0
  let gamma := dot a0 a0 - b.radius * b.radius
  let disc := beta * beta - 4 * alpha * gamma
  if 0 ≤ disc then
    if alpha = 0 then none
    else some (some ((-beta - sqrt disc) / (2 * alpha), (-beta + sqrt disc) / (2 * alpha)))
  else some none

/-- `Line3d::intersect_plane_parametric` (line.rs:423-433) -/
def intersectPlaneParametric (l : Line 3 K) (p : HalfSpace 3 K) : Option K :=
  if dot l.dir p.normal ≠ 0 then
    some (-dot (fun i => l.point i - p.point i) p.normal / dot l.dir p.normal)
  else none

end Line

namespace Segment

/-- line.rs:101-103 -/
def tangentDir (s : Segment d K) : Point d K := fun i => s.stop i - s.start i

/-- line.rs:93-96 -/
def toLine (s : Segment d K) : Line d K := ⟨s.start, s.tangentDir⟩

/-- line.rs:79-84 -/
def reverse (s : Segment d K) : Segment d K := ⟨s.stop, s.start⟩

/-- line.rs:109-111 -/
def midpoint (s : Segment d K) : Point d K := fun i => (s.start i + s.stop i) / (1 + 1)

/-- line.rs:126-128 -/
def pointFromParameter (s : Segment d K) (t : K) : Point d K :=
  fun i => s.start i + s.tangentDir i * t

/-- line.rs:115-118 -/
def closestPointParametric (s : Segment d K) (p : Point d K) : K :=
  clamp (s.toLine.projectPointParametric p) 0 1

/-- line.rs:121-124 -/
def closestPoint (s : Segment d K) (p : Point d K) : Point d K :=
  s.pointFromParameter (s.closestPointParametric p)

/-- `LineSegment2d::normal_dir` (line.rs:142-145) -/
def normalDir (s : Segment 2 K) : Point 2 K := ![s.tangentDir 1, -s.tangentDir 0]

/-- line.rs:147-151 -/
def intersectLineParametric (s : Segment 2 K) (l : Line 2 K) : Option K :=
  (s.toLine.intersectLineParametric l).map Prod.fst

/-- line.rs:154-159; outer `none` as for the line. -/
def intersectDiskParametric (sqrt : K → K) (s : Segment 2 K) (b : Ball 2 K) :
    Option (Option (K × K)) :=
  (s.toLine.intersectDiskParametric sqrt b).map fun r =>
    r.map fun t => (clamp t.1 0 1, clamp t.2 0 1)

/-- line.rs:167-171 -/
def segmentFromParameters (s : Segment 2 K) (t1 t2 : K) : Segment 2 K :=
  ⟨s.pointFromParameter t1, s.pointFromParameter t2⟩

/-- line.rs:162-165 -/
def intersectDisk (sqrt : K → K) (s : Segment 2 K) (b : Ball 2 K) : Option (Option (Segment 2 K)) :=
  (s.intersectDiskParametric sqrt b).map fun r =>
    r.map fun t => s.segmentFromParameters t.1 t.2

/-- line.rs:178-209 -/
def intersectSegmentParametric (s o : Segment 2 K) : Option K :=
  match s.toLine.intersectLineParametric o.toLine with
  | none => none
  | some t =>
    if t.2 < 0 ∨ 1 < t.2 then none
    else if t.1 < 0 ∨ 1 < t.1 then none
    else some t.1

/-- line.rs:217-250 -/
def intersectHalfPlaneParametric (s : Segment 2 K) (h : HalfSpace 2 K) : Option (K × K) :=
  let cs := h.containsPoint s.start
  let ce := h.containsPoint s.stop
  let ti := (s.intersectLineParametric h.surface).map fun t => clamp t 0 1
  if cs && ce then some (0, 1)
  else if !cs && !ce then none
  else if cs then some (0, ti.getD 1)
  else some (ti.getD 0, 1)

/-- line.rs:253-256 -/
def intersectHalfPlane (s : Segment 2 K) (h : HalfSpace 2 K) : Option (Segment 2 K) :=
  (s.intersectHalfPlaneParametric h).map fun t => s.segmentFromParameters t.1 t.2

/-- `LineSegment3d::intersect_plane_parametric` (line.rs:268-272) -/
def intersectPlaneParametric (s : Segment 3 K) (p : HalfSpace 3 K) : Option K :=
  (s.toLine.intersectPlaneParametric p).filter fun t => decide (0 ≤ t ∧ t ≤ 1)

/-- `LineSegment3d::closest_point_to_plane_parametric` (line.rs:13-40).  `signum` is the floating-point
sign function, whose value at zero depends on the sign of the zero. -/
def closestPointToPlaneParametric (signum : K → K) (s : Segment 3 K) (p : HalfSpace 3 K) : K :=
  let nTd := dot p.normal s.tangentDir
  let nTy := dot p.normal fun i => p.point i - s.start i
  if signum nTd = signum nTy then
    if |nTd| ≤ |nTy| then 1 else nTy / nTd
  else 0

/-- line.rs:42-45 -/
def closestPointToPlane (signum : K → K) (s : Segment 3 K) (p : HalfSpace 3 K) : Point 3 K :=
  s.pointFromParameter (s.closestPointToPlaneParametric signum p)

end Segment
end Fenris.Geometry
