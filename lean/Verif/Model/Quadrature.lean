import Mathlib.Algebra.Order.Field.Basic
import Verif.Model.Element
/-! # Model of the quadrature rules: `fenris-quadrature/src/{lib,univariate,tensor}.rs` and
`src/quadrature/subdivide.rs`

`f64` (and the generic scalar) is an ordered field `K`. The cosine that starts the root finder and its
tolerance are parameters of `gauss`. In a field `x / 0 = 0`, where floating point gives an infinity or NaN:
the theorems about the derivative and the Gauss rules assume that the divisors are not zero. The conversion
of the rules from `f64` to the scalar type (src/quadrature.rs:288-316, src/quadrature/{tensor,univariate,
total_order}.rs) is an entry-wise cast and is not modelled. -/
set_option autoImplicit false

namespace Fenris
namespace Quadrature

/-- `Rule<D>` and `QuadraturePair` (fenris-quadrature/src/lib.rs:103, src/quadrature.rs:23): weights and points. -/
abbrev Rule (d : Nat) (K : Type) := List K × List (Point d K)

section
variable {K : Type} [Field K] {d : Nat}

/-- fenris-quadrature/src/lib.rs:124-127 `integrate` (and src/quadrature.rs:45-55). -/
def integrate (rule : Rule d K) (f : Point d K → K) : K :=
  ((rule.1.zip rule.2).map fun q => q.1 * f q.2).sum

/-! ## Legendre polynomials and Gauss rules -/

/-- One pass of the loop of fenris-quadrature/src/univariate.rs:29-34; `s` is `(p1, p2)`. -/
def legendreStep (x : K) (s : K × K) (m : Nat) : K × K :=
  (((2 * (m : K) - 1) * x * s.1 - ((m : K) - 1) * s.2) / (m : K), s.1)

/-- fenris-quadrature/src/univariate.rs:23-37 `LegendreRecurrence::evaluate`: the fields `(p1, p2)`. -/
def legendre (n : Nat) (x : K) : K × K := (List.range' 1 n).foldl (legendreStep x) (1, 0)

/-- fenris-quadrature/src/univariate.rs:39-41 `value`. -/
def legendreValue (n : Nat) (x : K) : K := (legendre n x).1

/-- fenris-quadrature/src/univariate.rs:43-49 `derivative`. -/
def legendreDerivative (n : Nat) (x : K) : K :=
  (n : K) * (x * (legendre n x).1 - (legendre n x).2) / (x * x - 1)

end

section
variable {K : Type} [Field K] [LinearOrder K]

/-- fenris-quadrature/src/univariate.rs:88-97, the loop `'newton`, from the current root estimate `x`;
the result is `(x, dp)` at the exit, `none` when the loop is still running after `fuel` passes. -/
def newtonLoop (n : Nat) (tol : K) : Nat → K → Option (K × K)
  | 0, _ => none
  | fuel + 1, x =>
    let dx := -legendreValue n x / legendreDerivative n x
    if |dx| ≤ tol then some (x + dx, legendreDerivative n (x + dx)) else newtonLoop n tol fuel (x + dx)

/-- fenris-quadrature/src/univariate.rs:79-105, first loop of `gauss`: root and weight number `i`. -/
def gaussPoint (n : Nat) (tol : K) (guess : Nat → K) (fuel i : Nat) : Option (K × K) :=
  (newtonLoop n tol fuel (guess i)).map fun r => (2 / ((1 - r.1 * r.1) * r.2 * r.2), r.1)

/-- fenris-quadrature/src/univariate.rs:107-112, second loop: one mirrored entry is appended.
`none` is an out-of-bounds index (it does not happen, see `C42_gauss_symmetric`). -/
def mirrorStep (n : Nat) (rule : List (K × K)) (i : Nat) : Option (List (K × K)) :=
  (rule[n - i - 1]?).map fun q => rule ++ [(q.1, -q.2)]

/-- fenris-quadrature/src/univariate.rs:66-118 `gauss`. `guess i` is `cos(π (i + 0.75) / (n + 0.5))`, `tol`
is `1e-15`. `none`: still running; `some none`: the assertion fails (zero points requested). The lists of
weights and of points are pushed together; the model keeps them as one list of pairs until the end. -/
def gauss (n : Nat) (tol : K) (guess : Nat → K) (fuel : Nat) : Option (Option (Rule 1 K)) :=
  if n = 0 then some none
  else
    ((List.range ((n + 1) / 2)).mapM (gaussPoint n tol guess fuel)).map fun half =>
      ((List.range' ((n + 1) / 2) (n - (n + 1) / 2)).foldlM (mirrorStep n) half).map fun rule =>
        (rule.map Prod.fst, rule.map fun q => fun _ => q.2)

/-- fenris-quadrature/src/univariate.rs:126-134 `try_gauss_lobatto`: the tabulated rule (a parameter), with
its first and last point replaced. `some none` is the panic on an empty table. -/
def tryGaussLobatto (table : Nat → Option (Rule 1 K)) (n : Nat) : Option (Option (Rule 1 K)) :=
  (table n).map fun rule =>
    if rule.2 = [] then none
    else some (rule.1, (rule.2.set 0 fun _ => -1).set (rule.2.length - 1) fun _ => 1)

end

section
variable {K : Type} [Field K]

/-! ## Tensor products -/

/-- fenris-quadrature/src/tensor.rs:13-30 `quadrilateral_gauss`, for the rule returned by `gauss(n)`. -/
def quadrilateral (rule : Rule 1 K) : Rule 2 K :=
  let pairs := (rule.1.zip rule.2).flatMap fun qx => (rule.1.zip rule.2).map fun qy =>
    (qx.1 * qy.1, (![qx.2 0, qy.2 0] : Point 2 K))
  (pairs.map Prod.fst, pairs.map Prod.snd)

/-- fenris-quadrature/src/tensor.rs:36-55 `hexahedron_gauss`, for the rule returned by `gauss(n)`. -/
def hexahedron (rule : Rule 1 K) : Rule 3 K :=
  let pairs := (rule.1.zip rule.2).flatMap fun qx => (rule.1.zip rule.2).flatMap fun qy =>
    (rule.1.zip rule.2).map fun qz =>
      (qx.1 * qy.1 * qz.1, (![qx.2 0, qy.2 0, qz.2 0] : Point 3 K))
  (pairs.map Prod.fst, pairs.map Prod.snd)

/-! ## Subdivision -/

/-- src/quadrature/subdivide.rs:42-57, one piece `[a, b]` of the interval. -/
def univariatePiece (rule : Rule 1 K) (pieces i : Nat) : List (K × Point 1 K) :=
  let size : K := 2 / (pieces : K)
  let a := (i : K) * size - 1
  let b := a + size
  let jacobian := (b - a) / 2
  (rule.1.zip rule.2).map fun q => (q.1 * jacobian, fun _ => ((b - a) * q.2 0 + (b + a)) / 2)

/-- src/quadrature/subdivide.rs:26-60 `subdivide_univariate_`. -/
def subdivideUnivariate (rule : Rule 1 K) (pieces : Nat) : Rule 1 K :=
  let pairs := (List.range pieces).flatMap (univariatePiece rule pieces)
  (pairs.map Prod.fst, pairs.map Prod.snd)

/-- src/quadrature/subdivide.rs:103-110, the corners of cell `(i, j)`. -/
def cellVertices (n i j : Nat) : Point 2 K × Point 2 K × Point 2 K × Point 2 K :=
  let size : K := 2 / (n : K)
  let cx := -1 + size * ((j : K) + 1 / 2)
  let cy := 1 - size * ((i : K) + 1 / 2)
  (![cx + -1 * (1 / 2) * size, cy + -1 * (1 / 2) * size],
   ![cx + 1 * (1 / 2) * size, cy + -1 * (1 / 2) * size],
   ![cx + 1 * (1 / 2) * size, cy + 1 * (1 / 2) * size],
   ![cx + -1 * (1 / 2) * size, cy + 1 * (1 / 2) * size])

end

section
variable {K : Type} [Field K] [LinearOrder K]

/-- src/quadrature/subdivide.rs:127-141 `add_triangle_quadrature` (`volume_form` of a square Jacobian is the
absolute value of its determinant, src/integrate.rs:20-35). -/
def triangleQuadrature (vertices : List (Point 2 K)) (rule : Rule 2 K) : List (K × Point 2 K) :=
  (rule.1.zip rule.2).map fun q =>
    (|Element.referenceJacobian .tri3 vertices q.2 0 0 * Element.referenceJacobian .tri3 vertices q.2 1 1
        - Element.referenceJacobian .tri3 vertices q.2 0 1 * Element.referenceJacobian .tri3 vertices q.2 1 0| * q.1,
      Element.mapReferenceCoords .tri3 vertices q.2)

/-- src/quadrature/subdivide.rs:100-122, the triangles of cell `(i, j)`. -/
def cellQuadrature (rule : Rule 2 K) (n i j : Nat) : List (K × Point 2 K) :=
  let v := cellVertices (K := K) n i j
  triangleQuadrature [v.1, v.2.1, v.2.2.2] rule ++
    (if i ≠ j then triangleQuadrature [v.2.1, v.2.2.1, v.2.2.2] rule else [])

/-- src/quadrature/subdivide.rs:82-125 `subdivide_triangle_`; `none` is the failing assertion. -/
def subdivideTriangle (rule : Rule 2 K) (n : Nat) : Option (Rule 2 K) :=
  if n > 0 then
    let pairs := (List.range n).flatMap fun i => (List.range (i + 1)).flatMap (cellQuadrature rule n i)
    some (pairs.map Prod.fst, pairs.map Prod.snd)
  else none

end
end Quadrature
end Fenris
