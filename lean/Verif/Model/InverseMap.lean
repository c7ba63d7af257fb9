import Verif.Model.Newton
import Verif.Model.Element
import Mathlib.LinearAlgebra.Matrix.Determinant.Basic
/-! # Model of the inversion of the reference map: `src/element.rs:299-455`

Exact arithmetic. nalgebra's `norm` and `full_piv_lu().solve` are parameters. -/
set_option autoImplicit false

namespace Fenris
namespace Inverse
open Fenris.Element Fenris.Newton
variable {K : Type} [Field K] [LinearOrder K] {g : Nat}

/-- The functions of nalgebra: the norm, and the solution of a linear system with a full-pivoting LU decomposition, which is `None` for
a singular matrix. -/
structure LinAlg (K : Type) where
  norm : (n : Nat) → (Fin n → K) → K
  solve : (n : Nat) → Matrix (Fin n) (Fin n) K → (Fin n → K) → Option (Fin n → K)

/-- `tuple_combinations` for pairs. -/
def pairs {α : Type} : List α → List (α × α)
  | [] => []
  | x :: xs => xs.map (fun y => (x, y)) ++ pairs xs

/-- `diameter` of the elements (src/element/segment.rs:150-152,178-182, src/element/triangle.rs:114-120,266-268,406-412,
src/element/quadrilateral.rs:135-141,326-328, src/element/tetrahedron.rs:243-245,489-491,601-607,
src/element/hexahedron.rs:110-116,332-334,560-562); higher-order elements delegate to the linear ones. -/
def diameter (la : LinAlg K) (e : Kind) (vertices : List (Point g K)) : K :=
  match e with
  | .segment2 => la.norm g fun i => vertices.getD 1 0 i - vertices.getD 0 0 i
  | e => ((pairs (vertices.take e.geometry.numNodes)).map fun p => la.norm g fun i => p.1 i - p.2 i).foldl max 0

/-- `reference_jacobian` as a matrix. -/
def jacobian (e : Kind) (vertices : List (Point g K)) (xi : Point e.dim K) : Matrix (Fin g) (Fin e.dim) K :=
  Matrix.of fun r c => referenceJacobian e vertices xi r c

/-- `T::from_f64(1e-12).unwrap() * element.diameter()` (element.rs:360, 411). -/
def tolerance (la : LinAlg K) (e : Kind) (vertices : List (Point g K)) : K := 1 / 10 ^ 12 * diameter la e vertices

/-- The Jacobian solver of element.rs:325-341. The text of the error is left out. -/
def solveJacobian (la : LinAlg K) (e : Kind) (vertices : List (Point e.dim K)) (xi rhs : Point e.dim K) : Except Unit (Point e.dim K) :=
  match la.solve e.dim (jacobian e vertices xi) rhs with
  | some sol => .ok sol
  | none => .error ()

/-- element.rs:302-380 `map_physical_coordinates`. Newton's method runs for at most 20 rounds and one more to notice this, hence the
fuel of 21; `none` would mean that it does not return. The error of the Jacobian solver is the unit. -/
def mapPhysicalCoords (la : LinAlg K) (e : Kind) (vertices : List (Point e.dim K)) (x : Point e.dim K) :
    Option (Except (NewtonError Unit) (Point e.dim K)) :=
  (newton (fun xi k => mapReferenceCoords e vertices xi k - x k)
    (fun _ => solveJacobian la e vertices) (some 20) (tolerance la e vertices) (la.norm e.dim) 21 fun _ => 0).map fun out => out.result.map fun _ => out.x

/-- The result of `project_physical_coordinates`: a panic, still in the loop, or a returned value. -/
inductive Projected (r : Nat) (K : Type) where
  | panic
  | running
  | done (result : Except Unit (Point r K))

/-- The loop of element.rs:427-452, for at most `fuel` rounds. -/
def projectLoop (la : LinAlg K) {r : Nat} (T : Point r K → Point g K) (J : Point r K → Matrix (Fin g) (Fin r) K) (x : Point g K) (tol : K) :
    Nat → Point r K → Projected r K
  | 0, _ => .running
  | fuel + 1, xi =>
    let res := (J xi).transpose.mulVec fun k => T xi k - x k
    if la.norm r res > tol then
      match la.solve r ((J xi).transpose * J xi) fun i => -res i with
      | some sol => projectLoop la T J x tol fuel fun i => xi i + sol i
      | none => .done (.error ())
    else .done (.ok xi)

/-- element.rs:382-455 `project_physical_coordinates`, followed for at most `fuel` rounds; the message after 1000 rounds is left out. -/
def projectPhysicalCoords (la : LinAlg K) (e : Kind) (vertices : List (Point g K)) (x : Point g K) (fuel : Nat) : Projected e.dim K :=
  if e.dim ≤ g then
    projectLoop la (mapReferenceCoords e vertices) (jacobian e vertices) x (tolerance la e vertices) fuel fun _ => 0
  else .panic

end Inverse
end Fenris
