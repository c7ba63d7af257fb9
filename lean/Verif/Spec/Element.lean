import Mathlib.Algebra.Polynomial.Eval.Defs
import Mathlib.Algebra.MvPolynomial.Degrees
import Mathlib.Data.Fin.VecNotation
import Verif.Model.Refinement
/-! # Specification vocabulary for finite elements (independent of the element model) -/
set_option autoImplicit false

namespace Fenris
namespace Spec
variable {K : Type} [Field K]

/-- `D` is the derivative of `f` at `x` in direction `v`, in the formal sense:
`f (x + t v) = f x + t D + t² q(t)` for a polynomial `q` and all scalars `t`. -/
def HasFormalDeriv {d : Nat} (f : Point d K → K) (x v : Point d K) (D : K) : Prop :=
  ∃ q : Polynomial K, ∀ t : K, f (fun k => x k + t * v k) = f x + t * D + t ^ 2 * q.eval t

/-- Euclidean inner product of two points. -/
def dot {d : Nat} (a b : Point d K) : K := (List.ofFn (fun k => a k * b k)).sum

end Spec
end Fenris

namespace Fenris
namespace Spec
variable {K : Type} [Field K]

/-- Shapes of element faces with their numbers of nodes: segments with 2 or 3 nodes
(end, middle, end), triangles with 3 or 6 nodes (corners, then the midpoints of the edges
`01, 12, 20`), squares with 4, 8 or 9 nodes (corners, then the midpoints of the edges
`01, 12, 23, 30`, then the centre). -/
inductive FaceKind
  | seg2 | seg3 | tri3 | tri6 | quad4 | quad8 | quad9
  deriving DecidableEq, Repr

/-- Dimension of the face. -/
@[reducible] def FaceKind.dim : FaceKind → Nat
  | .seg2 | .seg3 => 1
  | _ => 2

/-- Number of nodes of the face. -/
def FaceKind.numNodes : FaceKind → Nat
  | .seg2 => 2 | .seg3 => 3 | .tri3 => 3 | .tri6 => 6 | .quad4 => 4 | .quad8 => 8 | .quad9 => 9

/-- Which entries of a face's node list are its corners. -/
def FaceKind.corners : FaceKind → List Nat
  | .seg2 => [0, 1] | .seg3 => [0, 2] | .tri3 | .tri6 => [0, 1, 2]
  | .quad4 | .quad8 | .quad9 => [0, 1, 2, 3]

/-- Weights of the corners at the face coordinates `s`: `s ∈ [-1, 1]` on a segment, the triangle
`s₀, s₁ ≥ -1, s₀ + s₁ ≤ 0`, or the square `[-1, 1]²`. -/
def FaceKind.weights : (k : FaceKind) → Point k.dim K → List K
  | .seg2, s | .seg3, s => [(1 - s 0) / 2, (1 + s 0) / 2]
  | .tri3, s | .tri6, s => [-(s 0 + s 1) / 2, (1 + s 0) / 2, (1 + s 1) / 2]
  | .quad4, s | .quad8, s | .quad9, s =>
    [(1 - s 0) * (1 - s 1) / 4, (1 + s 0) * (1 - s 1) / 4, (1 + s 0) * (1 + s 1) / 4,
     (1 - s 0) * (1 + s 1) / 4]

/-- Weighted combination of points. -/
def combine {d : Nat} (ps : List (Point d K)) (ws : List K) : Point d K :=
  fun r => (List.zipWith (fun p w => p r * w) ps ws).sum

/-- Generators of the symmetry group of each face: `π` lists where each face node goes, `T` is the
corresponding map of the face coordinates (flip of the segment; swap and rotation of the triangle;
rotation and reflection of the square). -/
def FaceKind.generators : (k : FaceKind) → List (List Nat × (Point k.dim K → Point k.dim K))
  | .seg2 => [([1, 0], fun s => ![-s 0])]
  | .seg3 => [([2, 1, 0], fun s => ![-s 0])]
  | .tri3 => [([0, 2, 1], fun s => ![s 1, s 0]), ([1, 2, 0], fun s => ![-s 0 - s 1 - 1, s 0])]
  | .tri6 => [([0, 2, 1, 5, 4, 3], fun s => ![s 1, s 0]),
      ([1, 2, 0, 4, 5, 3], fun s => ![-s 0 - s 1 - 1, s 0])]
  | .quad4 => [([1, 2, 3, 0], fun s => ![-s 1, s 0]), ([0, 3, 2, 1], fun s => ![s 1, s 0])]
  | .quad8 => [([1, 2, 3, 0, 5, 6, 7, 4], fun s => ![-s 1, s 0]),
      ([0, 3, 2, 1, 7, 6, 5, 4], fun s => ![s 1, s 0])]
  | .quad9 => [([1, 2, 3, 0, 5, 6, 7, 4, 8], fun s => ![-s 1, s 0]),
      ([0, 3, 2, 1, 7, 6, 5, 4, 8], fun s => ![s 1, s 0])]

/-- The symmetries of a face: node `k` goes to node `π k`, the point with coordinates `s` to the
point with coordinates `T s`. -/
inductive FaceSymmetry (k : FaceKind) : (Nat → Nat) → (Point k.dim K → Point k.dim K) → Prop
  | refl : FaceSymmetry k id id
  | step (g : List Nat × (Point k.dim K → Point k.dim K)) (hg : g ∈ k.generators)
      (π : Nat → Nat) (T : Point k.dim K → Point k.dim K) (h : FaceSymmetry k π T) :
      FaceSymmetry k (fun i => g.1.getD (π i) 0) (g.2 ∘ T)

end Spec
end Fenris
