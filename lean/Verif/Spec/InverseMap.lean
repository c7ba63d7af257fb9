import Verif.Model.InverseMap
/-! # Specification vocabulary for the inversion of reference maps (C84) -/
set_option autoImplicit false

namespace Fenris.Inverse.Spec
open Fenris.Element
variable {K : Type} [Field K] [LinearOrder K] {g : Nat}

/-- The Euclidean norm, and the solution of all regular linear systems. -/
structure Exact (la : LinAlg K) : Prop where
  nonneg : ∀ n v, 0 ≤ la.norm n v
  norm_sq : ∀ n v, la.norm n v ^ 2 = ∑ i, v i ^ 2
  regular : ∀ n A b, A.det ≠ 0 → ∃ y, la.solve n A b = some y ∧ A.mulVec y = b
  singular : ∀ n A b, A.det = 0 → la.solve n A b = none

/-- The reference elements: `[-1, 1]^d` and the simplices with the vertices `-1` and `2 e_i - 1`. -/
def InReference : (e : Kind) → Point e.dim K → Prop
  | .segment2, xi => -1 ≤ xi 0 ∧ xi 0 ≤ 1
  | .tri3, xi | .tri6, xi => -1 ≤ xi 0 ∧ -1 ≤ xi 1 ∧ xi 0 + xi 1 ≤ 0
  | .quad4, xi | .quad9, xi => ∀ i, -1 ≤ xi i ∧ xi i ≤ 1
  | .tet4, xi | .tet10, xi | .tet20, xi => -1 ≤ xi 0 ∧ -1 ≤ xi 1 ∧ -1 ≤ xi 2 ∧ xi 0 + xi 1 + xi 2 ≤ -1
  | .hex8, xi | .hex20, xi | .hex27, xi => ∀ i, -1 ≤ xi i ∧ xi i ≤ 1

/-- The reference map is affine, as for simplices, parallelograms and parallelepipeds. -/
def AffineElement (e : Kind) (vertices : List (Point g K)) : Prop :=
  ∃ (A : Matrix (Fin g) (Fin e.dim) K) (t : Point g K), ∀ xi, mapReferenceCoords e vertices xi = fun i => A.mulVec xi i + t i

end Fenris.Inverse.Spec
