import Verif.Spec.Quadrature
import Mathlib.Algebra.Order.Ring.Abs
/-! # What the properties of the shipped quadrature rules mean -/
set_option autoImplicit false

namespace Fenris.ShippedRules.Spec

/-- The integral over the reference tetrahedron with vertices `(-1,-1,-1)`, `(1,-1,-1)`, `(-1,1,-1)`, `(-1,-1,1)`. -/
noncomputable def tetrahedronIntegral (f : (Fin 3 → ℝ) → ℝ) : ℝ :=
  ∫ x in (-1 : ℝ)..1, ∫ y in (-1 : ℝ)..(-x), ∫ z in (-1 : ℝ)..(-1 - x - y), f ![x, y, z]

/-- The integral over the reference prism: the reference triangle times `[-1, 1]`. -/
noncomputable def prismIntegral (f : (Fin 3 → ℝ) → ℝ) : ℝ :=
  ∫ x in (-1 : ℝ)..1, ∫ y in (-1 : ℝ)..(-x), ∫ z in (-1 : ℝ)..1, f ![x, y, z]

/-- The integral over the reference pyramid with base `[-1, 1]²` at height `-1` and apex `(0, 0, 1)`. -/
noncomputable def pyramidIntegral (f : (Fin 3 → ℝ) → ℝ) : ℝ :=
  ∫ z in (-1 : ℝ)..1, ∫ x in (-((1 - z) / 2))..((1 - z) / 2), ∫ y in (-((1 - z) / 2))..((1 - z) / 2), f ![x, y, z]

/-- The reference domains. -/
def InTriangle (p : Fin 2 → ℝ) : Prop := -1 ≤ p 0 ∧ -1 ≤ p 1 ∧ p 0 + p 1 ≤ 0
def InSquare (p : Fin 2 → ℝ) : Prop := |p 0| ≤ 1 ∧ |p 1| ≤ 1
def InTetrahedron (p : Fin 3 → ℝ) : Prop := -1 ≤ p 0 ∧ -1 ≤ p 1 ∧ -1 ≤ p 2 ∧ p 0 + p 1 + p 2 ≤ -1
def InCube (p : Fin 3 → ℝ) : Prop := |p 0| ≤ 1 ∧ |p 1| ≤ 1 ∧ |p 2| ≤ 1
def InPrism (p : Fin 3 → ℝ) : Prop := -1 ≤ p 0 ∧ -1 ≤ p 1 ∧ p 0 + p 1 ≤ 0 ∧ |p 2| ≤ 1
def InPyramid (p : Fin 3 → ℝ) : Prop := |p 0| ≤ (1 - p 2) / 2 ∧ |p 1| ≤ (1 - p 2) / 2 ∧ -1 ≤ p 2

/-- The sum of the absolute values of the coefficients of a polynomial. -/
noncomputable def coefficientSum {d : Nat} (p : MvPolynomial (Fin d) ℝ) : ℝ := ∑ m ∈ p.support, |p.coeff m|

/-- A quadrature rule of strength `s` for an integral over a domain, given by weights and points: there are as many weights as points, the
weights are positive, the points are in the domain, and the weighted sum of the values of a polynomial of total degree at most `s` differs
from its integral by at most `10^-36` times the sum of the coefficients. -/
structure IsRule {d : Nat} (I : ((Fin d → ℝ) → ℝ) → ℝ) (domain : (Fin d → ℝ) → Prop) (s : Nat)
    (weights : List ℝ) (points : List (Fin d → ℝ)) : Prop where
  length : weights.length = points.length
  positive : ∀ w ∈ weights, 0 < w
  inside : ∀ p ∈ points, domain p
  accurate : ∀ p : MvPolynomial (Fin d) ℝ, p.totalDegree ≤ s →
    |(List.zipWith (fun w x => w * MvPolynomial.eval x p) weights points).sum - I fun x => MvPolynomial.eval x p| ≤
      coefficientSum p / 10 ^ 36

end Fenris.ShippedRules.Spec
