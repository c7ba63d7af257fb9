import Mathlib.MeasureTheory.Integral.IntervalIntegral.Basic
import Mathlib.Algebra.Polynomial.Eval.Defs
import Mathlib.Algebra.Polynomial.Derivative
import Mathlib.Algebra.MvPolynomial.Degrees
/-! # What the quadrature properties mean

Integrals are Mathlib's interval integrals over the reals; polynomials are Mathlib polynomials. -/
set_option autoImplicit false

namespace Fenris.Spec
open Polynomial

/-- `∫_{-1}^{1} q`. -/
noncomputable def intervalIntegral (q : ℝ[X]) : ℝ := ∫ x in (-1 : ℝ)..1, q.eval x

/-- The Legendre polynomial of degree `n`: of degree `n`, orthogonal on `[-1, 1]` to every polynomial of
smaller degree, and with value `1` at `1`. -/
structure IsLegendre (n : Nat) (p : ℝ[X]) : Prop where
  natDegree : p.natDegree = n
  eval_one : p.eval 1 = 1
  orthogonal : ∀ q : ℝ[X], q.degree < n → intervalIntegral (p * q) = 0

/-- The integral over the reference triangle with vertices `(-1,-1)`, `(1,-1)`, `(-1,1)`. -/
noncomputable def triangleIntegral (f : (Fin 2 → ℝ) → ℝ) : ℝ :=
  ∫ x in (-1 : ℝ)..1, ∫ y in (-1 : ℝ)..(-x), f ![x, y]

/-- The integral over the reference square `[-1, 1]²`. -/
noncomputable def squareIntegral (f : (Fin 2 → ℝ) → ℝ) : ℝ :=
  ∫ x in (-1 : ℝ)..1, ∫ y in (-1 : ℝ)..1, f ![x, y]

/-- The integral over the reference cube `[-1, 1]³`. -/
noncomputable def cubeIntegral (f : (Fin 3 → ℝ) → ℝ) : ℝ :=
  ∫ x in (-1 : ℝ)..1, ∫ y in (-1 : ℝ)..1, ∫ z in (-1 : ℝ)..1, f ![x, y, z]

end Fenris.Spec
