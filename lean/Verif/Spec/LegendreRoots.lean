import Mathlib.Algebra.Polynomial.Derivative
import Mathlib.Data.Real.Basic
/-! # What is meant by the roots of a Legendre polynomial (C42) -/
set_option autoImplicit false

namespace Fenris.Spec
open Polynomial

/-- The roots of the polynomial `p`: `n` different ones, in decreasing order, inside of the interval, simple, and symmetric. -/
structure LegendreRoots (n : Nat) (p : ℝ[X]) (r : Nat → ℝ) : Prop where
  decreasing : ∀ i j, i < j → j < n → r j < r i
  inside : ∀ i, i < n → -1 < r i ∧ r i < 1 ∧ p.eval (r i) = 0 ∧ (derivative p).eval (r i) ≠ 0
  all : ∀ x, p.eval x = 0 → ∃ i, i < n ∧ x = r i
  symmetric : ∀ i, i < n → r (n - 1 - i) = -r i

end Fenris.Spec
