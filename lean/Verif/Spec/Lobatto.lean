import Verif.Spec.Quadrature
/-! # What a tabulated Gauss-Lobatto rule promises -/
set_option autoImplicit false

namespace Fenris.Lobatto.Spec
open Polynomial

/-- `n` positive weights and `n` increasing points from `-1` to `1`, such that the weighted sum of the values of a polynomial of degree at most
`2 n - 3` differs from its integral over `[-1, 1]` by at most `10^-14` times the sum of the absolute values of its coefficients. -/
structure IsLobattoRule (n : Nat) (weights : List ℝ) (points : List ℝ) : Prop where
  weightsLength : weights.length = n
  pointsLength : points.length = n
  positive : ∀ w ∈ weights, 0 < w
  increasing : points.Pairwise (· < ·)
  first : points.head? = some (-1)
  last : points.getLast? = some 1
  accurate : ∀ p : ℝ[X], p.natDegree ≤ 2 * n - 3 →
    |(List.zipWith (fun w x => w * p.eval x) weights points).sum - Fenris.Spec.intervalIntegral p| ≤ (∑ k ∈ p.support, |p.coeff k|) / 10 ^ 14

end Fenris.Lobatto.Spec
