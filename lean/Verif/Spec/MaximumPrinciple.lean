import Verif.Spec.LinearProblem
/-! # Specification for the discrete maximum principle (C104) -/
set_option autoImplicit false

namespace Fenris.MaximumPrinciple.Spec
open Fenris.Element Fenris.Local Fenris.Local.Spec

variable {d : Nat} {K : Type} [Field K] [LinearOrder K]

/-- The angles of a triangle are at most right angles. -/
def NonObtuse (a b c : Point d K) : Prop :=
  0 ≤ ∑ k, (b k - a k) * (c k - a k) ∧ 0 ≤ ∑ k, (a k - b k) * (c k - b k) ∧ 0 ≤ ∑ k, (a k - c k) * (b k - c k)

/-- The gradients of the basis functions of each element sum to zero, and the inner product of the gradients of two different basis functions
has a quadrature that is not positive. -/
structure Acute (space : Space d K) (rules : Nat → List (QPoint d K Unit)) : Prop where
  sumZero : ∀ en ∈ space, ∀ p m, ∑ I : Fin (en.1.gradients p).length, (en.1.gradients p)[I] m = 0
  angle : ∀ (e : Nat) (en : VolElement d K × List Nat), space[e]? = some en → ∀ I J, I < en.2.length → J < en.2.length → I ≠ J →
    (quadSum en.1 (rules e) fun p _ => ∑ k, physGrad (en.1.jacobian p) ((en.1.gradients p)[I]?.getD 0) k *
      physGrad (en.1.jacobian p) ((en.1.gradients p)[J]?.getD 0) k) ≤ 0

/-- The maximum principle for a solution `x` with load `b` and the values `g` prescribed at the given nodes: if the load is not positive
(not negative) at the other nodes, then each bound from above (from below) for the prescribed values is one for the solution. -/
def ObeysMaximumPrinciple (N : Nat) (nodes : List Nat) (b g x : Nat → K) : Prop :=
  ((∀ r, r < N → r ∉ nodes → b r ≤ 0) → ∀ M, (∀ n ∈ nodes, g n ≤ M) → ∀ n, n < N → x n ≤ M) ∧
  ((∀ r, r < N → r ∉ nodes → 0 ≤ b r) → ∀ M, (∀ n ∈ nodes, M ≤ g n) → ∀ n, n < N → M ≤ x n)

end Fenris.MaximumPrinciple.Spec
