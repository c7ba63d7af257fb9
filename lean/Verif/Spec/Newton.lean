import Verif.Model.Newton
/-! # Specification for C32 and C33 -/
set_option autoImplicit false

namespace Fenris
namespace Newton
namespace Spec

open Cg (Vec)

variable {n : Nat} {K E : Type} [Field K] [LinearOrder K]

/-- The first `k` Newton steps from `x₀`: each starts with a residual above the tolerance, solves the Jacobian
system for the current residual, and lets the line search move along minus the solution. -/
structure Steps (c : Problem n K E) (x₀ : Vec n K) (k : Nat) (x f : Nat → Vec n K) (alpha : Nat → K)
    (dx : Nat → Vec n K) : Prop where
  start : x 0 = x₀
  residual : f 0 = c.function x₀
  above : ∀ i, i < k → c.tolerance < c.norm (f i)
  limit : ∀ i, i < k → c.maxIterations ≠ some i
  solve : ∀ i, i < k → c.solveJacobianSystem i (x i) (f i) = .ok (dx i)
  search : ∀ i, i < k → c.lineSearch i c.function (f i) (x i) (-dx i) = some (.ok (alpha i), f (i + 1), x (i + 1))

/-- Why, and with what, the procedure stops after `k` steps. -/
inductive Stops (c : Problem n K E) (k : Nat) (x f : Nat → Vec n K) : Outcome n K E → Prop
  | converged (h : c.norm (f k) ≤ c.tolerance) : Stops c k x f ⟨x k, f k, .ok k⟩
  | limit (h : c.tolerance < c.norm (f k)) (hm : c.maxIterations = some k) :
      Stops c k x f ⟨x k, f k, .error (.maximumIterationsReached k)⟩
  | jacobianFails (h : c.tolerance < c.norm (f k)) (e : E)
      (hj : c.solveJacobianSystem k (x k) (f k) = .error e) :
      Stops c k x f ⟨x k, f k, .error (.jacobianError e)⟩
  | searchFails (h : c.tolerance < c.norm (f k)) (d : Vec n K)
      (hj : c.solveJacobianSystem k (x k) (f k) = .ok d) (e : E) (f' x' : Vec n K)
      (hl : c.lineSearch k c.function (f k) (x k) (-d) = some (.error e, f', x')) :
      Stops c k x f ⟨x', f', .error (.lineSearchError e)⟩

/-- The contract of a line search: on success with step length `a`, `x` has moved by `a` times the direction and
`f` is the function value there. -/
def Faithful (ls : LineSearch n K E) : Prop :=
  ∀ i F f x d a f' x', ls i F f x d = some (.ok a, f', x') → x' = x + a • d ∧ f' = F x'

/-- The step lengths that the backtracking search may try, in order: 1, 3/4, 1/2, and the powers of 1/4 down to
the first below 10⁻⁶. -/
def trialLengths : List K := [1, 3 / 4, 1 / 2] ++ (List.range 10).map fun i => (1 / 4) ^ (i + 1)

/-- Sufficient decrease of the squared residual with parameter 10⁻⁴. -/
def SufficientDecrease (F : Vec n K → Vec n K) (f x p : Vec n K) (a : K) : Prop :=
  F (x + a • p) ⬝ᵥ F (x + a • p) ≤ (1 - 1 / 10000 * a) * (f ⬝ᵥ f)

end Spec
end Newton
end Fenris
