import Verif.Model.Cg
/-! # Specification of the conjugate gradient method (C30, C31)

`Iterates op pre b x₀ k x r z p`: the sequences `x`, `r`, `z`, `p` are the first `k` steps of the textbook
preconditioned conjugate gradient iteration, and every step was well defined (`0 < p·Ap`, `0 < z·r`). -/
set_option autoImplicit false

namespace Fenris
namespace Cg
namespace Spec

variable {n : Nat} {K E : Type} [Field K] [LinearOrder K]

/-- One textbook step from index `i` to `i + 1`; `q = A pᵢ`. -/
structure Step (r z p q : Vec n K) (x x' r' z' p' : Vec n K) : Prop where
  positiveCurvature : 0 < p ⬝ᵥ q
  positiveProduct : 0 < z ⬝ᵥ r
  x_eq : x' = x + (z ⬝ᵥ r / (p ⬝ᵥ q)) • p
  r_eq : r' = r - (z ⬝ᵥ r / (p ⬝ᵥ q)) • q
  p_eq : p' = z' + (z' ⬝ᵥ r' / (z ⬝ᵥ r)) • p

/-- The first `k` steps of the method. -/
structure Iterates (op pre : Nat → Vec n K → Except E (Vec n K)) (b x₀ : Vec n K) (k : Nat)
    (x r z p : Nat → Vec n K) : Prop where
  start : x 0 = x₀
  residual : ∃ y, op 0 x₀ = .ok y ∧ r 0 = b - y
  direction : p 0 = z 0
  precondition : ∀ i, i ≤ k → pre i (r i) = .ok (z i)
  step : ∀ i, i < k → ∃ q, op (i + 1) (p i) = .ok q ∧
    Step (r i) (z i) (p i) q (x i) (x (i + 1)) (r (i + 1)) (z (i + 1)) (p (i + 1))

/-- Why, and with what, the solver stops after `k` full steps. -/
inductive Stops (c : Solver n K E) (b : Vec n K) (k : Nat) (x r z p : Nat → Vec n K) : Outcome n K E → Prop
  | converged (h : c.hasConverged (x k) b (c.norm b) k (r k) = .ok true) :
      Stops c b k x r z p ⟨x k, k, .ok ()⟩
  | criterionFails (kind : ErrorKind E) (h : c.hasConverged (x k) b (c.norm b) k (r k) = .error kind) :
      Stops c b k x r z p ⟨x k, k, .error kind⟩
  | limit (h : c.hasConverged (x k) b (c.norm b) k (r k) = .ok false) (hm : c.maxIter = some k) :
      Stops c b k x r z p ⟨x k, k, .error (.maxIterationsReached k)⟩
  | operatorFails (h : c.hasConverged (x k) b (c.norm b) k (r k) = .ok false) (e : E)
      (ho : c.operator (k + 1) (p k) = .error e) :
      Stops c b k x r z p ⟨x k, k, .error (.operatorError e)⟩
  | indefiniteOperator (h : c.hasConverged (x k) b (c.norm b) k (r k) = .ok false) (q : Vec n K)
      (ho : c.operator (k + 1) (p k) = .ok q) (hpq : p k ⬝ᵥ q ≤ 0) :
      Stops c b k x r z p ⟨x k, k, .error .indefiniteOperator⟩
  | indefinitePreconditioner (h : c.hasConverged (x k) b (c.norm b) k (r k) = .ok false) (q : Vec n K)
      (ho : c.operator (k + 1) (p k) = .ok q) (hpq : 0 < p k ⬝ᵥ q) (hzr : z k ⬝ᵥ r k ≤ 0) :
      Stops c b k x r z p ⟨x k, k, .error .indefinitePreconditioner⟩
  | preconditionerFails (h : c.hasConverged (x k) b (c.norm b) k (r k) = .ok false) (q : Vec n K)
      (ho : c.operator (k + 1) (p k) = .ok q) (hpq : 0 < p k ⬝ᵥ q) (hzr : 0 < z k ⬝ᵥ r k) (e : E)
      (hm : c.maxIter ≠ some k)
      (hp : c.preconditioner (k + 1) (r k - (z k ⬝ᵥ r k / (p k ⬝ᵥ q)) • q) = .error e) :
      Stops c b k x r z p
        ⟨x k + (z k ⬝ᵥ r k / (p k ⬝ᵥ q)) • p k, k + 1, .error (.preconditionerError e)⟩

end Spec
end Cg
end Fenris
