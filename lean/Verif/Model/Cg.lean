import Mathlib.Data.Matrix.Mul
import Mathlib.Algebra.Order.Field.Basic
/-! # Model of `fenris-sparse/src/cg.rs`

Vectors of one length are functions on `Fin n` (the code asserts equal lengths, cg.rs:375). Operators and
preconditioners may fail and may keep state: their first argument numbers the calls. That an operator
overwrites its output (`y = A x`) is part of the trait's contract; the workspace therefore carries no
information from one solve to the next. -/
set_option autoImplicit false

namespace Fenris
namespace Cg

/-- A vector of length `n`. -/
abbrev Vec (n : Nat) (K : Type) := Fin n → K

/-- fenris-sparse/src/cg.rs:279-286 `SolveErrorKind`. -/
inductive ErrorKind (E : Type) where
  | operatorError (e : E)
  | preconditionerError (e : E)
  | stoppingCriterionError (e : E)
  | indefiniteOperator
  | indefinitePreconditioner
  | maxIterationsReached (maxIter : Nat)
  deriving DecidableEq

/-- fenris-sparse/src/cg.rs:196-205 `ConjugateGradient`: `operator`, `preconditioner`, `stopping_criterion`
(with the arguments `x`, `b`, `b_norm`, `iteration`, `approx_residual`) and `max_iter`. `norm` is nalgebra's
Euclidean norm, kept as a parameter because it needs square roots. -/
structure Solver (n : Nat) (K E : Type) where
  operator : Nat → Vec n K → Except E (Vec n K)
  preconditioner : Nat → Vec n K → Except E (Vec n K)
  hasConverged : Vec n K → Vec n K → K → Nat → Vec n K → Except (ErrorKind E) Bool
  maxIter : Option Nat
  norm : Vec n K → K

/-- The variables of the loop (cg.rs:382-403): the solution and the buffers. -/
structure State (n : Nat) (K : Type) where
  x : Vec n K
  r : Vec n K
  z : Vec n K
  p : Vec n K
  zTr : K
  numIterations : Nat

/-- What a caller observes: the content of `x`, the number of iterations reported (in the output or inside
the error, cg.rs:314-317,349-355) and the verdict. -/
structure Outcome (n : Nat) (K E : Type) where
  x : Vec n K
  numIterations : Nat
  result : Except (ErrorKind E) Unit

variable {n : Nat} {K E : Type} [Field K] [LinearOrder K]

/-- cg.rs:428-432: `Some(max_iter)` if the limit has been reached. -/
def limitReached : Option Nat → Nat → Option Nat
  | some m, k => if k ≥ m then some m else none
  | none, _ => none

/-- cg.rs:453-475, the second half of an iteration, with the new residual at hand. -/
def finishIteration (c : Solver n K E) (s : State n K) (x r : Vec n K) : Outcome n K E ⊕ State n K :=
  match c.preconditioner (s.numIterations + 1) r with
  | .error e => .inl ⟨x, s.numIterations + 1, .error (.preconditionerError e)⟩
  | .ok z => .inr ⟨x, r, z, fun i => s.p i * (z ⬝ᵥ r / s.zTr) + z i, z ⬝ᵥ r, s.numIterations + 1⟩

/-- cg.rs:410-476, one round of the loop: either the solver returns, or the loop goes on. -/
def iteration (c : Solver n K E) (b : Vec n K) (s : State n K) : Outcome n K E ⊕ State n K :=
  match c.hasConverged s.x b (c.norm b) s.numIterations s.r with
  | .error kind => .inl ⟨s.x, s.numIterations, .error kind⟩
  | .ok true => .inl ⟨s.x, s.numIterations, .ok ()⟩
  | .ok false =>
    match limitReached c.maxIter s.numIterations with
    | some m => .inl ⟨s.x, s.numIterations, .error (.maxIterationsReached m)⟩
    | none =>
      match c.operator (s.numIterations + 1) s.p with
      | .error e => .inl ⟨s.x, s.numIterations, .error (.operatorError e)⟩
      | .ok ap =>
        if s.p ⬝ᵥ ap ≤ 0 then .inl ⟨s.x, s.numIterations, .error .indefiniteOperator⟩
        else if s.zTr ≤ 0 then .inl ⟨s.x, s.numIterations, .error .indefinitePreconditioner⟩
        else finishIteration c s (fun i => s.x i + s.zTr / (s.p ⬝ᵥ ap) * s.p i)
          (fun i => s.r i - s.zTr / (s.p ⬝ᵥ ap) * ap i)

/-- At most `fuel` rounds of the loop; `none` means that the loop is still running. -/
def loop (c : Solver n K E) (b : Vec n K) : Nat → State n K → Option (Outcome n K E)
  | 0, _ => none
  | fuel + 1, s =>
    match iteration c b s with
    | .inl out => some out
    | .inr s' => loop c b fuel s'

/-- cg.rs:373-479 `solve_with_guess_`, followed for at most `fuel` rounds. -/
def solveWithGuess (c : Solver n K E) (fuel : Nat) (b x : Vec n K) : Option (Outcome n K E) :=
  match c.operator 0 x with
  | .error e => some ⟨x, 0, .error (.operatorError e)⟩
  | .ok ax =>
    match c.preconditioner 0 (fun i => b i - ax i) with
    | .error e => some ⟨x, 0, .error (.preconditionerError e)⟩
    | .ok z =>
      if c.norm b = 0 then some ⟨fun _ => 0, 0, .ok ()⟩
      else loop c b fuel ⟨x, fun i => b i - ax i, z, z, z ⬝ᵥ fun i => b i - ax i, 0⟩

/-- cg.rs:107-124 `RelativeResidualCriterion::has_converged`. -/
def relativeResidual (norm : Vec n K → K) (tol : K) :
    Vec n K → Vec n K → K → Nat → Vec n K → Except (ErrorKind E) Bool :=
  fun _ _ bNorm _ r => .ok (decide (norm r ≤ tol * bNorm))

/-- cg.rs:53-60 `IdentityOperator`, the default preconditioner. -/
def identityOperator : Nat → Vec n K → Except E (Vec n K) := fun _ x => .ok x

/-- cg.rs:29-51: a dense or CSR matrix as an operator. -/
def matrixOperator (A : Matrix (Fin n) (Fin n) K) : Nat → Vec n K → Except E (Vec n K) :=
  fun _ x => .ok (A.mulVec x)

end Cg
end Fenris
