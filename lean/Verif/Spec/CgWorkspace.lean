import Verif.Model.CgWorkspace
/-! # The contract of linear operators (C95) -/
set_option autoImplicit false

namespace Fenris.CgBuffers.Spec
variable {K E : Type}

/-- An operator on vectors of length `n` that does what its documentation says, `y = A x`: it cannot change the length of `y`, whether
it succeeds does not depend on the old content of `y`, and if it succeeds it has overwritten `y`. -/
structure Overwrites (n : Nat) (op : Op K E) : Prop where
  length : ∀ call y x, y.length = n → x.length = n → (op call y x).1.length = n
  verdict : ∀ call y y' x, y.length = n → y'.length = n → x.length = n → (op call y x).2 = (op call y' x).2
  output : ∀ call y y' x, y.length = n → y'.length = n → x.length = n → (op call y x).2 = .ok () → (op call y x).1 = (op call y' x).1

/-- The operator on buffers does the same as the function on vectors. -/
def Implements (n : Nat) (op : Op K E) (f : Nat → Cg.Vec n K → Except E (Cg.Vec n K)) : Prop :=
  ∀ call (y : List K) (v : Cg.Vec n K), y.length = n →
    (∀ u, f call v = .ok u → op call y (List.ofFn v) = (List.ofFn u, .ok ())) ∧
    ∀ e, f call v = .error e → ∃ y', y'.length = n ∧ op call y (List.ofFn v) = (y', .error e)

/-- The solver on buffers and the solver on vectors are the same: operators, stopping criterion, norm and limit. -/
structure SameSolver (n : Nat) (c : Solver K E) (d : Cg.Solver n K E) : Prop where
  operator : Implements n c.operator d.operator
  preconditioner : Implements n c.preconditioner d.preconditioner
  hasConverged : ∀ (x b : Cg.Vec n K) (bNorm : K) (k : Nat) (r : Cg.Vec n K),
    c.hasConverged (List.ofFn x) (List.ofFn b) bNorm k (List.ofFn r) = d.hasConverged x b bNorm k r
  maxIter : c.maxIter = d.maxIter
  norm : ∀ b : Cg.Vec n K, c.norm (List.ofFn b) = d.norm b

section
variable [Add K] [Sub K] [Mul K] [Div K] [Zero K] [LE K] [DecidableLE K] [DecidableEq K]

/-- A program that takes a new workspace for each system. -/
def solveEach : List (Solver K E × Nat × List K × List K) → List (Run (Outcome K E))
  | [] => []
  | (c, fuel, b, x) :: jobs =>
    match solveWithGuess c fuel Workspace.default b x with
    | .panicked => [.panicked]
    | .running => [.running]
    | .done (out, _) => .done out :: solveEach jobs

end

end Fenris.CgBuffers.Spec
