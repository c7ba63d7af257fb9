import Verif.Model.Cg
/-! # Model of `fenris-sparse/src/cg.rs` with the buffers of the workspace

`Model/Cg.lean` is about vectors; here the vectors are the buffers that a workspace keeps from one solve to the next. An operator
gets the old content of its output buffer and may use it, and it may fail after it has written to the buffer. The scalars are
arbitrary: nothing is assumed about the operations, so that the theorems hold for floating-point numbers as well. -/
set_option autoImplicit false

namespace Fenris
namespace CgBuffers
open Cg (ErrorKind limitReached)

/-- cg.rs:126-133 `CgWorkspace`. -/
structure Workspace (K : Type) where
  r : List K
  z : List K
  p : List K
  ap : List K
deriving DecidableEq

/-- cg.rs:143-152 `CgWorkspace::default`. -/
def Workspace.default {K : Type} : Workspace K := ⟨[], [], [], []⟩

/-- cg.rs:15-17 `LinearOperator::apply`: the number of the call, the old content of `y` and `x` give the new content of `y` and the
verdict. -/
abbrev Op (K E : Type) := Nat → List K → List K → List K × Except E Unit

/-- cg.rs:196-205 `ConjugateGradient` without the workspace. -/
structure Solver (K E : Type) where
  operator : Op K E
  preconditioner : Op K E
  hasConverged : List K → List K → K → Nat → List K → Except (ErrorKind E) Bool
  maxIter : Option Nat
  norm : List K → K

/-- The variables of the loop (cg.rs:382-403). -/
structure State (K : Type) where
  x : List K
  w : Workspace K
  zTr : K
  numIterations : Nat

/-- What a caller observes: the content of `x`, the number of iterations and the verdict. -/
structure Outcome (K E : Type) where
  x : List K
  numIterations : Nat
  result : Except (ErrorKind E) Unit
deriving DecidableEq

/-- How far a call has come. -/
inductive Run (α : Type) where
  | panicked
  | running
  | done (a : α)
deriving DecidableEq

/-- The value of a finished call under a function. -/
def Run.map {α β : Type} (f : α → β) : Run α → Run β
  | .panicked => .panicked
  | .running => .running
  | .done a => .done (f a)

variable {K E : Type} [Add K] [Sub K] [Mul K] [Div K] [Zero K] [LE K] [DecidableLE K] [DecidableEq K]

/-- `resize_vertically_mut` of a vector: the first entries are kept, new ones are zero. -/
def resize (dim : Nat) (v : List K) : List K := v.take dim ++ List.replicate (dim - v.length) 0

/-- cg.rs:155-167 `prepare_buffers`. -/
def prepareBuffers (dim : Nat) (w : Workspace K) : Workspace K := ⟨resize dim w.r, resize dim w.z, resize dim w.p, resize dim w.ap⟩

/-- The dot product of two buffers. -/
def dot (a b : List K) : K := (List.zipWith (fun (x y : K) => x * y) a b).sum

/-- cg.rs:450-475, the part of an iteration after the checks; `ap` has been computed. -/
def finishIteration (c : Solver K E) (s : State K) (alpha : K) : Outcome K E × Workspace K ⊕ State K :=
  let x := List.zipWith (fun (xi pi : K) => xi + alpha * pi) s.x s.w.p
  let r := List.zipWith (fun (ri api : K) => ri - alpha * api) s.w.r s.w.ap
  match c.preconditioner (s.numIterations + 1) s.w.z r with
  | (z, .error e) => .inl (⟨x, s.numIterations + 1, .error (.preconditionerError e)⟩, ⟨r, z, s.w.p, s.w.ap⟩)
  | (z, .ok ()) =>
    .inr ⟨x, ⟨r, z, List.zipWith (fun (pi zi : K) => pi * (dot z r / s.zTr) + zi) s.w.p z, s.w.ap⟩, dot z r, s.numIterations + 1⟩

/-- cg.rs:410-476, one round of the loop: either the solver returns, or the loop goes on. -/
def iteration (c : Solver K E) (b : List K) (s : State K) : Outcome K E × Workspace K ⊕ State K :=
  match c.hasConverged s.x b (c.norm b) s.numIterations s.w.r with
  | .error kind => .inl (⟨s.x, s.numIterations, .error kind⟩, s.w)
  | .ok true => .inl (⟨s.x, s.numIterations, .ok ()⟩, s.w)
  | .ok false =>
    match limitReached c.maxIter s.numIterations with
    | some m => .inl (⟨s.x, s.numIterations, .error (.maxIterationsReached m)⟩, s.w)
    | none =>
      match c.operator (s.numIterations + 1) s.w.ap s.w.p with
      | (ap, .error e) => .inl (⟨s.x, s.numIterations, .error (.operatorError e)⟩, ⟨s.w.r, s.w.z, s.w.p, ap⟩)
      | (ap, .ok ()) =>
        if dot s.w.p ap ≤ 0 then .inl (⟨s.x, s.numIterations, .error .indefiniteOperator⟩, ⟨s.w.r, s.w.z, s.w.p, ap⟩)
        else if s.zTr ≤ 0 then .inl (⟨s.x, s.numIterations, .error .indefinitePreconditioner⟩, ⟨s.w.r, s.w.z, s.w.p, ap⟩)
        else finishIteration c ⟨s.x, ⟨s.w.r, s.w.z, s.w.p, ap⟩, s.zTr, s.numIterations⟩ (s.zTr / dot s.w.p ap)

/-- At most `fuel` rounds of the loop. -/
def loop (c : Solver K E) (b : List K) : Nat → State K → Run (Outcome K E × Workspace K)
  | 0, _ => .running
  | fuel + 1, s =>
    match iteration c b s with
    | .inl out => .done out
    | .inr s' => loop c b fuel s'

/-- cg.rs:382-408, with the buffers prepared. -/
def start (c : Solver K E) (fuel : Nat) (w : Workspace K) (b x : List K) : Run (Outcome K E × Workspace K) :=
  match c.operator 0 w.r x with
  | (r, .error e) => .done (⟨x, 0, .error (.operatorError e)⟩, ⟨r, w.z, w.p, w.ap⟩)
  | (ax, .ok ()) =>
    let r := List.zipWith (fun (ri bi : K) => bi - ri) ax b
    match c.preconditioner 0 w.z r with
    | (z, .error e) => .done (⟨x, 0, .error (.preconditionerError e)⟩, ⟨r, z, w.p, w.ap⟩)
    | (z, .ok ()) =>
      if c.norm b = 0 then .done (⟨x.map fun _ => 0, 0, .ok ()⟩, ⟨r, z, z, w.ap⟩)
      else loop c b fuel ⟨x, ⟨r, z, z, w.ap⟩, dot z r, 0⟩

/-- cg.rs:373-479 `solve_with_guess_`, followed for at most `fuel` rounds, with the workspace before and after. -/
def solveWithGuess (c : Solver K E) (fuel : Nat) (w : Workspace K) (b x : List K) : Run (Outcome K E × Workspace K) :=
  if b.length = x.length then start c fuel (prepareBuffers x.length w) b x else .panicked

/-- A program that solves one system after the other with one workspace (cg.rs:217-227 `with_workspace`); it ends with the first
call that panics or does not return. A job is a solver, a number of rounds, a right-hand side and a guess. -/
def solveAll (w : Workspace K) : List (Solver K E × Nat × List K × List K) → List (Run (Outcome K E))
  | [] => []
  | (c, fuel, b, x) :: jobs =>
    match solveWithGuess c fuel w b x with
    | .panicked => [.panicked]
    | .running => [.running]
    | .done (out, w') => .done out :: solveAll w' jobs

/-- cg.rs:29-42: a dense matrix, given by its rows, as an operator: `gemv` with `β = 0` overwrites `y`. -/
def denseOperator (rows : List (List K)) : Op K E := fun _ _ x => (rows.map fun row => dot row x, .ok ())

/-- cg.rs:44-51: a CSR matrix as an operator. `spmm_csr_dense(β, y, α, A, x)` computes `y ← β y + α A x` entry by entry; the code
passes `β = 0` and `α = 1` (here `zero` and `one`). Rows are given with all their entries. -/
def csrOperator (zero one : K) (rows : List (List K)) : Op K E := fun _ y x =>
  (List.zipWith (fun (yi : K) (row : List K) => zero * yi + one * dot row x) y rows, .ok ())

/-- cg.rs:53-60 `IdentityOperator`. -/
def identityOperator : Op K E := fun _ _ x => (x, .ok ())

/-- cg.rs:85-124 `RelativeResidualCriterion`. -/
def relativeResidual (norm : List K → K) (tol : K) : List K → List K → K → Nat → List K → Except (ErrorKind E) Bool :=
  fun _ _ bNorm _ r => .ok (decide (norm r ≤ tol * bNorm))

end CgBuffers
end Fenris
