import Verif.Model.Cg
/-! # Model of `fenris-optimize/src/newton.rs`

Exact arithmetic over an ordered field. The function `F` is evaluated purely (`eval_into` overwrites its
output); the Jacobian solver and the line search may fail and may keep state: their first argument numbers
the calls. The debug output is left out. -/
set_option autoImplicit false

namespace Fenris
namespace Newton

open Cg (Vec)

/-- fenris-optimize/src/newton.rs:27-34 `NewtonError`. -/
inductive NewtonError (E : Type) where
  | maximumIterationsReached (iterations : Nat)
  | jacobianError (e : E)
  | lineSearchError (e : E)
  deriving DecidableEq

/-- newton.rs:134-142 `LineSearch::step`: given `F`, `f`, `x` and the direction, the verdict and the new
content of `f` and `x`; `none` if it does not return. -/
abbrev LineSearch (n : Nat) (K E : Type) :=
  Nat → (Vec n K → Vec n K) → Vec n K → Vec n K → Vec n K → Option (Except E K × Vec n K × Vec n K)

/-- The arguments of `newton_line_search` (newton.rs:77-84): the function with its Jacobian solver, the settings
(newton.rs:21-24), the line search, and nalgebra's norm as a parameter. -/
structure Problem (n : Nat) (K E : Type) where
  function : Vec n K → Vec n K
  solveJacobianSystem : Nat → Vec n K → Vec n K → Except E (Vec n K)
  maxIterations : Option Nat
  tolerance : K
  lineSearch : LineSearch n K E
  norm : Vec n K → K

/-- The content of `x` and `f` on return, and the verdict. -/
structure Outcome (n : Nat) (K E : Type) where
  x : Vec n K
  f : Vec n K
  result : Except (NewtonError E) Nat

variable {n : Nat} {K E : Type} [Field K] [LinearOrder K]

/-- What one round of the loop (newton.rs:100-129) leads to: the function returns, or the loop goes on with new
`x` and `f`. -/
def iteration (c : Problem n K E) (x f : Vec n K) (iter : Nat) :
    Option (Outcome n K E ⊕ (Vec n K × Vec n K)) :=
  if c.norm f > c.tolerance then
    if c.maxIterations = some iter then some (.inl ⟨x, f, .error (.maximumIterationsReached iter)⟩)
    else
      match c.solveJacobianSystem iter x f with
      | .error e => some (.inl ⟨x, f, .error (.jacobianError e)⟩)
      | .ok minusDx =>
        match c.lineSearch iter c.function f x (fun i => minusDx i * -1) with
        | none => none
        | some (.error e, f', x') => some (.inl ⟨x', f', .error (.lineSearchError e)⟩)
        | some (.ok _, f', x') => some (.inr (x', f'))
  else some (.inl ⟨x, f, .ok iter⟩)

/-- At most `fuel` rounds of the loop; `none` means still running. -/
def loop (c : Problem n K E) : Nat → Vec n K → Vec n K → Nat → Option (Outcome n K E)
  | 0, _, _, _ => none
  | fuel + 1, x, f, iter =>
    match iteration c x f iter with
    | none => none
    | some (.inl out) => some out
    | some (.inr (x', f')) => loop c fuel x' f' (iter + 1)

/-- newton.rs:77-132 `newton_line_search`, followed for at most `fuel` rounds. -/
def newtonLineSearch (c : Problem n K E) (fuel : Nat) (x : Vec n K) : Option (Outcome n K E) :=
  loop c fuel x (c.function x) 0

/-- newton.rs:148-166 `NoLineSearch::step`. -/
def noLineSearch : LineSearch n K E :=
  fun _ F _ x direction =>
    let x' : Vec n K := fun i => direction i + x i
    some (.ok 1, F x', x')

/-- newton.rs:61-73 `newton`. -/
def newton (function : Vec n K → Vec n K) (solveJacobianSystem : Nat → Vec n K → Vec n K → Except E (Vec n K))
    (maxIterations : Option Nat) (tolerance : K) (norm : Vec n K → K) (fuel : Nat) (x : Vec n K) :
    Option (Outcome n K E) :=
  newtonLineSearch ⟨function, solveJacobianSystem, maxIterations, tolerance, noLineSearch, norm⟩ fuel x

/-- newton.rs:216: `iterate(0.25, |alpha_i| 0.25 * alpha_i)`. -/
def quarters : Nat → K
  | 0 => 1 / 4
  | i + 1 => 1 / 4 * quarters i

/-- newton.rs:212-216: the sequence of `alpha_iter`. -/
def alphaAt : Nat → K
  | 0 => 0
  | 1 => 1
  | 2 => 3 / 4
  | 3 => 1 / 2
  | i + 4 => quarters i

/-- newton.rs:221-245, the loop of the backtracking search at position `i` of the sequence: `gInitial`, the
current `x`; at most `fuel` rounds. The error carries the message, here the unit of `e`. -/
def backtrackingLoop (e : E) (F : Vec n K → Vec n K) (p : Vec n K) (gInitial : K) :
    Nat → Nat → Vec n K → Option (Except E K × Vec n K × Vec n K)
  | 0, _, _ => none
  | fuel + 1, i, x =>
    let alpha : K := alphaAt i
    let x' : Vec n K := fun j => (alpha - alphaAt (i - 1)) * p j + x j
    let g := 1 / 2 * (F x' ⬝ᵥ F x')
    if g ≤ (1 - 1 / 10000 * alpha) * gInitial then some (.ok alpha, F x', x')
    else if alpha < 1 / 1000000 then some (.error e, F x', x')
    else backtrackingLoop e F p gInitial fuel (i + 1) x'

/-- newton.rs:174-249 `BacktrackingLineSearch::step`, followed for at most `fuel` trials. -/
def backtracking (e : E) (fuel : Nat) : LineSearch n K E :=
  fun _ F f x direction => backtrackingLoop e F direction (1 / 2 * (f ⬝ᵥ f)) fuel 1 x

end Newton
end Fenris
