import Verif.Model.Cg
import Mathlib.Logic.Function.Basic
/-! # Model of the finite differences in `fenris-optimize/src/calculus.rs`

The function under differentiation is pure. Every loop carries the mutable `x` and a log of the points at which the
function was evaluated. The lengths of `x` and of the outputs agree (`assert_eq!(n, j.ncols())`, calculus.rs:308;
indexing of `df`, calculus.rs:254). -/
set_option autoImplicit false

namespace Fenris
namespace Calculus

open Cg (Vec)

variable {n m : Nat} {K : Type} [Field K]

/-- calculus.rs:247-256, one round of the loop: the state is `df`, `x` and the log. -/
def gradientStep (f : Vec n K → K) (h : K) (s : Vec n K × Vec n K × List (Vec n K)) (i : Fin n) :
    Vec n K × Vec n K × List (Vec n K) :=
  let xi := s.2.1 i
  let xPlus := Function.update s.2.1 i (xi + h)
  let xMinus := Function.update xPlus i (xi - h)
  (Function.update s.1 i ((f xPlus - f xMinus) / (2 * h)), Function.update xMinus i xi, s.2.2 ++ [xPlus, xMinus])

/-- calculus.rs:238-257 `approximate_gradient_fd_into_`. -/
def approximateGradientFdInto (df : Vec n K) (f : Vec n K → K) (x : Vec n K) (h : K) :
    Vec n K × Vec n K × List (Vec n K) :=
  (List.finRange n).foldl (gradientStep f h) (df, x, [])

/-- calculus.rs:205-217 `approximate_gradient_fd`. -/
def approximateGradientFd (f : Vec n K → K) (x : Vec n K) (h : K) : Vec n K × Vec n K × List (Vec n K) :=
  approximateGradientFdInto (fun _ => 0) f x h

/-- calculus.rs:316-329, one round of the loop: the state is the Jacobian (by columns), `x` and the log. -/
def jacobianStep (f : Vec n K → Vec m K) (h : K) (s : (Fin n → Vec m K) × Vec n K × List (Vec n K)) (i : Fin n) :
    (Fin n → Vec m K) × Vec n K × List (Vec n K) :=
  let xi := s.2.1 i
  let xPlus := Function.update s.2.1 i (xi + h)
  let xMinus := Function.update xPlus i (xi - h)
  (Function.update s.1 i (fun k => (f xPlus k - f xMinus k) / (2 * h)), Function.update xMinus i xi,
    s.2.2 ++ [xPlus, xMinus])

/-- calculus.rs:298-330 `approximate_jacobian_fd_into_`. -/
def approximateJacobianFdInto (j : Fin n → Vec m K) (f : Vec n K → Vec m K) (x : Vec n K) (h : K) :
    (Fin n → Vec m K) × Vec n K × List (Vec n K) :=
  (List.finRange n).foldl (jacobianStep f h) (j, x, [])

/-- calculus.rs:266-280 `approximate_jacobian_fd`. -/
def approximateJacobianFd (f : Vec n K → Vec m K) (x : Vec n K) (h : K) :
    (Fin n → Vec m K) × Vec n K × List (Vec n K) :=
  approximateJacobianFdInto (fun _ _ => 0) f x h

/-- calculus.rs:179-194, one round of the loop of `approximate_jacobian`; the state is the result (by columns) and
the log. -/
def plainJacobianStep (f : Vec n K → Vec m K) (x : Vec n K) (h : K) (s : (Fin n → Vec m K) × List (Vec n K))
    (j : Fin n) : (Fin n → Vec m K) × List (Vec n K) :=
  let xPlus := Function.update x j (x j + h)
  let xMinus := Function.update x j (x j - h)
  (Function.update s.1 j (fun k => (s.1 j k + f xPlus k - f xMinus k) / (2 * h)), s.2 ++ [xPlus, xMinus])

/-- calculus.rs:156-197 `approximate_jacobian`. -/
def approximateJacobian (f : Vec n K → Vec m K) (x : Vec n K) (h : K) : (Fin n → Vec m K) × List (Vec n K) :=
  (List.finRange n).foldl (plainJacobianStep f x h) (fun _ _ => 0, [])

end Calculus
end Fenris
