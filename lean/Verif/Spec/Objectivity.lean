import Verif.Spec.Equilibrium
import Mathlib.Data.Matrix.Mul
/-! # What it means that a body or its forces are turned (C106) -/
set_option autoImplicit false

namespace Fenris.Objectivity.Spec

variable {K : Type} [Field K] {d s : Nat}

/-- The points `x'` are the points `x`, turned by `Q` and translated by `b`. -/
def Moved (Q : Matrix (Fin d) (Fin d) K) (b : Point d K) (N : Nat) (x x' : Nat → Point d K) : Prop := ∀ n, n < N → x' n = Q.mulVec (x n) + b

/-- The vectors that `f'` gives to the nodes are those that `f` gives them, turned by `Q`. -/
def Turned (Q : Matrix (Fin s) (Fin s) K) (N : Nat) (f f' : List K) : Prop :=
  ∀ n, n < N → ∀ i : Fin s, f'.getD (s * n + i) 0 = ∑ j, Q i j * f.getD (s * n + j) 0

/-- The blocks that the matrix `m'` gives to pairs of nodes are those of `m`, turned by `Q` on both sides: `m'` maps the turned vectors to the turned
images. -/
def MatrixTurned (Q : Matrix (Fin s) (Fin s) K) (N : Nat) (m m' : Nat → Nat → K) : Prop :=
  ∀ n, n < N → ∀ n', n' < N → ∀ i j : Fin s, m' (s * n + i) (s * n' + j) = ∑ k : Fin s, ∑ l : Fin s, Q i k * m (s * n + k) (s * n' + l) * Q j l

end Fenris.Objectivity.Spec
