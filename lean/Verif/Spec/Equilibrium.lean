import Mathlib.Algebra.Order.Field.Basic
import Mathlib.Algebra.BigOperators.Group.Finset.Basic
import Verif.Model.Element
/-! # When forces at the nodes of a body are in balance (C105)

The vector `f` holds the components of the force on node `n` in the positions `s * n`, …, `s * n + (s - 1)`. -/
set_option autoImplicit false

namespace Fenris.Equilibrium.Spec

variable {K : Type} [Field K] {d : Nat}

/-- The total of the component `i` of the forces on the nodes. -/
def totalForce (s N : Nat) (f : List K) (i : Fin s) : K := ∑ n ∈ Finset.range N, f.getD (s * n + i) 0

/-- The total moment, in the plane of the directions `i` and `j`, of forces that act at the points `x n`. -/
def totalMoment (N : Nat) (x : Nat → Point d K) (f : List K) (i j : Fin d) : K :=
  ∑ n ∈ Finset.range N, (x n i * f.getD (d * n + j) 0 - x n j * f.getD (d * n + i) 0)

/-- The position of a node of the undeformed body. -/
def reference (vertices : List (Point d K)) (n : Nat) : Point d K := vertices.getD n 0

/-- The position of a node after the displacement `u`. -/
def deformed (vertices : List (Point d K)) (u : List K) (n : Nat) : Point d K := fun i => reference vertices n i + u.getD (d * n + i) 0

end Fenris.Equilibrium.Spec
