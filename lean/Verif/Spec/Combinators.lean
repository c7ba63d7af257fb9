import Verif.Model.Combinators
/-! # Several bodies in one system (C100) -/
set_option autoImplicit false

namespace Fenris.Combinators.Spec
open Fenris.Combinators
variable {E K : Type}

/-- An element assembler without failures: every element has different nodes below the number of nodes, a scalar, a vector and a matrix. -/
structure Sound (a : Assembler E K) : Prop where
  nodes : ∀ e, e < a.numElements → ∃ l, a.nodes e = some l ∧ l.Nodup ∧ ∀ n ∈ l, n < a.numNodes
  scalar : ∀ e, e < a.numElements → ∃ x, a.scalar e = some (.ok x)
  vector : ∀ e, e < a.numElements → ∃ v, a.vector e = some (.ok v)
  matrix : ∀ e, e < a.numElements → ∃ A, a.matrix e = some (.ok A)

/-- The number of nodes of the bodies before body `i`. -/
def nodesBefore (bodies : List (Assembler E K)) (i : Nat) : Nat := ((bodies.take i).map Assembler.numNodes).sum

/-- The bodies numbered one after the other: the nodes of each body are moved behind those of the bodies before it. -/
def stacked (bodies : List (Assembler E K)) : List (Assembler E K) :=
  bodies.mapIdx fun i b => b.mapNodes (bodies.map Assembler.numNodes).sum fun n => nodesBefore bodies i + n

end Fenris.Combinators.Spec
