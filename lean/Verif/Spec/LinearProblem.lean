import Verif.Spec.PatchTest
import Verif.Spec.Dirichlet
import Verif.Model.EllipticAssembler
/-! # Linear problems with prescribed values (C96) -/
set_option autoImplicit false

namespace Fenris.LinearProblem.Spec
open Fenris.Local Fenris.Local.Spec
variable {K : Type} [Field K] {d s : Nat} {Param : Type}

/-- Twice the energy density of a linear operator: stress times gradient. -/
def density (o : Operator d s K Param) (param : Param) (G : Matrix (Fin d) (Fin s) K) : K := ∑ k, ∑ i, o.op G param k i * G k i

/-- Only the zero function is zero at the given nodes and has no energy. -/
def Definite (space : Space d K) (N : Nat) (rules : Nat → List (QPoint d K Param)) (o : Operator d s K Param) (nodes : List Nat) : Prop :=
  ∀ v : List K, v.length = s * N → (∀ r, Fenris.Spec.Constrained s nodes r → v.getD r 0 = 0) →
    (∀ (e : Nat) (en : VolElement d K × List Nat), space[e]? = some en → ∀ q ∈ rules e,
      density o q.2.2 (gradU s (en.1.jacobian q.2.1) (en.1.gradients q.2.1) (localPart s v en.2)) = 0) → ∀ r, v.getD r 0 = 0

/-- Two nodes of a common cell. -/
def Neighbours (cells : List (List Nat)) (a b : Nat) : Prop := ∃ c ∈ cells, a ∈ c ∧ b ∈ c

/-- From each of the `N` nodes one can walk through the cells to one of the given nodes. -/
def Anchored (cells : List (List Nat)) (N : Nat) (nodes : List Nat) : Prop :=
  ∀ n, n < N → ∃ m ∈ nodes, Relation.ReflTransGen (Neighbours cells) n m

/-- If the gradient of a function of the element vanishes at the points of the rule, then its nodal values are equal. -/
def Determines (el : VolElement d K) (rule : List (QPoint d K Param)) : Prop :=
  ∀ v : List K, v.length = el.numNodes → (∀ q ∈ rule, gradU 1 (el.jacobian q.2.1) (el.gradients q.2.1) v = 0) →
    ∀ I J, I < el.numNodes → J < el.numNodes → v.getD I 0 = v.getD J 0

/-- What the points of a rule have to contain: anything for triangles and tetrahedra; a grid with two different values in each direction for
quadrilaterals and hexahedra. -/
def Rich : (kind : Element.Kind) → List (Point kind.dim K) → Prop
  | .tri3, points | .tet4, points => points ≠ []
  | .quad4, points => ∃ a b : K, a ≠ b ∧ ∀ x ∈ [a, b], ∀ y ∈ [a, b], ![x, y] ∈ points
  | .hex8, points => ∃ a b : K, a ≠ b ∧ ∀ x ∈ [a, b], ∀ y ∈ [a, b], ∀ z ∈ [a, b], ![x, y, z] ∈ points
  | _, _ => False

/-- The rows of a sparse matrix of dimension `n`, with all their entries. -/
def fullRows (n : Nat) (m : Assembly.Csr K) : List (List K) := List.ofFn fun i : Fin n => List.ofFn fun j : Fin n => Fenris.Spec.entry m i j

end Fenris.LinearProblem.Spec
