import Verif.Model.Buffers
/-! # What the interpolation buffers promise -/
set_option autoImplicit false

namespace Fenris.Buffers.Spec
open Fenris.Buffers
variable {K : Type} [Field K] {r g : Nat}

/-- An element has one basis function and one gradient per node. -/
def ConsistentFe (S : FeSpace r g K) : Prop :=
  ∀ e xi, (S.basis e xi).length = (S.nodes e).length ∧ (S.gradients e xi).length = (S.nodes e).length

/-- The point of the latest update that includes `f`. -/
def latest (f : Update → Bool) : List (Point r K × Update) → Option (Point r K)
  | [] => none
  | (xi, what) :: rest => (latest f rest).or (if f what then some xi else none)

/-- `u_h = Σ_I N_I u_I` with the values `N` for the nodes of an element. -/
def weighted (s : Nat) (u : List K) (nodes : List Nat) (N : Nat → K) : Fin s → K := fun k =>
  ∑ I : Fin nodes.length, N I * u.getD (s * nodes[I] + k) 0

/-- `∇u_h = Σ_I ∇N_I u_Iᵀ` with the gradients for the nodes of an element. -/
def weightedGradient (s : Nat) (u : List K) (nodes : List Nat) (G : Nat → Point r K) : Matrix (Fin r) (Fin s) K := fun i k =>
  ∑ I : Fin nodes.length, G I i * u.getD (s * nodes[I] + k) 0

end Fenris.Buffers.Spec
