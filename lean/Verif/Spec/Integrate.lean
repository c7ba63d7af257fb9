import Verif.Spec.ElementAssembly
import Verif.Model.Integrate
/-! # Specification of integrals over elements -/
set_option autoImplicit false

namespace Fenris
namespace Integrate
namespace Spec

variable {g r s m : Nat}

/-- `u_h = Σ_I φ_I u_I` with `u_I` the `I`-th group of `s` entries of `u`. -/
noncomputable def interp (s : Nat) (phi : List ℝ) (u : List ℝ) : Fin s → ℝ :=
  fun i => ∑ I : Fin phi.length, phi[I] * u.getD (s * I + i) 0

/-- The factor by which `J` stretches `r`-dimensional volumes: `√det (Jᵀ J)`. -/
noncomputable def stretch (J : Matrix (Fin g) (Fin r) ℝ) : ℝ := Real.sqrt (J.transpose * J).det

/-- `Σ_q w_q √det(J_qᵀ J_q) F(ξ_q)`. -/
noncomputable def quadrature (el : Elem g r) (rule : List (ℝ × Point r ℝ)) (F : Point r ℝ → ℝ) : ℝ :=
  (rule.map fun q => q.1 * stretch (el.jacobian q.2) * F q.2).sum

/-- The function that an integrand stands for. -/
def ufn : UFn g s m → Point g ℝ → (Fin s → ℝ) → Fin m → ℝ
  | .auto f => f
  | .noDeps f => fun x _ => f x

/-- The function that an integrand stands for. -/
def ugradfn : UGradFn g s m → Point g ℝ → (Fin s → ℝ) → Matrix (Fin g) (Fin s) ℝ → Fin m → ℝ
  | .auto f => f
  | .onGrad f => fun x _ du => f x du
  | .onU f => fun x u _ => f x u

/-- An element lists one basis function and one gradient per node. -/
def WellFormed (el : Elem g r) : Prop :=
  ∀ p, (el.basis p).length = el.numNodes ∧ (el.gradients p).length = el.numNodes

/-- `u_h = Σ_I φ_I u_n(I)`: the entries of the global vector at the nodes of the element. -/
noncomputable def interpAt (s : Nat) (phi : List ℝ) (nodes : List Nat) (u : List ℝ) : Fin s → ℝ :=
  fun i => ∑ I : Fin phi.length, phi[I] * u.getD (s * nodes.getD I 0 + i) 0

/-- `∇u_h = Σ_I ∇φ_I u_n(I)ᵀ`, with gradients in physical coordinates. -/
noncomputable def gradAt (s : Nat) (J : Matrix (Fin g) (Fin g) ℝ) (grads : List (Point g ℝ)) (nodes : List Nat)
    (u : List ℝ) : Matrix (Fin g) (Fin s) ℝ :=
  fun k i => ∑ I : Fin grads.length, Local.Spec.physGrad J grads[I] k * u.getD (s * nodes.getD I 0 + i) 0

open Quadrature in
/-- A mesh with a quadrature table: element `e` has as many nodes as its reference element, all in bounds; the
solution has `s` entries per node; the table gives element `e` the rule `rules e`. -/
structure MeshRule {D : Type} (space : Space g r) (numNodes : Nat) (table : Table (Point r ℝ) ℝ D)
    (rules : Nat → List (ℝ × Point r ℝ)) : Prop where
  wellFormed : ∀ en ∈ space, WellFormed en.1
  nodeCount : ∀ en ∈ space, en.2.length = en.1.numNodes
  inBounds : ∀ en ∈ space, ∀ n ∈ en.2, n < numNodes
  rule : ∀ e < space.length, ∀ b : Buffer (Point r ℝ) ℝ Unit, ∃ d,
    b.populateWeightsAndPoints e table = some ⟨(rules e).map (·.2), (rules e).map (·.1), d⟩

end Spec
end Integrate
end Fenris
