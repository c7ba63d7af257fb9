import Mathlib.LinearAlgebra.Matrix.NonsingularInverse
import Verif.Model.ElementAssembly
/-! # Specification of element matrices and vectors

The quadrature approximation of the integrals over an element, written with Mathlib's inverse. -/
set_option autoImplicit false

namespace Fenris
namespace Local
namespace Spec

variable {K : Type} [Field K] [LinearOrder K] {d s : Nat} {Param : Type}

/-- `∇φ = J^{-T} ∇_ξ φ`: the gradient with respect to physical coordinates. -/
noncomputable def physGrad (J : Matrix (Fin d) (Fin d) K) (g : Point d K) : Point d K :=
  fun k => ∑ m, J⁻¹ m k * g m

/-- `∇u = Σ_I ∇φ_I u_Iᵀ` with `u_I` the `I`-th group of `s` entries of `u`. -/
noncomputable def gradU (s : Nat) (J : Matrix (Fin d) (Fin d) K) (grads : List (Point d K)) (u : List K) :
    Matrix (Fin d) (Fin s) K :=
  fun k i => ∑ I : Fin grads.length, physGrad J grads[I] k * u.getD (s * I + i) 0

/-- `Σ_q w_q |det J_q| f_q`. -/
def quadSum (el : VolElement d K) (rule : List (QPoint d K Param)) (f : Point d K → Param → K) : K :=
  (rule.map fun q => q.1 * |(el.jacobian q.2.1).det| * f q.2.1 q.2.2).sum

/-- An element lists one basis function and one gradient per node. -/
def WellFormed (el : VolElement d K) : Prop :=
  ∀ p, (el.basis p).length = el.numNodes ∧ (el.gradients p).length = el.numNodes

/-- The symmetry law of `EllipticContraction::symmetry` (src/assembly/operators.rs:75-90). -/
def SymmetryLaw (o : Operator d s K Param) : Prop :=
  o.symmetric = true → ∀ G a b param, o.contract G a b param = (o.contract G b a param).transpose

/-- The part of the global vector that belongs to an element: the `s` entries of each of its nodes. -/
def localPart (s : Nat) (u : List K) (nodes : List Nat) : List K :=
  nodes.flatMap fun n => (List.range s).map fun i => u.getD (s * n + i) 0

end Spec
end Local
end Fenris
