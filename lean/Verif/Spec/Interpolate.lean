import Verif.Model.Interpolate
import Mathlib.Algebra.BigOperators.Group.List.Basic
/-! # Specification of interpolation -/
set_option autoImplicit false

namespace Fenris.Spec
open Fenris.Interpolate Fenris.Local
variable {K : Type} [Field K] [LinearOrder K] {g : Nat}

/-- The space is well formed: one basis value and one gradient per node of the element. -/
def ConsistentSpace (S : InterpSpace g K) : Prop :=
  ∀ e xi, (S.basis e xi).length = (S.nodes e).length ∧ (S.gradients e xi).length = (S.nodes e).length

/-- `u_h(p) = ∑ u_I N_I(p)` over the nodes of the element closest to `p`; component `k`. -/
def fieldValue (S : InterpSpace g K) (s : Nat) (u : List K) (p : Point g K) : Fin s → K := fun k =>
  match S.find p with
  | none => 0
  | some (e, xi) => (List.zipWith (fun b n => b * u.getD (s * n + k) 0) (S.basis e xi) (S.nodes e)).sum

/-- `∇u_h(p) = ∑ J⁻ᵀ ∇N_I(p) u_Iᵀ`, entry `(i, k)`, for any matrix `inv` with `inv * J = 1`. -/
def fieldGradient (S : InterpSpace g K) (s : Nat) (u : List K) (e : Nat) (xi : Point g K)
    (inv : Matrix (Fin g) (Fin g) K) (i : Fin g) (k : Fin s) : K :=
  (List.zipWith (fun (G : Point g K) n => (∑ j, inv j i * G j) * u.getD (s * n + k) 0) (S.gradients e xi) (S.nodes e)).sum

end Fenris.Spec
