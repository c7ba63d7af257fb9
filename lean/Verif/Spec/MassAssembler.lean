import Verif.Spec.ElementAssembly
import Verif.Model.MassAssembler
/-! # Specification of mass matrices and source vectors of finite element spaces (C98) -/
set_option autoImplicit false

namespace Fenris.Mass.Spec
open Fenris.Local Fenris.Local.Spec Quadrature
variable {K : Type} [Field K] [LinearOrder K] {d s : Nat} {Param : Type}

/-- The value of the function with the local coefficients `u`, given the values of the basis functions: `Σ_I φ_I u_I`. -/
def valueU (s : Nat) (phi : List K) (u : List K) : Fin s → K := fun i => ∑ I : Fin phi.length, phi[I] * u.getD (s * I + i) 0

/-- If a function of the element vanishes at the points of the rule, then it is zero. -/
def DeterminesValues (el : VolElement d K) (rule : List (QPoint d K Param)) : Prop :=
  ∀ v : List K, v.length = el.numNodes → (∀ q ∈ rule, ∑ I : Fin (el.basis q.2.1).length, (el.basis q.2.1)[I] * v.getD I 0 = 0) →
    ∀ I, I < el.numNodes → v.getD I 0 = 0

/-- The vector of the constant function that is one in component `i` and zero in the others. -/
def unitField (s N : Nat) (i : Fin s) : List K := (List.range (s * N)).map fun r => if r % s = i then 1 else 0

end Fenris.Mass.Spec
