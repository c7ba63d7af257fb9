import Mathlib.Analysis.Calculus.Deriv.Basic
import Verif.Model.ElementAssembly
/-! # Specification: operators that derive from an energy -/
set_option autoImplicit false

namespace Fenris
namespace Local
namespace Spec

variable {d s : Nat} {Param : Type}

/-- `g = ∂ψ/∂∇u` (src/assembly/operators.rs:27-31): the directional derivative of the energy in every direction. -/
def EnergyLaw (o : Operator d s ℝ Param) : Prop :=
  ∀ (G H : Matrix (Fin d) (Fin s) ℝ) (param : Param),
    HasDerivAt (fun t : ℝ => o.energy (G + t • H) param) (∑ k, ∑ i, o.op G param k i * H k i) 0

/-- `C(a, b)_ij = Σ_km a_k ∂g_ki/∂G_mj b_m` (src/assembly/operators.rs:47-58): the derivative of `aᵀ g` in the
direction `Σ_J b_J c_Jᵀ` is `Σ_J C(a, b_J) c_J`. -/
def ContractionLaw (o : Operator d s ℝ Param) : Prop :=
  ∀ (G : Matrix (Fin d) (Fin s) ℝ) (param : Param) (n : Nat) (b : Fin n → Fin d → ℝ) (c : Fin n → Fin s → ℝ)
    (a : Fin d → ℝ) (i : Fin s),
    HasDerivAt (fun t : ℝ => ∑ k, o.op (G + t • Matrix.of fun k j => ∑ J, b J k * c J j) param k i * a k)
      (∑ J, ∑ j, o.contract G a (b J) param i j * c J j) 0

/-- `u + t v`. -/
noncomputable def perturb (u v : List ℝ) (t : ℝ) : List ℝ := List.zipWith (fun a b => a + t * b) u v

end Spec
end Local
end Fenris
