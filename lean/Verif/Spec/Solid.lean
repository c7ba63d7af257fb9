import Mathlib.Analysis.Calculus.Deriv.Basic
import Verif.Model.Solid
/-! # Specification for hyperelastic materials

What it means that a stress is the derivative of an energy and a contraction the derivative of a stress. -/
set_option autoImplicit false

namespace Fenris
namespace Solid
namespace Spec

open Matrix Topology

variable {d : Nat}

/-- `P = ∂ψ/∂F`: in every direction `H` the energy is finite near `F` and its directional derivative is the sum
of `P_ij H_ij`. -/
def StressIsDerivative (energy : Matrix (Fin d) (Fin d) ℝ → WithTop ℝ) (F P : Matrix (Fin d) (Fin d) ℝ) : Prop :=
  ∀ H : Matrix (Fin d) (Fin d) ℝ,
    (∀ᶠ t : ℝ in 𝓝 0, energy (F + t • H) ≠ ⊤) ∧
    HasDerivAt (fun t : ℝ => (energy (F + t • H)).untopD 0) (∑ i, ∑ j, P i j * H i j) 0

/-- `C(a, b)_ij = Σ_km a_k ∂P_ik/∂F_jm b_m`, written with the directions `c bᵀ`: for all `c`, the derivative of
`P(F + t c bᵀ) a` is `C(a, b) c`. -/
def ContractionIsDerivative (stress : Matrix (Fin d) (Fin d) ℝ → Out (Matrix (Fin d) (Fin d) ℝ))
    (F : Matrix (Fin d) (Fin d) ℝ) (C : Point d ℝ → Point d ℝ → Matrix (Fin d) (Fin d) ℝ) : Prop :=
  ∀ (a b c : Point d ℝ),
    (∀ᶠ t : ℝ in 𝓝 0, ∃ P, stress (F + t • Matrix.of fun j m => c j * b m) = .val P) ∧
    ∀ i, HasDerivAt
      (fun t : ℝ => ∑ k, (stress (F + t • Matrix.of fun j m => c j * b m)).get?.getD 0 i k * a k)
      (∑ j, C a b i j * c j) 0

/-- The `I`-th group of `d` entries of a stacked vector. -/
def group (d : Nat) (a : List ℝ) (I : Nat) : Point d ℝ := fun k => a.getD (d * I + k) 0

/-- The blocks on and above the diagonal gain `alpha * C(a_I, b_J)`, the others are unchanged. A `NaN` (`none`)
stays `NaN`. -/
def BatchAccumulated (alpha : ℝ) (a b : List ℝ) (C : Point d ℝ → Point d ℝ → Matrix (Fin d) (Fin d) ℝ)
    (out out' : Nat → Nat → Option ℝ) : Prop :=
  ∀ (I J : Nat) (i j : Fin d), d * I + i < a.length → d * J + j < b.length →
    out' (d * I + i) (d * J + j)
      = if I ≤ J then (out (d * I + i) (d * J + j)).map fun x => x + alpha * C (group d a I) (group d b J) i j
        else out (d * I + i) (d * J + j)

end Spec
end Solid
end Fenris
