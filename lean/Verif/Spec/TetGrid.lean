import Verif.Spec.Surface
/-! # Specification vocabulary for tetrahedral grids (C83) -/
set_option autoImplicit false

namespace Fenris.TetGrid.Spec
variable {K : Type} [Field K] [LinearOrder K]

/-- The points of a tetrahedron. -/
def InTet (a b c d p : Point 3 K) : Prop :=
  ∃ α β γ δ : K, 0 ≤ α ∧ 0 ≤ β ∧ 0 ≤ γ ∧ 0 ≤ δ ∧ α + β + γ + δ = 1 ∧ ∀ i, p i = α * a i + β * b i + γ * c i + δ * d i

/-- The interior points of a tetrahedron. -/
def InOpenTet (a b c d p : Point 3 K) : Prop :=
  ∃ α β γ δ : K, 0 < α ∧ 0 < β ∧ 0 < γ ∧ 0 < δ ∧ α + β + γ + δ = 1 ∧ ∀ i, p i = α * a i + β * b i + γ * c i + δ * d i

end Fenris.TetGrid.Spec
