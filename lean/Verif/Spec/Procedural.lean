import Verif.Model.Refinement
import Mathlib.Algebra.Order.Ring.Defs
/-! # Specification vocabulary for grids (C17, C18) -/
set_option autoImplicit false

namespace Fenris.Spec
variable {K : Type} [LinearOrder K]

/-- The closed box with opposite corners `lo` and `hi`. -/
def InBox {d : Nat} (lo hi p : Point d K) : Prop := ∀ i, lo i ≤ p i ∧ p i ≤ hi i

/-- The open box with opposite corners `lo` and `hi`. -/
def InOpenBox {d : Nat} (lo hi p : Point d K) : Prop := ∀ i, lo i < p i ∧ p i < hi i

end Fenris.Spec
