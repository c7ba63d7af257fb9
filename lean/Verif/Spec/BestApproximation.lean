import Verif.Model.EllipticAssembler
import Verif.Model.Integrate
/-! # The elements of a space as the error estimators see them (C107) -/
set_option autoImplicit false

namespace Fenris.BestApproximation.Spec

variable {d : Nat}

/-- The same element: the assemblers and the error estimators use the same functions of an element. -/
def sameElement (el : Local.VolElement d ℝ) : Integrate.Elem d d := ⟨el.numNodes, el.basis, el.gradients, el.jacobian, el.map⟩

/-- The same finite element space. -/
def sameSpace (space : Local.Space d ℝ) : Integrate.Space d d := space.map fun en => (sameElement en.1, en.2)

end Fenris.BestApproximation.Spec
