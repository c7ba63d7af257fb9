import Verif.Model.ShippedRules.Quad
import Verif.Lemmas.ShippedIntegrals
/-! # The check of the rules in fenris-quadrature/rules/polyquad/expanded/quad, evaluated by the kernel -/
set_option autoImplicit false

namespace Fenris.ShippedRules

theorem check_quad1 : check exQuad insideQuad 2 quad1 = true := by decide +kernel
theorem check_quad3 : check exQuad insideQuad 2 quad3 = true := by decide +kernel
theorem check_quad5 : check exQuad insideQuad 2 quad5 = true := by decide +kernel
theorem check_quad7 : check exQuad insideQuad 2 quad7 = true := by decide +kernel
theorem check_quad9 : check exQuad insideQuad 2 quad9 = true := by decide +kernel
theorem check_quad11 : check exQuad insideQuad 2 quad11 = true := by decide +kernel
theorem check_quad13 : check exQuad insideQuad 2 quad13 = true := by decide +kernel
theorem check_quad15 : check exQuad insideQuad 2 quad15 = true := by decide +kernel
theorem check_quad17 : check exQuad insideQuad 2 quad17 = true := by decide +kernel
theorem check_quad19 : check exQuad insideQuad 2 quad19 = true := by decide +kernel
theorem check_quad21 : check exQuad insideQuad 2 quad21 = true := by decide +kernel

theorem check_quadFiles : ∀ f ∈ quadFiles, check exQuad insideQuad 2 f = true := by
  simp only [quadFiles, List.forall_mem_cons, List.not_mem_nil, false_imp_iff, implies_true, and_true]
  exact ⟨check_quad1, check_quad3, check_quad5, check_quad7, check_quad9, check_quad11, check_quad13, check_quad15, check_quad17, check_quad19, check_quad21⟩

end Fenris.ShippedRules
