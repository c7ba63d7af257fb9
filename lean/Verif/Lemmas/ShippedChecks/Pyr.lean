import Verif.Model.ShippedRules.Pyr
import Verif.Lemmas.ShippedIntegrals
/-! # The check of the rules in fenris-quadrature/rules/polyquad/expanded/pyr, evaluated by the kernel -/
set_option autoImplicit false

namespace Fenris.ShippedRules

theorem check_pyr1 : check exPyr insidePyr 3 pyr1 = true := by decide +kernel
theorem check_pyr2 : check exPyr insidePyr 3 pyr2 = true := by decide +kernel
theorem check_pyr3 : check exPyr insidePyr 3 pyr3 = true := by decide +kernel
theorem check_pyr4 : check exPyr insidePyr 3 pyr4 = true := by decide +kernel
theorem check_pyr5 : check exPyr insidePyr 3 pyr5 = true := by decide +kernel
theorem check_pyr6 : check exPyr insidePyr 3 pyr6 = true := by decide +kernel
theorem check_pyr7 : check exPyr insidePyr 3 pyr7 = true := by decide +kernel
theorem check_pyr8 : check exPyr insidePyr 3 pyr8 = true := by decide +kernel
theorem check_pyr9 : check exPyr insidePyr 3 pyr9 = true := by decide +kernel
theorem check_pyr10 : check exPyr insidePyr 3 pyr10 = true := by decide +kernel

theorem check_pyrFiles : ∀ f ∈ pyrFiles, check exPyr insidePyr 3 f = true := by
  simp only [pyrFiles, List.forall_mem_cons, List.not_mem_nil, false_imp_iff, implies_true, and_true]
  exact ⟨check_pyr1, check_pyr2, check_pyr3, check_pyr4, check_pyr5, check_pyr6, check_pyr7, check_pyr8, check_pyr9, check_pyr10⟩

end Fenris.ShippedRules
