import Verif.Model.ShippedRules.Pri
import Verif.Lemmas.ShippedIntegrals
/-! # The check of the rules in fenris-quadrature/rules/polyquad/expanded/pri, evaluated by the kernel -/
set_option autoImplicit false

namespace Fenris.ShippedRules

theorem check_pri1 : check exPri insidePri 3 pri1 = true := by decide +kernel
theorem check_pri2 : check exPri insidePri 3 pri2 = true := by decide +kernel
theorem check_pri3 : check exPri insidePri 3 pri3 = true := by decide +kernel
theorem check_pri4 : check exPri insidePri 3 pri4 = true := by decide +kernel
theorem check_pri5 : check exPri insidePri 3 pri5 = true := by decide +kernel
theorem check_pri6 : check exPri insidePri 3 pri6 = true := by decide +kernel
theorem check_pri7 : check exPri insidePri 3 pri7 = true := by decide +kernel
theorem check_pri8 : check exPri insidePri 3 pri8 = true := by decide +kernel
theorem check_pri9 : check exPri insidePri 3 pri9 = true := by decide +kernel
theorem check_pri10 : check exPri insidePri 3 pri10 = true := by decide +kernel

theorem check_priFiles : ∀ f ∈ priFiles, check exPri insidePri 3 f = true := by
  simp only [priFiles, List.forall_mem_cons, List.not_mem_nil, false_imp_iff, implies_true, and_true]
  exact ⟨check_pri1, check_pri2, check_pri3, check_pri4, check_pri5, check_pri6, check_pri7, check_pri8, check_pri9, check_pri10⟩

end Fenris.ShippedRules
