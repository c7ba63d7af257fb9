import Verif.Model.ShippedRules.Hex
import Verif.Lemmas.ShippedIntegrals
/-! # The check of the rules in fenris-quadrature/rules/polyquad/expanded/hex, evaluated by the kernel -/
set_option autoImplicit false

namespace Fenris.ShippedRules

theorem check_hex1 : check exHex insideHex 3 hex1 = true := by decide +kernel
theorem check_hex3 : check exHex insideHex 3 hex3 = true := by decide +kernel
theorem check_hex5 : check exHex insideHex 3 hex5 = true := by decide +kernel
theorem check_hex7 : check exHex insideHex 3 hex7 = true := by decide +kernel
theorem check_hex9 : check exHex insideHex 3 hex9 = true := by decide +kernel
theorem check_hex11 : check exHex insideHex 3 hex11 = true := by decide +kernel

theorem check_hexFiles : ∀ f ∈ hexFiles, check exHex insideHex 3 f = true := by
  simp only [hexFiles, List.forall_mem_cons, List.not_mem_nil, false_imp_iff, implies_true, and_true]
  exact ⟨check_hex1, check_hex3, check_hex5, check_hex7, check_hex9, check_hex11⟩

end Fenris.ShippedRules
