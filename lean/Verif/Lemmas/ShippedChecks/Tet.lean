import Verif.Model.ShippedRules.Tet
import Verif.Lemmas.ShippedIntegrals
/-! # The check of the rules in fenris-quadrature/rules/polyquad/expanded/tet, evaluated by the kernel -/
set_option autoImplicit false

namespace Fenris.ShippedRules

theorem check_tet1 : check exTet insideTet 3 tet1 = true := by decide +kernel
theorem check_tet2 : check exTet insideTet 3 tet2 = true := by decide +kernel
theorem check_tet3 : check exTet insideTet 3 tet3 = true := by decide +kernel
theorem check_tet5 : check exTet insideTet 3 tet5 = true := by decide +kernel
theorem check_tet6 : check exTet insideTet 3 tet6 = true := by decide +kernel
theorem check_tet7 : check exTet insideTet 3 tet7 = true := by decide +kernel
theorem check_tet8 : check exTet insideTet 3 tet8 = true := by decide +kernel
theorem check_tet9 : check exTet insideTet 3 tet9 = true := by decide +kernel
theorem check_tet10 : check exTet insideTet 3 tet10 = true := by decide +kernel

theorem check_tetFiles : ∀ f ∈ tetFiles, check exTet insideTet 3 f = true := by
  simp only [tetFiles, List.forall_mem_cons, List.not_mem_nil, false_imp_iff, implies_true, and_true]
  exact ⟨check_tet1, check_tet2, check_tet3, check_tet5, check_tet6, check_tet7, check_tet8, check_tet9, check_tet10⟩

end Fenris.ShippedRules
