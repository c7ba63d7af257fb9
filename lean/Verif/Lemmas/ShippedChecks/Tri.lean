import Verif.Model.ShippedRules.Tri
import Verif.Lemmas.ShippedIntegrals
/-! # The check of the rules in fenris-quadrature/rules/polyquad/expanded/tri, evaluated by the kernel -/
set_option autoImplicit false

namespace Fenris.ShippedRules

theorem check_tri1 : check exTri insideTri 2 tri1 = true := by decide +kernel
theorem check_tri2 : check exTri insideTri 2 tri2 = true := by decide +kernel
theorem check_tri4 : check exTri insideTri 2 tri4 = true := by decide +kernel
theorem check_tri5 : check exTri insideTri 2 tri5 = true := by decide +kernel
theorem check_tri6 : check exTri insideTri 2 tri6 = true := by decide +kernel
theorem check_tri7 : check exTri insideTri 2 tri7 = true := by decide +kernel
theorem check_tri8 : check exTri insideTri 2 tri8 = true := by decide +kernel
theorem check_tri9 : check exTri insideTri 2 tri9 = true := by decide +kernel
theorem check_tri10 : check exTri insideTri 2 tri10 = true := by decide +kernel
theorem check_tri11 : check exTri insideTri 2 tri11 = true := by decide +kernel
theorem check_tri12 : check exTri insideTri 2 tri12 = true := by decide +kernel
theorem check_tri13 : check exTri insideTri 2 tri13 = true := by decide +kernel
theorem check_tri14 : check exTri insideTri 2 tri14 = true := by decide +kernel
theorem check_tri15 : check exTri insideTri 2 tri15 = true := by decide +kernel
theorem check_tri16 : check exTri insideTri 2 tri16 = true := by decide +kernel
theorem check_tri17 : check exTri insideTri 2 tri17 = true := by decide +kernel
theorem check_tri18 : check exTri insideTri 2 tri18 = true := by decide +kernel
theorem check_tri19 : check exTri insideTri 2 tri19 = true := by decide +kernel
theorem check_tri20 : check exTri insideTri 2 tri20 = true := by decide +kernel

theorem check_triFiles : ∀ f ∈ triFiles, check exTri insideTri 2 f = true := by
  simp only [triFiles, List.forall_mem_cons, List.not_mem_nil, false_imp_iff, implies_true, and_true]
  exact ⟨check_tri1, check_tri2, check_tri4, check_tri5, check_tri6, check_tri7, check_tri8, check_tri9, check_tri10, check_tri11, check_tri12, check_tri13, check_tri14, check_tri15, check_tri16, check_tri17, check_tri18, check_tri19, check_tri20⟩

end Fenris.ShippedRules
