import Verif.Model.Lobatto.N64
import Verif.Lemmas.Lobatto
/-! # The checks of tabulated Gauss-Lobatto rules, evaluated by the kernel -/
set_option autoImplicit false

namespace Fenris.Lobatto

theorem shape_64 : shape 64 lobatto64 = true := by decide +kernel
theorem moments_64 : moments 63 lobatto64 = true := by decide +kernel

end Fenris.Lobatto
