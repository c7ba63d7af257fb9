import Verif.Model.Lobatto.N128
import Verif.Lemmas.Lobatto
/-! # The checks of tabulated Gauss-Lobatto rules, evaluated by the kernel -/
set_option autoImplicit false

namespace Fenris.Lobatto

theorem shape_128 : shape 128 lobatto128 = true := by decide +kernel
theorem moments_128 : moments 127 lobatto128 = true := by decide +kernel

end Fenris.Lobatto
