import Verif.Model.Lobatto.Small
import Verif.Lemmas.Lobatto
/-! # The checks of tabulated Gauss-Lobatto rules, evaluated by the kernel -/
set_option autoImplicit false

namespace Fenris.Lobatto

theorem shape_2 : shape 2 lobatto2 = true := by decide +kernel
theorem moments_2 : moments 1 lobatto2 = true := by decide +kernel
theorem shape_3 : shape 3 lobatto3 = true := by decide +kernel
theorem moments_3 : moments 2 lobatto3 = true := by decide +kernel
theorem shape_4 : shape 4 lobatto4 = true := by decide +kernel
theorem moments_4 : moments 3 lobatto4 = true := by decide +kernel
theorem shape_5 : shape 5 lobatto5 = true := by decide +kernel
theorem moments_5 : moments 4 lobatto5 = true := by decide +kernel
theorem shape_6 : shape 6 lobatto6 = true := by decide +kernel
theorem moments_6 : moments 5 lobatto6 = true := by decide +kernel
theorem shape_7 : shape 7 lobatto7 = true := by decide +kernel
theorem moments_7 : moments 6 lobatto7 = true := by decide +kernel
theorem shape_8 : shape 8 lobatto8 = true := by decide +kernel
theorem moments_8 : moments 7 lobatto8 = true := by decide +kernel
theorem shape_9 : shape 9 lobatto9 = true := by decide +kernel
theorem moments_9 : moments 8 lobatto9 = true := by decide +kernel
theorem shape_10 : shape 10 lobatto10 = true := by decide +kernel
theorem moments_10 : moments 9 lobatto10 = true := by decide +kernel
theorem shape_11 : shape 11 lobatto11 = true := by decide +kernel
theorem moments_11 : moments 10 lobatto11 = true := by decide +kernel
theorem shape_12 : shape 12 lobatto12 = true := by decide +kernel
theorem moments_12 : moments 11 lobatto12 = true := by decide +kernel
theorem shape_13 : shape 13 lobatto13 = true := by decide +kernel
theorem moments_13 : moments 12 lobatto13 = true := by decide +kernel
theorem shape_14 : shape 14 lobatto14 = true := by decide +kernel
theorem moments_14 : moments 13 lobatto14 = true := by decide +kernel
theorem shape_15 : shape 15 lobatto15 = true := by decide +kernel
theorem moments_15 : moments 14 lobatto15 = true := by decide +kernel
theorem shape_16 : shape 16 lobatto16 = true := by decide +kernel
theorem moments_16 : moments 15 lobatto16 = true := by decide +kernel
theorem shape_17 : shape 17 lobatto17 = true := by decide +kernel
theorem moments_17 : moments 16 lobatto17 = true := by decide +kernel
theorem shape_18 : shape 18 lobatto18 = true := by decide +kernel
theorem moments_18 : moments 17 lobatto18 = true := by decide +kernel
theorem shape_19 : shape 19 lobatto19 = true := by decide +kernel
theorem moments_19 : moments 18 lobatto19 = true := by decide +kernel
theorem shape_20 : shape 20 lobatto20 = true := by decide +kernel
theorem moments_20 : moments 19 lobatto20 = true := by decide +kernel
theorem shape_21 : shape 21 lobatto21 = true := by decide +kernel
theorem moments_21 : moments 20 lobatto21 = true := by decide +kernel
theorem shape_22 : shape 22 lobatto22 = true := by decide +kernel
theorem moments_22 : moments 21 lobatto22 = true := by decide +kernel
theorem shape_23 : shape 23 lobatto23 = true := by decide +kernel
theorem moments_23 : moments 22 lobatto23 = true := by decide +kernel
theorem shape_24 : shape 24 lobatto24 = true := by decide +kernel
theorem moments_24 : moments 23 lobatto24 = true := by decide +kernel
theorem shape_25 : shape 25 lobatto25 = true := by decide +kernel
theorem moments_25 : moments 24 lobatto25 = true := by decide +kernel
theorem shape_26 : shape 26 lobatto26 = true := by decide +kernel
theorem moments_26 : moments 25 lobatto26 = true := by decide +kernel
theorem shape_27 : shape 27 lobatto27 = true := by decide +kernel
theorem moments_27 : moments 26 lobatto27 = true := by decide +kernel
theorem shape_28 : shape 28 lobatto28 = true := by decide +kernel
theorem moments_28 : moments 27 lobatto28 = true := by decide +kernel
theorem shape_29 : shape 29 lobatto29 = true := by decide +kernel
theorem moments_29 : moments 28 lobatto29 = true := by decide +kernel
theorem shape_30 : shape 30 lobatto30 = true := by decide +kernel
theorem moments_30 : moments 29 lobatto30 = true := by decide +kernel
theorem shape_31 : shape 31 lobatto31 = true := by decide +kernel
theorem moments_31 : moments 30 lobatto31 = true := by decide +kernel
theorem shape_32 : shape 32 lobatto32 = true := by decide +kernel
theorem moments_32 : moments 31 lobatto32 = true := by decide +kernel

end Fenris.Lobatto
