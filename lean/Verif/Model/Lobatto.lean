import Verif.Model.Lobatto.Small
import Verif.Model.Lobatto.N64
import Verif.Model.Lobatto.N128
import Verif.Model.Lobatto.N256
import Verif.Model.Lobatto.N512
import Verif.Model.Quadrature
/-! # Model of the tabulated Gauss-Lobatto rules (`fenris-quadrature/src/codegen/gauss_lobatto_rules.rs`) -/
set_option autoImplicit false

namespace Fenris.Lobatto

/-- The arms of `try_gauss_lobatto` (gauss_lobatto_rules.rs:3295-3333). -/
def arms : List (Nat × Table) := [
    (2, lobatto2), (3, lobatto3), (4, lobatto4), (5, lobatto5), (6, lobatto6), (7, lobatto7), (8, lobatto8), (9, lobatto9), (10, lobatto10), (11, lobatto11), (12, lobatto12),
    (13, lobatto13), (14, lobatto14), (15, lobatto15), (16, lobatto16), (17, lobatto17), (18, lobatto18), (19, lobatto19), (20, lobatto20), (21, lobatto21), (22, lobatto22),
    (23, lobatto23), (24, lobatto24), (25, lobatto25), (26, lobatto26), (27, lobatto27), (28, lobatto28), (29, lobatto29), (30, lobatto30), (31, lobatto31), (32, lobatto32),
    (64, lobatto64), (128, lobatto128), (256, lobatto256), (512, lobatto512)]

/-- `gauss_lobatto_rules::try_gauss_lobatto` (gauss_lobatto_rules.rs:3295-3333): the rule of size `n`. -/
def table (K : Type) [Field K] (n : Nat) : Option (Quadrature.Rule 1 K) := (arms.lookup n).map (Table.rule K)

/-- `univariate::try_gauss_lobatto` (fenris-quadrature/src/univariate.rs:126-134). -/
def tryGaussLobatto (K : Type) [Field K] [LinearOrder K] (n : Nat) : Option (Option (Quadrature.Rule 1 K)) :=
  Quadrature.tryGaussLobatto (table K) n

end Fenris.Lobatto
