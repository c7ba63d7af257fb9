import Verif.Model.Quadrature
/-! # The shape of the tabulated Gauss-Lobatto rules -/
set_option autoImplicit false

namespace Fenris.Lobatto

/-- A rule of fenris-quadrature/src/codegen/gauss_lobatto_rules.rs: the decimal numbers of the file as integers in units of `10^-31`, which is
exact. The conversion to `f64` is not modelled. -/
structure Table where
  weights : List Int
  points : List Int

/-- The weights and points that the generated function returns. -/
def Table.rule (K : Type) [Field K] (t : Table) : Quadrature.Rule 1 K :=
  (t.weights.map fun (w : Int) => (w : K) / (10 : K) ^ 31, t.points.map fun (x : Int) => fun _ => (x : K) / (10 : K) ^ 31)

end Fenris.Lobatto
