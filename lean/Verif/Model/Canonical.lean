import Verif.Model.ShippedRules
import Verif.Model.Quadrature
import Verif.Model.ElementAssembly
/-! # Model of `src/quadrature/canonical.rs`, `src/quadrature/tensor.rs`, `src/quadrature/total_order.rs`

The conversion of a rule from `f64` to the scalar type is the identity here. `gauss n` stands for the rule that
`fenris_quadrature::univariate::gauss(n)` returns (see `Quadrature.gauss`). The same expression is used for an
element and, through `UniformQuadratureTable::from_quadrature` (C27), for every element of a mesh
(src/quadrature/canonical.rs:36-60). -/
set_option autoImplicit false

namespace Fenris.Canonical
variable {K : Type} [Field K]

/-- src/quadrature/tensor.rs:8-11 `quadrilateral_gauss`. -/
def quadrilateralGauss (gauss : Nat → Quadrature.Rule 1 K) (n : Nat) : Quadrature.Rule 2 K := Quadrature.quadrilateral (gauss n)

/-- src/quadrature/tensor.rs:13-16 `hexahedron_gauss`. -/
def hexahedronGauss (gauss : Nat → Quadrature.Rule 1 K) (n : Nat) : Quadrature.Rule 3 K := Quadrature.hexahedron (gauss n)

/-- `canonical_mass_quadrature` (src/quadrature/canonical.rs:87-88,93-94,99-101,107-109). `none`: the `unwrap` of the
rule panics, or (`segment2`) the trait is not implemented. -/
def massRule (gauss : Nat → Quadrature.Rule 1 K) : (e : Element.Kind) → Option (Quadrature.Rule e.dim K)
  | .segment2 => none
  | .tri3 => ShippedRules.triangle K 2
  | .tri6 => ShippedRules.triangle K 4
  | .quad4 => some (quadrilateralGauss gauss 2)
  | .quad9 => some (quadrilateralGauss gauss 3)
  | .tet4 => ShippedRules.tetrahedron K 2
  | .tet10 => ShippedRules.tetrahedron K 4
  | .tet20 => ShippedRules.tetrahedron K 6
  | .hex8 => some (hexahedronGauss gauss 2)
  | .hex20 => some (hexahedronGauss gauss 3)
  | .hex27 => some (hexahedronGauss gauss 3)

/-- `canonical_stiffness_quadrature` (src/quadrature/canonical.rs:89-90,95-96,102-104,110-112). -/
def stiffnessRule (gauss : Nat → Quadrature.Rule 1 K) : (e : Element.Kind) → Option (Quadrature.Rule e.dim K)
  | .segment2 => none
  | .tri3 => ShippedRules.triangle K 1
  | .tri6 => ShippedRules.triangle K 2
  | .quad4 => some (quadrilateralGauss gauss 2)
  | .quad9 => some (quadrilateralGauss gauss 3)
  | .tet4 => ShippedRules.tetrahedron K 1
  | .tet10 => ShippedRules.tetrahedron K 2
  | .tet20 => ShippedRules.tetrahedron K 4
  | .hex8 => some (hexahedronGauss gauss 2)
  | .hex20 => some (hexahedronGauss gauss 3)
  | .hex27 => some (hexahedronGauss gauss 3)

end Fenris.Canonical
