import Verif.Model.ShippedRules.Tri
import Verif.Model.ShippedRules.Quad
import Verif.Model.ShippedRules.Tet
import Verif.Model.ShippedRules.Hex
import Verif.Model.ShippedRules.Pri
import Verif.Model.ShippedRules.Pyr
/-! # Model of fenris-quadrature/src/polyquad.rs with the shipped rules -/
set_option autoImplicit false

namespace Fenris.ShippedRules
variable (K : Type) [Field K]

/-- polyquad.rs:28-30 `triangle`. -/
def triangle (strength : Nat) : Option (Quadrature.Rule 2 K) := select K 2 triFiles strength

/-- polyquad.rs:41-43 `quadrilateral`. -/
def quadrilateral (strength : Nat) : Option (Quadrature.Rule 2 K) := select K 2 quadFiles strength

/-- polyquad.rs:54-56 `tetrahedron`. -/
def tetrahedron (strength : Nat) : Option (Quadrature.Rule 3 K) := select K 3 tetFiles strength

/-- polyquad.rs:67-69 `hexahedron`. -/
def hexahedron (strength : Nat) : Option (Quadrature.Rule 3 K) := select K 3 hexFiles strength

/-- polyquad.rs:80-82 `prism`. -/
def prism (strength : Nat) : Option (Quadrature.Rule 3 K) := select K 3 priFiles strength

/-- polyquad.rs:93-95 `pyramid`. -/
def pyramid (strength : Nat) : Option (Quadrature.Rule 3 K) := select K 3 pyrFiles strength

end Fenris.ShippedRules
