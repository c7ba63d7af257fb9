import Verif.Model.Aabb
/-! # Specification of bounding boxes -/
set_option autoImplicit false

namespace Fenris.Spec
open Fenris.Geometry
variable {K : Type} [Field K] [LinearOrder K] {d : Nat}

/-- The set of points a box stands for. -/
def InAabb (a : Aabb d K) (p : Point d K) : Prop := ∀ i, a.min i ≤ p i ∧ p i ≤ a.max i

/-- The boxes a user can hold: every constructor checks `min ≤ max`. -/
def ValidBox (a : Aabb d K) : Prop := ∀ i, a.min i ≤ a.max i

/-- Squared Euclidean distance. -/
def dist2 (p q : Point d K) : K := ∑ i, (p i - q i) ^ 2

end Fenris.Spec
