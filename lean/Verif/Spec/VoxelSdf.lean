import Verif.Model.VoxelSdf
import Verif.Spec.Sdf
/-! # Specification of meshes for signed distance functions -/
set_option autoImplicit false

namespace Fenris.VoxelSdf.Spec
open Fenris.Geometry Fenris.Sdf
variable {K : Type} [Field K] [LinearOrder K]

/-- Rounding up to a natural number. -/
def IsCeil (ceil : K → Nat) : Prop := ∀ x, 0 ≤ x → x ≤ (ceil x : K) ∧ (ceil x : K) < x + 1

/-- Outside the shape there is a gradient of length one, and going back along it by the value of the function leads into the
shape. -/
def Projects (s : Sdf K) : Prop :=
  ∀ x, 0 < s.eval x → ∃ g, s.gradient x = some g ∧ g 0 ^ 2 + g 1 ^ 2 = 1 ∧ s.eval (fun i => x i - g i * s.eval x) ≤ 0

/-- Two meshes with the same shape: as many vertices and the same cells. -/
def SameShape {P : Type} (a b : Mesh P) : Prop := a.vertices.length = b.vertices.length ∧ a.cells = b.cells

end Fenris.VoxelSdf.Spec
