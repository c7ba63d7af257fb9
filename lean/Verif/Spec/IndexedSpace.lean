import Verif.Spec.SpatialIndex
import Verif.Spec.PatchTest
import Verif.Spec.Polygon
/-! # What interpolation in a mesh means -/
set_option autoImplicit false

namespace Fenris.Index.Spec
open Fenris.Geometry
variable {K : Type} [Field K] [LinearOrder K] {d s : Nat}

/-- The points that the cells of the mesh cover. -/
def covered [IsStrictOrderedRing K] (mesh : Mesh (Point d K)) : Set (Point d K) :=
  {x | ∃ c ∈ mesh.cells, x ∈ Fenris.Spec.hull (c.map fun v => (mesh.vertices[v]?).getD 0)}

/-- `q` is at least as close to `p` as every point of the mesh, and is `p` when `p` is in the mesh. -/
def Nearest [IsStrictOrderedRing K] (mesh : Mesh (Point d K)) (p q : Point d K) : Prop :=
  (∀ y ∈ covered mesh, Fenris.Spec.dist2 q p ≤ Fenris.Spec.dist2 y p) ∧ (p ∈ covered mesh → q = p)

/-- The value of `x ↦ Gᵀ x + b`. -/
def affineValue (G : Matrix (Fin d) (Fin s) K) (b : Fin s → K) (x : Point d K) : Fin s → K := fun i => ∑ k, G k i * x k + b i

end Fenris.Index.Spec
