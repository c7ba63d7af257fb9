import Verif.Model.SpatialIndex
import Verif.Spec.Aabb
import Mathlib.Data.Set.Basic
/-! # Specification of the spatial index -/
set_option autoImplicit false

namespace Fenris.Spec
open Fenris.Geometry Fenris.Index Fenris.Closest
variable {K : Type} [Field K] [LinearOrder K] {d r : Nat}

/-- What the nearest-neighbour iterator of the R-tree promises: every entry once, nearest box first. -/
def NearestFirst (nn : List (Aabb d K × Nat) → Point d K → List (Aabb d K × Nat)) : Prop :=
  ∀ entries p, (nn entries p).Perm entries ∧ (nn entries p).Pairwise fun a b => a.1.dist2To p ≤ b.1.dist2To p

/-- The space answers its queries correctly for elements occupying the sets `elem i`: each is non-empty and
inside its box, and its closest-point query returns the coordinates of a point at least as close as every
point of the element, answering `InElement` only with the coordinates of the query point. -/
structure AnswersQueries (S : IndexSpace d r K) (elem : Nat → Set (Point d K)) : Prop where
  nonempty : ∀ i < S.numElements, (elem i).Nonempty
  bounds : ∀ i < S.numElements, ∃ b, S.bounds i = some b ∧ ValidBox b ∧ ∀ y ∈ elem i, InAabb b y
  closest : ∀ i < S.numElements, ∀ p, ∃ c x, S.closest i p = some c ∧ S.map i c.point = some x ∧
    (∀ y ∈ elem i, dist2 x p ≤ dist2 y p) ∧ ∀ xi, c = .inElement xi → x = p

/-- The mesh is well formed: every cell has `n` vertices, all present. -/
def CellsOf (n : Nat) (mesh : Mesh (Point d K)) : Prop :=
  ∀ c ∈ mesh.cells, c.length = n ∧ ∀ v ∈ c, v < mesh.vertices.length

end Fenris.Spec
