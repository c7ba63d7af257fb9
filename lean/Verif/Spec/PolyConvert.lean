import Verif.Spec.PolyMesh
import Verif.Spec.Surface
import Verif.Spec.Polyhedron
/-! # Specification of conversions to tetrahedra -/
set_option autoImplicit false

namespace Fenris
namespace Poly
namespace Spec

/-- The cell has four faces: the triangle `a b c`, then a face with the vertex `d`, which is not in the triangle, then two more, and
none of them has further vertices. -/
def FitsTet {P : Type} (m : PolyMesh P) (cell : List Nat) (a b c d : Nat) : Prop :=
  ∃ g1 g2 g3, cellShape m cell = [some [a, b, c], some g1, some g2, some g3] ∧ d ∉ [a, b, c] ∧ d ∈ g1 ∧
    ∀ g ∈ [g1, g2, g3], ∀ v ∈ g, v ∈ [a, b, c, d]

/-- The faces of a cell are the four faces of the tetrahedron `a b c d`, in any order and with any first vertices and
orientations. -/
def IsTet {P : Type} (m : PolyMesh P) (cell : List Nat) (a b c d : Nat) : Prop :=
  [a, b, c, d].Nodup ∧ ∃ gs : List (List Nat), cellShape m cell = gs.map some ∧
    ∃ hs : List (List Nat), hs.Perm [[a, b, c], [a, b, d], [b, c, d], [c, a, d]] ∧ List.Forall₂ List.Perm gs hs

/-- The determinant of the three edges of a hexahedron at its first vertex. -/
def hexDet {K : Type} [Field K] (vs : List (Point 3 K)) (c : List Nat) : K :=
  Surface.Spec.det3 (fun k => Surface.Spec.coords vs (c.getD 1 0) k - Surface.Spec.coords vs (c.getD 0 0) k)
    (fun k => Surface.Spec.coords vs (c.getD 3 0) k - Surface.Spec.coords vs (c.getD 0 0) k)
    (fun k => Surface.Spec.coords vs (c.getD 4 0) k - Surface.Spec.coords vs (c.getD 0 0) k)

/-- The vertices of the hexahedron are those of a parallelepiped. -/
def IsParallelepiped {K : Type} [Field K] [LinearOrder K] (vs : List (Point 3 K)) (c : List Nat) : Prop :=
  ∃ o e1 e2 e3 : Point 3 K, ∀ i : Fin 8, Surface.Spec.coords vs (c.getD i 0) = Fenris.Spec.parallelepiped o e1 e2 e3 i

end Spec
end Poly
end Fenris
