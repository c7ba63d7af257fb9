import Verif.Model.Element
import Verif.Props.MeshOps
import Mathlib.Data.List.Rotate
/-! # Specification of oriented surfaces of meshes -/
set_option autoImplicit false

namespace Fenris.Surface
open Fenris.Element

/-- The faces of a cell: the local faces of its kind with the vertices of the cell (src/connectivity.rs, `get_face_connectivity`). -/
def facesOf (kind : Kind) (cell : List Nat) : List (List Nat) :=
  (localFaces kind).map fun f => f.map fun i => cell.getD i 0

namespace Spec

/-- `g` is `f` run through backwards; a face with three or more vertices may begin at any of them. -/
def Opposite (f g : List Nat) : Prop := g = f.reverse ∨ 3 ≤ f.length ∧ ∃ n, g = f.reverse.rotate n

/-- A consistently oriented mesh: when two different faces of cells have the same vertices, then they are the only ones with these
vertices, and they have opposite orientations. -/
def Consistent (faces : List Nat → List (List Nat)) (cells : List (List Nat)) : Prop :=
  ∀ c l f c' l' f', Fenris.Spec.IsFace faces cells c l f → Fenris.Spec.IsFace faces cells c' l' f' → (c', l') ≠ (c, l) →
    f'.Perm f → Opposite f f' ∧
      ∀ c'' l'' f'', Fenris.Spec.IsFace faces cells c'' l'' f'' → f''.Perm f → (c'', l'') = (c, l) ∨ (c'', l'') = (c', l')

/-- The directed edges around a face. -/
def faceEdges (f : List Nat) : List (Nat × Nat) := f.zip (f.rotate 1)

variable {K : Type} [Field K]

/-- The coordinates of a vertex. -/
def coords {d : Nat} (vs : List (Point d K)) (i : Nat) : Point d K := vs.getD i 0

/-- `a · (b × c)`, six times the signed volume of the tetrahedron with the origin. -/
def det3 (a b c : Point 3 K) : K :=
  a 0 * (b 1 * c 2 - b 2 * c 1) - a 1 * (b 0 * c 2 - b 2 * c 0) + a 2 * (b 0 * c 1 - b 1 * c 0)

/-- Six times the signed volume of the tetrahedron `a b c d`; positive when `b`, `c`, `d` are counterclockwise seen from `a`'s
opposite side, as for the reference tetrahedron. -/
def tetVol6 (a b c d : Point 3 K) : K :=
  det3 (fun i => b i - a i) (fun i => c i - a i) (fun i => d i - a i)

/-- `a × b` in the plane. -/
def det2 (a b : Point 2 K) : K := a 0 * b 1 - a 1 * b 0

/-- Six times the signed volume of a cell of a tetrahedral mesh. -/
def cellVol6 (vs : List (Point 3 K)) (c : List Nat) : K :=
  tetVol6 (coords vs (c.getD 0 0)) (coords vs (c.getD 1 0)) (coords vs (c.getD 2 0)) (coords vs (c.getD 3 0))

/-- Six times the signed volume between a triangle and the origin. -/
def faceVol6 (vs : List (Point 3 K)) (f : List Nat) : K :=
  det3 (coords vs (f.getD 0 0)) (coords vs (f.getD 1 0)) (coords vs (f.getD 2 0))

/-- Twice the signed area of a polygon with the given vertices (shoelace formula). -/
def polyArea2 (vs : List (Point 2 K)) (c : List Nat) : K :=
  ((faceEdges c).map fun e => det2 (coords vs e.1) (coords vs e.2)).sum

/-- Twice the signed area between a segment and the origin. -/
def segArea2 (vs : List (Point 2 K)) (f : List Nat) : K := det2 (coords vs (f.getD 0 0)) (coords vs (f.getD 1 0))

/-- A tetrahedral mesh in space whose cells have positive volume, and in which a face belongs to at most two cells, which lie on
different sides of it. -/
structure TetMesh [LinearOrder K] (mesh : Mesh (Point 3 K)) : Prop where
  nodes : ∀ c ∈ mesh.cells, c.length = 4
  positive : ∀ c ∈ mesh.cells, 0 < cellVol6 mesh.vertices c
  shared : ∀ c l f c' l' f', Fenris.Spec.IsFace (facesOf .tet4) mesh.cells c l f →
    Fenris.Spec.IsFace (facesOf .tet4) mesh.cells c' l' f' → (c', l') ≠ (c, l) → f'.Perm f →
    (∀ c'' l'' f'', Fenris.Spec.IsFace (facesOf .tet4) mesh.cells c'' l'' f'' → f''.Perm f →
      (c'', l'') = (c, l) ∨ (c'', l'') = (c', l')) ∧
    ∀ cell cell', mesh.cells[c]? = some cell → mesh.cells[c']? = some cell' →
      ∀ v v', v ∈ cell → v ∉ f → v' ∈ cell' → v' ∉ f →
        tetVol6 (coords mesh.vertices (f.getD 0 0)) (coords mesh.vertices (f.getD 1 0)) (coords mesh.vertices (f.getD 2 0))
            (coords mesh.vertices v) *
          tetVol6 (coords mesh.vertices (f.getD 0 0)) (coords mesh.vertices (f.getD 1 0)) (coords mesh.vertices (f.getD 2 0))
            (coords mesh.vertices v') < 0

end Spec
end Fenris.Surface
