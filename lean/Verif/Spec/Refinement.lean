import Verif.Model.Refinement
import Mathlib.Algebra.Order.Ring.Defs
/-! # Specification vocabulary for triangle refinement (C16) -/
set_option autoImplicit false

namespace Fenris.Spec
variable {K : Type}

/-- Signed area of a triangle in the plane. -/
def signedArea [Field K] (a b c : Point 2 K) : K :=
  ((b 0 - a 0) * (c 1 - a 1) - (b 1 - a 1) * (c 0 - a 0)) / 2

/-- Midpoint of two points. -/
def midpoint {d : Nat} [Field K] (a b : Point d K) : Point d K := fun i => (a i + b i) / 2

/-- Coordinates of the vertices of a cell. -/
def coords {V : Type} (vs : List V) (cell : List Nat) : Option (List V) := cell.mapM (vs[·]?)

/-- Signed area of a triangle cell of a mesh (`none` if it is not a triangle or an index is out of
bounds). -/
def cellArea [Field K] (vs : List (Point 2 K)) (cell : List Nat) : Option K :=
  match coords vs cell with
  | some [a, b, c] => some (signedArea a b c)
  | _ => none

/-- Sum of the signed areas of all cells. -/
def totalArea [Field K] (mesh : Mesh (Point 2 K)) : Option K :=
  (mesh.cells.mapM (cellArea mesh.vertices)).map List.sum

/-- Every cell is a triple of in-bounds vertex indices. -/
def ValidTri {V : Type} (mesh : Mesh V) : Prop :=
  ∀ c ∈ mesh.cells, ∃ i j k, c = [i, j, k] ∧ i < mesh.vertices.length ∧ j < mesh.vertices.length ∧
    k < mesh.vertices.length

/-- A node of the refined mesh: an old vertex, or the midpoint of an (undirected) old edge. -/
inductive Node where
  | vertex (v : Nat)
  | mid (a b : Nat)

/-- Same node: same vertex, or same edge in either direction. -/
def Node.Same : Node → Node → Prop
  | .vertex v, .vertex w => v = w
  | .mid a b, .mid a' b' => (a = a' ∧ b = b') ∨ (a = b' ∧ b = a')
  | _, _ => False

/-- Where the node lies. -/
def Node.IsAt {d : Nat} [Field K] (vs : List (Point d K)) (p : Point d K) : Node → Prop
  | .vertex v => vs[v]? = some p
  | .mid a b => ∃ x y, vs[a]? = some x ∧ vs[b]? = some y ∧ p = midpoint x y

/-- The four children of the triangle `ijk`. -/
def childNodes : List Nat → List (List Node)
  | [i, j, k] =>
    [[.vertex i, .mid i j, .mid k i], [.mid i j, .vertex j, .mid j k],
     [.mid k i, .mid j k, .vertex k], [.mid i j, .mid j k, .mid k i]]
  | _ => []

/-- `n` is a vertex or edge midpoint of some cell of the mesh. -/
def IsNodeOf {V : Type} (mesh : Mesh V) (n : Node) : Prop :=
  ∃ c ∈ mesh.cells, ∃ ch ∈ childNodes c, n ∈ ch

/-- The (closed) triangle `abc`: all convex combinations of its corners. -/
def InTri {d : Nat} [Field K] [LinearOrder K] (a b c p : Point d K) : Prop :=
  ∃ u v w : K, 0 ≤ u ∧ 0 ≤ v ∧ 0 ≤ w ∧ u + v + w = 1 ∧ ∀ i, p i = u * a i + v * b i + w * c i

/-- The interior of the triangle `abc`: convex combinations with positive weights. -/
def InTriInterior {d : Nat} [Field K] [LinearOrder K] (a b c p : Point d K) : Prop :=
  ∃ u v w : K, 0 < u ∧ 0 < v ∧ 0 < w ∧ u + v + w = 1 ∧ ∀ i, p i = u * a i + v * b i + w * c i

end Fenris.Spec
