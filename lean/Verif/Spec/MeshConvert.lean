import Verif.Model.MeshConvert
/-! # Specification vocabulary for order elevation (C19) -/
set_option autoImplicit false

namespace Fenris.Spec
open Element
variable {K : Type} [Field K] {d : Nat}

/-- A node of a higher-order mesh, named by vertices of the linear mesh: the centre of the entity
(vertex, edge, face or cell) with the given vertices, or the point a third of the way from `a` to
`b`. -/
inductive ENode where
  | centre (vs : List Nat)
  | third (a b : Nat)

/-- Two names of the same node: entities with the same vertices (in any order). -/
def ENode.Same : ENode → ENode → Prop
  | .centre vs, .centre ws => vs.Perm ws
  | .third a b, .third a' b' => a = a' ∧ b = b'
  | _, _ => False

/-- The average of some points. -/
def average (ps : List (Point d K)) : Point d K := fun r => (ps.map (· r)).sum / (ps.length : K)

/-- The node lies at `p`. -/
def ENode.IsAt (vs : List (Point d K)) (p : Point d K) : ENode → Prop
  | .centre l => ∃ ps, l.mapM (vs[·]?) = some ps ∧ p = average ps
  | .third a b => ∃ x y, vs[a]? = some x ∧ vs[b]? = some y ∧ p = fun r => x r + (y r - x r) / 3

/-- The entities (sets of corners of the reference element) carrying the nodes of the quadratic
elements, in the order of the nodes. -/
def entities : Kind → List (List Nat)
  | .tri6 => [[0], [1], [2], [0, 1], [1, 2], [2, 0]]
  | .quad9 => [[0], [1], [2], [3], [0, 1], [1, 2], [2, 3], [3, 0], [0, 1, 2, 3]]
  | .tet10 => [[0], [1], [2], [3], [0, 1], [1, 2], [0, 2], [0, 3], [2, 3], [1, 3]]
  | .hex20 => [[0], [1], [2], [3], [4], [5], [6], [7], [0, 1], [0, 3], [0, 4], [1, 2], [1, 5],
      [2, 3], [2, 6], [3, 7], [4, 5], [4, 7], [5, 6], [6, 7]]
  | .hex27 => [[0], [1], [2], [3], [4], [5], [6], [7], [0, 1], [0, 3], [0, 4], [1, 2], [1, 5],
      [2, 3], [2, 6], [3, 7], [4, 5], [4, 7], [5, 6], [6, 7], [0, 1, 2, 3], [0, 1, 4, 5],
      [0, 3, 4, 7], [1, 2, 5, 6], [2, 3, 6, 7], [4, 5, 6, 7], [0, 1, 2, 3, 4, 5, 6, 7]]
  | _ => []

/-- The nodes of the higher-order cell that replaces the linear cell `c`. -/
def elevatedNodes : Kind → List Nat → List ENode
  | .tet20, [a, b, c, d] =>
    [.centre [a], .centre [b], .centre [c], .centre [d],
     .third a b, .third b a, .third a c, .third c a, .third a d, .third d a,
     .third b c, .third c b, .third b d, .third d b, .third c d, .third d c,
     .centre [a, b, c], .centre [a, b, d], .centre [a, c, d], .centre [b, c, d]]
  | e, cell => (entities e).map (fun l => .centre (l.map (fun i => cell.getD i 0)))

/-- The nodes of a triangle or quadrilateral on its vertices and edges. -/
def boundaryNodes (c : List Nat) : List ENode :=
  c.map (fun v => .centre [v]) ++ (c.zip (c.tail ++ c.take 1)).map (fun e => .centre [e.1, e.2])

/-- Every cell lists `n` in-bounds vertices. -/
def ValidCells {V : Type} (n : Nat) (mesh : Mesh V) : Prop :=
  ∀ c ∈ mesh.cells, c.length = n ∧ ∀ v ∈ c, v < mesh.vertices.length

/-- `out` is the elevation of `mesh` to elements of kind `e`, with nodes numbered by `idx`: each
cell is replaced by the cell of its higher-order nodes; every node lies where it should; two nodes
have the same number exactly when they belong to the same entity; there are no other vertices. -/
structure IsElevation (e : Kind) (mesh out : Mesh (Point d K)) (idx : ENode → Nat) : Prop where
  cells : out.cells = mesh.cells.map (fun c => (elevatedNodes e c).map idx)
  position : ∀ c ∈ mesh.cells, ∀ n ∈ elevatedNodes e c,
    ∃ p, out.vertices[idx n]? = some p ∧ n.IsAt mesh.vertices p
  glued : ∀ c ∈ mesh.cells, ∀ n ∈ elevatedNodes e c, ∀ c' ∈ mesh.cells, ∀ n' ∈ elevatedNodes e c',
    (idx n = idx n' ↔ n.Same n')
  onto : ∀ i < out.vertices.length, ∃ c ∈ mesh.cells, ∃ n ∈ elevatedNodes e c, idx n = i

end Fenris.Spec
