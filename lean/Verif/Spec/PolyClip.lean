import Mathlib.Algebra.Group.Even
import Verif.Model.PolyClip
import Verif.Spec.Lines
import Verif.Spec.PolyMesh
/-! # Specification of the intersection of polyhedral meshes with half-spaces -/
set_option autoImplicit false

namespace Fenris
namespace Poly
namespace Spec

open Geometry

/-- The polygon clipping of Sutherland and Hodgman in terms of vertex numbers: going around the face, every vertex inside
stays, and between a vertex inside and one outside there is a new vertex on their edge. `(v, v)` is the vertex `v`, `(a, b)`
with `a < b` the new vertex on the edge between `a` and `b`. -/
def clip (inside : Nat → Bool) (face : List Nat) : List (Nat × Nat) :=
  (edges face).flatMap fun e =>
    (if inside e.1 then [(e.1, e.1)] else []) ++ if inside e.1 ≠ inside e.2 then [(min e.1 e.2, max e.1 e.2)] else []

/-- The edges of a clipped face between two new vertices: the edges along which the face meets the cap of the cell. -/
def crossings (inside : Nat → Bool) (face : List Nat) : List ((Nat × Nat) × (Nat × Nat)) :=
  (edges (clip inside face)).filter fun e => decide (e.1.1 ≠ e.1.2 ∧ e.2.1 ≠ e.2.2)

/-- Directed edges, or the same edges backwards. -/
def orient {V : Type} (forward : Bool) (es : List (V × V)) : List (V × V) := if forward then es else es.map Prod.swap

/-- How often a vertex is an end of edges. -/
def degree (es : List ((Nat × Nat) × (Nat × Nat))) (n : Nat × Nat) : Nat :=
  (es.map Prod.fst).count n + (es.map Prod.snd).count n

/-- Every edge belongs to an even number of the faces (to two of them, for the surface of a solid). -/
def Watertight {V : Type} [DecidableEq V] (faces : List (List V)) : Prop :=
  ∀ u v : V, Even ((faces.flatMap edges).countP fun e => decide (e = (u, v) ∨ e = (v, u)))

/-- The number of a face `f` that is not dropped: how many faces before it are not dropped. -/
def keptBefore {P : Type} (m : PolyMesh P) (inside : Nat → Bool) (f : Nat) : Nat :=
  ((m.faces.take f).filter fun face => !(clip inside face).isEmpty).length

/-- The cells of the clipped mesh. Each cell `(c, caps)` has its old faces, without those that are dropped, and then its
caps, which are numbered consecutively from `next` on. -/
def clippedCells {P : Type} (m : PolyMesh P) (inside : Nat → Bool) :
    Nat → List (List Nat × List (List (Nat × Nat))) → List (List Nat)
  | _, [] => []
  | next, (c, caps) :: rest =>
    ((c.filter fun f => !(clip inside (faceOf m f)).isEmpty).map (keptBefore m inside) ++ List.range' next caps.length)
      :: clippedCells m inside (next + caps.length) rest

section

variable {K : Type} [Field K] [LinearOrder K]

/-- Whether a vertex is in the half-space. -/
def insideOf (h : HalfSpace 3 K) (m : PolyMesh (Point 3 K)) (v : Nat) : Bool :=
  decide (Fenris.Spec.height h (pos m v) ≤ 0)

/-- The position of a vertex of the clipped mesh: a new vertex is where the edge meets the boundary of the half-space. -/
def nodePoint (h : HalfSpace 3 K) (m : PolyMesh (Point 3 K)) (n : Nat × Nat) : Point 3 K :=
  if n.1 = n.2 then pos m n.1
  else
    let ha := Fenris.Spec.height h (pos m n.1)
    let hb := Fenris.Spec.height h (pos m n.2)
    Fenris.Spec.lerp (pos m n.1) (pos m n.2) (ha / (ha - hb))

end

end Spec
end Poly
end Fenris
