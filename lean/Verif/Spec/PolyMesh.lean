import Mathlib.Data.List.Rotate
import Verif.Model.PolyMesh
/-! # Specification of polyhedral meshes -/
set_option autoImplicit false

namespace Fenris
namespace Poly
namespace Spec

variable {P : Type}

/-- All indices are in bounds: the invariant of `PolyMesh`. -/
structure Valid (m : PolyMesh P) : Prop where
  face : ∀ f ∈ m.faces, ∀ v ∈ f, v < m.vertices.length
  cell : ∀ c ∈ m.cells, ∀ f ∈ c, f < m.faces.length

/-- The vertices of the faces of a cell, as numbers; `none` for an index that is out of bounds. -/
def cellShape (m : PolyMesh P) (c : List Nat) : List (Option (List Nat)) := c.map fun f => m.faces[f]?

/-- The coordinates of a face. -/
def faceCoords (m : PolyMesh P) (f : List Nat) : List (Option P) := f.map fun v => m.vertices[v]?

/-- The coordinates of the faces of a cell. -/
def cellCoords (m : PolyMesh P) (c : List Nat) : List (Option (List (Option P))) :=
  c.map fun f => (m.faces[f]?).map (faceCoords m)

/-- Some face has an edge from the vertex `u` to the vertex `v`: `v` follows `u`, and the first vertex follows the last. -/
def IsEdge (m : PolyMesh P) (u v : Nat) : Prop :=
  ∃ f ∈ m.faces, ∃ j : Nat, f[j]? = some u ∧ f[(j + 1) % f.length]? = some v

/-- The fan of a face from the first occurrence of its least vertex: that vertex with every edge between the other
vertices. -/
def fanTriangles (face : List Nat) : List (Nat × Nat × Nat) :=
  (face.min?).elim [] fun v =>
    let others := (face.rotate (face.idxOf v)).tail
    (others.zip others.tail).map fun e => (v, e.1, e.2)

/-- The least vertex of a cell. -/
def apex (m : PolyMesh P) (c : List Nat) : Option Nat := (c.flatMap fun f => (m.faces[f]?).getD []).min?

/-- The tetrahedra of a cell: its least vertex joined to the fans of the faces that do not contain it. A tetrahedron is a
triangle and an apex. -/
def cellTets (m : PolyMesh P) (c : List Nat) : List ((Nat × Nat × Nat) × Nat) :=
  (apex m c).elim [] fun v =>
    ((c.map fun f => (m.faces[f]?).getD []).filter fun face => decide (v ∉ face)).flatMap fun face =>
      (fanTriangles face).map fun t => (t, v)

/-- The four faces of a tetrahedron. -/
def tetFaces (t : (Nat × Nat × Nat) × Nat) : List (List Nat) :=
  [[t.1.1, t.1.2.1, t.1.2.2], [t.1.1, t.1.2.1, t.2], [t.1.2.1, t.1.2.2, t.2], [t.1.2.2, t.1.1, t.2]]

/-! ### Volume -/

section Volume

variable {K : Type} [Field K] [LinearOrder K]

/-- The position of a vertex. -/
def pos (m : PolyMesh (Point 3 K)) (v : Nat) : Point 3 K := (m.vertices[v]?).getD fun _ => 0

/-- The signed volume of the tetrahedron with corners `p`, `a`, `b`, `c`. -/
def signedVolume (p a b c : Point 3 K) : K :=
  ((a 0 - p 0) * ((b 1 - p 1) * (c 2 - p 2) - (b 2 - p 2) * (c 1 - p 1))
    - (a 1 - p 1) * ((b 0 - p 0) * (c 2 - p 2) - (b 2 - p 2) * (c 0 - p 0))
    + (a 2 - p 2) * ((b 0 - p 0) * (c 1 - p 1) - (b 1 - p 1) * (c 0 - p 0))) / 6

/-- `1` or `-1`: whether a face, as stored, is oriented outwards for the cell at hand. -/
def sign (outward : Bool) : K := if outward then 1 else -1

/-- The signed volume of the cone from `p` over a face. -/
def coneVolume (m : PolyMesh (Point 3 K)) (p : Point 3 K) (face : List Nat) : K :=
  ((fanTriangles face).map fun t => signedVolume p (pos m t.1) (pos m t.2.1) (pos m t.2.2)).sum

/-- The vertices of a face. -/
def faceOf (m : PolyMesh P) (f : Nat) : List Nat := (m.faces[f]?).getD []

/-- The volume of a cell: the sum of the signed volumes of the cones from `p` over its faces, oriented outwards. -/
def cellVolume (m : PolyMesh (Point 3 K)) (outward : Nat → Bool) (p : Point 3 K) (c : List Nat) : K :=
  (c.map fun f => sign (outward f) * coneVolume m p (faceOf m f)).sum

/-- The directed edges of the faces of a cell, oriented outwards. -/
def orientedEdges (m : PolyMesh P) (outward : Nat → Bool) (c : List Nat) : List (Nat × Nat) :=
  c.flatMap fun f => if outward f then edges (faceOf m f) else (edges (faceOf m f)).map Prod.swap

/-- A cell is closed: its oriented faces run through each edge equally often in both directions. -/
def Closed (m : PolyMesh P) (outward : Nat → Bool) (c : List Nat) : Prop :=
  (orientedEdges m outward c).Perm ((orientedEdges m outward c).map Prod.swap)

/-- The vertices of a face lie in a plane. -/
def Planar (m : PolyMesh (Point 3 K)) (face : List Nat) : Prop :=
  ∃ (n : Point 3 K) (h : K), n ≠ 0 ∧ ∀ v ∈ face, n 0 * pos m v 0 + n 1 * pos m v 1 + n 2 * pos m v 2 = h

/-- How often a face is oriented outwards minus how often it is oriented inwards, over all cells. -/
def netSign (m : PolyMesh P) (outward : Nat → Nat → Bool) (f : Nat) : K :=
  (m.cells.zipIdx.map fun ck => (ck.1.count f : K) * sign (outward ck.2 f)).sum

end Volume

end Spec
end Poly
end Fenris
