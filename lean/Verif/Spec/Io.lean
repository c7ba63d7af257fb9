import Verif.Model.Io
/-! # Specification of mesh files -/
set_option autoImplicit false

namespace Fenris
namespace Io
namespace Spec

/-! ## Gmsh files -/

/-- A block holds elements of the wanted type and dimension. -/
def Matches (ty : MshType) (refDim : Nat) (b : ElementBlock) : Prop := b.type = ty ∧ b.dim = refDim

instance (ty : MshType) (refDim : Nat) (b : ElementBlock) : Decidable (Matches ty refDim b) :=
  inferInstanceAs (Decidable (_ ∧ _))

/-- The coordinates `x`, `y`, `z` of a node in a file. -/
def coord {F : Type} (n : F × F × F) : Nat → Option F
  | 0 => some n.1
  | 1 => some n.2.1
  | 2 => some n.2.2
  | _ => none

/-- `p` is the point of the node `n` in `d` dimensions: the converted leading coordinates, zero beyond the third. -/
def IsPoint {F K : Type} [Zero K] (conv : F → Option K) (d : Nat) (n : F × F × F) (p : Point d K) : Prop :=
  ∀ i : Fin d, match coord n i with
    | some c => conv c = some (p i)
    | none => p i = 0

/-- A file that is accepted for elements of the type `ty`. -/
structure Accepted {F K : Type} (conv : F → Option K) (d : Nat) (ty : MshType) (refDim : Nat)
    (numNodes : Nat) (nodes : List (NodeBlock F)) (blocks : List ElementBlock) : Prop where
  /-- There are elements of the wanted type. -/
  found : ∃ b ∈ blocks, Matches ty refDim b
  /-- Tags are consecutive. -/
  dense : (∀ b ∈ nodes, b.sparse = false) ∧ ∀ b ∈ blocks, b.sparse = false
  /-- The announced number of nodes is right. -/
  count : (nodes.flatMap (·.nodes)).length = numNodes
  /-- The coordinates can be represented. -/
  coords : ∀ n ∈ nodes.flatMap (·.nodes), ∀ i < d, ∀ c, coord n i = some c → (conv c).isSome
  /-- Dimensions of elements of the wanted type are not negative. -/
  dims : ∀ b ∈ blocks, b.type = ty → 0 ≤ b.dim
  /-- Elements have the right number of nodes, and tags are positive. -/
  elements : ∀ b ∈ blocks, Matches ty refDim b → ∀ e ∈ b.elements, e.length = mshNumNodes ty ∧ 0 ∉ e

/-! ## Node orders -/

/-- The corners of the reference triangle, quadrilateral, tetrahedron and hexahedron in the order of Gmsh and VTK, with
coordinates from 0 to 1. -/
def triCorners : List (List Nat) := [[0, 0], [1, 0], [0, 1]]
def quadCorners : List (List Nat) := [[0, 0], [1, 0], [1, 1], [0, 1]]
def tetCorners : List (List Nat) := [[0, 0, 0], [1, 0, 0], [0, 1, 0], [0, 0, 1]]
def hexCorners : List (List Nat) :=
  [[0, 0, 0], [1, 0, 0], [1, 1, 0], [0, 1, 0], [0, 0, 1], [1, 0, 1], [1, 1, 1], [0, 1, 1]]

/-- The nodes of an element in the order of the Gmsh documentation, each as the corners of which it is the midpoint. -/
def gmshNodes : MshType → List (List Nat)
  | .tri3 => [[0], [1], [2]]
  | .tri6 => [[0], [1], [2], [0, 1], [1, 2], [2, 0]]
  | .qua4 => [[0], [1], [2], [3]]
  | .qua9 => [[0], [1], [2], [3], [0, 1], [1, 2], [2, 3], [3, 0], [0, 1, 2, 3]]
  | .tet4 => [[0], [1], [2], [3]]
  | .tet10 => [[0], [1], [2], [3], [0, 1], [1, 2], [0, 2], [0, 3], [2, 3], [1, 3]]
  | .hex8 => [[0], [1], [2], [3], [4], [5], [6], [7]]
  | .hex27 => [[0], [1], [2], [3], [4], [5], [6], [7],
      [0, 1], [0, 3], [0, 4], [1, 2], [1, 5], [2, 3], [2, 6], [3, 7], [4, 5], [4, 7], [5, 6], [6, 7],
      [0, 3, 2, 1], [0, 1, 5, 4], [0, 4, 7, 3], [1, 2, 6, 5], [2, 3, 7, 6], [4, 5, 6, 7], [0, 1, 2, 3, 4, 5, 6, 7]]
  | .other _ => []

def gmshCorners : MshType → List (List Nat)
  | .tri3 | .tri6 => triCorners
  | .qua4 | .qua9 => quadCorners
  | .tet4 | .tet10 => tetCorners
  | .hex8 | .hex27 => hexCorners
  | .other _ => []

/-- The nodes of a cell in the order of the VTK file formats, each as the corners of which it is the midpoint. -/
def vtkNodes : VtkType → List (List Nat)
  | .line => [[0], [1]]
  | .triangle => [[0], [1], [2]]
  | .quadraticTriangle => [[0], [1], [2], [0, 1], [1, 2], [2, 0]]
  | .quad => [[0], [1], [2], [3]]
  | .quadraticQuad => [[0], [1], [2], [3], [0, 1], [1, 2], [2, 3], [3, 0]]
  | .tetra => [[0], [1], [2], [3]]
  | .quadraticTetra => [[0], [1], [2], [3], [0, 1], [1, 2], [2, 0], [0, 3], [1, 3], [2, 3]]
  | .hexahedron => [[0], [1], [2], [3], [4], [5], [6], [7]]
  | .quadraticHexahedron => [[0], [1], [2], [3], [4], [5], [6], [7],
      [0, 1], [1, 2], [2, 3], [3, 0], [4, 5], [5, 6], [6, 7], [7, 4], [0, 4], [1, 5], [2, 6], [3, 7]]

def vtkCorners : VtkType → List (List Nat)
  | .line => [[0], [1]]
  | .triangle | .quadraticTriangle => triCorners
  | .quad | .quadraticQuad => quadCorners
  | .tetra | .quadraticTetra => tetCorners
  | .hexahedron | .quadraticHexahedron => hexCorners

/-- `x` is the midpoint of the named corners, where coordinates from -1 to 1 stand for coordinates from 0 to 1. -/
def IsMidpoint {K : Type} [Field K] {d : Nat} (corners : List (List Nat)) (cs : List Nat) (x : Point d K) : Prop :=
  cs ≠ [] ∧ ∀ i : Fin d,
    (cs.length : K) * (x i + 1) = 2 * (cs.map fun c => (((((corners[c]?).getD [])[i.val]?).getD 0 : Nat) : K)).sum

/-! ## VTK data sets -/

/-- Reads `n` cells of the legacy format: the number of nodes of a cell, then its nodes. -/
def decode : Nat → List Nat → Option (List (List Nat))
  | 0, [] => some []
  | 0, _ :: _ => none
  | _ + 1, [] => none
  | n + 1, k :: rest => if rest.length < k then none else (decode n (rest.drop k)).map (rest.take k :: ·)

/-- Three coordinates: those of the point, padded with zeros. -/
def padded {K : Type} [Zero K] {d : Nat} (p : Point d K) (i : Nat) : K := if h : i < d then p ⟨i, h⟩ else 0

end Spec
end Io
end Fenris
