import Verif.Model.Element
import Verif.Model.Permutation
/-! # Model of `src/io/msh.rs` and `src/io/vtk.rs`

The bytes of a file are parsed by the crate `mshio` and written by the crate `vtkio`; both are external. The model starts
from the parsed content and ends with the data set. -/
set_option autoImplicit false

namespace Fenris
namespace Io

open Element (Kind)

/-- How a function that returns a `Result` fails: with `Err`, or with a panic. -/
inductive Fail
  | error
  | panic
  deriving DecidableEq, Repr

/-! ## Gmsh files -/

/-- `mshio::ElementType`; `other` stands for the types without a connectivity in fenris. -/
inductive MshType
  | tri3 | tri6 | qua4 | qua9 | tet4 | tet10 | hex8 | hex27
  | other (n : Nat)
  deriving DecidableEq, Repr

/-- The fields of `mshio::NodeBlock` that are read: whether `node_tags` is present, and the nodes. -/
structure NodeBlock (F : Type) where
  sparse : Bool
  nodes : List (F × F × F)

/-- The fields of `mshio::ElementBlock` that are read: whether `element_tags` is present, `entity_dim`, `element_type` and
the node tags of the elements. -/
structure ElementBlock where
  sparse : Bool
  dim : Int
  type : MshType
  elements : List (List Nat)

/-- The fields of `mshio::MshFile` that are read. -/
structure MshFile (F : Type) where
  nodes : Option (Nat × List (NodeBlock F))
  elements : Option (List ElementBlock)

/-- `MshConnectivity::msh_element_type` (src/io/msh.rs:250-252, 276-284); `none` without an implementation. -/
def mshType : Kind → Option MshType
  | .tri3 => some .tri3 | .tri6 => some .tri6 | .quad4 => some .qua4 | .quad9 => some .qua9
  | .tet4 => some .tet4 | .tet10 => some .tet10 | .hex8 => some .hex8 | .hex27 => some .hex27
  | _ => none

/-- The `num_nodes` of src/io/msh.rs:276-284; `mshio::ElementType::nodes` gives the same numbers. -/
def mshNumNodes : MshType → Nat
  | .tri3 => 3 | .tri6 => 6 | .qua4 => 4 | .qua9 => 9 | .tet4 => 4 | .tet10 => 10 | .hex8 => 8 | .hex27 => 27
  | .other n => n

/-- src/io/msh.rs:190-200 `element_block_matches_connectivity`; the conversion of a negative dimension panics. -/
def blockMatches (ty : MshType) (refDim : Nat) (b : ElementBlock) : Except Fail Bool :=
  if b.type = ty then if b.dim < 0 then .error .panic else .ok (b.dim = refDim) else .ok false

/-- `Iterator::any` in src/io/msh.rs:68-71. -/
def anyMatches (ty : MshType) (refDim : Nat) : List ElementBlock → Except Fail Bool
  | [] => .ok false
  | b :: bs => (blockMatches ty refDim b).bind fun r => if r then .ok true else anyMatches ty refDim bs

/-- src/io/msh.rs:214-232 `point_from_msh_node`; `conv` is the conversion of a coordinate, which may fail. In dimension
zero the access to the first component panics. -/
def pointFromNode {F K : Type} [Zero K] (conv : F → Option K) (d : Nat) (n : F × F × F) : Except Fail (Point d K) :=
  if d = 0 then .error .panic
  else
    match ([n.1, n.2.1, n.2.2].take d).mapM conv with
    | none => .error .error
    | some c => .ok fun i => (c[i.val]?).getD 0

/-- The loop of src/io/msh.rs:149-151. -/
def pointsFromNodes {F K : Type} [Zero K] (conv : F → Option K) (d : Nat) :
    List (F × F × F) → List (Point d K) → Except Fail (List (Point d K))
  | [], acc => .ok acc
  | n :: ns, acc => (pointFromNode conv d n).bind fun p => pointsFromNodes conv d ns (acc ++ [p])

/-- src/io/msh.rs:109-154 `vertices_from_node_block` over all blocks (src/io/msh.rs:81-84). -/
def verticesFromBlocks {F K : Type} [Zero K] (conv : F → Option K) (d : Nat) :
    List (NodeBlock F) → List (Point d K) → Except Fail (List (Point d K))
  | [], acc => .ok acc
  | b :: bs, acc =>
    if b.sparse then .error .error
    else (pointsFromNodes conv d b.nodes []).bind fun ps => verticesFromBlocks conv d bs (acc ++ ps)

/-- `try_connectivity_from_msh_element` (src/io/msh.rs:259-270): asserts the number of nodes; a tag zero overflows (a panic
with overflow checks, a huge index without). -/
def cellFromElement (num : Nat) (e : List Nat) : Except Fail (List Nat) :=
  if e.length ≠ num then .error .panic
  else if 0 ∈ e then .error .panic
  else .ok (e.map (· - 1))

/-- The loop of src/io/msh.rs:178-183. -/
def cellsFromElements (num : Nat) : List (List Nat) → List (List Nat) → Except Fail (List (List Nat))
  | [], acc => .ok acc
  | e :: es, acc =>
    if e.length < num then .error .error
    else (cellFromElement num e).bind fun c => cellsFromElements num es (acc ++ [c])

/-- src/io/msh.rs:157-187 `connectivity_from_element_block`. -/
def cellsFromBlock (ty : MshType) (refDim : Nat) (b : ElementBlock) : Except Fail (List (List Nat)) :=
  if b.sparse then .error .error
  else (blockMatches ty refDim b).bind fun r =>
    if r then cellsFromElements (mshNumNodes ty) b.elements [] else .ok []

/-- The loop of src/io/msh.rs:100-103. -/
def cellsFromBlocks (ty : MshType) (refDim : Nat) : List ElementBlock → List (List Nat) → Except Fail (List (List Nat))
  | [], acc => .ok acc
  | b :: bs, acc => (cellsFromBlock ty refDim b).bind fun cs => cellsFromBlocks ty refDim bs (acc ++ cs)

/-- src/io/msh.rs:44-106 `load_msh_from_bytes` after the parsing, for a connectivity with the element type `ty` and the
reference dimension `refDim`. -/
def loadMsh {F K : Type} [Zero K] (conv : F → Option K) (d : Nat) (ty : MshType) (refDim : Nat) (file : MshFile F) :
    Except Fail (Mesh (Point d K)) :=
  match file.nodes, file.elements with
  | some nodes, some blocks =>
    (anyMatches ty refDim blocks).bind fun found =>
      if found then
        (verticesFromBlocks conv d nodes.2 []).bind fun vertices =>
          if vertices.length ≠ nodes.1 then .error .error
          else (cellsFromBlocks ty refDim blocks []).bind fun cells => .ok ⟨vertices, cells⟩
      else .error .error
  | _, _ => .error .error

/-! ## VTK data sets -/

/-- `vtkio::model::CellType`, as far as it is used. -/
inductive VtkType
  | line | triangle | quadraticTriangle | quad | quadraticQuad | tetra | quadraticTetra | hexahedron | quadraticHexahedron
  deriving DecidableEq, Repr

/-- `VtkCellConnectivity::cell_type` (src/io/vtk.rs:42-180). -/
def vtkType : Kind → VtkType
  | .segment2 => .line
  | .tri3 => .triangle
  | .tri6 => .quadraticTriangle
  | .quad4 => .quad
  | .quad9 => .quadraticQuad
  | .tet4 | .tet20 => .tetra
  | .tet10 => .quadraticTetra
  | .hex8 => .hexahedron
  | .hex20 | .hex27 => .quadraticHexahedron

/-- `VtkCellConnectivity::num_nodes` (src/io/vtk.rs:27-29, 112-114, 156-158). -/
def vtkNumNodes : Kind → List Nat → Nat
  | .tet20, _ => 4
  | .hex27, _ => 20
  | _, v => v.length

/-- The positions read in src/io/vtk.rs:137-152 and 168-183. -/
def hexOrder : List Nat := [0, 1, 2, 3, 4, 5, 6, 7, 8, 11, 13, 9, 16, 18, 19, 17, 10, 12, 14, 15]

/-- `VtkCellConnectivity::write_vtk_connectivity` (src/io/vtk.rs:36-39, 101-108, 120-126, 134-152, 165-183) into a slice
with `num_nodes` entries. -/
def writeVtk : Kind → List Nat → Option (List Nat)
  | .tet10, v => v[8]?.bind fun a => v[9]?.map fun b => (v.set 8 b).set 9 a
  | .tet20, v => [0, 1, 2, 3].mapM fun (i : Nat) => v[i]?
  | .hex20, v => hexOrder.mapM fun (i : Nat) => v[i]?
  | .hex27, v => hexOrder.mapM fun (i : Nat) => v[i]?
  | _, v => some v

/-- The `UnstructuredGridPiece` of src/io/vtk.rs:508-519. -/
structure Grid (K : Type) where
  points : List K
  numCells : Nat
  vertices : List Nat
  types : List VtkType
  deriving DecidableEq

/-- The points of src/io/vtk.rs:477-487. -/
def vtkPoints {K : Type} [Zero K] {d : Nat} : List (Point d K) → List K
  | [] => []
  | v :: vs => List.ofFn v ++ List.replicate (3 - d) 0 ++ vtkPoints vs

/-- `usize` to `u32` with `try_into`. -/
def toU32 (n : Nat) : Except Fail Nat := if n < 2 ^ 32 then .ok n else .error .error

/-- The loop of src/io/vtk.rs:502-505. -/
def pushIndices : List Nat → List Nat → Except Fail (List Nat)
  | [], out => .ok out
  | i :: is, out => (toU32 i).bind fun j => pushIndices is (out ++ [j])

/-- The loop of src/io/vtk.rs:494-507. -/
def pushCells (kind : Kind) : List (List Nat) → List Nat → List VtkType → Except Fail (List Nat × List VtkType)
  | [], out, types => .ok (out, types)
  | c :: cs, out, types =>
    (toU32 (vtkNumNodes kind c)).bind fun n =>
      match writeVtk kind c with
      | none => .error .panic
      | some ids => (pushIndices ids (out ++ [n])).bind fun out' => pushCells kind cs out' (types ++ [vtkType kind])

/-- src/io/vtk.rs:470-525 `try_build`; the number of cells is cast with `as u32`. -/
def tryBuild {K : Type} [Zero K] {d : Nat} (kind : Kind) (mesh : Mesh (Point d K)) : Except Fail (Grid K) :=
  if 3 < d then .error .panic
  else (pushCells kind mesh.cells [] []).bind fun r =>
    .ok ⟨vtkPoints mesh.vertices, mesh.cells.length % 2 ^ 32, r.1, r.2⟩

/-- The loop of src/io/vtk.rs:384-392. -/
def padLoop {S : Type} [Zero S] (comps : Nat) (attributes : List S) : Nat → Nat → List S → Option (List S)
  | 0, _, out => some out
  | n + 1, i, out => ((List.range comps).mapM fun (j : Nat) => attributes[comps * i + j]?).bind fun vs =>
    padLoop comps attributes n (i + 1) (out ++ vs ++ List.replicate (3 - comps) 0)

/-- src/io/vtk.rs:365-403 `with_point_vector_attributes`: the attached array. `none` is a panic. -/
def vectorAttributes {S : Type} [Zero S] (numPoints comps : Nat) (attributes : List S) : Option (List S) :=
  if attributes.length ≠ comps * numPoints then none
  else if 3 < comps then none
  else padLoop comps attributes numPoints 0 []

/-- src/io/vtk.rs:410-467 `with_point_scalar_attributes`, `with_cell_scalar_attributes`: the attached array, for `num` points
or cells. The number of components has to fit into `u32`. -/
def scalarAttributes {S : Type} (num comps : Nat) (attributes : List S) : Option (List S) :=
  if attributes.length ≠ comps * num then none
  else if 2 ^ 32 ≤ comps then none
  else some attributes

end Io
end Fenris
