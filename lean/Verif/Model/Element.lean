import Mathlib.Data.Fin.VecNotation
import Mathlib.Algebra.Field.Defs
import Verif.Model.Refinement
/-! # Model of `src/element/*.rs`: reference elements, basis functions, gradients, geometry maps

Scalars are elements of an arbitrary field `K`.  A basis row vector is the list of its entries, the
gradient matrix is the list of its columns.  Both `Segment2d1Element` and `Segment2d2Element`
(resp. `Tri3d2Element` and `Tri3d3Element`) use the same reference element. -/
set_option autoImplicit false

namespace Fenris
namespace Element
variable {K : Type} [Field K]

/-- The element types with a `FixedNodesReferenceFiniteElement` impl (src/element.rs:132-144). -/
inductive Kind
  | segment2 | tri3 | tri6 | quad4 | quad9 | tet4 | tet10 | tet20 | hex8 | hex20 | hex27
  deriving DecidableEq, Repr

/-- `ReferenceDim` of each element type (src/element/*.rs). -/
@[reducible] def Kind.dim : Kind → Nat
  | .segment2 => 1
  | .tri3 | .tri6 | .quad4 | .quad9 => 2
  | .tet4 | .tet10 | .tet20 | .hex8 | .hex20 | .hex27 => 3

/-- `NodalDim` of each element type (src/element/*.rs). -/
def Kind.numNodes : Kind → Nat
  | .segment2 => 2 | .tri3 => 3 | .tri6 => 6 | .quad4 => 4 | .quad9 => 9 | .tet4 => 4
  | .tet10 => 10 | .tet20 => 20 | .hex8 => 8 | .hex20 => 20 | .hex27 => 27

/-! ## One-dimensional functions (src/element.rs:239-298) -/

/-- src/element.rs:246-251 `phi_linear_1d`. -/
def phiLinear1d (alpha xi : K) : K := (1 + alpha * xi) / 2

/-- src/element.rs:258-263 `phi_linear_1d_grad`. -/
def phiLinear1dGrad (alpha : K) : K := alpha / 2

/-- src/element.rs:272-281 `phi_quadratic_1d`. -/
def phiQuadratic1d (alpha xi : K) : K :=
  let alpha2 := alpha * alpha
  let xi2 := xi * xi
  (3 / 2 * alpha2 - 1) * xi2 + 1 / 2 * alpha * xi + 1 - alpha2

/-- src/element.rs:290-298 `phi_quadratic_1d_grad`. -/
def phiQuadratic1dGrad (alpha xi : K) : K :=
  let alpha2 := alpha * alpha
  2 * (3 / 2 * alpha2 - 1) * xi + 1 / 2 * alpha

/-! ## Segment (src/element/segment.rs) -/

/-- The end points of the reference interval `[-1, 1]`, which the basis of
src/element/segment.rs:80-84 refers to. -/
def segment2Nodes : List (Point 1 K) := [![-1], ![1]]

/-- src/element/segment.rs:80-84 `segment2_basis`. -/
def segment2Basis (xi : Point 1 K) : List K := [(1 - xi 0) / 2, (1 + xi 0) / 2]

/-- src/element/segment.rs:87-89 `segment2_gradients`. -/
def segment2Gradients (_xi : Point 1 K) : List (Point 1 K) := [![-1 / 2], ![1 / 2]]

/-! ## Triangles (src/element/triangle.rs) -/

/-- src/element/triangle.rs:58-60 `Tri3d2Element::reference`. -/
def tri3Nodes : List (Point 2 K) := [![-1, -1], ![1, -1], ![-1, 1]]

/-- Entry `i` of the Tri3 basis, src/element/triangle.rs:73-77 (same formulas in :364-368 for
`Tri3d3Element`). -/
def tri3Psi (xi : Point 2 K) (i : Nat) : K :=
  if i = 0 then -(1 / 2) * xi 0 - 1 / 2 * xi 1
  else if i = 1 then 1 / 2 * xi 0 + 1 / 2
  else 1 / 2 * xi 1 + 1 / 2

/-- src/element/triangle.rs:72-78 `evaluate_basis`. -/
def tri3Basis (xi : Point 2 K) : List K := [tri3Psi xi 0, tri3Psi xi 1, tri3Psi xi 2]

/-- Column `i` of the Tri3 gradients, src/element/triangle.rs:84-88. -/
def tri3G (i : Nat) : Point 2 K :=
  if i = 0 then ![-(1 / 2), -(1 / 2)] else if i = 1 then ![1 / 2, 0] else ![0, 1 / 2]

/-- src/element/triangle.rs:82-89 `gradients`. -/
def tri3Gradients (_xi : Point 2 K) : List (Point 2 K) := [tri3G 0, tri3G 1, tri3G 2]

/-- src/element/triangle.rs:188-200 `Tri6d2Element::reference`. -/
def tri6Nodes : List (Point 2 K) :=
  [![-1, -1], ![1, -1], ![-1, 1], ![0, -1], ![0, 0], ![-1, 0]]

/-- Vertex basis function of the quadratic simplices, in terms of the linear basis
(src/element/triangle.rs:217-219, src/element/tetrahedron.rs:184-187). -/
def quadVertex (psi : Nat → K) (i : Nat) : K := psi i * (2 * psi i - 1)

/-- Edge basis function of the quadratic simplices (src/element/triangle.rs:220-222,
src/element/tetrahedron.rs:188-193). -/
def quadEdge (psi : Nat → K) (i j : Nat) : K := 4 * psi i * psi j

/-- `vertex_gradient` of src/element/triangle.rs:235 and src/element/tetrahedron.rs:205. -/
def quadVertexGrad {d : Nat} (psi : Nat → K) (g : Nat → Point d K) (i : Nat) : Point d K :=
  fun k => g i k * (4 * psi i - 1)

/-- `edge_gradient` of src/element/triangle.rs:238-239 and src/element/tetrahedron.rs:208-209. -/
def quadEdgeGrad {d : Nat} (psi : Nat → K) (g : Nat → Point d K) (i j : Nat) : Point d K :=
  fun k => g i k * (4 * psi j) + g j k * (4 * psi i)

/-- src/element/triangle.rs:212-224 `evaluate_basis`. -/
def tri6Basis (xi : Point 2 K) : List K :=
  let psi := tri3Psi xi
  [quadVertex psi 0, quadVertex psi 1, quadVertex psi 2,
   quadEdge psi 0 1, quadEdge psi 1 2, quadEdge psi 0 2]

/-- src/element/triangle.rs:228-249 `gradients`. -/
def tri6Gradients (xi : Point 2 K) : List (Point 2 K) :=
  let psi := tri3Psi xi
  [quadVertexGrad psi tri3G 0, quadVertexGrad psi tri3G 1, quadVertexGrad psi tri3G 2,
   quadEdgeGrad psi tri3G 0 1, quadEdgeGrad psi tri3G 1 2, quadEdgeGrad psi tri3G 0 2]

/-! ## Quadrilaterals (src/element/quadrilateral.rs) -/

/-- src/element/quadrilateral.rs:45-53 `Quad4d2Element::reference`. -/
def quad4Nodes : List (Point 2 K) := [![-1, -1], ![1, -1], ![1, 1], ![-1, 1]]

/-- The closure `phi` of src/element/quadrilateral.rs:83. -/
def quad4Phi (alpha beta : K) (xi : Point 2 K) : K :=
  (1 + alpha * xi 0) * (1 + beta * xi 1) / 4

/-- The closure `phi_grad` of src/element/quadrilateral.rs:95-99. -/
def quad4PhiGrad (alpha beta : K) (xi : Point 2 K) : Point 2 K :=
  ![alpha * (1 + beta * xi 1) / 4, beta * (1 + alpha * xi 0) / 4]

/-- src/element/quadrilateral.rs:79-90 `evaluate_basis`. -/
def quad4Basis (xi : Point 2 K) : List K :=
  [quad4Phi (-1) (-1) xi, quad4Phi 1 (-1) xi, quad4Phi 1 1 xi, quad4Phi (-1) 1 xi]

/-- src/element/quadrilateral.rs:94-107 `gradients`. -/
def quad4Gradients (xi : Point 2 K) : List (Point 2 K) :=
  [quad4PhiGrad (-1) (-1) xi, quad4PhiGrad 1 (-1) xi, quad4PhiGrad 1 1 xi, quad4PhiGrad (-1) 1 xi]

/-- src/element/quadrilateral.rs:207-220 `Quad9d2Element::reference`. -/
def quad9Nodes : List (Point 2 K) :=
  [![-1, -1], ![1, -1], ![1, 1], ![-1, 1], ![0, -1], ![1, 0], ![0, 1], ![-1, 0], ![0, 0]]

/-- src/element/quadrilateral.rs:224-233 `quad9_phi_1d`. -/
def quad9Phi1d (alpha xi : K) : K :=
  let alpha2 := alpha * alpha
  let a := (3 / 2) * alpha2 - 1
  let b := alpha / 2
  let c := 1 - alpha2
  a * xi * xi + b * xi + c

/-- The closure `phi_grad_1d` of src/element/quadrilateral.rs:278-283. -/
def quad9PhiGrad1d (alpha xi : K) : K :=
  let alpha2 := alpha * alpha
  let a := (3 / 2) * alpha2 - 1
  let b := alpha / 2
  2 * a * xi + b

/-- The closure `phi` of src/element/quadrilateral.rs:253-257. -/
def quad9Phi (alpha beta : K) (xi : Point 2 K) : K := quad9Phi1d alpha (xi 0) * quad9Phi1d beta (xi 1)

/-- The closure `phi_grad` of src/element/quadrilateral.rs:285-292. -/
def quad9PhiGrad (alpha beta : K) (xi : Point 2 K) : Point 2 K :=
  ![quad9Phi1d beta (xi 1) * quad9PhiGrad1d alpha (xi 0),
    quad9Phi1d alpha (xi 0) * quad9PhiGrad1d beta (xi 1)]

/-- src/element/quadrilateral.rs:244-270 `evaluate_basis`. -/
def quad9Basis (xi : Point 2 K) : List K :=
  [quad9Phi (-1) (-1) xi, quad9Phi 1 (-1) xi, quad9Phi 1 1 xi, quad9Phi (-1) 1 xi,
   quad9Phi 0 (-1) xi, quad9Phi 1 0 xi, quad9Phi 0 1 xi, quad9Phi (-1) 0 xi, quad9Phi 0 0 xi]

/-- src/element/quadrilateral.rs:274-305 `gradients`. -/
def quad9Gradients (xi : Point 2 K) : List (Point 2 K) :=
  [quad9PhiGrad (-1) (-1) xi, quad9PhiGrad 1 (-1) xi, quad9PhiGrad 1 1 xi, quad9PhiGrad (-1) 1 xi,
   quad9PhiGrad 0 (-1) xi, quad9PhiGrad 1 0 xi, quad9PhiGrad 0 1 xi, quad9PhiGrad (-1) 0 xi,
   quad9PhiGrad 0 0 xi]

/-! ## Tetrahedra (src/element/tetrahedron.rs) -/

/-- src/element/tetrahedron.rs:530-540 `Tet4Element::reference`. -/
def tet4Nodes : List (Point 3 K) := [![-1, -1, -1], ![1, -1, -1], ![-1, 1, -1], ![-1, -1, 1]]

/-- Entry `i` of the Tet4 basis, src/element/tetrahedron.rs:551-558. -/
def tet4Psi (xi : Point 3 K) (i : Nat) : K :=
  if i = 0 then -(1 / 2) * xi 0 - 1 / 2 * xi 1 - 1 / 2 * xi 2 - 1 / 2
  else if i = 1 then 1 / 2 * xi 0 + 1 / 2
  else if i = 2 then 1 / 2 * xi 1 + 1 / 2
  else 1 / 2 * xi 2 + 1 / 2

/-- src/element/tetrahedron.rs:551-558 `evaluate_basis`. -/
def tet4Basis (xi : Point 3 K) : List K := [tet4Psi xi 0, tet4Psi xi 1, tet4Psi xi 2, tet4Psi xi 3]

/-- Column `i` of the Tet4 gradients, src/element/tetrahedron.rs:561-568. -/
def tet4G (i : Nat) : Point 3 K :=
  if i = 0 then ![-(1 / 2), -(1 / 2), -(1 / 2)]
  else if i = 1 then ![1 / 2, 0, 0] else if i = 2 then ![0, 1 / 2, 0] else ![0, 0, 1 / 2]

/-- src/element/tetrahedron.rs:561-568 `gradients`. -/
def tet4Gradients (_xi : Point 3 K) : List (Point 3 K) := [tet4G 0, tet4G 1, tet4G 2, tet4G 3]

/-- src/element/tetrahedron.rs:151-167 `Tet10Element::reference`. -/
def tet10Nodes : List (Point 3 K) :=
  [![-1, -1, -1], ![1, -1, -1], ![-1, 1, -1], ![-1, -1, 1],
   ![0, -1, -1], ![0, 0, -1], ![-1, 0, -1], ![-1, -1, 0], ![-1, 0, 0], ![0, -1, 0]]

/-- src/element/tetrahedron.rs:179-195 `evaluate_basis`. -/
def tet10Basis (xi : Point 3 K) : List K :=
  let psi := tet4Psi xi
  [quadVertex psi 0, quadVertex psi 1, quadVertex psi 2, quadVertex psi 3,
   quadEdge psi 0 1, quadEdge psi 1 2, quadEdge psi 0 2, quadEdge psi 0 3, quadEdge psi 2 3,
   quadEdge psi 1 3]

/-- src/element/tetrahedron.rs:198-223 `gradients`. -/
def tet10Gradients (xi : Point 3 K) : List (Point 3 K) :=
  let psi := tet4Psi xi
  [quadVertexGrad psi tet4G 0, quadVertexGrad psi tet4G 1, quadVertexGrad psi tet4G 2,
   quadVertexGrad psi tet4G 3,
   quadEdgeGrad psi tet4G 0 1, quadEdgeGrad psi tet4G 1 2, quadEdgeGrad psi tet4G 0 2,
   quadEdgeGrad psi tet4G 0 3, quadEdgeGrad psi tet4G 2 3, quadEdgeGrad psi tet4G 1 3]

/-- src/element/tetrahedron.rs:303-340 `Tet20Element::reference`. -/
def tet20Nodes : List (Point 3 K) :=
  [![-1, -1, -1], ![1, -1, -1], ![-1, 1, -1], ![-1, -1, 1],
   ![-1 / 3, -1, -1], ![1 / 3, -1, -1],
   ![-1, -1 / 3, -1], ![-1, 1 / 3, -1],
   ![-1, -1, -1 / 3], ![-1, -1, 1 / 3],
   ![1 / 3, -1 / 3, -1], ![-1 / 3, 1 / 3, -1],
   ![1 / 3, -1, -1 / 3], ![-1 / 3, -1, 1 / 3],
   ![-1, 1 / 3, -1 / 3], ![-1, -1 / 3, 1 / 3],
   ![-1 / 3, -1 / 3, -1], ![-1 / 3, -1, -1 / 3], ![-1, -1 / 3, -1 / 3], ![-1 / 3, -1 / 3, -1 / 3]]

/-- Corner functions of src/element/tetrahedron.rs:369-372. -/
def cubicVertex (psi : Nat → K) (i : Nat) : K :=
  1 / 2 * psi i * (3 * psi i - 1) * (3 * psi i - 2)

/-- The closure `phi_edge` of src/element/tetrahedron.rs:361-362. -/
def cubicEdge (psi : Nat → K) (closest other : Nat) : K :=
  (9 / 2) * psi closest * psi other * (3 * psi closest - 1)

/-- The closure `phi_face` of src/element/tetrahedron.rs:365-366. -/
def cubicFace (psi : Nat → K) (a b c : Nat) : K := 27 * psi a * psi b * psi c

/-- src/element/tetrahedron.rs:353-404 `evaluate_basis`. -/
def tet20Basis (xi : Point 3 K) : List K :=
  let psi := tet4Psi xi
  [cubicVertex psi 0, cubicVertex psi 1, cubicVertex psi 2, cubicVertex psi 3,
   cubicEdge psi 0 1, cubicEdge psi 1 0, cubicEdge psi 0 2, cubicEdge psi 2 0,
   cubicEdge psi 0 3, cubicEdge psi 3 0, cubicEdge psi 1 2, cubicEdge psi 2 1,
   cubicEdge psi 1 3, cubicEdge psi 3 1, cubicEdge psi 2 3, cubicEdge psi 3 2,
   cubicFace psi 0 1 2, cubicFace psi 0 1 3, cubicFace psi 0 2 3, cubicFace psi 1 2 3]

/-- The closure `vertex_gradient` of src/element/tetrahedron.rs:416-419. -/
def cubicVertexGrad (psi : Nat → K) (g : Nat → Point 3 K) (i : Nat) : Point 3 K :=
  fun k => g i k * (1 / 2) * (27 * psi i * psi i - 18 * psi i + 2)

/-- The closure `edge_gradient` of src/element/tetrahedron.rs:422-426. -/
def cubicEdgeGrad (psi : Nat → K) (g : Nat → Point 3 K) (a b : Nat) : Point 3 K :=
  fun k => (g a k * (psi b * (6 * psi a - 1)) + g b k * (psi a * (3 * psi a - 1))) * (9 / 2)

/-- The closure `face_gradient` of src/element/tetrahedron.rs:428-430. -/
def cubicFaceGrad (psi : Nat → K) (g : Nat → Point 3 K) (a b c : Nat) : Point 3 K :=
  fun k => (g a k * psi b * psi c + g b k * psi a * psi c + g c k * psi a * psi b) * 27

/-- src/element/tetrahedron.rs:408-469 `gradients`. -/
def tet20Gradients (xi : Point 3 K) : List (Point 3 K) :=
  let psi := tet4Psi xi
  [cubicVertexGrad psi tet4G 0, cubicVertexGrad psi tet4G 1, cubicVertexGrad psi tet4G 2,
   cubicVertexGrad psi tet4G 3,
   cubicEdgeGrad psi tet4G 0 1, cubicEdgeGrad psi tet4G 1 0, cubicEdgeGrad psi tet4G 0 2,
   cubicEdgeGrad psi tet4G 2 0, cubicEdgeGrad psi tet4G 0 3, cubicEdgeGrad psi tet4G 3 0,
   cubicEdgeGrad psi tet4G 1 2, cubicEdgeGrad psi tet4G 2 1, cubicEdgeGrad psi tet4G 1 3,
   cubicEdgeGrad psi tet4G 3 1, cubicEdgeGrad psi tet4G 2 3, cubicEdgeGrad psi tet4G 3 2,
   cubicFaceGrad psi tet4G 0 1 2, cubicFaceGrad psi tet4G 0 1 3, cubicFaceGrad psi tet4G 0 2 3,
   cubicFaceGrad psi tet4G 1 2 3]

/-! ## Hexahedra (src/element/hexahedron.rs) -/

/-- src/element/hexahedron.rs:142-153 `Hex8Element::reference`. -/
def hex8Nodes : List (Point 3 K) :=
  [![-1, -1, -1], ![1, -1, -1], ![1, 1, -1], ![-1, 1, -1],
   ![-1, -1, 1], ![1, -1, 1], ![1, 1, 1], ![-1, 1, 1]]

/-- The edge nodes shared by src/element/hexahedron.rs:189-200 and :390-401. -/
def hexEdgeNodes : List (Point 3 K) :=
  [![0, -1, -1], ![-1, 0, -1], ![-1, -1, 0], ![1, 0, -1], ![1, -1, 0], ![0, 1, -1],
   ![1, 1, 0], ![-1, 1, 0], ![0, -1, 1], ![-1, 0, 1], ![1, 0, 1], ![0, 1, 1]]

/-- src/element/hexahedron.rs:178-211 `Hex27Element::reference`. -/
def hex27Nodes : List (Point 3 K) :=
  hex8Nodes ++ hexEdgeNodes ++
  [![0, 0, -1], ![0, -1, 0], ![-1, 0, 0], ![1, 0, 0], ![0, 1, 0], ![0, 0, 1], ![0, 0, 0]]

/-- src/element/hexahedron.rs:378-402 `Hex20Element::reference`. -/
def hex20Nodes : List (Point 3 K) := hex8Nodes ++ hexEdgeNodes

/-- The closure `phi` of src/element/hexahedron.rs:47-48. -/
def hex8Phi (alpha beta gamma : K) (xi : Point 3 K) : K :=
  phiLinear1d alpha (xi 0) * phiLinear1d beta (xi 1) * phiLinear1d gamma (xi 2)

/-- The closure `phi_grad` of src/element/hexahedron.rs:66-71. -/
def hex8PhiGrad (alpha beta gamma : K) (xi : Point 3 K) : Point 3 K :=
  ![phiLinear1dGrad alpha * phiLinear1d beta (xi 1) * phiLinear1d gamma (xi 2),
    phiLinear1d alpha (xi 0) * phiLinear1dGrad beta * phiLinear1d gamma (xi 2),
    phiLinear1d alpha (xi 0) * phiLinear1d beta (xi 1) * phiLinear1dGrad gamma]

/-- src/element/hexahedron.rs:43-59 `evaluate_basis`. -/
def hex8Basis (xi : Point 3 K) : List K :=
  [hex8Phi (-1) (-1) (-1) xi, hex8Phi 1 (-1) (-1) xi, hex8Phi 1 1 (-1) xi, hex8Phi (-1) 1 (-1) xi,
   hex8Phi (-1) (-1) 1 xi, hex8Phi 1 (-1) 1 xi, hex8Phi 1 1 1 xi, hex8Phi (-1) 1 1 xi]

/-- src/element/hexahedron.rs:63-83 `gradients`. -/
def hex8Gradients (xi : Point 3 K) : List (Point 3 K) :=
  [hex8PhiGrad (-1) (-1) (-1) xi, hex8PhiGrad 1 (-1) (-1) xi, hex8PhiGrad 1 1 (-1) xi,
   hex8PhiGrad (-1) 1 (-1) xi, hex8PhiGrad (-1) (-1) 1 xi, hex8PhiGrad 1 (-1) 1 xi,
   hex8PhiGrad 1 1 1 xi, hex8PhiGrad (-1) 1 1 xi]

/-- The closure `phi` of src/element/hexahedron.rs:227-228. -/
def hex27Phi (alpha beta gamma : K) (xi : Point 3 K) : K :=
  phiQuadratic1d alpha (xi 0) * phiQuadratic1d beta (xi 1) * phiQuadratic1d gamma (xi 2)

/-- The closure `phi_grad` of src/element/hexahedron.rs:272-277. -/
def hex27PhiGrad (alpha beta gamma : K) (xi : Point 3 K) : Point 3 K :=
  ![phiQuadratic1dGrad alpha (xi 0) * phiQuadratic1d beta (xi 1) * phiQuadratic1d gamma (xi 2),
    phiQuadratic1d alpha (xi 0) * phiQuadratic1dGrad beta (xi 1) * phiQuadratic1d gamma (xi 2),
    phiQuadratic1d alpha (xi 0) * phiQuadratic1d beta (xi 1) * phiQuadratic1dGrad gamma (xi 2)]

/-- src/element/hexahedron.rs:223-265 `evaluate_basis`. -/
def hex27Basis (xi : Point 3 K) : List K :=
  [hex27Phi (-1) (-1) (-1) xi, hex27Phi 1 (-1) (-1) xi, hex27Phi 1 1 (-1) xi,
   hex27Phi (-1) 1 (-1) xi, hex27Phi (-1) (-1) 1 xi, hex27Phi 1 (-1) 1 xi, hex27Phi 1 1 1 xi,
   hex27Phi (-1) 1 1 xi,
   hex27Phi 0 (-1) (-1) xi, hex27Phi (-1) 0 (-1) xi, hex27Phi (-1) (-1) 0 xi,
   hex27Phi 1 0 (-1) xi, hex27Phi 1 (-1) 0 xi, hex27Phi 0 1 (-1) xi, hex27Phi 1 1 0 xi,
   hex27Phi (-1) 1 0 xi, hex27Phi 0 (-1) 1 xi, hex27Phi (-1) 0 1 xi, hex27Phi 1 0 1 xi,
   hex27Phi 0 1 1 xi,
   hex27Phi 0 0 (-1) xi, hex27Phi 0 (-1) 0 xi, hex27Phi (-1) 0 0 xi, hex27Phi 1 0 0 xi,
   hex27Phi 0 1 0 xi, hex27Phi 0 0 1 xi, hex27Phi 0 0 0 xi]

/-- src/element/hexahedron.rs:269-315 `gradients`. -/
def hex27Gradients (xi : Point 3 K) : List (Point 3 K) :=
  [hex27PhiGrad (-1) (-1) (-1) xi, hex27PhiGrad 1 (-1) (-1) xi, hex27PhiGrad 1 1 (-1) xi,
   hex27PhiGrad (-1) 1 (-1) xi, hex27PhiGrad (-1) (-1) 1 xi, hex27PhiGrad 1 (-1) 1 xi,
   hex27PhiGrad 1 1 1 xi, hex27PhiGrad (-1) 1 1 xi,
   hex27PhiGrad 0 (-1) (-1) xi, hex27PhiGrad (-1) 0 (-1) xi, hex27PhiGrad (-1) (-1) 0 xi,
   hex27PhiGrad 1 0 (-1) xi, hex27PhiGrad 1 (-1) 0 xi, hex27PhiGrad 0 1 (-1) xi,
   hex27PhiGrad 1 1 0 xi, hex27PhiGrad (-1) 1 0 xi, hex27PhiGrad 0 (-1) 1 xi,
   hex27PhiGrad (-1) 0 1 xi, hex27PhiGrad 1 0 1 xi, hex27PhiGrad 0 1 1 xi,
   hex27PhiGrad 0 0 (-1) xi, hex27PhiGrad 0 (-1) 0 xi, hex27PhiGrad (-1) 0 0 xi,
   hex27PhiGrad 1 0 0 xi, hex27PhiGrad 0 1 0 xi, hex27PhiGrad 0 0 1 xi, hex27PhiGrad 0 0 0 xi]

/-- The closure `phi_corner` of src/element/hexahedron.rs:422-426. -/
def hex20Corner (alpha beta gamma : K) (xi : Point 3 K) : K :=
  (1 / 8) * (1 + alpha * xi 0) * (1 + beta * xi 1) * (1 + gamma * xi 2)
    * (alpha * xi 0 + beta * xi 1 + gamma * xi 2 - 2)

/-- The closure `phi_edge` of src/element/hexahedron.rs:428-436. -/
def hex20Edge (alpha beta gamma : K) (xi : Point 3 K) : K :=
  let alpha2 := alpha * alpha
  let beta2 := beta * beta
  let gamma2 := gamma * gamma
  (1 / 4) * (1 - (1 - alpha2) * xi 0 * xi 0) * (1 - (1 - beta2) * xi 1 * xi 1)
    * (1 - (1 - gamma2) * xi 2 * xi 2)
    * (1 + alpha * xi 0) * (1 + beta * xi 1) * (1 + gamma * xi 2)

/-- The closure `phi_grad_corner` of src/element/hexahedron.rs:468-482. -/
def hex20CornerGrad (alpha beta gamma : K) (xi : Point 3 K) : Point 3 K :=
  let f := alpha * xi 0 + beta * xi 1 + gamma * xi 2 - 2
  let g := (1 + alpha * xi 0) * (1 + beta * xi 1) * (1 + gamma * xi 2)
  let s := 1 / 8
  ![s * (alpha * g + f * alpha * (1 + beta * xi 1) * (1 + gamma * xi 2)),
    s * (beta * g + f * beta * (1 + alpha * xi 0) * (1 + gamma * xi 2)),
    s * (gamma * g + f * gamma * (1 + alpha * xi 0) * (1 + beta * xi 1))]

/-- The closure `phi_grad_edge` of src/element/hexahedron.rs:484-516. -/
def hex20EdgeGrad (alpha beta gamma : K) (xi : Point 3 K) : Point 3 K :=
  let alpha2 := alpha * alpha
  let beta2 := beta * beta
  let gamma2 := gamma * gamma
  let h := (1 - (1 - alpha2) * xi 0 * xi 0) * (1 - (1 - beta2) * xi 1 * xi 1)
    * (1 - (1 - gamma2) * xi 2 * xi 2)
  let g := (1 + alpha * xi 0) * (1 + beta * xi 1) * (1 + gamma * xi 2)
  let s := 1 / 4
  let dh0 := -2 * (1 - alpha2) * xi 0
    * (1 - (1 - beta2) * xi 1 * xi 1) * (1 - (1 - gamma2) * xi 2 * xi 2)
  let dh1 := -2 * (1 - beta2) * xi 1
    * (1 - (1 - alpha2) * xi 0 * xi 0) * (1 - (1 - gamma2) * xi 2 * xi 2)
  let dh2 := -2 * (1 - gamma2) * xi 2
    * (1 - (1 - alpha2) * xi 0 * xi 0) * (1 - (1 - beta2) * xi 1 * xi 1)
  ![s * (dh0 * g + h * alpha * (1 + beta * xi 1) * (1 + gamma * xi 2)),
    s * (dh1 * g + h * beta * (1 + alpha * xi 0) * (1 + gamma * xi 2)),
    s * (dh2 * g + h * gamma * (1 + alpha * xi 0) * (1 + beta * xi 1))]

/-- src/element/hexahedron.rs:414-463 `evaluate_basis`. -/
def hex20Basis (xi : Point 3 K) : List K :=
  [hex20Corner (-1) (-1) (-1) xi, hex20Corner 1 (-1) (-1) xi, hex20Corner 1 1 (-1) xi,
   hex20Corner (-1) 1 (-1) xi, hex20Corner (-1) (-1) 1 xi, hex20Corner 1 (-1) 1 xi,
   hex20Corner 1 1 1 xi, hex20Corner (-1) 1 1 xi,
   hex20Edge 0 (-1) (-1) xi, hex20Edge (-1) 0 (-1) xi, hex20Edge (-1) (-1) 0 xi,
   hex20Edge 1 0 (-1) xi, hex20Edge 1 (-1) 0 xi, hex20Edge 0 1 (-1) xi, hex20Edge 1 1 0 xi,
   hex20Edge (-1) 1 0 xi, hex20Edge 0 (-1) 1 xi, hex20Edge (-1) 0 1 xi, hex20Edge 1 0 1 xi,
   hex20Edge 0 1 1 xi]

/-- src/element/hexahedron.rs:467-543 `gradients`. -/
def hex20Gradients (xi : Point 3 K) : List (Point 3 K) :=
  [hex20CornerGrad (-1) (-1) (-1) xi, hex20CornerGrad 1 (-1) (-1) xi, hex20CornerGrad 1 1 (-1) xi,
   hex20CornerGrad (-1) 1 (-1) xi, hex20CornerGrad (-1) (-1) 1 xi, hex20CornerGrad 1 (-1) 1 xi,
   hex20CornerGrad 1 1 1 xi, hex20CornerGrad (-1) 1 1 xi,
   hex20EdgeGrad 0 (-1) (-1) xi, hex20EdgeGrad (-1) 0 (-1) xi, hex20EdgeGrad (-1) (-1) 0 xi,
   hex20EdgeGrad 1 0 (-1) xi, hex20EdgeGrad 1 (-1) 0 xi, hex20EdgeGrad 0 1 (-1) xi,
   hex20EdgeGrad 1 1 0 xi, hex20EdgeGrad (-1) 1 0 xi, hex20EdgeGrad 0 (-1) 1 xi,
   hex20EdgeGrad (-1) 0 1 xi, hex20EdgeGrad 1 0 1 xi, hex20EdgeGrad 0 1 1 xi]

/-! ## Uniform access -/

/-- `reference()` of each element type: the vertices of the reference element. -/
def refNodes : (e : Kind) → List (Point e.dim K)
  | .segment2 => segment2Nodes | .tri3 => tri3Nodes | .tri6 => tri6Nodes | .quad4 => quad4Nodes
  | .quad9 => quad9Nodes | .tet4 => tet4Nodes | .tet10 => tet10Nodes | .tet20 => tet20Nodes
  | .hex8 => hex8Nodes | .hex20 => hex20Nodes | .hex27 => hex27Nodes

/-- src/element.rs:111-117 `populate_basis`. -/
def basis : (e : Kind) → Point e.dim K → List K
  | .segment2 => segment2Basis | .tri3 => tri3Basis | .tri6 => tri6Basis | .quad4 => quad4Basis
  | .quad9 => quad9Basis | .tet4 => tet4Basis | .tet10 => tet10Basis | .tet20 => tet20Basis
  | .hex8 => hex8Basis | .hex20 => hex20Basis | .hex27 => hex27Basis

/-- src/element.rs:119-127 `populate_basis_gradients` (columns of the matrix). -/
def gradients : (e : Kind) → Point e.dim K → List (Point e.dim K)
  | .segment2 => segment2Gradients | .tri3 => tri3Gradients | .tri6 => tri6Gradients
  | .quad4 => quad4Gradients | .quad9 => quad9Gradients | .tet4 => tet4Gradients
  | .tet10 => tet10Gradients | .tet20 => tet20Gradients | .hex8 => hex8Gradients
  | .hex20 => hex20Gradients | .hex27 => hex27Gradients

/-- The linear element that carries the geometry of each element type (fields `tri3`, `quad`,
`tet4`, `hex8` of the structs in src/element/*.rs). -/
@[reducible] def Kind.geometry : Kind → Kind
  | .segment2 => .segment2
  | .tri3 | .tri6 => .tri3
  | .quad4 | .quad9 => .quad4
  | .tet4 | .tet10 | .tet20 => .tet4
  | .hex8 | .hex20 | .hex27 => .hex8

/-- Basis of the linear element that carries the geometry (see `Kind.geometry`). -/
def geometryBasis : (e : Kind) → Point e.dim K → List K
  | .segment2 => segment2Basis | .tri3 => tri3Basis | .tri6 => tri3Basis | .quad4 => quad4Basis
  | .quad9 => quad4Basis | .tet4 => tet4Basis | .tet10 => tet4Basis | .tet20 => tet4Basis
  | .hex8 => hex8Basis | .hex20 => hex8Basis | .hex27 => hex8Basis

/-- Gradients of the linear element that carries the geometry (see `Kind.geometry`). -/
def geometryGradients : (e : Kind) → Point e.dim K → List (Point e.dim K)
  | .segment2 => segment2Gradients | .tri3 => tri3Gradients | .tri6 => tri3Gradients
  | .quad4 => quad4Gradients | .quad9 => quad4Gradients | .tet4 => tet4Gradients
  | .tet10 => tet4Gradients | .tet20 => tet4Gradients | .hex8 => hex8Gradients
  | .hex20 => hex8Gradients | .hex27 => hex8Gradients

/-- The product `X * Nᵀ` of the matrix whose columns are `points` with a row vector: the
weighted sum of the points. -/
def weightedSum {d : Nat} : List (Point d K) → List K → Point d K
  | p :: ps, n :: ns => fun k => p k * n + weightedSum ps ns k
  | _, _ => fun _ => 0

/-- `map_reference_coords` of the linear elements: src/element/segment.rs:138-143,163-168,
src/element/triangle.rs:106-111,398-403, src/element/quadrilateral.rs:117-122,
src/element/tetrahedron.rs:593-598, src/element/hexahedron.rs:93-98; the higher-order elements
delegate to the linear element made of their first vertices
(src/element/triangle.rs:262-264, src/element/quadrilateral.rs:321-323,
src/element/tetrahedron.rs:238-240,484-486, src/element/hexahedron.rs:328-330,556-558).
`vertices` are the vertices of the element in physical space (`g` is the geometry dimension). -/
def mapReferenceCoords {g : Nat} (e : Kind) (vertices : List (Point g K)) (xi : Point e.dim K) :
    Point g K :=
  weightedSum (vertices.take e.geometry.numNodes) (geometryBasis e xi)

/-- `reference_jacobian`: `X * Gᵀ` (src/element/triangle.rs:99-103,391-395,258-260,
src/element/quadrilateral.rs:125-132,315-318, src/element/tetrahedron.rs:584-590,233-235,479-481,
src/element/hexahedron.rs:101-107,324-326,552-554; the segment computes `(b - a) / 2`,
src/element/segment.rs:129-134,154-159, see `segmentJacobian`).  Entry `(r, c)` of the matrix. -/
def referenceJacobian {g : Nat} (e : Kind) (vertices : List (Point g K)) (xi : Point e.dim K)
    (r : Fin g) (c : Fin e.dim) : K :=
  weightedSum (vertices.take e.geometry.numNodes)
    ((geometryGradients e xi).map (fun G => G c)) r

/-- src/element/segment.rs:129-134,154-159 `reference_jacobian` of the segments. -/
def segmentJacobian {g : Nat} (a b : Point g K) : Point g K := fun k => (b k - a k) / 2

/-- `u_h(ξ)`: nodal values weighted by basis values (e.g. src/assembly/local.rs,
`compute_interpolation`; src/space/interpolate.rs). -/
def interpolate (values basisValues : List K) : K := (List.zipWith (· * ·) values basisValues).sum

/-- `get_face_connectivity(0..num_faces)` on local node numbers: src/connectivity.rs:205-212
(Quad4), :252-259 (Tri3), :340-351 (Tri6), :414-423 (Quad9), :532-543 (Tet4), :616-634 (Hex8),
:676-698 (Hex27), :740-763 (Hex20), :928-937 (Tet10), :982-988 (Tet20: no faces). -/
def localFaces : Kind → List (List Nat)
  | .segment2 => []
  | .tri3 => [[0, 1], [1, 2], [2, 0]]
  | .tri6 => [[0, 3, 1], [1, 4, 2], [2, 5, 0]]
  | .quad4 => [[0, 1], [1, 2], [2, 3], [3, 0]]
  | .quad9 => [[0, 4, 1], [1, 5, 2], [2, 6, 3], [3, 7, 0]]
  | .tet4 => [[0, 2, 1], [0, 1, 3], [1, 2, 3], [0, 3, 2]]
  | .tet10 => [[0, 2, 1, 6, 5, 4], [0, 1, 3, 4, 9, 7], [1, 2, 3, 5, 8, 9], [0, 3, 2, 7, 8, 6]]
  | .tet20 => []
  | .hex8 => [[3, 2, 1, 0], [0, 1, 5, 4], [1, 2, 6, 5], [2, 3, 7, 6], [4, 7, 3, 0], [5, 6, 7, 4]]
  | .hex20 => [[0, 3, 2, 1, 9, 13, 11, 8], [0, 1, 5, 4, 8, 12, 16, 10],
      [1, 2, 6, 5, 11, 14, 18, 12], [2, 3, 7, 6, 13, 15, 19, 14], [0, 4, 7, 3, 10, 17, 15, 9],
      [4, 5, 6, 7, 16, 18, 19, 17]]
  | .hex27 => [[0, 3, 2, 1, 9, 13, 11, 8, 20], [0, 1, 5, 4, 8, 12, 16, 10, 21],
      [1, 2, 6, 5, 11, 14, 18, 12, 23], [2, 3, 7, 6, 13, 15, 19, 14, 24],
      [0, 4, 7, 3, 10, 17, 15, 9, 22], [4, 5, 6, 7, 16, 18, 19, 17, 25]]

end Element
end Fenris
