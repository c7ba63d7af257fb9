import Mathlib.LinearAlgebra.Matrix.Adjugate
import Mathlib.Algebra.Order.Field.Basic
import Verif.Model.Element
/-! # Model of the element assemblers: `src/assembly/local/{elliptic,mass,source}.rs`,
`src/assembly/operators.rs`, `src/assembly/operators/laplace.rs`, `src/util.rs:38-50`

Scalars are elements of an ordered field. Small matrices are Mathlib matrices; an output matrix of
dynamic size is a function of row and column, an output vector a function of the row; its size is checked
by the global assembler before the call and never exceeded (see `C28_…`/`C29_…`, which give the value of
every entry). The work buffers for basis values and gradients are overwritten completely before they are
read; they are not part of the model. `none` is a panic, `.error` the returned error. -/
set_option autoImplicit false

namespace Fenris
namespace Local

variable {K : Type} [Field K] [LinearOrder K] {d s : Nat} {Param : Type}

/-- An output matrix (`DMatrixViewMut`). -/
abbrev Mat (K : Type) := Nat → Nat → K

/-- A volumetric finite element as the assemblers see it: `ReferenceFiniteElement` and `FiniteElement`
with equal reference and geometry dimension (src/element.rs:27-51,146-170,208-213). -/
structure VolElement (d : Nat) (K : Type) where
  numNodes : Nat
  basis : Point d K → List K
  gradients : Point d K → List (Point d K)
  jacobian : Point d K → Matrix (Fin d) (Fin d) K
  map : Point d K → Point d K

/-- An operator: `EllipticEnergy`, `EllipticOperator` and `EllipticContraction`
(src/assembly/operators.rs:20-90,192-…). A gradient is a `d × s` matrix. -/
structure Operator (d s : Nat) (K Param : Type) where
  energy : Matrix (Fin d) (Fin s) K → Param → K
  op : Matrix (Fin d) (Fin s) K → Param → Matrix (Fin d) (Fin s) K
  contract : Matrix (Fin d) (Fin s) K → Point d K → Point d K → Param → Matrix (Fin s) (Fin s) K
  symmetric : Bool

/-- `try_inverse` of `nalgebra` for matrices up to 3 × 3 (an external library): no result when the
determinant is zero, otherwise adjugate over determinant. -/
def tryInverse (j : Matrix (Fin d) (Fin d) K) : Option (Matrix (Fin d) (Fin d) K) :=
  if j.det = 0 then none else some (j.det⁻¹ • j.adjugate)

/-- `output.view_mut((r, c), (s, s)) += block`. -/
def addBlock (out : Mat K) (r c : Nat) (block : Matrix (Fin s) (Fin s) K) : Mat K := fun i j =>
  if h : (r ≤ i ∧ i < r + s) ∧ (c ≤ j ∧ j < c + s) then
    out i j + block ⟨i - r, by omega⟩ ⟨j - c, by omega⟩
  else out i j

/-- `output.rows_mut(r, s) += block`. -/
def addRows (out : Nat → K) (r : Nat) (block : Fin s → K) : Nat → K := fun i =>
  if h : r ≤ i ∧ i < r + s then out i + block ⟨i - r, by omega⟩ else out i

/-- `matrix[(i, j)] = v`. -/
def setAt (m : Mat K) (i j : Nat) (v : K) : Mat K := fun i' j' => if i' = i ∧ j' = j then v else m i' j'

/-- src/util.rs:38-50 `clone_upper_to_lower` for an `n × n` matrix. -/
def cloneUpperToLower (n : Nat) (m : Mat K) : Mat K :=
  (List.range n).foldl (fun m j =>
    (List.range' (j + 1) (n - (j + 1))).foldl (fun m i => setAt m i j (m j i)) m) m

/-- src/assembly/operators.rs:146-189 `accumulate_contractions_into` (default implementation); `a` and `b`
list the vectors that the code stores stacked. -/
def accumulateContractions (o : Operator d s K Param) (out : Mat K) (alpha : K)
    (gradient : Matrix (Fin d) (Fin s) K) (a b : List (Point d K)) (param : Param) : Mat K :=
  b.zipIdx.foldl (fun out bJ =>
    let rowRange := if o.symmetric then min (bJ.2 + 1) a.length else a.length
    (a.take rowRange).zipIdx.foldl (fun out aI =>
      addBlock out (s * aI.2) (s * bJ.2) (alpha • o.contract gradient aI.1 bJ.1 param)) out) out

/-- Column `i` of the local vector reshaped to `s × n` (column-major; src/util.rs:54-76). -/
def column (s : Nat) (u : List K) (i : Nat) : Fin s → K := fun k => u.getD (s * i + k) 0

/-- src/assembly/local/elliptic.rs:25-59 `compute_volume_u_grad`. -/
def volumeUGrad (jInvT : Matrix (Fin d) (Fin d) K) (gRef : List (Point d K)) (u : List K) :
    Matrix (Fin d) (Fin s) K :=
  jInvT * (gRef.zipIdx.foldl (fun acc gI => acc + Matrix.vecMulVec gI.1 (column s u gI.2)) 0)

/-- The quadrature arrays zipped: weight, point, data. -/
abbrev QPoint (d : Nat) (K Param : Type) := K × Point d K × Param

/-- The error message (elliptic.rs:404,498,590). -/
def singular : String := "Singular element Jacobian encountered"

/-- The loop of `assemble_element_elliptic_matrix` (elliptic.rs:397-432). -/
def ellipticMatrixLoop (el : VolElement d K) (o : Operator d s K Param) (u : List K) :
    List (QPoint d K Param) → Mat K → Except String (Mat K)
  | [], out => .ok out
  | (w, p, data) :: qs, out =>
    match tryInverse (el.jacobian p) with
    | none => .error singular
    | some jInv =>
      let phiGradRef := el.gradients p
      let uGrad := volumeUGrad jInv.transpose phiGradRef u
      let phiGrad := phiGradRef.map (fun g => jInv.transpose.mulVec g)
      let scale := w * |(el.jacobian p).det|
      ellipticMatrixLoop el o u qs (accumulateContractions o out scale uGrad phiGrad phiGrad data)

/-- src/assembly/local/elliptic.rs:361-439 `assemble_element_elliptic_matrix`. The previous contents of the
output are `out0`. -/
def ellipticMatrix (el : VolElement d K) (o : Operator d s K Param) (u : List K) (weights : List K)
    (points : List (Point d K)) (data : List Param) (_out0 : Mat K) : Option (Except String (Mat K)) :=
  if weights.length = points.length ∧ points.length = data.length ∧ u.length = s * el.numNodes then
    some ((ellipticMatrixLoop el o u (weights.zip (points.zip data)) (fun _ _ => 0)).map fun out =>
      if o.symmetric then cloneUpperToLower (s * el.numNodes) out else out)
  else none

/-- `output.gemm(alpha, a, G, 1)` on the output reshaped to `s × n`: column `I` gains `alpha a g_I`. -/
def gemmColumns (out : Nat → K) (alpha : K) (a : Matrix (Fin s) (Fin d) K) (g : List (Point d K)) : Nat → K :=
  g.zipIdx.foldl (fun out gI => addRows out (s * gI.2) (alpha • a.mulVec gI.1)) out

/-- The loop of `assemble_element_elliptic_vector` (elliptic.rs:491-528). -/
def ellipticVectorLoop (el : VolElement d K) (o : Operator d s K Param) (u : List K) :
    List (QPoint d K Param) → (Nat → K) → Except String (Nat → K)
  | [], out => .ok out
  | (w, p, data) :: qs, out =>
    match tryInverse (el.jacobian p) with
    | none => .error singular
    | some jInv =>
      let phiGradRef := el.gradients p
      let uGrad := volumeUGrad jInv.transpose phiGradRef u
      let gT := (o.op uGrad data).transpose
      ellipticVectorLoop el o u qs
        (gemmColumns out (w * |(el.jacobian p).det|) (gT * jInv.transpose) phiGradRef)

/-- src/assembly/local/elliptic.rs:457-531 `assemble_element_elliptic_vector`. -/
def ellipticVector (el : VolElement d K) (o : Operator d s K Param) (u : List K) (weights : List K)
    (points : List (Point d K)) (data : List Param) (_out0 : Nat → K) : Option (Except String (Nat → K)) :=
  if weights.length = points.length ∧ points.length = data.length ∧ u.length = s * el.numNodes then
    some (ellipticVectorLoop el o u (weights.zip (points.zip data)) (fun _ => 0))
  else none

/-- The loop of `compute_element_elliptic_energy` (elliptic.rs:580-602). -/
def ellipticEnergyLoop (el : VolElement d K) (o : Operator d s K Param) (u : List K) :
    List (QPoint d K Param) → K → Except String K
  | [], acc => .ok acc
  | (w, p, data) :: qs, acc =>
    match tryInverse (el.jacobian p) with
    | none => .error singular
    | some jInv =>
      let uGrad := volumeUGrad jInv.transpose (el.gradients p) u
      ellipticEnergyLoop el o u qs (acc + w * |(el.jacobian p).det| * o.energy uGrad data)

/-- src/assembly/local/elliptic.rs:551-605 `compute_element_elliptic_energy`. -/
def ellipticEnergy (el : VolElement d K) (o : Operator d s K Param) (u : List K) (weights : List K)
    (points : List (Point d K)) (data : List Param) : Option (Except String K) :=
  if weights.length = points.length ∧ points.length = data.length ∧ u.length = s * el.numNodes then
    some (ellipticEnergyLoop el o u (weights.zip (points.zip data)) 0)
  else none

/-- src/assembly/operators/laplace.rs:26-73 `LaplaceOperator`. -/
def laplace (d : Nat) (K : Type) [Field K] : Operator d 1 K Unit where
  energy g _ := 1 / 2 * ∑ k, g k 0 * g k 0
  op g _ := g
  contract _ a b _ := Matrix.of fun _ _ => ∑ k, a k * b k
  symmetric := true

/-- The contribution of one quadrature point to the mass matrix (src/assembly/local/mass.rs:267-279). -/
def massPoint (s : Nat) (scale : K) (phi : List K) (out : Mat K) : Mat K :=
  phi.zipIdx.foldl (fun out pI =>
    (phi.zipIdx.drop pI.2).foldl (fun out pJ =>
      (List.range s).foldl (fun out i =>
        setAt out (s * pI.2 + i) (s * pJ.2 + i)
          (out (s * pI.2 + i) (s * pJ.2 + i) + scale * pI.1 * pJ.1)) out) out) out

/-- src/assembly/local/mass.rs:218-286 `assemble_element_mass_matrix_`; always succeeds. -/
def massMatrix (el : VolElement d K) (s : Nat) (weights : List K) (points : List (Point d K))
    (density : List K) (_out0 : Mat K) : Option (Mat K) :=
  if weights.length = points.length ∧ points.length = density.length then
    some (cloneUpperToLower (s * el.numNodes)
      ((weights.zip (points.zip density)).foldl (fun out q =>
        massPoint s (q.1 * |(el.jacobian q.2.1).det| * q.2.2) (el.basis q.2.1) out) (fun _ _ => 0)))
  else none

/-- src/assembly/local/source.rs:217-278 `assemble_element_source_vector`; `source` is
`SourceFunction::evaluate`. -/
def sourceVector (el : VolElement d K) (source : Point d K → Param → Fin s → K) (weights : List K)
    (points : List (Point d K)) (data : List Param) (_out0 : Nat → K) : Option (Nat → K) :=
  if weights.length = points.length ∧ points.length = data.length then
    some ((weights.zip (points.zip data)).foldl (fun out q =>
      (el.basis q.2.1).zipIdx.foldl (fun out pI =>
        addRows out (s * pI.2)
          ((q.1 * |(el.jacobian q.2.1).det|) • fun i => source (el.map q.2.1) q.2.2 i * pI.1)) out)
      (fun _ => 0))
  else none

/-- The elements of the library with given vertices (see Model/Element.lean). -/
def elementOfKind (e : Element.Kind) (vertices : List (Point e.dim K)) : VolElement e.dim K where
  numNodes := e.numNodes
  basis := Element.basis e
  gradients := Element.gradients e
  jacobian xi := Matrix.of (Element.referenceJacobian e vertices xi)
  map := Element.mapReferenceCoords e vertices

end Local
end Fenris
