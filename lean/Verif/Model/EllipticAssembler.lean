import Verif.Model.ElementAssembly
import Verif.Model.QuadratureTable
import Verif.Model.Assembly
/-! # Model of `ElementEllipticAssembler`, `src/assembly/local/elliptic.rs:152-340`

The thread-local workspace holds the quadrature buffer left over from the previous element; the local
solution vector and the node and gradient buffers are resized and overwritten completely on every call and
are therefore not kept. -/
set_option autoImplicit false

namespace Fenris
namespace Local

open Quadrature

variable {K : Type} [Field K] [LinearOrder K] {d s : Nat} {Param : Type} [Inhabited Param]

/-- Buffers are extended by zeros (src/assembly/buffers.rs:160-164). -/
@[reducible] def zeroFill : Inhabited K := ⟨0⟩
attribute [local instance] zeroFill

/-- A finite element space as the assembler sees it: for each element its geometry and its nodes. -/
abbrev Space (d : Nat) (K : Type) := List (VolElement d K × List Nat)

/-- The common beginning of the three functions (elliptic.rs:227-242,267-283,309-326): nodes, local solution
and quadrature of element `e`. -/
def prepare (space : Space d K) (table : Table (Point d K) K Param) (u : List K) (s : Nat)
    (buf : Buffer (Point d K) K Param) (e : Nat) :
    Option (VolElement d K × List K × Buffer (Point d K) K Param) :=
  space[e]?.bind fun en => (Assembly.gather s u en.2).bind fun ul =>
    (buf.populate e table).map fun b => (en.1, ul, b)

/-- src/assembly/local/elliptic.rs:308-339 `assemble_element_matrix_into`: result and workspace. -/
def elementMatrix (space : Space d K) (o : Operator d s K Param) (table : Table (Point d K) K Param)
    (u : List K) (buf : Buffer (Point d K) K Param) (out0 : Mat K) (e : Nat) :
    Option (Except String (Mat K) × Buffer (Point d K) K Param) :=
  (prepare space table u s buf e).bind fun p =>
    (ellipticMatrix p.1 o p.2.1 p.2.2.weights p.2.2.points p.2.2.data out0).map fun r => (r, p.2.2)

/-- src/assembly/local/elliptic.rs:266-296 `assemble_element_vector_into`. -/
def elementVector (space : Space d K) (o : Operator d s K Param) (table : Table (Point d K) K Param)
    (u : List K) (buf : Buffer (Point d K) K Param) (out0 : Nat → K) (e : Nat) :
    Option (Except String (Nat → K) × Buffer (Point d K) K Param) :=
  (prepare space table u s buf e).bind fun p =>
    (ellipticVector p.1 o p.2.1 p.2.2.weights p.2.2.points p.2.2.data out0).map fun r => (r, p.2.2)

/-- src/assembly/local/elliptic.rs:226-254 `assemble_element_scalar`. -/
def elementEnergy (space : Space d K) (o : Operator d s K Param) (table : Table (Point d K) K Param)
    (u : List K) (buf : Buffer (Point d K) K Param) (e : Nat) :
    Option (Except String K × Buffer (Point d K) K Param) :=
  (prepare space table u s buf e).bind fun p =>
    (ellipticEnergy p.1 o p.2.1 p.2.2.weights p.2.2.points p.2.2.data).map fun r => (r, p.2.2)

end Local
end Fenris
