import Verif.Model.EllipticAssembler
/-! # Model of `ElementMassAssembler` and `ElementSourceAssembler`, `src/assembly/local/mass.rs`, `src/assembly/local/source.rs`

The thread-local workspaces hold the quadrature buffer left over from the previous element. The buffer with the values of the basis
functions is resized on every call and overwritten at every quadrature point and is therefore not kept. -/
set_option autoImplicit false

namespace Fenris
namespace Local

open Quadrature

variable {K : Type} [Field K] [LinearOrder K] {d s : Nat} {Param : Type} [Inhabited Param]

attribute [local instance] zeroFill

/-- src/assembly/local/mass.rs:136-158 `ElementMassAssembler::assemble_element_matrix_into`: result and workspace. The data of the table
are the densities (`Density::as_inner_slice` is the identity; `Density::default` is zero, mass.rs:34-38). -/
def massElementMatrix (space : Space d K) (s : Nat) (table : Table (Point d K) K K) (buf : Buffer (Point d K) K K) (out0 : Mat K) (e : Nat) :
    Option (Except String (Mat K) × Buffer (Point d K) K K) :=
  space[e]?.bind fun en => (buf.populate e table).bind fun b =>
    (massMatrix en.1 s b.weights b.points b.data out0).map fun m => (.ok m, b)

/-- src/assembly/local/source.rs:163-193 `ElementSourceAssembler::assemble_element_vector_into`. -/
def sourceElementVector (space : Space d K) (source : Point d K → Param → Fin s → K) (table : Table (Point d K) K Param)
    (buf : Buffer (Point d K) K Param) (out0 : Nat → K) (e : Nat) : Option (Except String (Nat → K) × Buffer (Point d K) K Param) :=
  space[e]?.bind fun en => (buf.populate e table).bind fun b =>
    (sourceVector en.1 source b.weights b.points b.data out0).map fun v => (.ok v, b)

end Local
end Fenris
