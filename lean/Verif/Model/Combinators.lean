import Verif.Model.Aggregate
/-! # Model of element assemblers and of the adapters that combine them, `src/assembly/local.rs` -/
set_option autoImplicit false

namespace Fenris.Combinators
open Fenris.Assembly

/-- An element assembler: the methods of `ElementConnectivityAssembler`, `ElementScalarAssembler`, `ElementVectorAssembler` and
`ElementMatrixAssembler` (src/assembly/local.rs:18-28, 77-146). `none` is a panic, `Except.error` an `Err`. Vectors and matrices are given by
their entries; that what is in the output before the call does not matter is part of C28, C29 and C90. -/
structure Assembler (E K : Type) where
  solutionDim : Nat
  numNodes : Nat
  numElements : Nat
  nodes : Nat → Option (List Nat)
  scalar : Nat → Option (Except E K)
  vector : Nat → Option (Except E (Nat → K))
  matrix : Nat → Option (Except E (Nat → Nat → K))

variable {E K : Type}

/-- `MapElementNodes` (src/assembly/local.rs:37-48, 301-335 and the delegations at :451-454, :464-467, :477-480). -/
def Assembler.mapNodes (a : Assembler E K) (newNumNodes : Nat) (f : Nat → Nat) : Assembler E K :=
  { a with numNodes := newNumNodes, nodes := fun e => (a.nodes e).map fun l => l.map f }

/-- `TransformElementScalar` (src/assembly/local.rs:136-146, 482-492; everything else is delegated, :431-433, :460-462, :469-471). -/
def Assembler.transformScalar (a : Assembler E K) (f : K → Except E K) : Assembler E K :=
  { a with scalar := fun e => (a.scalar e).map fun r => r.bind f }

/-- `TransformElementVector` (src/assembly/local.rs:118-130, 494-505; everything else is delegated, :435-437, :443-445, :473-475). -/
def Assembler.transformVector (a : Assembler E K) (f : (Nat → K) → Except E (Nat → K)) : Assembler E K :=
  { a with vector := fun e => (a.vector e).map fun r => r.bind f }

/-- `TransformElementMatrix` (src/assembly/local.rs:90-102, 507-518; everything else is delegated, :439-441, :447-449, :456-458). -/
def Assembler.transformMatrix (a : Assembler E K) (f : (Nat → Nat → K) → Except E (Nat → Nat → K)) : Assembler E K :=
  { a with matrix := fun e => (a.matrix e).map fun r => r.bind f }

/-- An element assembler as a part of an aggregate that is asked for one kind of answer. -/
def Assembler.part {α : Type} (q : Assembler E K → Nat → Option α) (a : Assembler E K) : Part α :=
  ⟨a.solutionDim, a.numNodes, a.numElements, q a⟩

/-- `AggregateElementAssembler` (src/assembly/local.rs:151-299) with all its answers. `from_assemblers` does not ask the parts for any answer, so it
gives the same offsets for each kind of answer. -/
def aggregate (search : List Nat → Nat → SearchResult) (parts : List (Assembler E K)) : Option (Assembler E K) :=
  match Aggregate.fromAssemblers (parts.map (Assembler.part Assembler.nodes)), Aggregate.fromAssemblers (parts.map (Assembler.part Assembler.scalar)),
    Aggregate.fromAssemblers (parts.map (Assembler.part Assembler.vector)), Aggregate.fromAssemblers (parts.map (Assembler.part Assembler.matrix)) with
  | some n, some s, some v, some m =>
    some ⟨n.solutionDim, n.numNodes, n.numElements, n.query search, s.query search, v.query search, m.query search⟩
  | _, _, _, _ => none

/-- The answer of an element, where a panic is an error of its own kind (it ends the loop over the elements like an error). -/
def answer {α : Type} : Option (Except E α) → Except (Option E) α
  | none => .error none
  | some (.error e) => .error (some e)
  | some (.ok x) => .ok x

/-- What the connectivity of an element assembler tells the global assemblers; they ask for the nodes of all elements. -/
def Assembler.conn (a : Assembler E K) : Option Conn :=
  ((List.range a.numElements).mapM a.nodes).map fun l => ⟨a.solutionDim, a.numNodes, l⟩

section
variable [AddCommMonoid K]

/-- `CsrAssembler::assemble` (src/assembly/global.rs:124-131) for an element assembler. -/
def Assembler.assembleMatrix (ord : List Nat → List Nat) (sortNodes : List (Nat × Nat) → List (Nat × Nat)) (a : Assembler E K) :
    Option (Except (Option E) (Csr K)) :=
  a.conn.bind fun c => assemble ord sortNodes c fun e => answer (a.matrix e)

/-- `VectorAssembler::assemble_vector` (src/assembly/global.rs:610-615) for an element assembler. -/
def Assembler.assembleVector (a : Assembler E K) : Option (Except (Option E) (List K)) :=
  a.conn.bind fun c => Assembly.assembleVector c fun e => answer (a.vector e)

/-- `assemble_scalar` (src/assembly/global.rs:697-711) for an element assembler. -/
def Assembler.assembleScalar (a : Assembler E K) : Except (Option E) K :=
  Assembly.assembleScalar a.numElements fun e => answer (a.scalar e)

end

end Fenris.Combinators
