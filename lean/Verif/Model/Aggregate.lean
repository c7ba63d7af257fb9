import Verif.Model.Assembly
/-! # Model of `AggregateElementAssembler` and `MapElementNodes`, `src/assembly/local.rs:151-335` -/
set_option autoImplicit false

namespace Fenris
namespace Assembly

/-- An element assembler as seen by the aggregate (src/assembly/local.rs:18-28): its sizes and the answer
to a query about one element. The model is generic in the kind of query: node count, nodes, element
scalar, vector or matrix. `none` is a panic of the part. -/
structure Part (α : Type) where
  solutionDim : Nat
  numNodes : Nat
  numElements : Nat
  query : Nat → Option α

/-- `AggregateElementAssembler` (src/assembly/local.rs:151-158). -/
structure Aggregate (α : Type) where
  parts : List (Part α)
  solutionDim : Nat
  numElements : Nat
  numNodes : Nat
  offsets : List Nat

/-- The loop of `from_assemblers` (src/assembly/local.rs:189-194): offsets and total. -/
def offsetsLoop {α : Type} : List (Part α) → List Nat → Nat → List Nat × Nat
  | [], offsets, total => (offsets, total)
  | p :: ps, offsets, total => offsetsLoop ps (offsets ++ [total]) (total + p.numElements)

/-- `from_assemblers` (src/assembly/local.rs:172-203); `none` is a failed assertion. -/
def Aggregate.fromAssemblers {α : Type} (parts : List (Part α)) : Option (Aggregate α) :=
  match parts with
  | [] => none
  | p0 :: _ =>
    if parts.all (fun p => p.solutionDim == p0.solutionDim) &&
        parts.all (fun p => p.numNodes == p0.numNodes) then
      let (offsets, total) := offsetsLoop parts [] 0
      some ⟨parts, p0.solutionDim, total, p0.numNodes, offsets⟩
    else none

/-- The result of `slice::binary_search`: `Ok(idx)` or `Err(idx)`. -/
inductive SearchResult where
  | found (i : Nat)
  | insert (i : Nat)
deriving DecidableEq

/-- `find_assembler_and_offset_for_element_index` (src/assembly/local.rs:205-212). The standard library
leaves open which of several equal elements `binary_search` finds, so it is a parameter. `none` is a
panic: the assertion, `0 - 1`, or an index out of bounds. -/
def Aggregate.find {α : Type} (search : List Nat → Nat → SearchResult) (a : Aggregate α) (e : Nat) :
    Option (Part α × Nat) :=
  if e ≤ a.numElements then
    let idx : Option Nat := match search a.offsets e with
      | .found i => some i
      | .insert 0 => none
      | .insert (i + 1) => some i
    match idx with
    | none => none
    | some i =>
      match a.parts[i]?, a.offsets[i]? with
      | some p, some o => some (p, o)
      | _, _ => none
  else none

/-- A delegated query (src/assembly/local.rs:231-239, 247-250, 258-265, 273-280); `none` is a panic, also
of the subtraction. -/
def Aggregate.query {α : Type} (search : List Nat → Nat → SearchResult) (a : Aggregate α) (e : Nat) :
    Option α :=
  match a.find search e with
  | none => none
  | some (p, o) => if o ≤ e then p.query (e - o) else none

/-- `MapElementNodes` (src/assembly/local.rs:301-335): same elements with renamed nodes and a new number
of nodes. -/
def mapElementNodes (c : Conn) (newNumNodes : Nat) (f : Nat → Nat) : Conn :=
  { c with numNodes := newNumNodes, elements := c.elements.map (fun e => e.map f) }

end Assembly
end Fenris
