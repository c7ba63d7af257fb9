import Verif.Model.Aggregate
/-! # Specification vocabulary for aggregated assemblers -/
set_option autoImplicit false

namespace Fenris.Spec
open Assembly

/-- The contract of `slice::binary_search` on sorted slices: a found index holds the value, otherwise the
insertion point separates smaller from larger values. With several equal values any of them may be
found. -/
def BinarySearch (search : List Nat → Nat → SearchResult) : Prop :=
  ∀ (l : List Nat) (x : Nat), l.Pairwise (fun a b => a ≤ b) →
    match search l x with
    | .found i => l[i]? = some x
    | .insert i => i ≤ l.length ∧ (∀ (j y : Nat), l[j]? = some y → j < i → y < x) ∧
        ∀ (j y : Nat), l[j]? = some y → i ≤ j → x < y

/-- A binary search which finds the last of several equal values (what the standard library happens to do
since Rust 1.82). -/
def FindsLast (search : List Nat → Nat → SearchResult) : Prop :=
  ∀ (l : List Nat) (x i : Nat), search l x = .found i → ∀ j, i < j → l[j]? ≠ some x

/-- The number of elements of the parts before part `i`. -/
def elementsBefore {α : Type} (parts : List (Part α)) (i : Nat) : Nat :=
  ((parts.take i).map Part.numElements).sum

/-- The parts have the same solution dimension and number of nodes. -/
def Compatible {α : Type} (parts : List (Part α)) : Prop :=
  ∀ p ∈ parts, ∀ q ∈ parts, p.solutionDim = q.solutionDim ∧ p.numNodes = q.numNodes

end Fenris.Spec
