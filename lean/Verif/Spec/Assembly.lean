import Verif.Model.Assembly
import Mathlib.Algebra.BigOperators.Fin
/-! # Specification vocabulary for assembly -/
set_option autoImplicit false

namespace Fenris.Spec
open Assembly

/-- All nodes of all elements exist. -/
def NodesInBounds (c : Conn) : Prop := ∀ e ∈ c.elements, ∀ n ∈ e, n < c.numNodes

/-- The conditions under which offsets and indices form a CSR pattern. -/
structure ValidPattern (p : CsrPattern) : Prop where
  offsets_length : p.offsets.length = p.nrows + 1
  first : p.offsets[0]? = some 0
  last : p.offsets[p.nrows]? = some p.indices.length
  monotone : p.offsets.Pairwise (fun a b => a ≤ b)
  lanes : ∀ i, i < p.nrows → ∃ lane, p.lane i = some lane ∧ lane.Pairwise (fun a b => a < b) ∧
    ∀ j ∈ lane, j < p.ncols

section
variable {K : Type} [AddCommMonoid K]

/-- The value stored in a sparse row for a column, zero if none is stored. -/
def rowEntry (row : List Nat × List K) (c : Nat) : K :=
  match (row.1.zip row.2).find? (fun p => p.1 == c) with
  | none => 0
  | some p => p.2

/-- The entry `(r, c)` of a sparse matrix, zero if it is not stored. -/
def entry (m : Csr K) (r c : Nat) : K :=
  match m.rows[r]? with
  | none => 0
  | some row => rowEntry row c

/-- A well-formed sparse matrix: as many values as columns in each row, columns strictly
increasing. -/
def WellFormed (m : Csr K) : Prop :=
  ∀ row ∈ m.rows, row.2.length = row.1.length ∧ row.1.Pairwise (fun a b => a < b)

/-- The two matrices store the same positions. -/
def SamePattern (m m' : Csr K) : Prop :=
  m.ncols = m'.ncols ∧ m.rows.map Prod.fst = m'.rows.map Prod.fst

/-- The matrix has a position for every coupling of degrees of freedom inside an element. -/
def Covers (m : Csr K) (c : Conn) : Prop :=
  ∀ e ∈ c.elements, ∀ n ∈ e, ∀ n' ∈ e, ∀ i j, i < c.solutionDim → j < c.solutionDim →
    ∀ row, m.rows[c.solutionDim * n + i]? = some row → c.solutionDim * n' + j ∈ row.1

/-- What an element with the given nodes and element matrix contributes to entry `(r, c)`: the sum of
the matrix entries whose row and column degrees of freedom are `r` and `c`. -/
def matrixContribution (s : Nat) (nodes : List Nat) (A : Nat → Nat → K) (r c : Nat) : K :=
  ∑ a : Fin nodes.length, ∑ i : Fin s, ∑ b : Fin nodes.length, ∑ j : Fin s,
    if s * nodes[a] + i = r ∧ s * nodes[b] + j = c then A (s * a + i) (s * b + j) else 0

/-- What an element with the given nodes and element vector contributes to entry `r`. -/
def vectorContribution (s : Nat) (nodes : List Nat) (v : Nat → K) (r : Nat) : K :=
  ∑ a : Fin nodes.length, ∑ i : Fin s, if s * nodes[a] + i = r then v (s * a + i) else 0

end

/-- A schedule of a colour in which every element gets at least as many steps as it has nodes, so that
all elements run to their end. -/
def CompleteSchedules (colors : List (DisjointSubsets × List Nat)) : Prop :=
  ∀ c ∈ colors, ∀ (k : Nat) (nodes : List Nat), c.1.subsets[k]? = some nodes →
    nodes.length ≤ c.2.count k

/-- `sort_unstable_by_key`: some rearrangement sorted by node. -/
def SortsNodes (sortNodes : List (Nat × Nat) → List (Nat × Nat)) : Prop :=
  ∀ l, (sortNodes l).Perm l ∧ (sortNodes l).Pairwise (fun p q => p.1 ≤ q.1)

end Fenris.Spec
