import Verif.Model.Paradis
import Verif.Model.NestedVec
import Verif.Model.MeshOps
/-! # Model of `src/assembly/global.rs`: sparsity patterns -/
set_option autoImplicit false

namespace Fenris
namespace Assembly
open DisjointSubsets

/-- What `ElementConnectivityAssembler` (src/assembly/local.rs:29-41) tells the assemblers:
`solution_dim`, `num_nodes` and, for each element, the list written by `populate_element_nodes`
(of length `element_node_count`). -/
structure Conn where
  solutionDim : Nat
  numNodes : Nat
  elements : List (List Nat)
deriving DecidableEq, Repr

/-- nalgebra-sparse `SparsityPattern`: offsets and minor indices. -/
structure CsrPattern where
  nrows : Nat
  ncols : Nat
  offsets : List Nat
  indices : List Nat
deriving DecidableEq, Repr

/-- nalgebra-sparse `SparsityPattern::get_lane`. -/
def CsrPattern.lane (p : CsrPattern) (i : Nat) : Option (List Nat) :=
  match p.offsets[i]?, p.offsets[i + 1]? with
  | some b, some e => sliceGet? p.indices b e
  | _, _ => none

/-- `node_sets[node_i].insert(node_j)` (src/assembly/global.rs:77); `none` is the index panic. -/
def insertNode (i : Nat) (sets : List (List Nat)) (j : Nat) : Option (List (List Nat)) :=
  match sets[i]? with
  | none => none
  | some s => some (sets.set i (setInsert s j))

/-- src/assembly/global.rs:76-78, 224-227: inserting all nodes of the element in the set of one of
its nodes. -/
def insertRow (e : List Nat) (sets : List (List Nat)) (i : Nat) : Option (List (List Nat)) :=
  e.foldlM (insertNode i) sets

/-- src/assembly/global.rs:75-79. -/
def insertElement (sets : List (List Nat)) (e : List Nat) : Option (List (List Nat)) :=
  e.foldlM (insertRow e) sets

/-- The offsets pushed by src/assembly/global.rs:84-90: `current_offset + count` for each row. -/
def pushOffsets : List Nat → Nat → List Nat
  | [], _ => []
  | count :: rest, current => (current + count) :: pushOffsets rest (current + count)

/-- src/assembly/global.rs:82-90, 236-245. -/
def offsetsOf (sdim : Nat) (sets : List (List Nat)) : List Nat :=
  0 :: pushOffsets (sets.flatMap (fun set => List.replicate sdim (sdim * set.length))) 0

/-- src/assembly/global.rs:101-106: the column indices of one row. -/
def blockRow (sdim : Nat) (buffer : List Nat) : List Nat :=
  buffer.flatMap (fun nodeJ => (List.range sdim).map (fun j => sdim * nodeJ + j))

/-- src/assembly/global.rs:93-109; `ord` is the iteration order of a hash set. -/
def indicesOf (ord : List Nat → List Nat) (sdim : Nat) (sets : List (List Nat)) : List Nat :=
  sets.flatMap (fun set =>
    (List.replicate sdim (blockRow sdim (Mesh.sortNat (ord set)))).flatten)

/-- The assertions and the construction at the end, src/assembly/global.rs:91, 111-118, 249,
285-291.  (The debug assertion is not modelled: C20 shows that it always holds.) -/
def finishPattern (numRows : Nat) (offsets indices : List Nat) : Option CsrPattern :=
  if offsets.length = numRows + 1 ∧ offsets.getLast? = some indices.length then
    some ⟨numRows, numRows, offsets, indices⟩
  else none

/-- src/assembly/global.rs:64-119 `CsrAssembler::assemble_pattern`; `none` is a panic. -/
def assemblePattern (ord : List Nat → List Nat) (c : Conn) : Option CsrPattern :=
  match c.elements.foldlM insertElement (List.replicate c.numNodes []) with
  | none => none
  | some sets =>
    finishPattern (c.solutionDim * c.numNodes) (offsetsOf c.solutionDim sets)
      (indicesOf ord c.solutionDim sets)

/-! ## The parallel algorithm -/

/-- The index range of batch `b` when `n` things are cut in batches of 10
(src/assembly/global.rs:212-214, 257-260). -/
def batch (n b : Nat) : List Nat := List.range' (10 * b) (min n (10 * b + 10) - 10 * b)

/-- All batches, `num_batches = div_ceil(n, 10)` (src/assembly/global.rs:209-210); also the chunks
of `par_chunks_mut(10)`. -/
def batches (n : Nat) : List (List Nat) := (List.range ((n + 9) / 10)).map (batch n)

/-- The critical sections executed by one task (src/assembly/global.rs:216-228): for each element of
the batch and each of its nodes, lock the node's set and insert all nodes of the element. -/
def lockOps (c : Conn) (b : List Nat) : List (Nat × List Nat) :=
  b.flatMap (fun i => (c.elements[i]?.getD []).map (fun ni => (ni, c.elements[i]?.getD [])))

/-- Executing critical sections in the order in which the locks are obtained. -/
def runLockOps (sets : List (List Nat)) (ops : List (Nat × List Nat)) : Option (List (List Nat)) :=
  ops.foldlM (fun sets op => insertRow op.2 sets op.1) sets

/-- The writes to `col_indices` for row `sdim * i + si` (src/assembly/global.rs:270-278).  `none`: an
offset, the slice or the block out of bounds. -/
def rowWrites (sdim : Nat) (offsets buffer : List Nat) (i si : Nat) : Option (List (Nat × Nat)) :=
  match offsets[sdim * i + si]?, offsets[sdim * i + si + 1]? with
  | some b, some e =>
    if b ≤ e ∧ sdim * buffer.length ≤ e - b then
      some (buffer.zipIdx.flatMap (fun p =>
        (List.range sdim).map (fun j => (b + sdim * p.2 + j, sdim * p.1 + j))))
    else none
  | _, _ => none

/-- The writes for one node (src/assembly/global.rs:263-280). -/
def nodeWrites (ord : List Nat → List Nat) (sdim : Nat) (offsets : List Nat)
    (sets : List (List Nat)) (i : Nat) : Option (List (Nat × Nat)) :=
  match sets[i]? with
  | none => none
  | some set =>
    ((List.range sdim).mapM (rowWrites sdim offsets (Mesh.sortNat (ord set)) i)).map List.flatten

/-- `col_indices[pos] = v`; `none` is an access out of bounds. -/
def writeAt (l : List Nat) (w : Nat × Nat) : Option (List Nat) :=
  if w.1 < l.length then some (l.set w.1 w.2) else none

/-- src/assembly/global.rs:189-292 `CsrParAssembler::assemble_pattern`.  `sched₁` is the order in which
the critical sections of all tasks are executed, `sched₂` the order in which the writes of all
tasks happen. -/
def parAssemblePattern (ord : List Nat → List Nat) (sched₁ : List (Nat × List Nat))
    (sched₂ : List (Nat × Nat) → List (Nat × Nat)) (c : Conn) : Option CsrPattern :=
  match runLockOps (List.replicate c.numNodes []) sched₁ with
  | none => none
  | some sets =>
    let offsets := offsetsOf c.solutionDim sets
    match (batches c.numNodes).mapM
        (fun b => b.mapM (nodeWrites ord c.solutionDim offsets sets)) with
    | none => none
    | some ws =>
      match (sched₂ ws.flatten.flatten).foldlM writeAt
          (List.replicate (offsets.getLast?.getD 0) 0) with
      | none => none
      | some indices => finishPattern (c.solutionDim * c.numNodes) offsets indices

end Assembly
end Fenris
