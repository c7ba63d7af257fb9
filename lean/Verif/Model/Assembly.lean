import Verif.Model.Pattern
import Mathlib.Algebra.Group.Defs
/-! # Model of `src/assembly/global.rs`: assembly of matrices, vectors and scalars

Element matrices and vectors are functions of the element index (`ElementMatrixAssembler`,
`ElementVectorAssembler`, src/assembly/local.rs:77-146); a matrix is given by its entries, since the
assemblers size the buffer to `solution_dim * element_node_count` themselves.  The buffers are reused
between elements; that implementations overwrite them is shown for the modelled ones in C28, C29. -/
set_option autoImplicit false

namespace Fenris
namespace Assembly

section Scatter
variable {ρ : Type}

/-- The loop over the `s` rows of one node: `rows[s * node + i]` is replaced by
`upd local_node i row`; `none` is a panic.  Used at src/assembly/global.rs:157-172 (matrices) and
:791-795 (vectors).  `p` is (global node, local node). -/
def scatterNode (s : Nat) (upd : Nat → Nat → ρ → Option ρ) (rows : List ρ) (p : Nat × Nat) :
    Option (List ρ) :=
  (List.range s).foldlM (fun rows i =>
    match rows[s * p.1 + i]? with
    | none => none
    | some row => (upd p.2 i row).map (rows.set (s * p.1 + i))) rows

/-- The loop over the nodes of one element (`enumerate()`). -/
def scatter (s : Nat) (upd : Nat → Nat → ρ → Option ρ) (rows : List ρ) (nodes : List Nat) :
    Option (List ρ) :=
  nodes.zipIdx.foldlM (scatterNode s upd) rows

/-- The same for one block (the `s` rows of one node) accessed through the block adapter,
src/assembly/global.rs:352-368, 674-678. -/
def updBlock (s : Nat) (upd : Nat → ρ → Option ρ) (block : List ρ) : Option (List ρ) :=
  (List.range s).foldlM (fun block i =>
    match block[i]? with
    | none => none
    | some row => (upd i row).map (block.set i)) block

/-- The closure executed for one element by a worker of the parallel assemblers: for each local node
update the block of that node (src/assembly/global.rs:350-369, 673-679).  The private state is the
next local node; `none` means that the closure has panicked. -/
def scatterWorker (s n : Nat) (upd : Nat → Nat → ρ → Option ρ) : Worker (Option Nat) (List ρ) where
  next := fun st =>
    match st with
    | none => none
    | some a =>
      if a < n then
        some (a, fun block =>
          match updBlock s (upd a) block with
          | none => (none, block)
          | some block' => (some (a + 1), block'))
      else none

/-- `BlockAdapter::with_block_size(collection, s)`: the collection cut in blocks (C08). -/
def toBlocks (s : Nat) (rows : List ρ) : Option (List (List ρ)) :=
  match BlockAdapter.withBlockSize rows.length s with
  | none => none
  | some a => some ((List.range a.len).map (fun b => (rows.drop (s * b)).take s))

/-- One colour (src/assembly/global.rs:322-373, 656-683) when no element fails: all elements of the
colour run concurrently, `sched` says which worker makes the next step.  `none`: panic (or undefined
behaviour, or a label that is not an element).  `debug`: debug assertions enabled. -/
def runColor (debug : Bool) (s : Nat) (color : DisjointSubsets) (elements : List (List Nat))
    (upd : Nat → List Nat → Nat → Nat → ρ → Option ρ) (rows : List ρ) (sched : List Nat) :
    Option (List ρ) :=
  match toBlocks s rows with
  | none => none
  | some blocks =>
    if color.parIterAllowed debug blocks.length ∧ ∀ l ∈ color.labels, l < elements.length then
      let worker := fun k =>
        let label := color.labels[k]?.getD 0
        let nodes := elements[label]?.getD []
        scatterWorker s nodes.length (upd label nodes)
      match ParState.exec color.subsets worker
          ⟨blocks, List.replicate color.subsets.length (some (some 0))⟩ sched with
      | none => none
      | some st =>
        if st.locals.all (fun l => l.join.isSome) then some st.storage.flatten else none
    else none

end Scatter

variable {K : Type} [AddCommMonoid K] {E : Type}

/-- nalgebra-sparse `CsrMatrix`, by rows: column indices and values of each row. -/
structure Csr (K : Type) where
  ncols : Nat
  rows : List (List Nat × List K)
deriving DecidableEq

/-- `CsrMatrix::try_from_pattern_and_values(pattern, vec![0; nnz])`
(src/assembly/global.rs:126-128, 307-309). -/
def Csr.zeros (p : CsrPattern) : Option (Csr K) :=
  ((List.range p.nrows).mapM p.lane).map (fun lanes =>
    ⟨p.ncols, lanes.map (fun l => (l, List.replicate l.length 0))⟩)

/-- The double loop of src/assembly/global.rs:520-536, flattened: for each target column and value,
advance the iterator over the row's columns until the column is found and add; `expect` panics if it
is not. The iterator holds (column, position). -/
def addLoop : List (Nat × K) → List (Nat × Nat) → List K → Option (List K)
  | [], _, vals => some vals
  | (col, v) :: rest, it, vals =>
    match it.dropWhile (fun p => p.1 != col) with
    | [] => none
    | (_, pos) :: it' =>
      match vals[pos]? with
      | none => none
      | some x => addLoop rest it' (vals.set pos (x + v))

/-- src/assembly/global.rs:504-537 `add_element_row_to_csr_row`.  `sorted` are the element's
(global node, local node) pairs in the order of `sorted_permutation`. -/
def addElementRow (dim : Nat) (sorted : List (Nat × Nat)) (localRow : Nat → K)
    (row : List Nat × List K) : Option (List Nat × List K) :=
  if dim ≥ 1 then
    (addLoop (sorted.flatMap (fun p =>
      (List.range dim).map (fun i => (dim * p.1 + i, localRow (dim * p.2 + i)))))
      row.1.zipIdx row.2).map (fun vals => (row.1, vals))
  else none

/-- What an element does to the row of its local node `a` and component `i`. `sortNodes` is
`sort_unstable_by_key` (src/assembly/global.rs:153-155, 341-347): any sorted rearrangement. -/
def matrixUpd (s : Nat) (sortNodes : List (Nat × Nat) → List (Nat × Nat)) (nodes : List Nat)
    (A : Nat → Nat → K) (a i : Nat) (row : List Nat × List K) : Option (List Nat × List K) :=
  addElementRow s (sortNodes nodes.zipIdx) (A (s * a + i)) row

/-- The loop over the elements, src/assembly/global.rs:145-174 (matrices) and :596-605 (vectors); `k`
is the element index and `V` the type of element matrices or vectors.  Returns the updated storage
and the `eyre::Result`; `none` is a panic. -/
def elementsLoop {ρ V : Type} (s : Nat) (elem : Nat → Except E V)
    (upd : V → List Nat → Nat → Nat → ρ → Option ρ) :
    List (List Nat) → Nat → List ρ → Option (List ρ × Except E Unit)
  | [], _, rows => some (rows, .ok ())
  | nodes :: rest, k, rows =>
    match elem k with
    | .error e => some (rows, .error e)
    | .ok v =>
      match scatter s (upd v nodes) rows nodes with
      | none => none
      | some rows' => elementsLoop s elem upd rest (k + 1) rows'

/-- src/assembly/global.rs:133-177 `CsrAssembler::assemble_into_csr`. -/
def assembleInto (sortNodes : List (Nat × Nat) → List (Nat × Nat)) (c : Conn)
    (elemMat : Nat → Except E (Nat → Nat → K)) (csr : Csr K) : Option (Csr K × Except E Unit) :=
  (elementsLoop c.solutionDim elemMat (fun A nodes => matrixUpd c.solutionDim sortNodes nodes A)
    c.elements 0 csr.rows).map
    (fun r => (⟨csr.ncols, r.1⟩, r.2))

/-- src/assembly/global.rs:124-131 `CsrAssembler::assemble`. -/
def assemble (ord : List Nat → List Nat) (sortNodes : List (Nat × Nat) → List (Nat × Nat))
    (c : Conn) (elemMat : Nat → Except E (Nat → Nat → K)) : Option (Except E (Csr K)) :=
  match (assemblePattern ord c).bind Csr.zeros with
  | none => none
  | some csr =>
    (assembleInto sortNodes c elemMat csr).map (fun r => r.2.map (fun _ => r.1))

/-- The errors of the elements of a colour, in order. -/
def colorErrors {V : Type} (elem : Nat → Except E V) (color : DisjointSubsets) : List E :=
  color.labels.filterMap (fun l => match elem l with | .error e => some e | .ok _ => none)

/-- The element data if it could be computed (`dflt` is never used: a colour in which an element
fails is not run to its end). -/
def okOr {V : Type} (dflt : V) : Except E V → V
  | .ok v => v
  | .error _ => dflt

/-- src/assembly/global.rs:321-373 and :655-684: the loop over the colours.  Each colour has its own
schedule.  If elements of the colour fail, `collect::<Result<()>>` returns the error of one of them
(`pick` says which). -/
def colorsLoop {ρ V : Type} (debug : Bool) (s : Nat) (elements : List (List Nat)) (elem : Nat → Except E V)
    (upd : V → List Nat → Nat → Nat → ρ → Option ρ) (dflt : V) (pick : Nat) :
    List (DisjointSubsets × List Nat) → List ρ → Option (Except E (List ρ))
  | [], rows => some (.ok rows)
  | (color, sched) :: rest, rows =>
    match (colorErrors elem color)[pick % (colorErrors elem color).length]? with
    | some e => some (.error e)
    | none =>
      match runColor debug s color elements
          (fun l => upd (okOr dflt (elem l))) rows sched with
      | none => none
      | some rows' => colorsLoop debug s elements elem upd dflt pick rest rows'

/-- src/assembly/global.rs:314-376 `CsrParAssembler::assemble_into_csr`. -/
def parAssembleInto (sortNodes : List (Nat × Nat) → List (Nat × Nat)) (debug : Bool) (pick : Nat)
    (c : Conn) (elemMat : Nat → Except E (Nat → Nat → K)) (colors : List (DisjointSubsets × List Nat))
    (csr : Csr K) : Option (Except E (Csr K)) :=
  (colorsLoop debug c.solutionDim c.elements elemMat
    (fun A nodes => matrixUpd c.solutionDim sortNodes nodes A)
    (fun _ _ => 0) pick colors csr.rows).map (fun r => r.map (fun rows => ⟨csr.ncols, rows⟩))

/-- src/assembly/global.rs:301-312 `CsrParAssembler::assemble`, with the schedules of the pattern
assembly (C20) and of the colours. -/
def parAssemble (ord : List Nat → List Nat) (sched₁ : List (Nat × List Nat))
    (sched₂ : List (Nat × Nat) → List (Nat × Nat))
    (sortNodes : List (Nat × Nat) → List (Nat × Nat)) (debug : Bool) (pick : Nat) (c : Conn)
    (elemMat : Nat → Except E (Nat → Nat → K)) (colors : List (DisjointSubsets × List Nat)) :
    Option (Except E (Csr K)) :=
  match (parAssemblePattern ord sched₁ sched₂ c).bind Csr.zeros with
  | none => none
  | some csr => parAssembleInto sortNodes debug pick c elemMat colors csr

/-- src/assembly/global.rs:540-551 `color_nodes` (a `NestedVec` is a list of lists, C01). -/
def colorNodes (c : Conn) : Res ColorErr (List DisjointSubsets) :=
  sequentialGreedyColoring c.elements

/-! ## Vectors -/

/-- `global[s * node + i] += local[s * a + i]` (src/assembly/global.rs:791-795, 676-678). -/
def vectorUpd (s : Nat) (v : Nat → K) (a i : Nat) (x : K) : Option K := some (x + v (s * a + i))

/-- src/assembly/global.rs:582-608 `VectorAssembler::assemble_vector_into`. -/
def assembleVectorInto (c : Conn) (elemVec : Nat → Except E (Nat → K)) (out : List K) :
    Option (List K × Except E Unit) :=
  if out.length = c.solutionDim * c.numNodes then
    elementsLoop c.solutionDim elemVec (fun v _ => vectorUpd c.solutionDim v) c.elements 0 out
  else none

/-- src/assembly/global.rs:610-615 `VectorAssembler::assemble_vector`. -/
def assembleVector (c : Conn) (elemVec : Nat → Except E (Nat → K)) : Option (Except E (List K)) :=
  (assembleVectorInto c elemVec (List.replicate (c.solutionDim * c.numNodes) 0)).map
    (fun r => r.2.map (fun _ => r.1))

/-- src/assembly/global.rs:643-687 `VectorParAssembler::assemble_vector_into`. -/
def parAssembleVectorInto (debug : Bool) (pick : Nat) (c : Conn) (elemVec : Nat → Except E (Nat → K))
    (colors : List (DisjointSubsets × List Nat)) (out : List K) : Option (Except E (List K)) :=
  if out.length = c.solutionDim * c.numNodes then
    colorsLoop debug c.solutionDim c.elements elemVec (fun v _ => vectorUpd c.solutionDim v)
      (fun _ => 0) pick colors out
  else none

/-- src/assembly/global.rs:632-641 `VectorParAssembler::assemble_vector`. -/
def parAssembleVector (debug : Bool) (pick : Nat) (c : Conn) (elemVec : Nat → Except E (Nat → K))
    (colors : List (DisjointSubsets × List Nat)) : Option (Except E (List K)) :=
  parAssembleVectorInto debug pick c elemVec colors
    (List.replicate (c.solutionDim * c.numNodes) 0)

/-- src/assembly/global.rs:742-769 `gather_global_to_local`; `none` is a panic. -/
def gather {α : Type} (s : Nat) (global : List α) (nodes : List Nat) : Option (List α) :=
  (nodes.mapM (fun n => (List.range s).mapM (fun i => global[s * n + i]?))).map List.flatten

/-! ## Scalars -/

/-- src/assembly/global.rs:697-711 `assemble_scalar`: the loop from element `k` with the running sum.
(`wrap_err` only adds context to the error.) -/
def assembleScalarLoop (elem : Nat → Except E K) : Nat → Nat → K → Except E K
  | 0, _, acc => .ok acc
  | n + 1, k, acc =>
    match elem k with
    | .error e => .error e
    | .ok x => assembleScalarLoop elem n (k + 1) (acc + x)

/-- src/assembly/global.rs:697-711 `assemble_scalar`. -/
def assembleScalar (numElements : Nat) (elem : Nat → Except E K) : Except E K :=
  assembleScalarLoop elem numElements 0 0

/-- How rayon cuts the range for `try_reduce`: a leaf folds its items in order starting from the
identity, a node splits at an index and combines. `leftFirst` says which error survives when both
sides fail. -/
inductive ReduceTree where
  | leaf
  | node (index : Nat) (leftFirst : Bool) (left right : ReduceTree)

/-- The fold at a leaf. -/
def foldLeaf : List (Except E K) → K → Except E K
  | [], acc => .ok acc
  | .error e :: _, _ => .error e
  | .ok x :: rest, acc => foldLeaf rest (acc + x)

/-- `try_reduce(|| 0, |a, b| Ok(a + b))` along a tree. -/
def tryReduce : ReduceTree → List (Except E K) → Except E K
  | .leaf, xs => foldLeaf xs 0
  | .node i leftFirst l r, xs =>
    match tryReduce l (xs.take i), tryReduce r (xs.drop i) with
    | .ok a, .ok b => .ok (a + b)
    | .error e, .ok _ => .error e
    | .ok _, .error e => .error e
    | .error e, .error e' => .error (if leftFirst then e else e')

/-- src/assembly/global.rs:724-740 `par_assemble_scalar`. -/
def parAssembleScalar (tree : ReduceTree) (numElements : Nat) (elem : Nat → Except E K) :
    Except E K :=
  tryReduce tree ((List.range numElements).map elem)

end Assembly
end Fenris
