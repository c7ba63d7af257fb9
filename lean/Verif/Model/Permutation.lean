import Verif.Model.Basic
import Verif.Model.Sort
/-! # Model of `src/mesh/reorder.rs`: permutations, Cuthill–McKee, mesh reordering -/
set_option autoImplicit false

namespace Fenris

/-- src/mesh/reorder.rs:100-103 `Permutation`. -/
structure Permutation where
  perm : List Nat
deriving DecidableEq, Repr

/-- src/mesh/reorder.rs:105-108 `InvalidPermutation` (only a marker). -/
inductive InvalidPermutation | mk
deriving DecidableEq, Repr

namespace Permutation

/-- The loop of src/mesh/reorder.rs:121-127: `visited[index]` panics when out of bounds. -/
def fromVecLoop : List Nat → List Bool → Res InvalidPermutation Unit
  | [], _ => .ok ()
  | index :: rest, visited =>
    match visited[index]? with
    | none => .panic
    | some true => .err .mk
    | some false => fromVecLoop rest (visited.set index true)

/-- src/mesh/reorder.rs:119-129 `Permutation::from_vec`. -/
def fromVec (perm : List Nat) : Res InvalidPermutation Permutation :=
  match fromVecLoop perm (List.replicate perm.length false) with
  | .ok _ => .ok ⟨perm⟩
  | .err e => .err e
  | .panic => .panic

/-- src/mesh/reorder.rs:131-133 `len`. -/
def len (p : Permutation) : Nat := p.perm.length

/-- src/mesh/reorder.rs:139-141 `reverse` (in place). -/
def reverse (p : Permutation) : Permutation := ⟨p.perm.reverse⟩

/-- src/mesh/reorder.rs:143-145 `source_index`; `none` is the index panic. -/
def sourceIndex (p : Permutation) (target : Nat) : Option Nat := p.perm[target]?

/-- The loop of src/mesh/reorder.rs:149-151 over `enumerate()`; `k` is the enumeration counter.
`inverse_perm[source_idx] = target_idx` panics when out of bounds. -/
def inverseLoop : List Nat → Nat → List Nat → Option (List Nat)
  | [], _, inv => some inv
  | source :: rest, k, inv =>
    if source < inv.length then inverseLoop rest (k + 1) (inv.set source k) else none

/-- src/mesh/reorder.rs:147-155 `inverse`.  `usizeMax` is `std::usize::MAX`; `none` is a panic
(index or `unwrap`). -/
def inverse (usizeMax : Nat) (p : Permutation) : Option Permutation :=
  match inverseLoop p.perm 0 (List.replicate p.perm.length usizeMax) with
  | none => none
  | some inv =>
    match fromVec inv with
    | .ok q => some q
    | _ => none

/-- src/mesh/reorder.rs:157-167 `apply_to_slice`; `none` is a panic (length or index). -/
def applyToSlice {α : Type} (p : Permutation) (slice : List α) : Option (List α) :=
  if slice.length = p.perm.length then p.perm.mapM (fun i => slice[i]?) else none

end Permutation

/-- The part of nalgebra-sparse `SparsityPattern` used here: for each major index its lane, and
the minor dimension. -/
structure Pattern where
  lanes : List (List Nat)
  minorDim : Nat
deriving DecidableEq, Repr

/-- `SparsityPattern::major_dim`. -/
def Pattern.majorDim (s : Pattern) : Nat := s.lanes.length

namespace CuthillMcKee

/-- `min_by_key` over an iterator (src/mesh/reorder.rs:201-203): the *first* minimal element. -/
def minByKey (key : Nat → Nat) : List Nat → Option Nat
  | [] => none
  | x :: xs =>
    match minByKey key xs with
    | none => some x
    | some y => if key x ≤ key y then some x else some y

/-- The loop of src/mesh/reorder.rs:219-224 over the sorted neighbours.  `visited[adjacent]`
panics when out of bounds. -/
def visitAdjacent : List Nat → List Bool → List Nat → Option (List Bool × List Nat)
  | [], visited, queue => some (visited, queue)
  | a :: rest, visited, queue =>
    match visited[a]? with
    | none => none
    | some true => visitAdjacent rest visited queue
    | some false => visitAdjacent rest (visited.set a true) (queue ++ [a])

/-- Loop state of src/mesh/reorder.rs:182-184. -/
structure State where
  queue : List Nat
  permutation : List Nat
  visited : List Bool

/-- The inner loop src/mesh/reorder.rs:209-225 (`while let Some(vertex) = queue.pop_front()`).
`sortAdj` is `sort_unstable_by_key(degree)` of lines 211-212: any function returning a rearrangement
of its argument sorted by degree (the order of ties is unspecified).  `lane(vertex)` panics when out
of bounds.  The fuel bounds the number of iterations; running out is `none`, and
the theorems show this never happens with the fuel used in `cuthillMckee`. -/
def inner (lanes : List (List Nat)) (sortAdj : List Nat → List Nat) :
    Nat → State → Option State
  | 0, s => if s.queue = [] then some s else none
  | fuel + 1, s =>
    match s.queue with
    | [] => some s
    | vertex :: queue =>
      match lanes[vertex]? with
      | none => none
      | some adj =>
        match visitAdjacent (sortAdj adj) s.visited queue with
        | none => none
        | some (visited, queue') =>
          inner lanes sortAdj fuel ⟨queue', s.permutation ++ [vertex], visited⟩

/-- Degree of a vertex, src/mesh/reorder.rs:180. Only evaluated in bounds. -/
def degree (lanes : List (List Nat)) (v : Nat) : Nat := (lanes[v]?.map List.length).getD 0

/-- src/mesh/reorder.rs:200-203: the first unvisited vertex of least degree. -/
def leastDegreeVertex (lanes : List (List Nat)) (visited : List Bool) : Option Nat :=
  minByKey (degree lanes)
    ((List.range lanes.length).filter (fun v => visited[v]? == some false))

/-- The outer loop src/mesh/reorder.rs:196-227; fuel as for `inner`. -/
def outer (lanes : List (List Nat)) (sortAdj : List Nat → List Nat) :
    Nat → State → Option State
  | 0, s => if s.visited.any (· == false) then none else some s
  | fuel + 1, s =>
    if s.visited.any (· == false) then
      match leastDegreeVertex lanes s.visited with
      | some start =>
        match inner lanes sortAdj (lanes.length + 1)
            ⟨s.queue ++ [start], s.permutation, s.visited.set start true⟩ with
        | none => none
        | some s' => outer lanes sortAdj fuel s'
      | none => outer lanes sortAdj fuel s
    else some s

/-- src/mesh/reorder.rs:171-232 `cuthill_mckee`; `none` is a panic (or non-termination within the
fuel). -/
def cuthillMckee (sortAdj : List Nat → List Nat) (p : Pattern) : Option Permutation :=
  if p.majorDim = p.minorDim then
    match outer p.lanes sortAdj (p.lanes.length + 1)
        ⟨[], [], List.replicate p.lanes.length false⟩ with
    | none => none
    | some s =>
      if s.permutation.length = p.majorDim then
        match Permutation.fromVec s.permutation with
        | .ok q => some q
        | _ => none
      else none
  else none

/-- src/mesh/reorder.rs:236-240 `reverse_cuthill_mckee`. -/
def reverseCuthillMckee (sortAdj : List Nat → List Nat) (p : Pattern) : Option Permutation :=
  (cuthillMckee sortAdj p).map Permutation.reverse

end CuthillMcKee

/-- src/mesh.rs:21-39 `Mesh`, with an abstract vertex type; a cell is represented by its list of
vertex indices (`Connectivity::vertex_indices`, src/connectivity.rs). -/
structure Mesh (α : Type) where
  vertices : List α
  cells : List (List Nat)
deriving DecidableEq, Repr

/-- src/mesh/reorder.rs:13-17 `MeshPermutation`. -/
structure MeshPermutation where
  vertexPerm : Permutation
  connectivityPerm : Permutation

namespace MeshPermutation
variable {α : Type}

/-- src/mesh/reorder.rs:28-50 `apply`; `none` is a panic. -/
def apply (usizeMax : Nat) (mp : MeshPermutation) (mesh : Mesh α) : Option (Mesh α) :=
  match mp.vertexPerm.applyToSlice mesh.vertices, mp.vertexPerm.inverse usizeMax,
      mp.connectivityPerm.applyToSlice mesh.cells with
  | some newVertices, some inv, some newCells =>
    match newCells.mapM (fun c => c.mapM inv.sourceIndex) with
    | some cells => some ⟨newVertices, cells⟩
    | none => none
  | _, _, _ => none

/-- The sort key of src/mesh/reorder.rs:73-80: the minimum permuted vertex index of a cell
(`None` for a cell without vertices, smaller than every `Some`). -/
def cellKey (inv : Permutation) (cell : List Nat) : Option (Option Nat) :=
  (cell.mapM inv.sourceIndex).map List.min?

/-- Comparison of keys: derived `Ord` of `Option<usize>`. -/
def keyLe : Option Nat → Option Nat → Bool
  | none, _ => true
  | some _, none => false
  | some a, some b => a ≤ b

/-- src/mesh/reorder.rs:54-89 `reorder_mesh_par`, given the sparsity pattern computed at line 66
(`assemble_pattern`, modelled separately).  `sort_by_key` is a stable sort: `stableSort`. -/
def reorderMesh (usizeMax : Nat) (sortAdj : List Nat → List Nat) (pattern : Pattern)
    (mesh : Mesh α) : Option MeshPermutation :=
  match CuthillMcKee.reverseCuthillMckee sortAdj pattern with
  | none => none
  | some vp =>
    match vp.inverse usizeMax with
    | none => none
    | some inv =>
      match mesh.cells.mapM (cellKey inv) with
      | none => none
      | some keys =>
        let order := stableSort
          (fun i j => keyLe (keys[i]?.getD none) (keys[j]?.getD none)) (List.range mesh.cells.length)
        match Permutation.fromVec order with
        | .ok cp => some ⟨vp, cp⟩
        | _ => none

end MeshPermutation
end Fenris
