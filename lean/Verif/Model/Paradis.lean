import Verif.Model.Basic
/-!
# Model of `fenris-paradis`

`/repo/fenris-paradis/src/{lib,coloring,adapter,slice}.rs`.

`NestedVec<usize>` is represented by `List (List Nat)`; that this is faithful is property C01.
-/
set_option autoImplicit false

namespace Fenris

/-- `DisjointSubsets`, fenris-paradis/src/lib.rs:171-181. -/
structure DisjointSubsets where
  maxIndex : Option Nat
  subsets : List (List Nat)
  labels : List Nat
deriving DecidableEq, Repr

/-- `SubsetsNotDisjointError`, fenris-paradis/src/lib.rs:184. -/
inductive SubsetsNotDisjoint where
  | mk
deriving DecidableEq, Repr

namespace DisjointSubsets

/-- Update of the running maximum, fenris-paradis/src/lib.rs:204-208. -/
def updMax (m : Option Nat) (i : Nat) : Option Nat :=
  match m with
  | some c => some (max c i)
  | none => some i

/-- `HashSet::insert` on a duplicate-free list. -/
def setInsert (s : List Nat) (i : Nat) : List Nat := if i ∈ s then s else i :: s

/-- Inner loop over the local index set, fenris-paradis/src/lib.rs:212-217.
`none` is `return Err(SubsetsNotDisjointError)`. -/
def insertAll : List Nat → List Nat → Option (List Nat)
  | g, [] => some g
  | g, i :: is => if i ∈ g then none else insertAll (i :: g) is

/-- Outer loop, fenris-paradis/src/lib.rs:201-218.  `ord` is the (unspecified) iteration order of
the local `HashSet`. -/
def checkLoop (ord : List Nat → List Nat) :
    Option Nat → List Nat → List (List Nat) → Option (Option Nat)
  | m, _, [] => some m
  | m, g, s :: rest =>
    let m' := s.foldl updMax m
    let loc := s.foldl setInsert []
    match insertAll g (ord loc) with
    | none => none
    | some g' => checkLoop ord m' g' rest

/-- `DisjointSubsets::try_from_disjoint_subsets`, fenris-paradis/src/lib.rs:187-227. -/
def tryFrom (ord : List Nat → List Nat) (subsets : List (List Nat)) (labels : List Nat) :
    Res SubsetsNotDisjoint DisjointSubsets :=
  if subsets.length = labels.length then
    match checkLoop ord none [] subsets with
    | none => .err .mk
    | some m => .ok ⟨m, subsets, labels⟩
  else .panic

/-- `DisjointSubsets::from_disjoint_subsets_unchecked`, fenris-paradis/src/lib.rs:229-241. -/
def fromUnchecked (subsets : List (List Nat)) (labels : List Nat) (maxIndex : Option Nat) :
    Option DisjointSubsets :=
  if subsets.length = labels.length then some ⟨maxIndex, subsets, labels⟩ else none

/-- Whether the `assert!` and (in debug builds) the `debug_assert_eq!` of
`DisjointSubsets::subsets_par_iter` pass for a storage of length `n`,
fenris-paradis/src/lib.rs:258-278. -/
def parIterAllowed (debug : Bool) (d : DisjointSubsets) (n : Nat) : Bool :=
  (match d.maxIndex with
    | none => true
    | some m => decide (m < n)) &&
  (!debug || (d.maxIndex.isNone == (d.subsets.length == 0)))

end DisjointSubsets

/-! ## The parallel iterator -/

/-- What a worker is handed: `SubsetAccess { subset_label, global_indices, .. }`,
fenris-paradis/src/lib.rs:19-23. -/
structure Item where
  label : Nat
  globalIndices : List Nat
deriving DecidableEq, Repr

/-- `DisjointSubsetsProducer`, fenris-paradis/src/lib.rs:323-330 (range part). -/
structure Producer where
  rangeStart : Nat
  rangeLen : Nat
deriving DecidableEq, Repr

/-- `with_producer`, fenris-paradis/src/lib.rs:311-320. -/
def Producer.full (d : DisjointSubsets) : Producer := ⟨0, d.subsets.length⟩

/-- `Producer::split_at`, fenris-paradis/src/lib.rs:357-379; `none` is the `assert!`. -/
def Producer.splitAt (p : Producer) (index : Nat) : Option (Producer × Producer) :=
  if index < p.rangeLen then
    some (⟨p.rangeStart, index⟩, ⟨p.rangeStart + index, p.rangeLen - index⟩)
  else none

/-- `DisjointSubsetsIter`, fenris-paradis/src/lib.rs:382-390 (range part). -/
structure SubsetIter where
  current : Nat
  stop : Nat
deriving DecidableEq, Repr

/-- `Producer::into_iter`, fenris-paradis/src/lib.rs:347-355. -/
def Producer.intoIter (p : Producer) : SubsetIter := ⟨p.rangeStart, p.rangeLen + p.rangeStart⟩

/-- `labels.get(i).unwrap()` and `subsets.get(i).unwrap()`; `none` is the panic. -/
def itemAt (d : DisjointSubsets) (i : Nat) : Option Item := do
  let l ← d.labels[i]?
  let s ← d.subsets[i]?
  return ⟨l, s⟩

/-- `Iterator::next`, fenris-paradis/src/lib.rs:406-418.  Outer `none`: panic. -/
def SubsetIter.next (d : DisjointSubsets) (it : SubsetIter) : Option (Option Item × SubsetIter) :=
  if it.current < it.stop then do
    let x ← itemAt d it.current
    return (some x, { it with current := it.current + 1 })
  else some (none, it)

/-- `DoubleEndedIterator::next_back`, fenris-paradis/src/lib.rs:429-442. -/
def SubsetIter.nextBack (d : DisjointSubsets) (it : SubsetIter) :
    Option (Option Item × SubsetIter) :=
  if it.stop > it.current then do
    let x ← itemAt d (it.stop - 1)
    return (some x, { it with stop := it.stop - 1 })
  else some (none, it)

/-- `ExactSizeIterator::len` through `size_hint`, fenris-paradis/src/lib.rs:420-423. -/
def SubsetIter.len (it : SubsetIter) : Option Nat :=
  if it.current ≤ it.stop then some (it.stop - it.current) else none

/-- A sequence of calls on one iterator (`true`: `next`, `false`: `next_back`).
Returns the items obtained from the front, the items obtained from the back (both in call
order) and the iterator left over. -/
def SubsetIter.calls (d : DisjointSubsets) :
    SubsetIter → List Bool → Option (List Item × List Item × SubsetIter)
  | it, [] => some ([], [], it)
  | it, true :: cs => do
    let (x, it') ← it.next d
    let (f, b, it'') ← SubsetIter.calls d it' cs
    return (x.toList ++ f, b, it'')
  | it, false :: cs => do
    let (x, it') ← it.nextBack d
    let (f, b, it'') ← SubsetIter.calls d it' cs
    return (f, x.toList ++ b, it'')

/-- How the runtime cuts a producer: leaves are consumed by one worker with the given sequence of
`next`/`next_back` calls, nodes split at an index. -/
inductive SplitTree where
  | leaf (calls : List Bool)
  | node (index : Nat) (left right : SplitTree)

/-- Everything delivered by a producer cut along a tree: front items then back items reversed, in
tree order, together with the numbers of items left unconsumed at the leaves.  `none`: panic. -/
def Producer.drive (d : DisjointSubsets) : Producer → SplitTree → Option (List Item × Nat)
  | p, .leaf cs => do
    let (f, b, it) ← p.intoIter.calls d cs
    let n ← it.len
    return (f ++ b.reverse, n)
  | p, .node i l r => do
    let (pl, pr) ← p.splitAt i
    let (xs, n) ← Producer.drive d pl l
    let (ys, m) ← Producer.drive d pr r
    return (xs ++ ys, n + m)

/-! ## Workers mutating a storage through subset accesses -/

/-- A worker's code: given its private state it either finishes or names a *local* index
`l` of its subset and a read-modify-write of the record `subset.get_mut(l)`.
(`get` is the special case writing back the value read.) -/
structure Worker (σ α : Type) where
  next : σ → Option (Nat × (α → σ × α))

/-- Global state: the storage and, per worker, its private state (`none`: it panicked on
`global_indices[local_index]`). -/
structure ParState (σ α : Type) where
  storage : List α
  locals : List (Option σ)

/-- One atomic step of worker `k`.  `SubsetAccess::get_mut`, fenris-paradis/src/lib.rs:47-54 and
`get_unchecked_mut`, fenris-paradis/src/slice.rs:52-55.
The outer `none` is *undefined behaviour*: an unchecked access outside the storage. -/
def ParState.step {σ α : Type} (subsets : List (List Nat)) (w : Nat → Worker σ α)
    (st : ParState σ α) (k : Nat) : Option (ParState σ α) :=
  match st.locals[k]?, subsets[k]? with
  | some (some s), some sub =>
    match (w k).next s with
    | none => some st
    | some (l, f) =>
      match sub[l]? with
      | none => some { st with locals := st.locals.set k none }
      | some g =>
        match st.storage[g]? with
        | none => none
        | some v => some ⟨st.storage.set g (f v).2, st.locals.set k (some (f v).1)⟩
  | _, _ => some st

/-- Execution of a schedule: the list says which worker makes the next step. -/
def ParState.exec {σ α : Type} (subsets : List (List Nat)) (w : Nat → Worker σ α)
    (st : ParState σ α) (sched : List Nat) : Option (ParState σ α) :=
  sched.foldlM (ParState.step subsets w) st

/-! ## Greedy colouring -/

/-- `Vec::resize(n, v)`. -/
def resize {α : Type} (l : List α) (n : Nat) (v : α) : List α :=
  l.take n ++ List.replicate (n - l.length) v

/-- Table and maximum update for one node, fenris-paradis/src/coloring.rs:32-45. -/
def visitNode (c : Int) (st : List Int × Option Nat) (n : Nat) : List Int × Option Nat :=
  let (table, mx) := st
  let mx' := match mx with
    | some m => some (max n m)
    | none => some n
  if n < table.length then (table.set n c, mx')
  else ((resize table (2 * n + 1) (-1)).set n c, mx')

/-- State of the inner loop, fenris-paradis/src/coloring.rs:18-20. -/
structure ColorAcc where
  table : List Int
  maxNode : Option Nat
  colorSubsets : List (List Nat)
  colorIndices : List Nat
  postponed : List Nat
deriving DecidableEq, Repr

/-- `last_visited_color.get(n).map(|&v| v == color_idx).unwrap_or(false)`,
fenris-paradis/src/coloring.rs:24-27. -/
def visitedBy (table : List Int) (c : Int) (n : Nat) : Bool :=
  match table[n]? with
  | some last => last == c
  | none => false

/-- Body of the inner loop, fenris-paradis/src/coloring.rs:21-49; `none`: `unwrap` panic. -/
def colorOne (subsets : List (List Nat)) (c : Int) (a : ColorAcc) (si : Nat) : Option ColorAcc :=
  match subsets[si]? with
  | none => none
  | some subset =>
    if subset.any (visitedBy a.table c) then some { a with postponed := a.postponed ++ [si] }
    else
      let (t, m) := subset.foldl (visitNode c) (a.table, a.maxNode)
      some ⟨t, m, a.colorSubsets ++ [subset], a.colorIndices ++ [si], a.postponed⟩

/-- Errors of the colouring: the checked increment of the colour, or running out of the fuel that
bounds the `while` loop in the model (shown never to happen). -/
inductive ColorErr where
  | tooManyColors
  | outOfFuel
deriving DecidableEq, Repr

/-- The `while` loop, fenris-paradis/src/coloring.rs:17-67.  The debug assertion is not executed
here (C06 shows that it always holds). -/
def colorLoop (subsets : List (List Nat)) :
    Nat → List Int → Int → List Nat → List DisjointSubsets → Res ColorErr (List DisjointSubsets)
  | 0, _, _, cur, colors => if cur.isEmpty then .ok colors else .err .outOfFuel
  | fuel + 1, table, c, cur, colors =>
    if cur.isEmpty then .ok colors
    else
      match cur.foldlM (colorOne subsets c) ⟨table, none, [], [], []⟩ with
      | none => .panic
      | some a =>
        match DisjointSubsets.fromUnchecked a.colorSubsets a.colorIndices a.maxNode with
        | none => .panic
        | some d =>
          if c + 1 > 2147483647 then .err .tooManyColors
          else colorLoop subsets fuel a.table (c + 1) a.postponed (colors ++ [d])

/-- `sequential_greedy_coloring`, fenris-paradis/src/coloring.rs:6-70. -/
def sequentialGreedyColoring (subsets : List (List Nat)) : Res ColorErr (List DisjointSubsets) :=
  colorLoop subsets subsets.length [] 0 (List.range subsets.length) []

/-! ## Block adapter -/

/-- `BlockAdapter::with_block_size`, fenris-paradis/src/adapter.rs:56-64; `none`: assertion.
The adapter is modelled by the length of the collection and the block size. -/
structure BlockAdapter where
  collectionLen : Nat
  blockSize : Nat
deriving DecidableEq, Repr

def BlockAdapter.withBlockSize (collectionLen blockSize : Nat) : Option BlockAdapter :=
  if blockSize > 0 ∧ collectionLen % blockSize = 0 then some ⟨collectionLen, blockSize⟩ else none

/-- `ParallelIndexedCollection::len`, fenris-paradis/src/adapter.rs:189-191. -/
def BlockAdapter.len (a : BlockAdapter) : Nat := a.collectionLen / a.blockSize

/-- `BlockAccess::get_unchecked(_mut)(b)` followed by `Block(Mut)::get(_mut)(i)`,
fenris-paradis/src/adapter.rs:84-91,115-131,157-173: the position in the underlying collection. -/
def BlockAdapter.position (a : BlockAdapter) (b i : Nat) : Option Nat :=
  if i < a.blockSize then some (a.blockSize * b + i) else none

end Fenris
