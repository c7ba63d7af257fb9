/-!
# Model of `fenris-nested-vec`

`/repo/fenris-nested-vec/src/lib.rs`.  `Vec<T>` becomes `List α`, `usize` becomes `Nat`.
A panic becomes `none`.
-/
set_option autoImplicit false

namespace Fenris

variable {α : Type}

/-- `[T]::get(begin..end)` of the standard library: `None` when `begin > end` or `end > len`. -/
def sliceGet? (l : List α) (b e : Nat) : Option (List α) :=
  if b ≤ e ∧ e ≤ l.length then some ((l.drop b).take (e - b)) else none

/-- `NestedVec<T>`, fenris-nested-vec/src/lib.rs:8-12. -/
structure NestedVec (α : Type) where
  data : List α
  offsetsBegin : List Nat
  offsetsEnd : List Nat
deriving DecidableEq, Repr

namespace NestedVec

/-- `NestedVec::new`, fenris-nested-vec/src/lib.rs:27-33. -/
def new : NestedVec α := ⟨[], [], []⟩

/-- `NestedVec::len`, fenris-nested-vec/src/lib.rs:54-56. -/
def len (v : NestedVec α) : Nat := v.offsetsBegin.length

/-- `NestedVec::get_index_range`, fenris-nested-vec/src/lib.rs:81-85. -/
def getIndexRange (v : NestedVec α) (i : Nat) : Option (Nat × Nat) := do
  let b ← v.offsetsBegin[i]?
  let e ← v.offsetsEnd[i]?
  return (b, e)

/-- `NestedVec::get`, fenris-nested-vec/src/lib.rs:71-74. -/
def get (v : NestedVec α) (i : Nat) : Option (List α) := do
  let (b, e) ← v.getIndexRange i
  sliceGet? v.data b e

/-- `NestedVec::first`, fenris-nested-vec/src/lib.rs:87-89. -/
def first (v : NestedVec α) : Option (List α) := v.get 0

/-- `NestedVec::get_last_range`, fenris-nested-vec/src/lib.rs:95-99. -/
def getLastRange (v : NestedVec α) : Option (Nat × Nat) := do
  let b ← v.offsetsBegin.getLast?
  let e ← v.offsetsEnd.getLast?
  return (b, e)

/-- `NestedVec::last`, fenris-nested-vec/src/lib.rs:101-104. -/
def last (v : NestedVec α) : Option (List α) := do
  let (b, e) ← v.getLastRange
  sliceGet? v.data b e

/-- `NestedVec::iter` collected, fenris-nested-vec/src/lib.rs:50-52: `get(i).unwrap()` for every
`i` in `0..len`; `none` is the `unwrap` panic. -/
def iter (v : NestedVec α) : Option (List (List α)) :=
  (List.range v.len).mapM v.get

/-- `NestedVec::iter_array_elements` collected, fenris-nested-vec/src/lib.rs:59-61. -/
def iterArrayElements (v : NestedVec α) : Option (List α) := v.iter.map List.flatten

/-- `end - begin` for `usize`, panicking on underflow in debug builds. -/
def checkedSub (e b : Nat) : Option Nat := if b ≤ e then some (e - b) else none

/-- `NestedVec::total_num_elements`, fenris-nested-vec/src/lib.rs:63-69.
`none` is the underflow panic of `end - begin`. -/
def totalNumElements (v : NestedVec α) : Option Nat :=
  ((v.offsetsBegin.zip v.offsetsEnd).mapM (fun p => checkedSub p.2 p.1)).map List.sum

/-- `NestedVec::push`, fenris-nested-vec/src/lib.rs:145-149. -/
def push (v : NestedVec α) (a : List α) : NestedVec α :=
  let ob := v.offsetsBegin ++ [v.data.length]
  let data := v.data ++ a
  let oe := v.offsetsEnd ++ [data.length]
  ⟨data, ob, oe⟩

/-- `NestedVec::clear`, fenris-nested-vec/src/lib.rs:111-115. -/
def clear (_v : NestedVec α) : NestedVec α := ⟨[], [], []⟩

/-- `ArrayAppender`, fenris-nested-vec/src/lib.rs:119-124.  The three `&mut` references into the
nested vector are modelled by carrying the nested vector itself. -/
structure Appender (α : Type) where
  vec : NestedVec α
  initialCount : Nat

/-- `NestedVec::begin_array`, fenris-nested-vec/src/lib.rs:40-48. -/
def beginArray (v : NestedVec α) : Appender α := ⟨v, v.data.length⟩

/-- `ArrayAppender::push_single`, fenris-nested-vec/src/lib.rs:127-130. -/
def Appender.pushSingle (a : Appender α) (x : α) : Appender α :=
  { a with vec := { a.vec with data := a.vec.data ++ [x] } }

/-- `ArrayAppender::count`, fenris-nested-vec/src/lib.rs:132-134 (`none`: underflow). -/
def Appender.count (a : Appender α) : Option Nat := checkedSub a.vec.data.length a.initialCount

/-- `Drop for ArrayAppender`, fenris-nested-vec/src/lib.rs:137-142. -/
def Appender.drop (a : Appender α) : NestedVec α :=
  ⟨a.vec.data, a.vec.offsetsBegin ++ [a.initialCount], a.vec.offsetsEnd ++ [a.vec.data.length]⟩

/-- `mem::forget` of an appender: the destructor does not run (safe Rust allows this). -/
def Appender.forget (a : Appender α) : NestedVec α := a.vec

/-- `slice[j] = x` on the slice `begin..end` of `data` returned by `get_mut`/`first_mut`/`last_mut`:
`none` is the index panic (or the `None` of `data.get_mut(range)` being unwrapped). -/
def writeRange (v : NestedVec α) (r : Nat × Nat) (j : Nat) (x : α) : Option (NestedVec α) :=
  if r.1 ≤ r.2 ∧ r.2 ≤ v.data.length ∧ j < r.2 - r.1 then
    some { v with data := v.data.set (r.1 + j) x }
  else none

/-- `if let Some(s) = v.get_mut(i) { s[j] = x }`, fenris-nested-vec/src/lib.rs:76-79.
A missing array leaves the vector alone; an index outside the array panics. -/
def writeAt (v : NestedVec α) (i j : Nat) (x : α) : Option (NestedVec α) :=
  match v.getIndexRange i with
  | none => some v
  | some r => v.writeRange r j x

/-- `if let Some(s) = v.last_mut() { s[j] = x }`, fenris-nested-vec/src/lib.rs:106-109. -/
def writeLast (v : NestedVec α) (j : Nat) (x : α) : Option (NestedVec α) :=
  match v.getLastRange with
  | none => some v
  | some r => v.writeRange r j x

/-- `From<&Vec<Vec<T>>> for NestedVec<T>`, fenris-nested-vec/src/lib.rs:152-160. -/
def ofLists (ls : List (List α)) : NestedVec α := ls.foldl push new

/-- `From<&NestedVec<T>> for Vec<Vec<T>>`, fenris-nested-vec/src/lib.rs:168-172. -/
def toLists (v : NestedVec α) : Option (List (List α)) := v.iter

/-- One public mutation of a nested vector. -/
inductive Op (α : Type) where
  /-- `v.push(&a)` -/
  | push (a : List α)
  /-- `let mut w = v.begin_array(); for x in xs { w.push_single(x) }; drop(w)` -/
  | array (xs : List α)
  /-- as `array`, with `mem::forget(w)` instead of `drop(w)` -/
  | forgottenArray (xs : List α)
  /-- `v.get_mut(i)` followed by `s[j] = x`; `first_mut` is `get_mut(0)` (lib.rs:91-93) -/
  | write (i j : Nat) (x : α)
  /-- `v.last_mut()` followed by `s[j] = x` -/
  | writeLast (j : Nat) (x : α)
  /-- `v.clear()` -/
  | clear

/-- Effect of one operation; `none` is a panic. -/
def step (v : NestedVec α) : Op α → Option (NestedVec α)
  | .push a => some (v.push a)
  | .array xs => some (xs.foldl Appender.pushSingle v.beginArray).drop
  | .forgottenArray xs => some (xs.foldl Appender.pushSingle v.beginArray).forget
  | .write i j x => v.writeAt i j x
  | .writeLast j x => v.writeLast j x
  | .clear => some v.clear

/-- A history of operations on a freshly created nested vector. -/
def run (ops : List (Op α)) : Option (NestedVec α) := ops.foldlM step new

end NestedVec
end Fenris
