import Verif.Model.Basic
/-! # Model of `util/src/lib.rs` (`fenris-util`): prefix sums and vertical stacking -/
set_option autoImplicit false

namespace Fenris

/-- util/src/lib.rs:92-98 `prefix_sum`: `scan` with the running sum as state, yielding the sum
*before* adding the current entry.  Simplification: `usize` is `Nat` (no overflow). -/
def prefixSum : List Nat → Nat → List Nat
  | [], _ => []
  | x :: xs, sum => sum :: prefixSum xs (sum + x)

/-- A dense matrix, as the number of columns and the list of rows (nalgebra `Matrix` with a
dynamic number of rows).  `wf` is the shape invariant nalgebra maintains. -/
structure RowMat (α : Type) where
  ncols : Nat
  rows : List (List α)
deriving DecidableEq

namespace RowMat
variable {α : Type}

/-- All rows have `ncols` entries. -/
def wf (m : RowMat α) : Prop := ∀ r ∈ m.rows, r.length = m.ncols

/-- nalgebra `OMatrix::zeros_generic(Dyn(rows), cols)`, used at util/src/lib.rs:84. -/
def zeros (zero : α) (nrows ncols : Nat) : RowMat α :=
  ⟨ncols, List.replicate nrows (List.replicate ncols zero)⟩

/-- The loop of util/src/lib.rs:54-58 over `matrices`; `cols` is the column count of the first
matrix and `rows` the current row offset.  `none` is a panic: the column assertion of line 55, the
range check of `rows_mut` or the shape check of `copy_from` (line 56). -/
def flattenLoop (cols : Nat) : List (RowMat α) → Nat → RowMat α → Option (Nat × RowMat α)
  | [], rows, out => some (rows, out)
  | m :: ms, rows, out =>
    if m.ncols = cols ∧ rows + m.rows.length ≤ out.rows.length ∧ m.ncols = out.ncols then
      flattenLoop cols ms (rows + m.rows.length)
        { out with rows := out.rows.take rows ++ m.rows ++ out.rows.drop (rows + m.rows.length) }
    else none

/-- util/src/lib.rs:38-72 `flatten_vertically_into`; `none` is a panic. -/
def flattenInto (out : RowMat α) (ms : List (RowMat α)) : Option (RowMat α) :=
  match ms with
  | first :: _ =>
    match flattenLoop first.ncols ms 0 out with
    | some (rows, out') => if rows = out'.rows.length then some out' else none
    | none => none
  | [] => if out.rows.length = 0 then some out else none

/-- util/src/lib.rs:74-90 `flatten_vertically`; the outer `Option` is the panic, the inner one the
returned `Option`. -/
def flattenVertically (zero : α) (ms : List (RowMat α)) : Option (Option (RowMat α)) :=
  match ms with
  | first :: _ =>
    (flattenInto (zeros zero (ms.map (·.rows.length)).sum first.ncols) ms).map some
  | [] => some none

end RowMat
end Fenris
