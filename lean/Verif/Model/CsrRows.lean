import Verif.Model.Pattern
import Verif.Model.NestedVec
/-! # Model of the parallel row access of CSR matrices (`fenris-sparse/src/sparse.rs:173-270`) -/
set_option autoImplicit false

namespace Fenris.CsrRows
open Fenris.Assembly
variable {K : Type}

/-- nalgebra-sparse `CsrMatrix`: the pattern and the values of all entries, row after row. -/
structure FlatCsr (K : Type) where
  pattern : CsrPattern
  values : List K

/-- `get_unchecked` (sparse.rs:234-242): the columns and values of a row.  `none` is a panic (slicing the column indices) or
undefined behaviour (reading offsets or values out of bounds). -/
def getRow (m : FlatCsr K) (i : Nat) : Option (List Nat × List K) :=
  m.pattern.offsets[i]?.bind fun rowBegin =>
    m.pattern.offsets[i + 1]?.bind fun rowEnd =>
      (sliceGet? m.pattern.indices rowBegin rowEnd).bind fun cols =>
        (sliceGet? m.values rowBegin (rowBegin + cols.length)).map fun vals => (cols, vals)

/-- The positions in the value array that `get_unchecked_mut` gives access to (sparse.rs:244-254 and `values_mut`,
sparse.rs:204-211): as many as there are columns, from the beginning of the row. -/
def rowPositions (m : FlatCsr K) (i : Nat) : Option (List Nat) :=
  m.pattern.offsets[i]?.bind fun rowBegin =>
    m.pattern.offsets[i + 1]?.bind fun rowEnd =>
      (sliceGet? m.pattern.indices rowBegin rowEnd).map fun cols => List.range' rowBegin cols.length

/-- Writing the values `vals` through `values_mut` of row `i`, entry by entry. -/
def setRow (m : FlatCsr K) (i : Nat) (vals : List K) : Option (FlatCsr K) :=
  (rowPositions m i).bind fun ps =>
    if vals.length = ps.length then
      ((ps.zip vals).foldlM (fun (vs : List K) p => if p.1 < vs.length then some (vs.set p.1 p.2) else none) m.values).map
        fun vs => ⟨m.pattern, vs⟩
    else none

/-- The number of records of the collection (sparse.rs:267-269). -/
def len (m : FlatCsr K) : Nat := m.pattern.nrows

end Fenris.CsrRows
