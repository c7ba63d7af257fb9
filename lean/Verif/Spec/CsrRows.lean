import Verif.Model.CsrRows
import Verif.Spec.Assembly
/-! # Specification of CSR matrices and their rows -/
set_option autoImplicit false

namespace Fenris.CsrRows.Spec
open Fenris.Assembly
variable {K : Type}

/-- A valid CSR matrix: a valid pattern, and a value for every entry. -/
structure Valid (m : FlatCsr K) : Prop where
  pattern : Fenris.Spec.ValidPattern m.pattern
  values : m.values.length = m.pattern.indices.length

/-- `rows` is the matrix row by row: written one after the other, the columns and the values of the rows are the arrays of the
matrix, and every row begins where the rows before it end. -/
structure IsRows (m : FlatCsr K) (rows : List (List Nat × List K)) : Prop where
  count : rows.length = m.pattern.nrows
  lens : ∀ r ∈ rows, r.2.length = r.1.length
  indices : rows.flatMap Prod.fst = m.pattern.indices
  values : rows.flatMap Prod.snd = m.values
  offsets : ∀ i, i ≤ m.pattern.nrows → m.pattern.offsets[i]? = some ((rows.take i).flatMap Prod.fst).length

end Fenris.CsrRows.Spec
