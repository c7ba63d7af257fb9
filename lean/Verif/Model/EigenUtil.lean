import Mathlib.Algebra.Order.Field.Basic
import Mathlib.Algebra.Order.AbsoluteValue.Basic
/-! # Model of the eigenvalue helpers of `src/util.rs` -/
set_option autoImplicit false

namespace Fenris
namespace EigenUtil
variable {K : Type} [Field K] [LinearOrder K]

/-- One comparison of `min_by`: the first of two equal values is kept. -/
def keepMin (a b : K) : K := if b < a then b else a

/-- One comparison for the maximum: the last of two equal values is kept. -/
def keepMax (a b : K) : K := if b < a then a else b

/-- src/util.rs:409-424 `min_eigenvalue_symmetric`, after the call of `symmetric_eigenvalues` (nalgebra); `none` is the panic of `unwrap`. -/
def minEigenvalue : List K → Option K
  | [] => none
  | a :: rest => some (rest.foldl keepMin a)

/-- src/util.rs:443-459 `min_max_symmetric_eigenvalues`. `minmax_by` of itertools compares in pairs; the values are the same. -/
def minMaxEigenvalues : List K → Option (K × K)
  | [] => none
  | a :: rest => some (rest.foldl keepMin a, rest.foldl keepMax a)

/-- The last expression of `condition_number_symmetric`. -/
def ratio (m : K × K) : K := |m.2| / |m.1|

/-- src/util.rs:461-479 `condition_number_symmetric`; `none` is the panic of `expect`. -/
def conditionNumber (eigs : List K) : Option K := (minMaxEigenvalues eigs).map ratio

end EigenUtil
end Fenris
