/-!
# Outcomes of model functions
-/
set_option autoImplicit false

namespace Fenris

/-- Outcome of a fallible Rust function: `Ok`, `Err`, or a panic. -/
inductive Res (ε α : Type) where
  | ok (a : α)
  | err (e : ε)
  | panic
deriving DecidableEq, Repr

end Fenris
