import Verif.Model.NestedVec
/-!
# Specification of nested vectors: a plain list of lists

The specification only shares the *type* of operations with the model.
-/
set_option autoImplicit false

namespace Fenris.Spec

variable {α : Type}

/-- What an operation means on a list of lists; `none` is an index panic. -/
def nestedStep (ls : List (List α)) : NestedVec.Op α → Option (List (List α))
  | .push a => some (ls ++ [a])
  | .array xs => some (ls ++ [xs])
  | .forgottenArray _ => some ls
  | .write i j x =>
      match ls[i]? with
      | none => some ls
      | some a => if j < a.length then some (ls.set i (a.set j x)) else none
  | .writeLast j x =>
      match ls.getLast? with
      | none => some ls
      | some a => if j < a.length then some (ls.set (ls.length - 1) (a.set j x)) else none
  | .clear => some []

def nestedRun (ops : List (NestedVec.Op α)) : Option (List (List α)) := ops.foldlM nestedStep []

/-- All public observations of `v` agree with the list of lists `ls`. -/
structure Observes (v : NestedVec α) (ls : List (List α)) : Prop where
  len : v.len = ls.length
  get : ∀ i, v.get i = ls[i]?
  first : v.first = ls.head?
  last : v.last = ls.getLast?
  iter : v.iter = some ls
  elements : v.iterArrayElements = some ls.flatten
  total : v.totalNumElements = some ls.flatten.length

end Fenris.Spec
