/-! Specification vocabulary for C12: adjacency and connectivity of a list-of-lanes pattern. -/
set_option autoImplicit false

namespace Fenris.Spec

/-- `w` occurs in row `v`. -/
def Adj (lanes : List (List Nat)) (v w : Nat) : Prop := ∃ l, lanes[v]? = some l ∧ w ∈ l

/-- There is a path from `v` to `w`. -/
inductive Connected (lanes : List (List Nat)) (v : Nat) : Nat → Prop
  | refl : Connected lanes v v
  | step (u w : Nat) : Connected lanes v u → Adj lanes u w → Connected lanes v w

end Fenris.Spec
