import Verif.Model.Basic
/-! # Model of `fenris-geometry/src/util.rs` -/
set_option autoImplicit false

namespace Fenris.GeomUtil
variable {α : Type}

/-- util.rs:37-38: comparison of `x[(j + i_start) % n]` with `y_j` (both indices are in range, so the
lookups never fail). -/
def shiftEntryEq (cmp : α → α → Bool) (x y : List α) (i j : Nat) : Bool :=
  match x[(j + i) % x.length]?, y[j]? with
  | some a, some b => cmp a b
  | _, _ => false

/-- `slices_are_equal_shift_invariant` (util.rs:26-46). -/
def equalShiftInvariant (cmp : α → α → Bool) (x y : List α) : Bool :=
  if y.length ≠ x.length then false
  else if x.length = 0 then true
  else (List.range x.length).any fun i =>
    (List.range y.length).all fun j => shiftEntryEq cmp x y i j

/-- The carry loop util.rs:100-107 on the remaining components. -/
def bump (n : Nat) : List Nat → List Nat
  | [] => []
  | x :: xs => if x + 1 < n then (x + 1) :: xs else 0 :: bump n xs

/-- The items of the iterator from a state with `k` items left (util.rs:97-113). -/
def powerItems (n : Nat) : Nat → List Nat → List (List Nat)
  | 0, _ => []
  | k + 1, idx => idx :: powerItems n k (bump n idx)

/-- `index_set_nth_power_iter` (util.rs:91-114) as the list of its items; a multi-index is the list of
its `d` components. -/
def indexPower (d n : Nat) : List (List Nat) := powerItems n (n ^ d) (List.replicate d 0)

end Fenris.GeomUtil
