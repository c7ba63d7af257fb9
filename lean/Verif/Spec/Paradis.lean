import Verif.Model.Paradis
set_option autoImplicit false

namespace Fenris.Spec

/-- No index occurs in two different subsets (repetitions inside one subset are allowed). -/
def DisjointFamily (subsets : List (List Nat)) : Prop :=
  ∀ (i j : Nat) (s t : List Nat), i ≠ j → subsets[i]? = some s → subsets[j]? = some t →
    ∀ x ∈ s, x ∉ t

/-- `m` is the maximum of all indices in the family, `none` if there are none. -/
def IsMaxIndex (m : Option Nat) (subsets : List (List Nat)) : Prop :=
  match m with
  | none => ∀ s ∈ subsets, s = []
  | some k => (∃ s ∈ subsets, k ∈ s) ∧ ∀ s ∈ subsets, ∀ x ∈ s, x ≤ k

/-- Two subsets (by position) share an index. -/
def Shares (subsets : List (List Nat)) (i j : Nat) : Prop :=
  ∃ s t x, subsets[i]? = some s ∧ subsets[j]? = some t ∧ x ∈ s ∧ x ∈ t

end Fenris.Spec
