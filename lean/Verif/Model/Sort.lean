/-! # Stable sorting

Rust's `sort`, `sort_by_key` are stable sorts; `sort_unstable` on integers gives the same result.
They are modelled by insertion sort, which computes the (unique) stable sorted rearrangement. -/
set_option autoImplicit false

namespace Fenris
variable {α : Type}

/-- Insert before the first element that is not smaller. -/
def insertSorted (le : α → α → Bool) (a : α) : List α → List α
  | [] => [a]
  | b :: l => if le a b then a :: b :: l else b :: insertSorted le a l

/-- Stable sort (`slice::sort_by` of the Rust standard library). -/
def stableSort (le : α → α → Bool) : List α → List α
  | [] => []
  | a :: l => insertSorted le a (stableSort le l)

theorem insertSorted_perm (le : α → α → Bool) (a : α) (l : List α) :
    (insertSorted le a l).Perm (a :: l) := by
  induction l with
  | nil => exact .refl _
  | cons b l ih =>
    unfold insertSorted
    split
    · exact .refl _
    · exact (ih.cons b).trans (.swap a b l)

theorem stableSort_perm (le : α → α → Bool) (l : List α) : (stableSort le l).Perm l := by
  induction l with
  | nil => exact .refl _
  | cons a l ih => exact (insertSorted_perm le a _).trans (ih.cons a)

theorem stableSort_pairwise (le : α → α → Bool)
    (trans : ∀ a b c, le a b = true → le b c = true → le a c = true)
    (total : ∀ a b, (le a b || le b a) = true) (l : List α) :
    (stableSort le l).Pairwise (fun a b => le a b = true) := by
  have key : ∀ a (l : List α), l.Pairwise (fun a b => le a b = true) →
      (insertSorted le a l).Pairwise (fun a b => le a b = true) := by
    intro a l
    induction l with
    | nil => intro _; simp [insertSorted]
    | cons b l ih =>
      intro h
      obtain ⟨h1, h2⟩ := List.pairwise_cons.1 h
      unfold insertSorted
      split
      · rename_i hab
        refine List.pairwise_cons.2 ⟨?_, h⟩
        intro x hx
        rcases List.mem_cons.1 hx with rfl | hx
        · exact hab
        · exact trans a b x hab (h1 x hx)
      · rename_i hab
        refine List.pairwise_cons.2 ⟨?_, ih h2⟩
        intro x hx
        rcases List.mem_cons.1 ((insertSorted_perm le a l).mem_iff.1 hx) with rfl | hx
        · have := total x b
          simp only [Bool.or_eq_true] at this
          rcases this with h | h
          · exact absurd h hab
          · exact h
        · exact h1 x hx
  induction l with
  | nil => simp [stableSort]
  | cons a l ih => exact key a _ ih

end Fenris
