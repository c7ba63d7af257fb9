import Verif.Lemmas.NestedVec
/-! # C01, C02: nested vectors -/
set_option autoImplicit false

namespace Fenris
open NestedVec

variable {α : Type}

/-- C01.  For every history of operations the model panics exactly when the list-of-lists
specification says the user indexed outside an array, and otherwise every public observation of
the nested vector is the one of the list of lists. -/
theorem C01_nested_vec_refines_list_of_lists (ops : List (Op α)) :
    (run ops = none ∧ Spec.nestedRun ops = none) ∨
    ∃ v ls, run ops = some v ∧ Spec.nestedRun ops = some ls ∧ Spec.Observes v ls := by
  have := run_rep_from (Rep.new (α := α)) ops
  unfold run Spec.nestedRun
  cases h1 : ops.foldlM step (new : NestedVec α) <;>
    cases h2 : ops.foldlM Spec.nestedStep ([] : List (List α)) <;> rw [h1, h2] at this
  · exact .inl ⟨rfl, rfl⟩
  · exact this.elim
  · exact this.elim
  · exact .inr ⟨_, _, rfl, rfl, this.observes⟩

/-- C01.  Appending element by element through `begin_array` is the same as `push`, down to the
stored representation, and the appender counts the elements appended so far. -/
theorem C01_begin_array_equals_push (v : NestedVec α) (xs : List α) :
    (xs.foldl Appender.pushSingle v.beginArray).drop = v.push xs ∧
    (xs.foldl Appender.pushSingle v.beginArray).count = some xs.length := by
  refine ⟨beginArray_eq_push v xs, ?_⟩
  simp [pushSingle_foldl, Appender.count, checkedSub, beginArray]

/-- C02.  `Vec<Vec<T>>` to nested vector and back is the identity. -/
theorem C02_round_trip_lists (ls : List (List α)) : (ofLists ls).toLists = some ls := by
  have := foldl_push_rep (Rep.new (α := α)) ls
  exact this.observes.iter

/-- C02.  Any nested vector reachable through the API converts to a `Vec<Vec<T>>` and back to a
nested vector with the same observations. -/
theorem C02_round_trip_nested (ops : List (Op α)) (v : NestedVec α) (h : run ops = some v) :
    ∃ ls, v.toLists = some ls ∧ Spec.Observes v ls ∧ Spec.Observes (ofLists ls) ls := by
  rcases C01_nested_vec_refines_list_of_lists ops with ⟨h1, -⟩ | ⟨v', ls, h1, -, h3⟩
  · rw [h] at h1; cases h1
  · rw [h] at h1; cases h1
    exact ⟨ls, h3.iter, h3, (foldl_push_rep Rep.new ls).observes⟩

/- Non-vacuity: a history with an empty array, a forgotten appender, writes and a clear. -/
example : run [.push [1, 2], .array [], .forgottenArray [9], .array [3], .write 0 1 7,
    .writeLast 0 4] = some ⟨[1, 7, 9, 4], [0, 2, 3], [2, 2, 4]⟩ := by decide
example : Spec.nestedRun [.push [1, 2], .array [], .forgottenArray [9], .array [3], .write 0 1 7,
    .writeLast 0 4] = some [[1, 7], [], [4]] := by decide
/- A panicking history: writing past the end of an array. -/
example : run [.push [1], .write 0 1 7] = none := by decide

end Fenris
