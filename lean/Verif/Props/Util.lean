import Verif.Model.Util
/-! # C09: prefix sums and vertical stacking -/
set_option autoImplicit false

namespace Fenris

/-- C09.  Entry `i` of `prefix_sum(x, x0)` is `x0` plus the sum of the entries strictly before `i`;
the length is unchanged. -/
theorem C09_prefix_sum_is_exclusive_scan (counts : List Nat) (x0 : Nat) :
    (prefixSum counts x0).length = counts.length ∧
    ∀ i, i < counts.length → (prefixSum counts x0)[i]? = some (x0 + (counts.take i).sum) := by
  induction counts generalizing x0 with
  | nil => simp [prefixSum]
  | cons x xs ih =>
    obtain ⟨h1, h2⟩ := ih (x0 + x)
    refine ⟨by simp [prefixSum, h1], ?_⟩
    intro i hi
    cases i with
    | zero => simp [prefixSum]
    | succ i =>
      simp only [List.length_cons] at hi
      simp only [prefixSum, List.getElem?_cons_succ, h2 i (by omega), List.take_succ_cons,
        List.sum_cons]
      congr 1; omega

namespace RowMat
variable {α : Type}

theorem flattenLoop_ok (cols : Nat) (ms : List (RowMat α)) (hc : ∀ m ∈ ms, m.ncols = cols)
    (pre : List (List α)) (tail : List (List α))
    (ht : tail.length = (ms.map (·.rows.length)).sum) :
    flattenLoop cols ms pre.length ⟨cols, pre ++ tail⟩ =
      some (pre.length + (ms.map (·.rows.length)).sum, ⟨cols, pre ++ ms.flatMap (·.rows)⟩) := by
  induction ms generalizing pre tail with
  | nil =>
    simp only [List.map_nil, List.sum_nil] at ht
    have : tail = [] := List.eq_nil_of_length_eq_zero ht
    subst this; simp [flattenLoop]
  | cons m ms ih =>
    simp only [List.map_cons, List.sum_cons] at ht
    have hm := hc m (by simp)
    unfold flattenLoop
    rw [if_pos ⟨hm, by simp; omega, hm⟩]
    have e : ((pre ++ tail).take pre.length ++ m.rows ++
        (pre ++ tail).drop (pre.length + m.rows.length)) =
        (pre ++ m.rows) ++ tail.drop m.rows.length := by
      simp [List.drop_append]
    simp only [e]
    have := ih (fun m hm => hc m (by simp [hm])) (pre ++ m.rows) (tail.drop m.rows.length)
      (by simp; omega)
    simp only [List.length_append] at this
    rw [this]
    simp [Nat.add_assoc]

theorem flattenLoop_none (cols : Nat) (ms : List (RowMat α)) (rows : Nat) (out : RowMat α)
    (hc : ∃ m ∈ ms, m.ncols ≠ cols) : flattenLoop cols ms rows out = none := by
  induction ms generalizing rows out with
  | nil => simp at hc
  | cons m ms ih =>
    unfold flattenLoop
    split
    · rename_i h
      apply ih
      obtain ⟨m', hm', hne⟩ := hc
      rcases List.mem_cons.1 hm' with rfl | hm'
      · exact absurd h.1 hne
      · exact ⟨m', hm', hne⟩
    · rfl

end RowMat

open RowMat in
/-- C09.  Stacking is `None` exactly for an empty input; for matrices of a common column count the
result has that column count and its rows are the rows of the inputs in order; and it panics
for different column counts. -/
theorem C09_flatten_vertically_stacks_rows {α : Type} (zero : α) :
    flattenVertically zero ([] : List (RowMat α)) = some none ∧
    (∀ (c : Nat) (ms : List (RowMat α)), ms ≠ [] → (∀ m ∈ ms, m.ncols = c) →
      flattenVertically zero ms = some (some ⟨c, ms.flatMap (·.rows)⟩)) ∧
    (∀ (ms : List (RowMat α)) (m m' : RowMat α), m ∈ ms → m' ∈ ms → m.ncols ≠ m'.ncols →
      flattenVertically zero ms = none) := by
  refine ⟨rfl, ?_, ?_⟩
  · intro c ms hne hc
    cases ms with
    | nil => exact absurd rfl hne
    | cons first rest =>
      have hf := hc first (by simp)
      subst hf
      have := flattenLoop_ok first.ncols (first :: rest) hc []
        (List.replicate ((first :: rest).map (·.rows.length)).sum (List.replicate first.ncols zero))
        (by simp)
      simp only [List.nil_append, List.length_nil, Nat.zero_add] at this
      unfold flattenVertically flattenInto zeros
      simp only [this]
      rw [if_pos (by simp [List.length_flatMap])]
      rfl
  · intro ms m m' hm hm' hne
    cases ms with
    | nil => cases hm
    | cons first rest =>
      unfold flattenVertically flattenInto
      have : ∃ x ∈ first :: rest, x.ncols ≠ first.ncols := by
        by_cases h : m.ncols = first.ncols
        · exact ⟨m', hm', fun h' => hne (h.trans h'.symm)⟩
        · exact ⟨m, hm, h⟩
      simp only [flattenLoop_none first.ncols _ _ _ this]
      rfl

namespace RowMat
variable {α : Type}

private theorem flattenLoop_some (cols : Nat) (ms : List (RowMat α)) (rows : Nat) (out : RowMat α) (r : Nat × RowMat α)
    (h : flattenLoop cols ms rows out = some r) (hr : rows ≤ out.rows.length) :
    (∀ m ∈ ms, m.ncols = out.ncols) ∧ r.1 = rows + (ms.map (·.rows.length)).sum ∧ r.2.rows.length = out.rows.length := by
  induction ms generalizing rows out with
  | nil =>
    simp only [flattenLoop, Option.some.injEq] at h
    subst h
    simp
  | cons m ms ih =>
    unfold flattenLoop at h
    split at h
    · rename_i hc
      obtain ⟨h1, h2, h3⟩ := ih _ _ h (by simp; omega)
      refine ⟨fun x hx => ?_, ?_, ?_⟩
      · rcases List.mem_cons.1 hx with rfl | hx
        · exact hc.2.2
        · exact h1 x hx
      · rw [h2, List.map_cons, List.sum_cons, Nat.add_assoc]
      · rw [h3]
        simp
        omega
    · cases h

/-- C09.  Stacking into a given matrix succeeds exactly if all matrices have its column count and together as many
rows as it has; then it holds the rows of the inputs in order, whatever it held before.  Otherwise it panics. -/
theorem C09_flatten_into (out : RowMat α) (ms : List (RowMat α)) :
    ((∀ m ∈ ms, m.ncols = out.ncols) ∧ (ms.map (·.rows.length)).sum = out.rows.length →
      flattenInto out ms = some ⟨out.ncols, ms.flatMap (·.rows)⟩ ∧ ((∀ m ∈ ms, m.wf) → RowMat.wf ⟨out.ncols, ms.flatMap (·.rows)⟩)) ∧
    (¬ ((∀ m ∈ ms, m.ncols = out.ncols) ∧ (ms.map (·.rows.length)).sum = out.rows.length) → flattenInto out ms = none) := by
  constructor
  · rintro ⟨hc, hs⟩
    constructor
    · cases ms with
      | nil =>
        simp only [List.map_nil, List.sum_nil] at hs
        have h0 : out.rows = [] := List.eq_nil_of_length_eq_zero hs.symm
        unfold flattenInto
        rw [if_pos hs.symm, List.flatMap_nil, ← h0]
      | cons first rest =>
        have hf := hc first (by simp)
        have := flattenLoop_ok out.ncols (first :: rest) hc [] out.rows hs.symm
        simp only [List.nil_append, List.length_nil, Nat.zero_add] at this
        unfold flattenInto
        simp only [hf]
        change (match flattenLoop out.ncols (first :: rest) 0 ⟨out.ncols, out.rows⟩ with
          | some (rows, out') => if rows = out'.rows.length then some out' else none
          | none => none) = _
        rw [this]
        simp only
        rw [if_pos (by simp [List.length_flatMap])]
    · intro hw r hr
      obtain ⟨m, hm, hr⟩ := List.mem_flatMap.1 hr
      rw [hw m hm r hr]
      exact hc m hm
  · intro hno
    cases ms with
    | nil =>
      unfold flattenInto
      rw [if_neg]
      intro h0
      exact hno ⟨by simp, by simp [h0]⟩
    | cons first rest =>
      unfold flattenInto
      simp only
      cases h : flattenLoop first.ncols (first :: rest) 0 out with
      | none => rfl
      | some r =>
        obtain ⟨h1, h2, h3⟩ := flattenLoop_some _ _ _ _ _ h (Nat.zero_le _)
        simp only
        rw [if_neg]
        intro h4
        exact hno ⟨h1, by rw [← h3, ← h4, h2, Nat.zero_add]⟩

end RowMat

example : prefixSum [3, 0, 2, 5] 10 = [10, 13, 13, 15] := by decide
example : RowMat.flattenVertically 0 [⟨2, [[1, 2]]⟩, ⟨2, []⟩, ⟨2, [[3, 4], [5, 6]]⟩] =
    some (some ⟨2, [[1, 2], [3, 4], [5, 6]]⟩) := by decide
example : RowMat.flattenInto ⟨2, [[7, 7], [8, 8], [9, 9]]⟩ [⟨2, [[1, 2]]⟩, ⟨2, []⟩, ⟨2, [[3, 4], [5, 6]]⟩] =
    some ⟨2, [[1, 2], [3, 4], [5, 6]]⟩ := by decide
example : RowMat.flattenInto ⟨2, [[7, 7]]⟩ ([] : List (RowMat Nat)) = none := by decide

end Fenris
