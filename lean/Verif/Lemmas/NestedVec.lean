import Verif.Spec.NestedVec
set_option autoImplicit false

namespace Fenris
open NestedVec

variable {α : Type}

theorem mapM_option_eq_some {β γ : Type} (f : β → Option γ) (l : List β) (r : List γ)
    (hl : l.length = r.length)
    (h : ∀ i (hi : i < l.length), f l[i] = some (r[i]'(hl ▸ hi))) : l.mapM f = some r := by
  induction l generalizing r with
  | nil => cases r with
    | nil => rfl
    | cons => simp at hl
  | cons a l ih =>
    cases r with
    | nil => simp at hl
    | cons b r =>
      have h0 := h 0 (by simp)
      simp at h0
      have := ih r (by simpa using hl) (fun i hi => by
        have := h (i+1) (by simpa using hi); simpa using this)
      simp [List.mapM_cons, h0, this]

namespace NestedVec

/-- Representation invariant relating the three vectors to a list of lists. -/
structure Rep (v : NestedVec α) (ls : List (List α)) : Prop where
  hb : v.offsetsBegin.length = ls.length
  he : v.offsetsEnd.length = ls.length
  range : ∀ (i b e : Nat) (a : List α), v.offsetsBegin[i]? = some b → v.offsetsEnd[i]? = some e → ls[i]? = some a →
    e = b + a.length ∧ e ≤ v.data.length ∧ ∀ k, k < a.length → v.data[b + k]? = a[k]?
  sep : ∀ i j e b : Nat, i < j → v.offsetsEnd[i]? = some e → v.offsetsBegin[j]? = some b → e ≤ b

theorem Rep.new : Rep (new : NestedVec α) [] := by
  constructor <;> simp [NestedVec.new]

theorem Rep.addArray {v : NestedVec α} {ls : List (List α)} (h : Rep v ls) (a : List α) :
    Rep (v.push a) (ls ++ [a]) := by
  obtain ⟨hb, he, hr, hs⟩ := h
  have hbd : ∀ i e : Nat, v.offsetsEnd[i]? = some e → e ≤ v.data.length := by
    intro i e hi
    have hlt : i < v.offsetsEnd.length := (List.getElem?_eq_some_iff.1 hi).1
    exact (hr i _ e _ (List.getElem?_eq_getElem (by omega)) hi
      (List.getElem?_eq_getElem (by omega))).2.1
  refine ⟨by simp [push, hb], by simp [push, he], ?_, ?_⟩
  · intro i b e a' h1 h2 h3
    simp only [push, List.getElem?_append, List.length_append] at h1 h2 h3 ⊢
    by_cases hi : i < ls.length
    · simp only [hb, he, hi, if_true] at h1 h2 h3
      obtain ⟨q1, q2, q3⟩ := hr i b e a' h1 h2 h3
      refine ⟨q1, by omega, fun k hk => ?_⟩
      rw [if_pos (by omega)]; exact q3 k hk
    · simp only [hb, he, hi, if_false] at h1 h2 h3
      have hi0 : i - ls.length = 0 := by
        have := (List.getElem?_eq_some_iff.1 h1).1
        simp at this; exact this
      simp only [hi0] at h1 h2 h3
      simp at h1 h2 h3
      subst h1 h2 h3
      refine ⟨rfl, by omega, fun k hk => ?_⟩
      rw [if_neg (by omega)]; congr 1; omega
  · intro i j e b hij h1 h2
    simp only [push, List.getElem?_append, List.length_append] at h1 h2
    have hj : j < ls.length + 1 := by
      by_cases hj : j < ls.length + 1
      · exact hj
      · rw [if_neg (by omega), List.getElem?_eq_none (by simp; omega)] at h2; cases h2
    have hi : i < ls.length := by omega
    rw [if_pos (by omega)] at h1
    by_cases hj' : j < ls.length
    · rw [if_pos (by omega)] at h2; exact hs i j e b hij h1 h2
    · rw [if_neg (by omega), hb] at h2
      have : j - ls.length = 0 := by omega
      simp [this] at h2
      rw [← h2]; exact hbd i e h1

theorem pushSingle_foldl (xs : List α) (w : Appender α) :
    xs.foldl Appender.pushSingle w = { w with vec := { w.vec with data := w.vec.data ++ xs } } := by
  induction xs generalizing w with
  | nil => simp
  | cons x xs ih => simp [ih, Appender.pushSingle]

theorem beginArray_eq_push (v : NestedVec α) (xs : List α) :
    (xs.foldl Appender.pushSingle v.beginArray).drop = v.push xs := by
  simp [pushSingle_foldl, Appender.drop, beginArray, push]

theorem Rep.garbage {v : NestedVec α} {ls : List (List α)} (h : Rep v ls) (g : List α) :
    Rep { v with data := v.data ++ g } ls := by
  obtain ⟨hb, he, hr, hs⟩ := h
  refine ⟨hb, he, ?_, hs⟩
  intro i b e a h1 h2 h3
  obtain ⟨q1, q2, q3⟩ := hr i b e a h1 h2 h3
  refine ⟨q1, by simp; omega, fun k hk => ?_⟩
  simp only [List.getElem?_append]
  rw [if_pos (by omega)]; exact q3 k hk

theorem sliceGet_eq {l : List α} {b : Nat} {a : List α} (h : b + a.length ≤ l.length)
    (h2 : ∀ k, k < a.length → l[b + k]? = a[k]?) : sliceGet? l b (b + a.length) = some a := by
  unfold sliceGet?
  rw [if_pos (by omega)]
  congr 1
  apply List.ext_getElem?
  intro k
  rw [List.getElem?_take]
  by_cases hk : k < a.length
  · rw [if_pos (by omega), List.getElem?_drop, h2 k hk]
  · rw [if_neg (by omega), List.getElem?_eq_none (by omega)]

theorem Rep.getRange {v : NestedVec α} {ls : List (List α)} (h : Rep v ls) {i : Nat} {a : List α}
    (hi : ls[i]? = some a) : ∃ b, v.offsetsBegin[i]? = some b ∧
      v.offsetsEnd[i]? = some (b + a.length) ∧ b + a.length ≤ v.data.length ∧
      ∀ k, k < a.length → v.data[b + k]? = a[k]? := by
  have hlt : i < ls.length := (List.getElem?_eq_some_iff.1 hi).1
  have h1 : v.offsetsBegin[i]? = some (v.offsetsBegin[i]'(by rw [h.hb]; exact hlt)) :=
    List.getElem?_eq_getElem _
  have h2 : v.offsetsEnd[i]? = some (v.offsetsEnd[i]'(by rw [h.he]; exact hlt)) :=
    List.getElem?_eq_getElem _
  obtain ⟨q1, q2, q3⟩ := h.range i _ _ a h1 h2 hi
  exact ⟨_, h1, by rw [h2, q1], by omega, q3⟩

theorem Rep.get_eq {v : NestedVec α} {ls : List (List α)} (h : Rep v ls) (i : Nat) :
    v.get i = ls[i]? := by
  cases hi : ls[i]? with
  | none =>
    have : v.offsetsBegin[i]? = none := by
      rw [List.getElem?_eq_none_iff] at *; rw [h.hb]; exact hi
    simp [NestedVec.get, getIndexRange, this]
  | some a =>
    obtain ⟨b, h1, h2, h3, h4⟩ := h.getRange hi
    simp [NestedVec.get, getIndexRange, h1, h2, sliceGet_eq h3 h4]

theorem Rep.getLastRange_eq {v : NestedVec α} {ls : List (List α)} (h : Rep v ls) :
    v.getLastRange = v.getIndexRange (ls.length - 1) := by
  simp only [getLastRange, getIndexRange, List.getLast?_eq_getElem?, h.hb, h.he]

theorem Rep.observes {v : NestedVec α} {ls : List (List α)} (h : Rep v ls) :
    Spec.Observes v ls := by
  have hit : v.iter = some ls := by
    unfold NestedVec.iter
    refine mapM_option_eq_some _ _ _ (by simp [NestedVec.len, h.hb]) ?_
    intro i hi
    have hi' : i < ls.length := by simpa [NestedVec.len, h.hb] using hi
    simp only [List.getElem_range]
    rw [h.get_eq, List.getElem?_eq_getElem hi']
  refine ⟨h.hb, h.get_eq, ?_, ?_, hit, ?_, ?_⟩
  · rw [NestedVec.first, h.get_eq, List.head?_eq_getElem?]
  · have := h.get_eq (ls.length - 1)
    rw [NestedVec.last, h.getLastRange_eq, List.getLast?_eq_getElem?, ← this, NestedVec.get]
  · simp [iterArrayElements, hit]
  · have : (v.offsetsBegin.zip v.offsetsEnd).mapM (fun p => checkedSub p.2 p.1)
        = some (ls.map List.length) := by
      refine mapM_option_eq_some _ _ _ (by simp [h.hb, h.he]) ?_
      intro i hi
      have hi' : i < ls.length := by simp [h.hb, h.he] at hi; omega
      obtain ⟨b, h1, h2, -, -⟩ := h.getRange (List.getElem?_eq_getElem hi')
      simp only [List.getElem_zip, List.getElem_map]
      rw [List.getElem?_eq_some_iff] at h1 h2
      obtain ⟨_, h1⟩ := h1; obtain ⟨_, h2⟩ := h2
      rw [h1, h2]; simp [checkedSub]
    simp [totalNumElements, this, List.length_flatten]

theorem Rep.writeRange {v : NestedVec α} {ls : List (List α)} (h : Rep v ls) {i : Nat} {a : List α}
    (hi : ls[i]? = some a) (j : Nat) (x : α) (hj : j < a.length) (b : Nat)
    (hb : v.offsetsBegin[i]? = some b) :
    Rep { v with data := v.data.set (b + j) x } (ls.set i (a.set j x)) := by
  have hlt : i < ls.length := (List.getElem?_eq_some_iff.1 hi).1
  obtain ⟨b', h1, h2, h3, h4⟩ := h.getRange hi
  rw [hb] at h1; cases h1
  refine ⟨by simp [h.hb], by simp [h.he], ?_, h.sep⟩
  intro i' b' e' a' g1 g2 g3
  simp only [List.length_set] at *
  by_cases hii : i = i'
  · subst hii
    rw [hb] at g1; cases g1
    rw [h2] at g2; cases g2
    rw [List.getElem?_set_self hlt] at g3; cases g3
    simp only [List.length_set]
    refine ⟨trivial, h3, fun k hk => ?_⟩
    by_cases hkj : j = k
    · subst hkj
      rw [List.getElem?_set_self (by omega), List.getElem?_set_self hk]
    · rw [List.getElem?_set_ne (by omega), List.getElem?_set_ne hkj, h4 k hk]
  · rw [List.getElem?_set_ne hii] at g3
    obtain ⟨q1, q2, q3⟩ := h.range i' b' e' a' g1 g2 g3
    refine ⟨q1, q2, fun k hk => ?_⟩
    rw [List.getElem?_set_ne, q3 k hk]
    rcases Nat.lt_or_gt_of_ne hii with hlt' | hlt'
    · have := h.sep i i' _ _ hlt' h2 g1; omega
    · have := h.sep i' i _ _ hlt' g2 hb; omega

theorem Rep.writeAt {v : NestedVec α} {ls : List (List α)} (h : Rep v ls) (i j : Nat) (x : α) :
    match v.writeAt i j x, Spec.nestedStep ls (.write i j x) with
    | some v', some ls' => Rep v' ls'
    | none, none => True
    | _, _ => False := by
  cases hi : ls[i]? with
  | none =>
    have hn : v.offsetsBegin[i]? = none := by
      rw [List.getElem?_eq_none_iff] at *; rw [h.hb]; exact hi
    simp [NestedVec.writeAt, getIndexRange, hn, Spec.nestedStep, hi, h]
  | some a =>
    obtain ⟨b, h1, h2, h3, h4⟩ := h.getRange hi
    have hg : v.getIndexRange i = some (b, b + a.length) := by simp [getIndexRange, h1, h2]
    simp only [NestedVec.writeAt, hg, Spec.nestedStep, hi, NestedVec.writeRange]
    by_cases hj : j < a.length
    · have := h.writeRange hi j x hj b h1
      simp [hj, h3, this]
    · simp [hj]

theorem step_rep {v : NestedVec α} {ls : List (List α)} (h : Rep v ls) (op : Op α) :
    match v.step op, Spec.nestedStep ls op with
    | some v', some ls' => Rep v' ls'
    | none, none => True
    | _, _ => False := by
  cases op with
  | push a => exact h.addArray a
  | array xs =>
    simp only [step, Spec.nestedStep]
    rw [beginArray_eq_push]; exact h.addArray xs
  | forgottenArray xs =>
    simp only [step, Spec.nestedStep, pushSingle_foldl, Appender.forget, beginArray]
    exact h.garbage xs
  | write i j x => exact h.writeAt i j x
  | writeLast j x =>
    have := h.writeAt (ls.length - 1) j x
    simp only [NestedVec.writeAt, Spec.nestedStep, ← List.getLast?_eq_getElem?] at this
    simp only [step, NestedVec.writeLast, h.getLastRange_eq, Spec.nestedStep]
    exact this
  | clear => exact Rep.new

theorem run_rep_from {v : NestedVec α} {ls : List (List α)} (h : Rep v ls) (ops : List (Op α)) :
    match ops.foldlM step v, ops.foldlM Spec.nestedStep ls with
    | some v', some ls' => Rep v' ls'
    | none, none => True
    | _, _ => False := by
  induction ops generalizing v ls with
  | nil => exact h
  | cons op ops ih =>
    have := step_rep h op
    simp only [List.foldlM_cons]
    cases h1 : v.step op <;> cases h2 : Spec.nestedStep ls op <;> rw [h1, h2] at this
    · simp
    · exact this.elim
    · exact this.elim
    · exact ih this

theorem foldl_push_rep {v : NestedVec α} {ls : List (List α)} (h : Rep v ls) (l : List (List α)) :
    Rep (l.foldl push v) (ls ++ l) := by
  induction l generalizing v ls with
  | nil => simpa
  | cons a l ih => simpa using ih (h.addArray a)

theorem Rep.uniq {v : NestedVec α} {ls ls' : List (List α)} (h : Rep v ls) (h' : Rep v ls') :
    ls = ls' := by
  have := h.observes.iter; have := h'.observes.iter; simp_all

end NestedVec
end Fenris
