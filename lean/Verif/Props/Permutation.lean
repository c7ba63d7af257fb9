import Verif.Lemmas.Permutation
/-! # C10, C11: permutations -/
set_option autoImplicit false

namespace Fenris
open Permutation

/-! ## C10 -/

/-- C10.  `from_vec(v)` is `Ok` exactly when `v` contains every index `0..v.len()` exactly once,
and the permutation then stores `v`. -/
theorem C10_from_vec_ok_iff_permutation (v : List Nat) :
    (fromVec v = .ok ⟨v⟩ ↔ v.Perm (List.range v.length)) ∧
    ∀ p, fromVec v = .ok p → p = ⟨v⟩ := by
  rw [perm_range_iff, fromVec_ok_iff]
  exact ⟨by simp, fun p h => ((fromVec_ok_iff v p).1 h).1⟩

/-- C10 (partial).  When all entries are in range, the answer is never a panic: it is `Ok` or the
error value.  The full statement (no panic for any vector) is false, see below. -/
theorem C10_in_range_vectors_never_panic_partial (v : List Nat) (h : ∀ i ∈ v, i < v.length) :
    fromVec v = .ok ⟨v⟩ ∨ fromVec v = .err .mk := by
  have := fromVecLoop_panic v (List.replicate v.length false) (by simpa using h)
  unfold fromVec
  cases hl : fromVecLoop v (List.replicate v.length false) with
  | ok u => exact .inl rfl
  | err e => cases e; exact .inr rfl
  | panic => exact absurd hl this

/-- C10, what fails: an out-of-range entry makes `from_vec` panic instead of returning `Err`. -/
theorem C10_out_of_range_entry_panics : fromVec [1] = .panic := by decide

/-- C10.  Exactly when it panics: the first entry that is out of range or repeats an earlier one is
out of range. -/
theorem C10_panics_iff (v : List Nat) :
    fromVec v = .panic ↔ ∃ pre x post, v = pre ++ x :: post ∧ pre.Nodup ∧
      (∀ i ∈ pre, i < v.length) ∧ v.length ≤ x := by
  have key : ∀ (rest : List Nat) (vis : List Bool), fromVecLoop rest vis = .panic ↔
      ∃ pre x post, rest = pre ++ x :: post ∧ pre.Nodup ∧
        (∀ i ∈ pre, vis[i]? = some false) ∧ vis.length ≤ x := by
    intro rest
    induction rest with
    | nil => intro vis; simp [fromVecLoop]
    | cons a l ih =>
      intro vis
      unfold fromVecLoop
      cases hv : vis[a]? with
      | none =>
        simp only [true_iff]
        exact ⟨[], a, l, rfl, by simp, by simp, List.getElem?_eq_none_iff.1 hv⟩
      | some b =>
        have ha : a < vis.length := (List.getElem?_eq_some_iff.1 hv).1
        cases b with
        | true =>
          simp only [reduceCtorEq, false_iff]
          rintro ⟨pre, x, post, h1, -, h3, h4⟩
          cases pre with
          | nil => simp only [List.nil_append, List.cons.injEq] at h1; omega
          | cons y pre =>
            simp only [List.cons_append, List.cons.injEq] at h1
            have := h3 y (by simp)
            rw [← h1.1, hv] at this; simp at this
        | false =>
          simp only [ih]
          constructor
          · rintro ⟨pre, x, post, h1, h2, h3, h4⟩
            have hna : a ∉ pre := fun hm => by
              have := h3 a hm; rw [List.getElem?_set_self ha] at this; simp at this
            refine ⟨a :: pre, x, post, by simp [h1], List.nodup_cons.2 ⟨hna, h2⟩, ?_, by simpa using h4⟩
            intro i hi
            rcases List.mem_cons.1 hi with rfl | hi
            · exact hv
            · have := h3 i hi
              rwa [List.getElem?_set_ne (by rintro rfl; exact hna hi)] at this
          · rintro ⟨pre, x, post, h1, h2, h3, h4⟩
            cases pre with
            | nil => simp only [List.nil_append, List.cons.injEq] at h1; omega
            | cons y pre =>
              simp only [List.cons_append, List.cons.injEq] at h1
              obtain ⟨rfl, h1⟩ := h1
              obtain ⟨h5, h6⟩ := List.nodup_cons.1 h2
              refine ⟨pre, x, post, h1, h6, ?_, by simpa using h4⟩
              intro i hi
              rw [List.getElem?_set_ne (by rintro rfl; exact h5 hi)]
              exact h3 i (by simp [hi])
  have h0 : fromVec v = .panic ↔ fromVecLoop v (List.replicate v.length false) = .panic := by
    unfold fromVec
    cases fromVecLoop v (List.replicate v.length false) <;> simp
  rw [h0, key]
  simp only [List.length_replicate]
  constructor
  · rintro ⟨pre, x, post, h1, h2, h3, h4⟩
    refine ⟨pre, x, post, h1, h2, fun i hi => ?_, h4⟩
    have := (List.getElem?_eq_some_iff.1 (h3 i hi)).1
    simpa using this
  · rintro ⟨pre, x, post, h1, h2, h3, h4⟩
    refine ⟨pre, x, post, h1, h2, fun i hi => ?_, h4⟩
    rw [List.getElem?_replicate, if_pos (h3 i hi)]

example : fromVec [2, 0, 1] = .ok ⟨[2, 0, 1]⟩ := by decide
example : fromVec [2, 0, 2] = .err .mk := by decide

/-! ## C11 -/

/-- C11.  `inverse` of a permutation does not panic, is a permutation, and its source index undoes
that of the original, in both directions; the inverse of the inverse is the original. -/
theorem C11_inverse_laws (mx mx' : Nat) (v : List Nat) (p : Permutation)
    (hp : fromVec v = .ok p) :
    ∃ q, p.inverse mx = some q ∧ fromVec q.perm = .ok q ∧ q.len = p.len ∧
      (∀ i s, p.sourceIndex i = some s ↔ q.sourceIndex s = some i) ∧
      (∀ i, i < p.len → ∃ s, p.sourceIndex i = some s ∧ s < p.len) ∧
      q.inverse mx' = some p := by
  obtain ⟨rfl, hn, hb⟩ := (fromVec_ok_iff v p).1 hp
  obtain ⟨q, h1, h2, h3, h4, h5⟩ := inverse_spec mx v hn hb
  obtain ⟨r, g1, g2, g3, g4, g5⟩ := inverse_spec mx' q h3 h4
  refine ⟨⟨q⟩, h1, (fromVec_ok_iff _ _).2 ⟨rfl, h3, h4⟩, h2, h5, ?_, ?_⟩
  · intro i hi
    exact ⟨_, List.getElem?_eq_getElem hi, hb _ (List.getElem_mem hi)⟩
  · rw [g1]
    congr 2
    apply List.ext_getElem?
    intro i
    cases hv : v[i]? with
    | some s => exact (g5 s i).1 ((h5 i s).1 hv)
    | none =>
      rw [List.getElem?_eq_none_iff] at hv ⊢
      omega

/-- C11.  `reverse` yields a permutation, reversing twice is the identity, and position `i` of the
reversed permutation is position `len - 1 - i` of the original. -/
theorem C11_reverse_laws (v : List Nat) (p : Permutation) (hp : fromVec v = .ok p) :
    fromVec p.reverse.perm = .ok p.reverse ∧ p.reverse.reverse = p ∧
      ∀ i, i < p.len → p.reverse.sourceIndex i = p.sourceIndex (p.len - 1 - i) := by
  obtain ⟨rfl, hn, hb⟩ := (fromVec_ok_iff v p).1 hp
  refine ⟨(fromVec_ok_iff _ _).2 ⟨rfl, ?_, ?_⟩, ?_, ?_⟩
  · exact (List.reverse_perm v).nodup_iff.2 hn
  · simpa [Permutation.reverse] using hb
  · simp [Permutation.reverse]
  · intro i hi
    simp only [Permutation.reverse, sourceIndex, len] at *
    rw [List.getElem?_reverse hi]

/-- C11.  `apply_to_slice` panics exactly for slices of another length; otherwise element `i` of the
result is element `source_index(i)` of the input, and the result is a rearrangement. -/
theorem C11_apply_moves_source_to_target {α : Type} (v : List Nat) (p : Permutation)
    (hp : fromVec v = .ok p) (slice : List α) :
    (slice.length ≠ p.len → p.applyToSlice slice = none) ∧
    (slice.length = p.len → ∃ out, p.applyToSlice slice = some out ∧ out.length = slice.length ∧
      (∀ i s, p.sourceIndex i = some s → out[i]? = slice[s]?) ∧ out.Perm slice) := by
  obtain ⟨rfl, hn, hb⟩ := (fromVec_ok_iff v p).1 hp
  simp only [len, applyToSlice, sourceIndex]
  constructor
  · intro h; rw [if_neg h]
  · intro h
    rw [if_pos h]
    obtain ⟨out, h1, h2, h3⟩ := mapM_getElem?_spec slice v (by rw [h]; exact hb)
    refine ⟨out, h1, by omega, h3, ?_⟩
    have hperm := (perm_range_iff v).2 ⟨hn, hb⟩
    have e1 : out.map some = v.map (fun i => slice[i]?) := by
      apply List.ext_getElem?
      intro k
      simp only [List.getElem?_map]
      cases hv : v[k]? with
      | none => 
        have : out[k]? = none := by
          rw [List.getElem?_eq_none_iff] at hv ⊢; omega
        simp [this]
      | some i =>
        have hk := h3 k i hv
        have hi : i < slice.length := by
          have := hb i (List.mem_of_getElem? hv); omega
        rw [List.getElem?_eq_getElem hi] at hk
        simp [hk, List.getElem?_eq_getElem hi]
    have e2 : slice.map some = (List.range slice.length).map (fun i => slice[i]?) := by
      apply List.ext_getElem?
      intro k
      simp only [List.getElem?_map]
      by_cases hk : k < slice.length
      · simp [List.getElem?_eq_getElem hk, List.getElem?_range hk]
      · have : (List.range slice.length)[k]? = none := by simp; omega
        simp [List.getElem?_eq_none (Nat.le_of_not_lt hk), this]
    have : (out.map some).Perm (slice.map some) := by
      rw [e1, e2, h]; exact hperm.map _
    exact (List.map_perm_map_iff (fun _ _ h => Option.some.inj h)).1 this

/-- C11.  Applying a permutation and then its inverse restores every slice, in both orders. -/
theorem C11_apply_then_inverse_restores {α : Type} (mx : Nat) (v : List Nat) (p q : Permutation)
    (hp : fromVec v = .ok p) (hq : p.inverse mx = some q) (slice : List α)
    (hl : slice.length = p.len) :
    (p.applyToSlice slice).bind q.applyToSlice = some slice ∧
    (q.applyToSlice slice).bind p.applyToSlice = some slice := by
  obtain ⟨q', h1, h2, h3, h4, h5, -⟩ := C11_inverse_laws mx mx v p hp
  rw [hq] at h1; cases h1
  have aux : ∀ (w w' : List Nat) (p q : Permutation), fromVec w = .ok p → fromVec w' = .ok q →
      q.len = p.len → slice.length = p.len →
      (∀ i s, p.sourceIndex i = some s ↔ q.sourceIndex s = some i) →
      (p.applyToSlice slice).bind q.applyToSlice = some slice := by
    intro w w' p q hp hq e1 e2 e3
    obtain ⟨out, a1, a2, a3, -⟩ := (C11_apply_moves_source_to_target w p hp slice).2 e2
    obtain ⟨out', b1, b2, b3, -⟩ := (C11_apply_moves_source_to_target w' q hq out).2 (by omega)
    rw [a1]
    simp only [Option.bind_some, b1, Option.some.injEq]
    apply List.ext_getElem?
    intro i
    by_cases hi : i < slice.length
    · obtain ⟨rfl, -, -⟩ := (fromVec_ok_iff w' q).1 hq
      have hi' : i < w'.length := by simp only [len] at *; omega
      have hs : (Permutation.mk w').sourceIndex i = some w'[i] := List.getElem?_eq_getElem hi'
      rw [b3 i _ hs, a3 _ i ((e3 _ i).2 hs)]
    · rw [List.getElem?_eq_none (by omega), List.getElem?_eq_none (by omega)]
  exact ⟨aux v q.perm p q hp h2 h3 hl h4,
    aux q.perm v q p h2 hp h3.symm (by omega) (fun i s => (h4 s i).symm)⟩

example : Permutation.inverse 99 ⟨[2, 0, 1]⟩ = some ⟨[1, 2, 0]⟩ := by decide
example : Permutation.applyToSlice ⟨[2, 0, 1]⟩ ["a", "b", "c"] = some ["c", "a", "b"] := by decide

end Fenris
