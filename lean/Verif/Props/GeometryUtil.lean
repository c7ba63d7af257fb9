import Verif.Model.GeometryUtil
import Mathlib.Data.List.Rotate
import Mathlib.Data.List.Forall2
import Mathlib.Data.Nat.Basic
import Mathlib.Algebra.Order.Ring.Nat
import Mathlib.Tactic.Ring
/-! # C65: cyclic-shift equality and index-set powers -/
set_option autoImplicit false

namespace Fenris.GeomUtil
variable {α : Type}

/-- C65: two slices are equal up to a shift exactly when some rotation of the first agrees with the
second entry by entry. -/
theorem C65_shift_equality (cmp : α → α → Bool) (x y : List α) :
    equalShiftInvariant cmp x y = true ↔
      ∃ k : Nat, List.Forall₂ (fun a b => cmp a b = true) (x.rotate k) y := by
  have hlen : ∀ k, List.Forall₂ (fun a b => cmp a b = true) (x.rotate k) y →
      x.length = y.length := fun k h => by
    rw [← List.length_rotate x k]; exact h.length_eq
  simp only [equalShiftInvariant]
  by_cases h1 : y.length ≠ x.length
  · rw [if_pos h1]
    simp only [Bool.false_eq_true, false_iff]
    rintro ⟨k, h⟩
    exact h1 (hlen k h).symm
  · have h1 : y.length = x.length := not_not.1 h1
    rw [if_neg (by simpa using h1)]
    by_cases h2 : x.length = 0
    · rw [if_pos h2]
      simp only [true_iff]
      have hx := List.length_eq_zero_iff.1 h2
      have hy := List.length_eq_zero_iff.1 (h1.trans h2)
      subst hx hy
      exact ⟨0, .nil⟩
    · rw [if_neg h2]
      simp only [List.any_eq_true, List.all_eq_true, List.mem_range]
      have key : ∀ i, (∀ j < y.length, shiftEntryEq cmp x y i j = true) ↔
          List.Forall₂ (fun a b => cmp a b = true) (x.rotate i) y := by
        intro i
        rw [List.forall₂_iff_get]
        constructor
        · intro h
          refine ⟨by rw [List.length_rotate, h1], ?_⟩
          intro j hj1 hj2
          have := h j hj2
          rw [shiftEntryEq] at this
          have hm : (j + i) % x.length < x.length := Nat.mod_lt _ (by omega)
          rw [List.getElem?_eq_getElem hm, List.getElem?_eq_getElem hj2] at this
          simpa [List.getElem_rotate] using this
        · rintro ⟨-, h⟩ j hj
          have := h j (by rw [List.length_rotate]; omega) hj
          rw [shiftEntryEq]
          have hm : (j + i) % x.length < x.length := Nat.mod_lt _ (by omega)
          rw [List.getElem?_eq_getElem hm, List.getElem?_eq_getElem hj]
          simpa [List.getElem_rotate] using this
      constructor
      · rintro ⟨i, -, h⟩
        exact ⟨i, (key i).1 h⟩
      · rintro ⟨k, h⟩
        refine ⟨k % x.length, Nat.mod_lt _ (by omega), (key _).2 ?_⟩
        rw [List.rotate_mod]
        exact h

/-- Non-vacuity. -/
example : equalShiftInvariant (fun a b : Nat => a == b) [1, 2, 3] [3, 1, 2] = true := by decide
example : equalShiftInvariant (fun a b : Nat => a == b) [1, 2, 3] [3, 2, 1] = false := by decide

/-! ## Index-set powers -/

private theorem bump_length (n : Nat) (l : List Nat) : (bump n l).length = l.length := by
  induction l with
  | nil => rfl
  | cons x xs ih => simp only [bump]; split <;> simp [ih]

/-- Digits of `k` in base `n`, least significant first. -/
private def digits (n : Nat) : Nat → Nat → List Nat
  | 0, _ => []
  | d + 1, k => (k % n) :: digits n d (k / n)

private theorem digits_length (n d k : Nat) : (digits n d k).length = d := by
  induction d generalizing k with
  | zero => rfl
  | succ d ih => simp [digits, ih]

private theorem digits_zero (n d : Nat) : digits n d 0 = List.replicate d 0 := by
  induction d with
  | zero => rfl
  | succ d ih => simp [digits, ih, List.replicate_succ]

private theorem bump_digits (n d k : Nat) (hn : 0 < n) :
    bump n (digits n d k) = digits n d (k + 1) := by
  induction d generalizing k with
  | zero => rfl
  | succ d ih =>
    have hm := Nat.mod_add_div k n
    have hlt : k % n < n := Nat.mod_lt k hn
    simp only [digits, bump]
    by_cases h : k % n + 1 < n
    · rw [if_pos h]
      have h1 : (k + 1) % n = k % n + 1 := by
        rw [Nat.add_mod, Nat.mod_eq_of_lt (show 1 < n by omega), Nat.mod_eq_of_lt h]
      have h2 : (k + 1) / n = k / n := by
        have := Nat.mod_add_div (k + 1) n
        rw [h1] at this
        have h3 : n * ((k + 1) / n) = n * (k / n) := by omega
        exact Nat.eq_of_mul_eq_mul_left hn h3
      rw [h1, h2]
    · rw [if_neg h, ih]
      have hk : k + 1 = n * (k / n + 1) := by
        rw [Nat.mul_add]; omega
      rw [hk, Nat.mul_mod_right, Nat.mul_div_cancel_left _ hn]

private theorem powerItems_eq (n d : Nat) (hn : 0 < n) (m k : Nat) :
    powerItems n m (digits n d k) = (List.range m).map (fun i => digits n d (k + i)) := by
  induction m generalizing k with
  | zero => rfl
  | succ m ih =>
    rw [powerItems, bump_digits n d k hn, ih, List.range_succ_eq_map, List.map_cons, List.map_map]
    congr 1
    apply List.map_congr_left
    intro i _
    simp only [Function.comp]
    congr 1
    omega

private theorem indexPower_eq (d n : Nat) :
    indexPower d n = (List.range (n ^ d)).map (digits n d) := by
  rcases Nat.eq_zero_or_pos n with rfl | hn
  · cases d with
    | zero => rfl
    | succ d => simp [indexPower, powerItems]
  · rw [indexPower, ← digits_zero n d, powerItems_eq n d hn]
    simp

private theorem digits_get (n d k j : Nat) (hj : j < d) :
    (digits n d k)[j]'(by rw [digits_length]; exact hj) = k / n ^ j % n := by
  induction d generalizing k j with
  | zero => omega
  | succ d ih =>
    cases j with
    | zero => simp [digits]
    | succ j =>
      simp only [digits, List.getElem_cons_succ]
      rw [ih (k / n) j (by omega), Nat.div_div_eq_div_mul, pow_succ, Nat.mul_comm]

/-- C65: the power index iterator has `n^d` items; the `k`-th has as `j`-th component the `j`-th digit
of `k` in base `n` (so the first component varies fastest). -/
theorem C65_index_power_items (d n : Nat) :
    (indexPower d n).length = n ^ d ∧
    ∀ k (hk : k < (indexPower d n).length), (indexPower d n)[k].length = d ∧
      ∀ j (hj : j < (indexPower d n)[k].length), (indexPower d n)[k][j] = k / n ^ j % n := by
  refine ⟨by simp [indexPower_eq], ?_⟩
  intro k hk
  have hget : (indexPower d n)[k] = digits n d k := by
    simp only [indexPower_eq, List.getElem_map, List.getElem_range]
  refine ⟨by rw [hget, digits_length], ?_⟩
  intro j hj
  have hj' : j < d := by rw [hget, digits_length] at hj; exact hj
  rw [← digits_get n d k j hj']
  simp only [hget]

private theorem digits_surj (n d : Nat) (l : List Nat) (hl : l.length = d) (h : ∀ a ∈ l, a < n) :
    ∃ k < n ^ d, digits n d k = l := by
  induction d generalizing l with
  | zero => exact ⟨0, by simp, by rw [List.length_eq_zero_iff.1 hl]; rfl⟩
  | succ d ih =>
    cases l with
    | nil => simp at hl
    | cons a l =>
      obtain ⟨k, hk, hkl⟩ := ih l (by simpa using hl) (fun b hb => h b (List.mem_cons_of_mem _ hb))
      have ha := h a List.mem_cons_self
      refine ⟨a + n * k, ?_, ?_⟩
      · have : n * (k + 1) ≤ n * n ^ d := Nat.mul_le_mul_left n hk
        rw [pow_succ, Nat.mul_comm (n ^ d) n]
        rw [Nat.mul_add] at this
        omega
      · have hn : 0 < n := by omega
        simp only [digits]
        rw [Nat.add_mul_mod_self_left, Nat.mod_eq_of_lt ha, Nat.add_mul_div_left _ _ hn,
          Nat.div_eq_of_lt ha, Nat.zero_add, hkl]

private theorem digits_inj (n d k k' : Nat) (hk : k < n ^ d) (hk' : k' < n ^ d)
    (h : digits n d k = digits n d k') : k = k' := by
  induction d generalizing k k' with
  | zero => simp at hk hk'; omega
  | succ d ih =>
    simp only [digits, List.cons.injEq] at h
    rw [pow_succ] at hk hk'
    have := ih (k / n) (k' / n) (Nat.div_lt_of_lt_mul (by rw [Nat.mul_comm]; exact hk))
      (Nat.div_lt_of_lt_mul (by rw [Nat.mul_comm]; exact hk')) h.2
    rw [← Nat.mod_add_div k n, ← Nat.mod_add_div k' n, h.1, this]

/-- C65: the power index iterator enumerates every `d`-tuple over `0..n` exactly once. -/
theorem C65_index_power_enumerates (d n : Nat) :
    (indexPower d n).Nodup ∧
    ∀ l : List Nat, l ∈ indexPower d n ↔ l.length = d ∧ ∀ a ∈ l, a < n := by
  rw [indexPower_eq]
  refine ⟨?_, ?_⟩
  · rw [List.nodup_map_iff_inj_on (List.nodup_range)]
    intro k hk k' hk' h
    exact digits_inj n d k k' (List.mem_range.1 hk) (List.mem_range.1 hk') h
  · intro l
    rw [List.mem_map]
    constructor
    · rintro ⟨k, hk, rfl⟩
      refine ⟨digits_length n d k, ?_⟩
      have hn : d = 0 ∨ 0 < n := by
        rcases Nat.eq_zero_or_pos n with rfl | hn
        · cases d with
          | zero => exact .inl rfl
          | succ d => simp at hk
        · exact .inr hn
      clear hk
      rcases hn with rfl | hn
      · simp [digits]
      · induction d generalizing k with
        | zero => simp [digits]
        | succ d ih =>
          intro a ha
          simp only [digits, List.mem_cons] at ha
          rcases ha with rfl | ha
          · exact Nat.mod_lt _ hn
          · exact ih (k / n) a ha
    · rintro ⟨hl, h⟩
      obtain ⟨k, hk, hkl⟩ := digits_surj n d l hl h
      exact ⟨k, List.mem_range.2 hk, hkl⟩

/-- Non-vacuity: the four pairs over `{0, 1}`. -/
example : indexPower 2 2 = [[0, 0], [1, 0], [0, 1], [1, 1]] := by decide

end Fenris.GeomUtil
