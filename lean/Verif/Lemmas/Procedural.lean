import Verif.Model.Procedural
import Mathlib.Tactic.Ring
import Mathlib.Tactic.Linarith
/-! # Indexing nested loops -/
set_option autoImplicit false

namespace Fenris
variable {α : Type}

theorem length_flatMap_range {g : Nat → List α} {n : Nat} (m : Nat)
    (hg : ∀ j, j < m → (g j).length = n) :
    ((List.range m).flatMap g).length = n * m := by
  induction m with
  | zero => simp
  | succ m ih =>
    rw [List.range_succ, List.flatMap_append, List.length_append,
      ih (fun j hj => hg j (by omega))]
    simp [hg m (by omega)]
    ring

theorem getElem?_flatMap_range {g : Nat → List α} {n : Nat} (m : Nat)
    (hg : ∀ j, j < m → (g j).length = n) {i j : Nat} (hi : i < n) (hj : j < m) :
    ((List.range m).flatMap g)[n * j + i]? = (g j)[i]? := by
  induction m with
  | zero => omega
  | succ m ih =>
    rw [List.range_succ, List.flatMap_append]
    have hlen := length_flatMap_range m (fun j hj => hg j (by omega))
    by_cases hjm : j < m
    · rw [List.getElem?_append_left, ih (fun j hj => hg j (by omega)) hjm]
      rw [hlen]
      calc n * j + i < n * j + n := by omega
        _ = n * (j + 1) := by ring
        _ ≤ n * m := Nat.mul_le_mul_left _ hjm
    · have : j = m := by omega
      subst this
      rw [List.getElem?_append_right (by omega), hlen]
      simp

theorem mul_add_lt {n m i j : Nat} (hi : i < n) (hj : j < m) : n * j + i < n * m := by
  calc n * j + i < n * j + n := by omega
    _ = n * (j + 1) := by ring
    _ ≤ n * m := Nat.mul_le_mul_left _ hj

theorem mul_add_inj {n i j i' j' : Nat} (hi : i < n) (hi' : i' < n)
    (h : n * j + i = n * j' + i') : i = i' ∧ j = j' := by
  have hn : 0 < n := by omega
  have h1 : (n * j + i) % n = i := by rw [Nat.mul_add_mod]; exact Nat.mod_eq_of_lt hi
  have h2 : (n * j' + i') % n = i' := by rw [Nat.mul_add_mod]; exact Nat.mod_eq_of_lt hi'
  have hii : i = i' := by rw [← h1, ← h2, h]
  refine ⟨hii, ?_⟩
  subst hii
  exact Nat.eq_of_mul_eq_mul_left hn (by omega)

theorem mul_add_decomp {n m q : Nat} (h : q < n * m) : ∃ i j, i < n ∧ j < m ∧ q = n * j + i := by
  have hn : 0 < n := by
    rcases Nat.eq_zero_or_pos n with rfl | h'
    · simp at h
    · exact h'
  exact ⟨q % n, q / n, Nat.mod_lt _ hn, Nat.div_lt_of_lt_mul h, (Nat.div_add_mod q n).symm⟩

end Fenris
