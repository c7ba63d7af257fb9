import Verif.Model.EigenUtil
import Verif.Spec.EigenUtil
import Mathlib.Tactic.Linarith
import Mathlib.Tactic.Ring
import Mathlib.Tactic.FieldSimp
import Mathlib.Tactic.FinCases
import Mathlib.LinearAlgebra.Matrix.NonsingularInverse
import Mathlib.Data.List.OfFn
/-! # C86: eigenvalues and condition numbers of symmetric matrices -/
set_option autoImplicit false
set_option linter.unusedSectionVars false

namespace Fenris
namespace EigenUtil
open Matrix Spec
variable {K : Type} [Field K] [LinearOrder K] [IsStrictOrderedRing K] {n : Nat}

private theorem fold_min (l : List K) (a : K) : (l.foldl keepMin a = a ∨ l.foldl keepMin a ∈ l) ∧ l.foldl keepMin a ≤ a ∧ ∀ b ∈ l, l.foldl keepMin a ≤ b := by
  induction l generalizing a with
  | nil => exact ⟨Or.inl rfl, le_refl a, fun b hb => by cases hb⟩
  | cons c rest ih =>
    obtain ⟨h1, h2, h3⟩ := ih (keepMin a c)
    rw [List.foldl_cons]
    have hk : keepMin a c ≤ a ∧ keepMin a c ≤ c ∧ (keepMin a c = a ∨ keepMin a c = c) := by
      unfold keepMin
      split
      · rename_i h
        exact ⟨h.le, le_refl _, Or.inr rfl⟩
      · rename_i h
        exact ⟨le_refl _, not_lt.mp h, Or.inl rfl⟩
    refine ⟨?_, h2.trans hk.1, ?_⟩
    · rcases h1 with h1 | h1
      · rw [h1]
        rcases hk.2.2 with h | h
        · exact Or.inl h
        · exact Or.inr (by rw [h]; exact List.mem_cons_self)
      · exact Or.inr (List.mem_cons_of_mem _ h1)
    · intro b hb
      rcases List.mem_cons.mp hb with rfl | hb
      · exact h2.trans hk.2.1
      · exact h3 b hb

private theorem fold_max (l : List K) (a : K) : (l.foldl keepMax a = a ∨ l.foldl keepMax a ∈ l) ∧ a ≤ l.foldl keepMax a ∧ ∀ b ∈ l, b ≤ l.foldl keepMax a := by
  induction l generalizing a with
  | nil => exact ⟨Or.inl rfl, le_refl a, fun b hb => by cases hb⟩
  | cons c rest ih =>
    obtain ⟨h1, h2, h3⟩ := ih (keepMax a c)
    rw [List.foldl_cons]
    have hk : a ≤ keepMax a c ∧ c ≤ keepMax a c ∧ (keepMax a c = a ∨ keepMax a c = c) := by
      unfold keepMax
      split
      · rename_i h
        exact ⟨le_refl _, h.le, Or.inl rfl⟩
      · rename_i h
        exact ⟨not_lt.mp h, le_refl _, Or.inr rfl⟩
    refine ⟨?_, hk.1.trans h2, ?_⟩
    · rcases h1 with h1 | h1
      · rw [h1]
        rcases hk.2.2 with h | h
        · exact Or.inl h
        · exact Or.inr (by rw [h]; exact List.mem_cons_self)
      · exact Or.inr (List.mem_cons_of_mem _ h1)
    · intro b hb
      rcases List.mem_cons.mp hb with rfl | hb
      · exact hk.2.1.trans h2
      · exact h3 b hb

private theorem minMax_mem (eigs : List K) (h : eigs ≠ []) : ∃ m M, minEigenvalue eigs = some m ∧ minMaxEigenvalues eigs = some (m, M) ∧ m ∈ eigs ∧ M ∈ eigs ∧
    ∀ b ∈ eigs, m ≤ b ∧ b ≤ M := by
  cases eigs with
  | nil => exact absurd rfl h
  | cons a rest =>
    obtain ⟨a1, a2, a3⟩ := fold_min rest a
    obtain ⟨b1, b2, b3⟩ := fold_max rest a
    refine ⟨_, _, rfl, rfl, ?_, ?_, ?_⟩
    · rcases a1 with h | h
      · rw [h]
        exact List.mem_cons_self
      · exact List.mem_cons_of_mem _ h
    · rcases b1 with h | h
      · rw [h]
        exact List.mem_cons_self
      · exact List.mem_cons_of_mem _ h
    · intro b hb
      rcases List.mem_cons.mp hb with rfl | hb
      · exact ⟨a2, b2⟩
      · exact ⟨a3 b hb, b3 b hb⟩

/-! ### Diagonal form -/

private theorem norm_form (Q : Matrix (Fin n) (Fin n) K) (hQ : Q * Qᵀ = 1) (x : Fin n → K) : x ⬝ᵥ x = ∑ i, (Qᵀ *ᵥ x) i ^ 2 := by
  have h : (Qᵀ *ᵥ x) ⬝ᵥ (Qᵀ *ᵥ x) = x ⬝ᵥ x := by
    rw [dotProduct_mulVec, vecMul_transpose, mulVec_mulVec, hQ, one_mulVec]
  rw [← h]
  exact Finset.sum_congr rfl fun i _ => (sq _).symm

private theorem quad_form (Q : Matrix (Fin n) (Fin n) K) (l : Fin n → K) (x : Fin n → K) :
    x ⬝ᵥ (Q * diagonal l * Qᵀ) *ᵥ x = ∑ i, l i * (Qᵀ *ᵥ x) i ^ 2 := by
  rw [← mulVec_mulVec, ← mulVec_mulVec, dotProduct_mulVec, ← mulVec_transpose]
  refine Finset.sum_congr rfl fun i _ => ?_
  rw [mulVec_diagonal]
  ring

private theorem image_form (Q : Matrix (Fin n) (Fin n) K) (hQ : Q * Qᵀ = 1) (l : Fin n → K) (x : Fin n → K) :
    ((Q * diagonal l * Qᵀ) *ᵥ x) ⬝ᵥ ((Q * diagonal l * Qᵀ) *ᵥ x) = ∑ i, l i ^ 2 * (Qᵀ *ᵥ x) i ^ 2 := by
  have hQ' : Qᵀ * Q = 1 := mul_eq_one_comm.mp hQ
  rw [norm_form Q hQ]
  refine Finset.sum_congr rfl fun i _ => ?_
  rw [← mulVec_mulVec, ← mulVec_mulVec, mulVec_mulVec, hQ', one_mulVec, mulVec_diagonal]
  ring

private theorem eigenvector (Q : Matrix (Fin n) (Fin n) K) (hQ : Q * Qᵀ = 1) (l : Fin n → K) (k : Fin n) :
    ∃ x : Fin n → K, x ⬝ᵥ x = 1 ∧ (Q * diagonal l * Qᵀ) *ᵥ x = fun i => l k * x i := by
  have hQ' : Qᵀ * Q = 1 := mul_eq_one_comm.mp hQ
  refine ⟨Q *ᵥ Pi.single k 1, ?_, ?_⟩
  · rw [norm_form Q hQ, mulVec_mulVec, hQ', one_mulVec, Finset.sum_eq_single k]
    · simp
    · intro i _ h
      simp [h]
    · intro h
      exact absurd (Finset.mem_univ k) h
  · rw [mulVec_mulVec, Matrix.mul_assoc, hQ', Matrix.mul_one, ← mulVec_mulVec]
    have : diagonal l *ᵥ Pi.single k 1 = l k • Pi.single k (1 : K) := by
      funext i
      rw [mulVec_diagonal]
      by_cases h : i = k
      · subst h
        simp
      · simp [h]
    rw [this, mulVec_smul]
    rfl

/-- C86: `min_eigenvalue_symmetric` returns the smallest eigenvalue of every symmetric matrix: it is attained by a vector, and the smallest
value of the quadratic form on unit vectors. `min_max_symmetric_eigenvalues` also returns the largest. Both panic exactly for matrices
without rows. -/
theorem C86_extreme_eigenvalues (A : Matrix (Fin n) (Fin n) K) (eigs : List K) (h : IsSpectrum A eigs) :
    (n = 0 → minEigenvalue eigs = none ∧ minMaxEigenvalues eigs = none) ∧
    (0 < n → ∃ m M : K, minEigenvalue eigs = some m ∧ minMaxEigenvalues eigs = some (m, M) ∧
      (∀ x : Fin n → K, m * (x ⬝ᵥ x) ≤ x ⬝ᵥ A *ᵥ x ∧ x ⬝ᵥ A *ᵥ x ≤ M * (x ⬝ᵥ x)) ∧
      (∃ x : Fin n → K, x ⬝ᵥ x = 1 ∧ A *ᵥ x = fun i => m * x i) ∧ ∃ x : Fin n → K, x ⬝ᵥ x = 1 ∧ A *ᵥ x = fun i => M * x i) := by
  obtain ⟨Q, l, hQ, rfl, rfl⟩ := h
  constructor
  · rintro rfl
    exact ⟨rfl, rfl⟩
  · intro hn
    have hne : List.ofFn l ≠ [] := by
      rw [Ne, List.ofFn_eq_nil_iff]
      omega
    obtain ⟨m, M, h1, h2, h3, h4, h5⟩ := minMax_mem _ hne
    obtain ⟨k, rfl⟩ := (List.mem_ofFn' _ _).mp h3
    obtain ⟨k', rfl⟩ := (List.mem_ofFn' _ _).mp h4
    refine ⟨_, _, h1, h2, fun x => ?_, eigenvector Q hQ l k, eigenvector Q hQ l k'⟩
    rw [quad_form, norm_form Q hQ, Finset.mul_sum, Finset.mul_sum]
    constructor
    · exact Finset.sum_le_sum fun i _ => mul_le_mul_of_nonneg_right (h5 _ ((List.mem_ofFn' _ _).mpr ⟨i, rfl⟩)).1 (sq_nonneg _)
    · exact Finset.sum_le_sum fun i _ => mul_le_mul_of_nonneg_right (h5 _ ((List.mem_ofFn' _ _).mpr ⟨i, rfl⟩)).2 (sq_nonneg _)

/-- C86: for symmetric positive definite matrices `condition_number_symmetric` returns the condition number. -/
theorem C86_condition_number (A : Matrix (Fin n) (Fin n) K) (eigs : List K) (h : IsSpectrum A eigs) (hn : 0 < n) (hA : PosDefinite A) :
    ∃ kappa, conditionNumber eigs = some kappa ∧ 1 ≤ kappa ∧ IsCondition A kappa := by
  obtain ⟨Q, l, hQ, rfl, rfl⟩ := h
  have hne : List.ofFn l ≠ [] := by
    rw [Ne, List.ofFn_eq_nil_iff]
    omega
  obtain ⟨m, M, h1, h2, h3, h4, h5⟩ := minMax_mem _ hne
  obtain ⟨k, rfl⟩ := (List.mem_ofFn' _ _).mp h3
  obtain ⟨k', rfl⟩ := (List.mem_ofFn' _ _).mp h4
  have hb : ∀ i, l k ≤ l i ∧ l i ≤ l k' := fun i => h5 _ ((List.mem_ofFn' _ _).mpr ⟨i, rfl⟩)
  obtain ⟨x, hx, hxA⟩ := eigenvector Q hQ l k
  obtain ⟨y, hy, hyA⟩ := eigenvector Q hQ l k'
  have hsc : ∀ (c : K) (v : Fin n → K), v ⬝ᵥ (fun i => c * v i) = c * (v ⬝ᵥ v) := fun c v => by
    change v ⬝ᵥ (c • v) = _
    rw [dotProduct_smul, smul_eq_mul]
  have hsc2 : ∀ (c : K) (v : Fin n → K), (fun i => c * v i) ⬝ᵥ (fun i => c * v i) = c ^ 2 * (v ⬝ᵥ v) := fun c v => by
    change (c • v) ⬝ᵥ (c • v) = _
    rw [dotProduct_smul, smul_dotProduct, smul_eq_mul, smul_eq_mul]
    ring
  have hpos : 0 < l k := by
    have := hA x (by rintro rfl; simp at hx)
    rwa [hxA, hsc, hx, mul_one] at this
  have hpos' : 0 < l k' := lt_of_lt_of_le hpos (hb k').1
  refine ⟨l k' / l k, ?_, ?_, ?_, y, x, hy, hx, ?_⟩
  · rw [conditionNumber, h2, Option.map_some, ratio, abs_of_pos hpos, abs_of_pos hpos']
  · rw [le_div_iff₀ hpos, one_mul]
    exact (hb k').1
  · intro u v
    have e1 : ((Q * diagonal l * Qᵀ) *ᵥ u) ⬝ᵥ ((Q * diagonal l * Qᵀ) *ᵥ u) ≤ l k' ^ 2 * (u ⬝ᵥ u) := by
      rw [image_form Q hQ, norm_form Q hQ, Finset.mul_sum]
      refine Finset.sum_le_sum fun i _ => mul_le_mul_of_nonneg_right ?_ (sq_nonneg _)
      have := hb i
      nlinarith
    have e2 : l k ^ 2 * (v ⬝ᵥ v) ≤ ((Q * diagonal l * Qᵀ) *ᵥ v) ⬝ᵥ ((Q * diagonal l * Qᵀ) *ᵥ v) := by
      rw [image_form Q hQ, norm_form Q hQ, Finset.mul_sum]
      refine Finset.sum_le_sum fun i _ => mul_le_mul_of_nonneg_right ?_ (sq_nonneg _)
      have := hb i
      nlinarith
    have hu : 0 ≤ u ⬝ᵥ u := by
      rw [norm_form Q hQ]
      exact Finset.sum_nonneg fun i _ => sq_nonneg _
    have hv : 0 ≤ v ⬝ᵥ v := by
      rw [norm_form Q hQ]
      exact Finset.sum_nonneg fun i _ => sq_nonneg _
    generalize ((Q * diagonal l * Qᵀ) *ᵥ u) ⬝ᵥ ((Q * diagonal l * Qᵀ) *ᵥ u) = a at *
    generalize ((Q * diagonal l * Qᵀ) *ᵥ v) ⬝ᵥ ((Q * diagonal l * Qᵀ) *ᵥ v) = b at *
    generalize u ⬝ᵥ u = c at *
    generalize v ⬝ᵥ v = d at *
    calc a * d ≤ l k' ^ 2 * c * d := mul_le_mul_of_nonneg_right e1 hv
      _ = (l k' / l k) ^ 2 * (c * (l k ^ 2 * d)) := by field_simp
      _ ≤ (l k' / l k) ^ 2 * (c * b) := mul_le_mul_of_nonneg_left (mul_le_mul_of_nonneg_left e2 hu) (sq_nonneg _)
  · rw [hxA, hyA, hsc2, hsc2, hx, hy]
    field_simp

/-- C86 (finding): for matrices with negative eigenvalues `condition_number_symmetric` compares the wrong eigenvalues: the condition number
of `diag(-2, -1)` is 2, and the result is one half. -/
theorem C86_condition_number_of_negative_matrix :
    IsSpectrum (!![-2, 0; 0, -1] : Matrix (Fin 2) (Fin 2) K) [-2, -1] ∧ conditionNumber ([-2, -1] : List K) = some (1 / 2) ∧
    IsCondition (!![-2, 0; 0, -1] : Matrix (Fin 2) (Fin 2) K) 2 ∧ ¬ IsCondition (!![-2, 0; 0, -1] : Matrix (Fin 2) (Fin 2) K) (1 / 2) := by
  have hmul : ∀ x : Fin 2 → K, (!![-2, 0; 0, -1] : Matrix (Fin 2) (Fin 2) K) *ᵥ x = ![-2 * x 0, -1 * x 1] := by
    intro x
    funext i
    fin_cases i <;> simp [mulVec, dotProduct, Fin.sum_univ_two]
  refine ⟨⟨1, ![-2, -1], by simp, ?_, by simp⟩, ?_, ⟨fun x y => ?_, ![1, 0], ![0, 1], ?_, ?_, ?_⟩, fun h => ?_⟩
  · ext i j
    fin_cases i <;> fin_cases j <;> simp
  · simp [conditionNumber, minMaxEigenvalues, keepMin, keepMax, ratio]
  · rw [hmul, hmul]
    simp only [dotProduct, Fin.sum_univ_two, cons_val_zero, cons_val_one]
    nlinarith [mul_self_nonneg (x 0 * y 0), mul_self_nonneg (x 1 * y 0), mul_self_nonneg (x 1 * y 1), mul_self_nonneg (x 0 * y 1)]
  · simp
  · simp
  · rw [hmul, hmul]
    simp only [dotProduct, Fin.sum_univ_two, cons_val_zero, cons_val_one]
    norm_num
  · have := h.1 ![1, 0] ![1, 0]
    rw [hmul] at this
    simp only [dotProduct, Fin.sum_univ_two, cons_val_zero, cons_val_one] at this
    norm_num at this

/-- The hypotheses are met by a rotated matrix that is not diagonal. -/
example : IsSpectrum (!![(52 : ℚ) / 25, 36 / 25; 36 / 25, 73 / 25] : Matrix (Fin 2) (Fin 2) ℚ) [4, 1] :=
  ⟨!![3 / 5, 4 / 5; 4 / 5, -3 / 5], ![4, 1], by decide +kernel, by decide +kernel, by decide +kernel⟩

example : PosDefinite (!![(52 : ℚ) / 25, 36 / 25; 36 / 25, 73 / 25] : Matrix (Fin 2) (Fin 2) ℚ) ∧ conditionNumber [(4 : ℚ), 1] = some 4 := by
  refine ⟨fun x hx => ?_, by decide +kernel⟩
  simp only [mulVec, dotProduct, Fin.sum_univ_two, of_apply, cons_val', cons_val_zero, cons_val_one, cons_val_fin_one]
  have : x 0 ≠ 0 ∨ x 1 ≠ 0 := by
    by_contra h
    push Not at h
    exact hx (by funext i; fin_cases i <;> simp [h.1, h.2])
  have h0 : 0 < x 0 ^ 2 + x 1 ^ 2 := by
    rcases this with h | h
    · have := pow_pos (abs_pos.mpr h) 2
      rw [sq_abs] at this
      nlinarith [sq_nonneg (x 1)]
    · have := pow_pos (abs_pos.mpr h) 2
      rw [sq_abs] at this
      nlinarith [sq_nonneg (x 0)]
  nlinarith [sq_nonneg (3 * x 0 + 4 * x 1), sq_nonneg (4 * x 0 - 3 * x 1)]

end EigenUtil
end Fenris
