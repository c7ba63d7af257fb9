import Verif.Props.Cg
import Mathlib.LinearAlgebra.Matrix.SesquilinearForm
import Mathlib.LinearAlgebra.Dimension.Constructions
import Mathlib.Data.Real.Sqrt
import Mathlib.Tactic.Positivity
import Mathlib.Tactic.FinCases
import Mathlib.LinearAlgebra.Matrix.Notation
import Mathlib.Algebra.Order.Ring.Rat
import Mathlib.Algebra.Field.Rat
/-! # C31: residuals, conjugacy and finite termination of the conjugate gradient solver

Exact arithmetic; operator and preconditioner are given by matrices. -/
set_option autoImplicit false
set_option linter.unusedSectionVars false

namespace Fenris
namespace Cg

open Spec Matrix

variable {n : Nat} {K E : Type} [Field K] [LinearOrder K] [IsStrictOrderedRing K]

/-- Symmetric and positive definite, over any ordered field. -/
def Spd (A : Matrix (Fin n) (Fin n) K) : Prop := A.transpose = A ∧ ∀ v, v ≠ 0 → 0 < v ⬝ᵥ A *ᵥ v

/-- **C31.** The residual maintained by the method is `b - A x` after every step, for every matrix `A` and
every preconditioner. -/
theorem C31_maintained_residual_is_true_residual (A : Matrix (Fin n) (Fin n) K)
    (pre : Nat → Vec n K → Except E (Vec n K)) (b x₀ : Vec n K) (k : Nat) (x r z p : Nat → Vec n K)
    (h : Iterates (matrixOperator A) pre b x₀ k x r z p) : ∀ i, i ≤ k → r i = b - A *ᵥ x i := by
  intro i
  induction i with
  | zero =>
    intro _
    obtain ⟨y, hy, hr⟩ := h.residual
    cases hy
    rw [hr, h.start]
  | succ i ih =>
    intro hi
    obtain ⟨q, hq, hs⟩ := h.step i (by omega)
    cases hq
    rw [hs.r_eq, hs.x_eq, ih (by omega), mulVec_add, mulVec_smul]
    abel

/-- **C31.** With the relative residual criterion, `Ok` means that the true residual of the returned `x` is
at most `tol` times the norm of `b`. -/
theorem C31_ok_means_small_residual (A : Matrix (Fin n) (Fin n) ℝ) (c : Solver n ℝ E)
    (hop : c.operator = matrixOperator A) (hn : c.norm = fun v => Real.sqrt (v ⬝ᵥ v)) (tol : ℝ)
    (hc : c.hasConverged = relativeResidual c.norm tol)
    (fuel : Nat) (b x₀ x : Vec n ℝ) (k : Nat) (h : solveWithGuess c fuel b x₀ = some ⟨x, k, .ok ()⟩) :
    c.norm (b - A *ᵥ x) ≤ tol * c.norm b := by
  rcases C30_ok_means_criterion_held c fuel b x₀ x k h with ⟨hb, rfl, -⟩ | ⟨xs, r, z, p, hit, rfl, hconv⟩
  · rw [mulVec_zero, sub_zero, hb, mul_zero]
  · rw [hop] at hit
    rw [hc] at hconv
    simp only [relativeResidual, Except.ok.injEq, decide_eq_true_eq] at hconv
    rwa [← C31_maintained_residual_is_true_residual A _ b x₀ k xs r z p hit k (le_refl _)]

private theorem symm_dot (A : Matrix (Fin n) (Fin n) K) (hA : A.transpose = A) (v w : Vec n K) :
    v ⬝ᵥ A *ᵥ w = w ⬝ᵥ A *ᵥ v := by
  rw [dotProduct_mulVec, ← mulVec_transpose, hA, dotProduct_comm]

/-- The three invariants. -/
private theorem conjugacy (A P : Matrix (Fin n) (Fin n) K) (hA : A.transpose = A) (hP : P.transpose = P)
    (b x₀ : Vec n K) (k : Nat) (x r z p : Nat → Vec n K)
    (h : Iterates (E := E) (matrixOperator A) (matrixOperator P) b x₀ k x r z p) :
    ∀ i, i ≤ k → (∀ j, j < i → r i ⬝ᵥ z j = 0) ∧ (∀ j, j < i → p i ⬝ᵥ A *ᵥ p j = 0) ∧
      p i ⬝ᵥ r i = z i ⬝ᵥ r i ∧ p i ⬝ᵥ A *ᵥ z i = p i ⬝ᵥ A *ᵥ p i := by
  have hz : ∀ i, i ≤ k → z i = P *ᵥ r i := fun i hi => (Except.ok.inj (h.precondition i hi)).symm
  have hstep : ∀ i, i < k → Step (r i) (z i) (p i) (A *ᵥ p i) (x i) (x (i + 1)) (r (i + 1)) (z (i + 1))
      (p (i + 1)) := by
    intro i hi
    obtain ⟨q, hq, hs⟩ := h.step i hi
    cases hq
    exact hs
  have hrz : ∀ i j, i ≤ k → j ≤ k → r i ⬝ᵥ z j = r j ⬝ᵥ z i := by
    intro i j hi hj
    rw [hz i hi, hz j hj, symm_dot P hP]
  intro i
  induction i using Nat.strong_induction_on with
  | _ i ih =>
    intro hi
    cases i with
    | zero =>
      refine ⟨fun j hj => by omega, fun j hj => by omega, ?_, ?_⟩
      · rw [h.direction]
      · rw [h.direction]
    | succ i =>
      have hs := hstep i (by omega)
      obtain ⟨h1, h2, h3, h4⟩ := ih i (by omega) (by omega)
      have hpq := hs.positiveCurvature.ne'
      have hzr := hs.positiveProduct.ne'
      -- `A pᵢ` is orthogonal to the earlier `z`
      have hApz : ∀ j, j < i → A *ᵥ p i ⬝ᵥ z j = 0 := by
        intro j hj
        rw [dotProduct_comm]
        cases j with
        | zero =>
          rw [← h.direction, symm_dot A hA]
          exact h2 0 hj
        | succ j =>
          have hsj := hstep j (by omega)
          have : z (j + 1) = p (j + 1) - (z (j + 1) ⬝ᵥ r (j + 1) / (z j ⬝ᵥ r j)) • p j := by
            rw [hsj.p_eq]; abel
          rw [this, sub_dotProduct, smul_dotProduct, symm_dot A hA (p (j + 1)), symm_dot A hA (p j), h2 _ hj, h2 j (by omega)]
          simp
      have horth : ∀ j, j < i + 1 → r (i + 1) ⬝ᵥ z j = 0 := by
        intro j hj
        rw [hs.r_eq, sub_dotProduct, smul_dotProduct]
        by_cases hji : j = i
        · subst hji
          have e : A *ᵥ p j ⬝ᵥ z j = p j ⬝ᵥ A *ᵥ p j := by
            rw [dotProduct_comm, symm_dot A hA]; exact h4
          rw [e, dotProduct_comm (r j), smul_eq_mul, div_mul_cancel₀ _ hpq, sub_self]
        · rw [h1 j (by omega), hApz j (by omega)]
          simp
      -- `A pⱼ` in terms of residuals
      have hAp : ∀ j, j ≤ i → z (i + 1) ⬝ᵥ A *ᵥ p j =
          ((z j ⬝ᵥ r j) / (p j ⬝ᵥ A *ᵥ p j))⁻¹ * (r (i + 1) ⬝ᵥ z j - r (i + 1) ⬝ᵥ z (j + 1)) := by
        intro j hj
        have hsj := hstep j (by omega)
        have ha : (z j ⬝ᵥ r j) / (p j ⬝ᵥ A *ᵥ p j) ≠ 0 :=
          div_ne_zero hsj.positiveProduct.ne' hsj.positiveCurvature.ne'
        rw [hrz (i + 1) j (by omega) (by omega), hrz (i + 1) (j + 1) (by omega) (by omega),
          ← sub_dotProduct]
        have : r j - r (j + 1) = ((z j ⬝ᵥ r j) / (p j ⬝ᵥ A *ᵥ p j)) • (A *ᵥ p j) := by
          rw [hsj.r_eq]; abel
        rw [this, smul_dotProduct, smul_eq_mul, ← mul_assoc, inv_mul_cancel₀ ha, one_mul, dotProduct_comm]
      have hconj : ∀ j, j < i + 1 → p (i + 1) ⬝ᵥ A *ᵥ p j = 0 := by
        intro j hj
        rw [hs.p_eq, add_dotProduct, smul_dotProduct, hAp j (by omega)]
        by_cases hji : j = i
        · subst hji
          rw [horth j (by omega), dotProduct_comm (r (j + 1)), zero_sub, smul_eq_mul]
          field_simp
          ring
        · rw [horth j hj, horth (j + 1) (by omega), h2 j (by omega)]
          simp
      have hpr : p i ⬝ᵥ r (i + 1) = 0 := by
        rw [hs.r_eq, dotProduct_sub, dotProduct_smul, h3, smul_eq_mul, div_mul_cancel₀ _ hpq, sub_self]
      refine ⟨horth, hconj, ?_, ?_⟩
      · conv_lhs => rw [hs.p_eq]
        rw [add_dotProduct, smul_dotProduct, hpr]
        simp
      · have : z (i + 1) = p (i + 1) - (z (i + 1) ⬝ᵥ r (i + 1) / (z i ⬝ᵥ r i)) • p i := by
          rw [hs.p_eq]; abel
        rw [this, mulVec_sub, mulVec_smul, dotProduct_sub, dotProduct_smul, hconj i (by omega)]
        simp

/-- **C31.** For symmetric matrices the search directions are mutually `A`-conjugate and the residuals
mutually `P`-orthogonal, over the whole run. -/
theorem C31_directions_conjugate_residuals_orthogonal (A P : Matrix (Fin n) (Fin n) K)
    (hA : A.transpose = A) (hP : P.transpose = P) (b x₀ : Vec n K) (k : Nat) (x r z p : Nat → Vec n K)
    (h : Iterates (E := E) (matrixOperator A) (matrixOperator P) b x₀ k x r z p) (i j : Nat) (hi : i ≤ k)
    (hj : j ≤ k) (hij : i ≠ j) : p i ⬝ᵥ A *ᵥ p j = 0 ∧ r i ⬝ᵥ P *ᵥ r j = 0 := by
  have hz : ∀ i, i ≤ k → z i = P *ᵥ r i := fun i hi => (Except.ok.inj (h.precondition i hi)).symm
  rcases Nat.lt_or_gt_of_ne hij with hlt | hgt
  · obtain ⟨h1, h2, -, -⟩ := conjugacy A P hA hP b x₀ k x r z p h j hj
    rw [symm_dot A hA, symm_dot P hP, ← hz i hi]
    exact ⟨h2 i hlt, h1 i hlt⟩
  · obtain ⟨h1, h2, -, -⟩ := conjugacy A P hA hP b x₀ k x r z p h i hi
    rw [← hz j hj]
    exact ⟨h2 j hgt, h1 j hgt⟩

/-- At most `n` residuals are not zero. -/
private theorem residuals_le_dim (A P : Matrix (Fin n) (Fin n) K)
    (hA : A.transpose = A) (hP : P.transpose = P) (b x₀ : Vec n K) (k : Nat) (x r z p : Nat → Vec n K)
    (h : Iterates (E := E) (matrixOperator A) (matrixOperator P) b x₀ k x r z p) (m : Nat) (hm : m ≤ k + 1)
    (hne : ∀ i, i < m → r i ⬝ᵥ P *ᵥ r i ≠ 0) : m ≤ n := by
  have hli : LinearIndependent K (fun i : Fin m => r i) := by
    refine LinearMap.linearIndependent_of_isOrthoᵢ (B := Matrix.toLinearMap₂' K P) ?_ ?_
    · intro i j hij
      rw [Function.onFun, Matrix.toLinearMap₂'_apply']
      exact (C31_directions_conjugate_residuals_orthogonal A P hA hP b x₀ k x r z p h i j (by omega) (by omega)
        (fun he => hij (Fin.ext he))).2
    · intro i
      rw [Matrix.toLinearMap₂'_apply']
      exact hne i i.2
  have := hli.fintype_card_le_finrank
  simpa using this

/-- At most `n` well defined steps are possible. -/
private theorem steps_le_dim (A P : Matrix (Fin n) (Fin n) K)
    (hA : A.transpose = A) (hP : P.transpose = P) (b x₀ : Vec n K) (k : Nat) (x r z p : Nat → Vec n K)
    (h : Iterates (E := E) (matrixOperator A) (matrixOperator P) b x₀ k x r z p) : k ≤ n := by
  refine residuals_le_dim A P hA hP b x₀ k x r z p h k (by omega) fun i hi => ?_
  rw [(Except.ok.inj (h.precondition i (by omega)) : P *ᵥ r i = z i), dotProduct_comm]
  obtain ⟨q, -, hs⟩ := h.step i hi
  exact hs.positiveProduct.ne'

/-- **C31.** For symmetric positive definite `A` and `P`, a tolerance `tol ≥ 0` and no iteration limit (or one
of at least `n`), the solver returns `Ok` after at most `n` iterations; it never reports indefiniteness. -/
theorem C31_spd_converges_within_dimension (A P : Matrix (Fin n) (Fin n) K) (hA : Spd A) (hP : Spd P)
    (norm : Vec n K → K) (hnorm : ∀ v, norm v = 0 ↔ v = 0) (hpos : ∀ v, 0 ≤ norm v) (tol : K) (htol : 0 ≤ tol)
    (maxIter : Option Nat) (hmax : ∀ m, maxIter = some m → n ≤ m) (b x₀ : Vec n K) :
    ∃ x k, solveWithGuess (E := E) ⟨matrixOperator A, matrixOperator P, relativeResidual norm tol, maxIter, norm⟩
      (n + 1) b x₀ = some ⟨x, k, .ok ()⟩ ∧ k ≤ n := by
  set c : Solver n K E := ⟨matrixOperator A, matrixOperator P, relativeResidual norm tol, maxIter, norm⟩ with hc
  cases hres : solveWithGuess c (n + 1) b x₀ with
  | none =>
    exfalso
    obtain ⟨x, r, z, p, hit, -⟩ := solve_progress c (n + 1) b x₀ hres
    have := steps_le_dim A P hA.1 hP.1 b x₀ (n + 1) x r z p hit
    omega
  | some out =>
    rcases C30_outcome c (n + 1) b x₀ out hres with ⟨e, he, -⟩ | ⟨y, e, -, he, -⟩ | ⟨-, rfl⟩ |
      ⟨hb, k, x, r, z, p, hit, hnc, hk, hs⟩
    · cases he
    · cases he
    · exact ⟨0, 0, rfl, Nat.zero_le _⟩
    · have hkn := steps_le_dim A P hA.1 hP.1 b x₀ k x r z p hit
      -- if the criterion does not hold, the residual is not zero
      have hr0 : ∀ k, c.hasConverged (x k) b (c.norm b) k (r k) = .ok false → r k ≠ 0 := by
        intro k h h0
        simp only [hc, relativeResidual, Except.ok.injEq, decide_eq_false_iff_not] at h
        apply h
        rw [h0, (hnorm 0).2 rfl]
        exact mul_nonneg htol (hpos b)
      have hzk : z k = P *ᵥ r k := (Except.ok.inj (hit.precondition k (le_refl _))).symm
      have hzpos : r k ≠ 0 → 0 < z k ⬝ᵥ r k := by
        intro h
        rw [hzk, dotProduct_comm]
        exact hP.2 _ h
      have hppos : r k ≠ 0 → 0 < p k ⬝ᵥ A *ᵥ p k := by
        intro h
        apply hA.2
        intro h0
        have := (conjugacy A P hA.1 hP.1 b x₀ k x r z p hit k (le_refl _)).2.2.1
        rw [h0, zero_dotProduct] at this
        exact absurd (hzpos h) (by rw [← this]; exact lt_irrefl _)
      cases hs with
      | converged h => exact ⟨x k, k, rfl, hkn⟩
      | criterionFails kind h => cases h
      | limit h hm =>
        exfalso
        have hle := hmax k hm
        -- `k + 1` residuals that are pairwise orthogonal and not zero
        have := residuals_le_dim A P hA.1 hP.1 b x₀ k x r z p hit (k + 1) (le_refl _) fun i hi => by
          refine (hP.2 _ (hr0 i ?_)).ne'
          by_cases hik : i = k
          · rw [hik]; exact h
          · exact hnc i (by omega)
        omega
      | operatorFails h e ho => cases ho
      | indefiniteOperator h q ho hpq =>
        cases ho
        exact absurd (hppos (hr0 k h)) (not_lt.2 hpq)
      | indefinitePreconditioner h q ho hpq hzr => exact absurd (hzpos (hr0 k h)) (not_lt.2 hzr)
      | preconditionerFails h q ho hpq hzr e hm hp => cases hp

/-- **C31.** For symmetric positive definite `A` and `P` and a tolerance `tol ≥ 0`, whatever the limit, the only
possible verdicts are `Ok` and `MaxIterationsReached`, and the latter only below `n` iterations. -/
theorem C31_spd_verdicts (A P : Matrix (Fin n) (Fin n) K) (hA : Spd A) (hP : Spd P)
    (norm : Vec n K → K) (hnorm : ∀ v, norm v = 0 ↔ v = 0) (hpos : ∀ v, 0 ≤ norm v) (tol : K) (htol : 0 ≤ tol)
    (maxIter : Option Nat) (b x₀ : Vec n K) (fuel : Nat) (out : Outcome n K E)
    (h : solveWithGuess (E := E)
      ⟨matrixOperator A, matrixOperator P, relativeResidual norm tol, maxIter, norm⟩ fuel b x₀ = some out) :
    out.result = .ok () ∨ ∃ m, m < n ∧ maxIter = some m ∧ out.numIterations = m ∧
      out.result = .error (.maxIterationsReached m) := by
  by_cases hbig : ∀ m, maxIter = some m → n ≤ m
  · obtain ⟨x, k, h', -⟩ :=
      C31_spd_converges_within_dimension (E := E) A P hA hP norm hnorm hpos tol htol maxIter hbig b x₀
    have := C30_outcome_is_unique _ _ _ _ _ _ _ h h'
    subst this
    exact Or.inl rfl
  · obtain ⟨m, hm, hmn⟩ : ∃ m, maxIter = some m ∧ m < n := by
      by_contra hcon
      exact hbig fun m hm => by
        by_contra hlt
        exact hcon ⟨m, hm, by omega⟩
    subst hm
    -- the run with the limit is a run without it, cut short
    set c : Solver n K E := ⟨matrixOperator A, matrixOperator P, relativeResidual norm tol, some m, norm⟩ with hc
    rcases C30_outcome c fuel b x₀ out h with ⟨e, he, -⟩ | ⟨y, e, -, he, -⟩ | ⟨-, rfl⟩ |
      ⟨hb, k, x, r, z, p, hit, hnc, hk, hs⟩
    · cases he
    · cases he
    · exact Or.inl rfl
    · have hr0 : ∀ k, c.hasConverged (x k) b (c.norm b) k (r k) = .ok false → r k ≠ 0 := by
        intro k h h0
        simp only [hc, relativeResidual, Except.ok.injEq, decide_eq_false_iff_not] at h
        apply h
        rw [h0, (hnorm 0).2 rfl]
        exact mul_nonneg htol (hpos b)
      have hzk : z k = P *ᵥ r k := (Except.ok.inj (hit.precondition k (le_refl _))).symm
      have hzpos : r k ≠ 0 → 0 < z k ⬝ᵥ r k := by
        intro h
        rw [hzk, dotProduct_comm]
        exact hP.2 _ h
      have hppos : r k ≠ 0 → 0 < p k ⬝ᵥ A *ᵥ p k := by
        intro h
        apply hA.2
        intro h0
        have := (conjugacy A P hA.1 hP.1 b x₀ k x r z p hit k (le_refl _)).2.2.1
        rw [h0, zero_dotProduct] at this
        exact absurd (hzpos h) (by rw [← this]; exact lt_irrefl _)
      clear h
      cases hs with
      | converged h => exact Or.inl rfl
      | criterionFails kind h => cases h
      | limit h hm =>
        have hmk : m = k := Option.some.inj hm
        subst hmk
        exact Or.inr ⟨m, hmn, rfl, rfl, rfl⟩
      | operatorFails h e ho => cases ho
      | indefiniteOperator h q ho hpq =>
        cases ho
        exact absurd (hppos (hr0 k h)) (not_lt.2 hpq)
      | indefinitePreconditioner h q ho hpq hzr => exact absurd (hzpos (hr0 k h)) (not_lt.2 hzr)
      | preconditionerFails h q ho hpq hzr e hm hp => cases hp

/-- **C31.** Each step reduces the error in the energy norm, by exactly `(z·r)² / (p·Ap)`. -/
theorem C31_energy_error_decreases (A P : Matrix (Fin n) (Fin n) K) (hA : A.transpose = A)
    (hP : P.transpose = P) (b x₀ xs : Vec n K) (hxs : A *ᵥ xs = b) (k : Nat) (x r z p : Nat → Vec n K)
    (h : Iterates (E := E) (matrixOperator A) (matrixOperator P) b x₀ k x r z p) (i : Nat) (hi : i < k) :
    (xs - x (i + 1)) ⬝ᵥ A *ᵥ (xs - x (i + 1)) =
      (xs - x i) ⬝ᵥ A *ᵥ (xs - x i) - (z i ⬝ᵥ r i) ^ 2 / (p i ⬝ᵥ A *ᵥ p i) ∧
    (xs - x (i + 1)) ⬝ᵥ A *ᵥ (xs - x (i + 1)) < (xs - x i) ⬝ᵥ A *ᵥ (xs - x i) := by
  obtain ⟨q, hq, hs⟩ := h.step i hi
  cases hq
  have hpr := (conjugacy A P hA hP b x₀ k x r z p h i (by omega)).2.2.1
  have hr := C31_maintained_residual_is_true_residual A _ b x₀ k x r z p h i (by omega)
  have hAe : A *ᵥ (xs - x i) = r i := by rw [mulVec_sub, hxs, hr]
  have e1 : xs - x (i + 1) = (xs - x i) - (z i ⬝ᵥ r i / (p i ⬝ᵥ A *ᵥ p i)) • p i := by
    rw [hs.x_eq]; abel
  have hne := hs.positiveCurvature.ne'
  have key : (xs - x (i + 1)) ⬝ᵥ A *ᵥ (xs - x (i + 1)) =
      (xs - x i) ⬝ᵥ A *ᵥ (xs - x i) - (z i ⬝ᵥ r i) ^ 2 / (p i ⬝ᵥ A *ᵥ p i) := by
    rw [e1, mulVec_sub, mulVec_smul, sub_dotProduct, dotProduct_sub, dotProduct_sub, dotProduct_smul,
      smul_dotProduct, smul_dotProduct, dotProduct_smul, symm_dot A hA (xs - x i) (p i), hAe, hpr]
    simp only [smul_eq_mul]
    field_simp
    ring
  refine ⟨key, ?_⟩
  rw [key]
  have : 0 < (z i ⬝ᵥ r i) ^ 2 / (p i ⬝ᵥ A *ᵥ p i) :=
    div_pos (pow_pos hs.positiveProduct 2) hs.positiveCurvature
  linarith

/-- Non-vacuity: a positive definite matrix, and a full run of the solver on it. -/
example : Spd (!![2, 1; 1, 3] : Matrix (Fin 2) (Fin 2) ℚ) := by
  refine ⟨by ext i j; fin_cases i <;> fin_cases j <;> rfl, fun v hv => ?_⟩
  simp only [dotProduct, mulVec, Fin.sum_univ_two, Matrix.of_apply, Matrix.cons_val_zero, Matrix.cons_val_one,
    Matrix.cons_val', Matrix.cons_val_fin_one]
  have hne : v 0 ≠ 0 ∨ v 1 ≠ 0 := by
    by_contra hcon
    rw [not_or, not_not, not_not] at hcon
    apply hv
    funext i
    fin_cases i
    · exact hcon.1
    · exact hcon.2
  have : v 0 * (2 * v 0 + 1 * v 1) + v 1 * (1 * v 0 + 3 * v 1) =
      v 0 ^ 2 + (v 0 + v 1) ^ 2 + 2 * v 1 ^ 2 := by ring
  rw [this]
  rcases hne with h | h
  · have := pow_pos (abs_pos.2 h) 2
    rw [sq_abs] at this
    positivity
  · have := pow_pos (abs_pos.2 h) 2
    rw [sq_abs] at this
    positivity

example : (solveWithGuess (E := Unit) (n := 2) (K := ℚ)
    ⟨matrixOperator !![2, 1; 1, 3], identityOperator, relativeResidual (fun v => |v 0| + |v 1|) 0, none,
      fun v => |v 0| + |v 1|⟩ 3 ![3, 4] ![0, 0]).map (fun o => (o.x 0, o.x 1, o.numIterations)) =
    some (1, 1, 2) := by
  decide +kernel

/-- Non-vacuity of the error cases: an indefinite operator is reported, and a limit of one is reached. -/
example : (solveWithGuess (E := Unit) (n := 2) (K := ℚ)
    ⟨matrixOperator !![0, 1; 1, 0], identityOperator, relativeResidual (fun v => |v 0| + |v 1|) 0, none,
      fun v => |v 0| + |v 1|⟩ 3 ![3, 0] ![0, 0]).map (fun o => (o.numIterations, o.result.toBool)) =
    some (0, false) := by
  decide +kernel

end Cg
end Fenris
