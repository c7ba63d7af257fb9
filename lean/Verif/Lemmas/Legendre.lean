import Mathlib.Tactic.Ring
import Mathlib.Tactic.LinearCombination
import Mathlib.Tactic.FieldSimp
import Mathlib.Tactic.Linarith
import Mathlib.LinearAlgebra.Lagrange
import Mathlib.MeasureTheory.Integral.IntervalIntegral.FundThmCalculus
import Mathlib.Analysis.Calculus.Deriv.Polynomial
import Mathlib.Topology.Algebra.Polynomial
import Verif.Model.Quadrature
import Verif.Spec.Quadrature
/-! # Legendre polynomials: recurrences, differential equation, orthogonality, Gauss quadrature -/
set_option autoImplicit false
set_option linter.unusedSectionVars false

namespace Fenris
namespace Quadrature
open Polynomial

section field
variable {K : Type} [Field K] [CharZero K]

/-- The polynomials generated by the recurrence. -/
noncomputable def legPoly : Nat → K[X]
  | 0 => 1
  | 1 => X
  | n + 2 => C (1 / ((n : K) + 2)) * ((2 * (n : K[X]) + 3) * X * legPoly (n + 1) - ((n : K[X]) + 1) * legPoly n)

theorem legPoly_rec (n : Nat) :
    ((n : K[X]) + 2) * legPoly (n + 2) = (2 * (n : K[X]) + 3) * X * legPoly (n + 1) - ((n : K[X]) + 1) * legPoly n := by
  have h : ((n : K[X]) + 2) * C (1 / ((n : K) + 2)) = 1 := by
    have h2 : ((n : K) + 2) ≠ 0 := by exact_mod_cast (by omega : (n + 2 : Nat) ≠ 0)
    have : ((n : K[X]) + 2) = C ((n : K) + 2) := by
      simp only [C_add, map_natCast, map_ofNat]
    rw [this, ← C_mul, mul_one_div, div_self h2, C_1]
  rw [legPoly, ← mul_assoc, h, one_mul]

theorem two_ne (n : Nat) : ((n : K[X]) + 2) ≠ 0 := by
  exact_mod_cast (by omega : (n + 2 : Nat) ≠ 0)

theorem legendre_succ (n : Nat) (x : K) : legendre (n + 1) x = legendreStep x (legendre n x) (n + 1) := by
  unfold legendre
  rw [List.range'_concat, List.foldl_append]
  simp [Nat.add_comm]

theorem legendre_eq (n : Nat) (x : K) :
    legendre n x = ((legPoly n).eval x, if n = 0 then 0 else (legPoly (n - 1)).eval x) := by
  induction n with
  | zero => simp [legendre, legPoly]
  | succ n ih =>
    rw [legendre_succ, ih]
    cases n with
    | zero => simp [legendreStep, legPoly]; ring
    | succ n =>
      have h2 : ((n : K) + 2) ≠ 0 := by exact_mod_cast (by omega : (n + 2 : Nat) ≠ 0)
      have hr := congrArg (Polynomial.eval x) (legPoly_rec (K := K) n)
      simp only [eval_mul, eval_add, eval_sub, eval_natCast, eval_ofNat, eval_X, eval_one] at hr
      simp only [legendreStep, Nat.add_eq_zero_iff, one_ne_zero, and_false, if_false, Nat.add_sub_cancel, Prod.mk.injEq, and_true]
      have h3 : ((n + 1 + 1 : Nat) : K) = (n : K) + 2 := by push_cast; ring
      rw [h3, div_eq_iff h2]
      linear_combination -hr

theorem legPoly_deriv (n : Nat) :
    derivative (legPoly (n + 1) : K[X]) = X * derivative (legPoly n) + ((n : K[X]) + 1) * legPoly n ∧
    X * derivative (legPoly (n + 1) : K[X]) = derivative (legPoly n) + ((n : K[X]) + 1) * legPoly (n + 1) := by
  induction n with
  | zero => simp [legPoly]
  | succ n ih =>
    obtain ⟨h1, h2⟩ := ih
    have hr := legPoly_rec (K := K) n
    have hd := congrArg derivative hr
    simp only [derivative_mul, derivative_sub, derivative_add, derivative_natCast, derivative_ofNat, derivative_X,
      derivative_one] at hd
    have hn := two_ne (K := K) n
    have e1 : derivative (legPoly (n + 2) : K[X]) = X * derivative (legPoly (n + 1)) + ((n : K[X]) + 2) * legPoly (n + 1) := by
      apply mul_left_cancel₀ hn
      linear_combination hd + ((n : K[X]) + 1) * h2
    refine ⟨?_, ?_⟩
    · rw [e1]; push_cast; ring
    · rw [e1]; push_cast
      linear_combination hr * (-1) + X * h2 - h1

theorem legPoly_deriv_formula (n : Nat) :
    (X ^ 2 - 1) * derivative (legPoly (n + 1) : K[X]) = ((n : K[X]) + 1) * (X * legPoly (n + 1) - legPoly n) := by
  obtain ⟨h1, h2⟩ := legPoly_deriv (K := K) n
  linear_combination X * h2 - h1

theorem legPoly_ode (n : Nat) :
    derivative ((X ^ 2 - 1) * derivative (legPoly n : K[X])) = (n : K[X]) * ((n : K[X]) + 1) * legPoly n := by
  cases n with
  | zero => simp [legPoly]
  | succ n =>
    rw [legPoly_deriv_formula]
    obtain ⟨h1, h2⟩ := legPoly_deriv (K := K) n
    simp only [derivative_mul, derivative_sub, derivative_add, derivative_natCast, derivative_X,
      derivative_one]
    push_cast
    linear_combination ((n : K[X]) + 1) * h2

theorem legPoly_neg (n : Nat) (x : K) : (legPoly n).eval (-x) = (-1) ^ n * (legPoly n).eval x := by
  induction n using Nat.strong_induction_on with
  | _ n ih =>
    match n with
    | 0 => simp [legPoly]
    | 1 => simp [legPoly]
    | n + 2 =>
      have a := ih n (by omega)
      have b := ih (n + 1) (by omega)
      simp only [legPoly, eval_mul, eval_C, eval_sub, eval_add, eval_natCast, eval_ofNat, eval_X, eval_one, a, b]
      ring

theorem legPoly_one (n : Nat) : (legPoly n : K[X]).eval 1 = 1 := by
  induction n using Nat.strong_induction_on with
  | _ n ih =>
    match n with
    | 0 => simp [legPoly]
    | 1 => simp [legPoly]
    | n + 2 =>
      have a := ih n (by omega)
      have b := ih (n + 1) (by omega)
      have h2 : ((n : K) + 2) ≠ 0 := by exact_mod_cast (by omega : (n + 2 : Nat) ≠ 0)
      simp only [legPoly, eval_mul, eval_C, eval_sub, eval_add, eval_natCast, eval_ofNat, eval_X, eval_one, a, b]
      field_simp
      ring

theorem legPoly_degree (n : Nat) : (legPoly n : K[X]).natDegree ≤ n ∧ (legPoly n : K[X]).coeff n ≠ 0 := by
  induction n using Nat.strong_induction_on with
  | _ n ih =>
    match n with
    | 0 => simp [legPoly]
    | 1 => simp [legPoly]
    | n + 2 =>
      obtain ⟨a, a'⟩ := ih n (by omega)
      obtain ⟨b, b'⟩ := ih (n + 1) (by omega)
      have h2 : ((n : K) + 2) ≠ 0 := by exact_mod_cast (by omega : (n + 2 : Nat) ≠ 0)
      have h3 : (2 * (n : K) + 3) ≠ 0 := by exact_mod_cast (by omega : (2 * n + 3 : Nat) ≠ 0)
      have e : (legPoly (n + 2) : K[X]) = C (1 / ((n : K) + 2)) *
          (C (2 * (n : K) + 3) * (X * legPoly (n + 1)) - C ((n : K) + 1) * legPoly n) := by
        rw [legPoly]; simp only [C_add, C_mul, C_1, map_natCast, map_ofNat]; ring
      constructor
      · rw [e]
        refine (natDegree_C_mul_le _ _).trans ((natDegree_sub_le _ _).trans (max_le ?_ ?_))
        · refine (natDegree_C_mul_le _ _).trans (natDegree_mul_le.trans ?_)
          have := natDegree_X_le (R := K); omega
        · exact (natDegree_C_mul_le _ _).trans (by omega)
      · rw [e, coeff_C_mul, coeff_sub, coeff_C_mul, coeff_C_mul, coeff_X_mul,
          coeff_eq_zero_of_natDegree_lt (by omega : (legPoly n : K[X]).natDegree < n + 2)]
        simp only [mul_zero, sub_zero]
        exact mul_ne_zero (one_div_ne_zero h2) (mul_ne_zero h3 b')

/-- The derivative computed by the code is the derivative. -/
theorem legendreDerivative_eq (n : Nat) (x : K) (hx : x * x ≠ 1) :
    legendreDerivative n x = (derivative (legPoly n)).eval x := by
  have hx' : x * x - 1 ≠ 0 := sub_ne_zero.2 hx
  unfold legendreDerivative
  rw [legendre_eq]
  cases n with
  | zero => simp [legPoly]
  | succ n =>
    have h := congrArg (Polynomial.eval x) (legPoly_deriv_formula (K := K) n)
    simp only [eval_mul, eval_sub, eval_pow, eval_X, eval_one, eval_add, eval_natCast] at h
    simp only [Nat.add_eq_zero_iff, one_ne_zero, and_false, if_false, Nat.add_sub_cancel]
    rw [div_eq_iff hx']
    push_cast
    linear_combination -h

end field

/-! ## Integrals -/

local notation "∫p" => Spec.intervalIntegral

theorem poly_int (q : ℝ[X]) (a b : ℝ) : IntervalIntegrable (fun x => q.eval x) MeasureTheory.volume a b :=
  (Polynomial.continuous q).intervalIntegrable a b

theorem int_add (p q : ℝ[X]) : ∫p (p + q) = ∫p p + ∫p q := by
  simp only [Spec.intervalIntegral, eval_add]
  exact _root_.intervalIntegral.integral_add (poly_int _ _ _) (poly_int _ _ _)

theorem int_sub (p q : ℝ[X]) : ∫p (p - q) = ∫p p - ∫p q := by
  simp only [Spec.intervalIntegral, eval_sub]
  exact _root_.intervalIntegral.integral_sub (poly_int _ _ _) (poly_int _ _ _)

theorem int_C_mul (c : ℝ) (q : ℝ[X]) : ∫p (C c * q) = c * ∫p q := by
  simp only [Spec.intervalIntegral, eval_mul, eval_C]
  exact _root_.intervalIntegral.integral_const_mul _ _

theorem int_zero : ∫p 0 = 0 := by simp [Spec.intervalIntegral]

theorem int_sum {ι : Type} (s : Finset ι) (f : ι → ℝ[X]) : ∫p (∑ i ∈ s, f i) = ∑ i ∈ s, ∫p (f i) := by
  classical
  induction s using Finset.induction_on with
  | empty => simp [int_zero]
  | insert a s ha ih => rw [Finset.sum_insert ha, Finset.sum_insert ha, int_add, ih]

theorem int_derivative (q : ℝ[X]) : ∫p (derivative q) = q.eval 1 - q.eval (-1) := by
  unfold Spec.intervalIntegral
  exact _root_.intervalIntegral.integral_eq_sub_of_hasDerivAt (fun x _ => q.hasDerivAt x) (poly_int _ _ _)

theorem legPoly_orthogonal {n m : Nat} (h : n ≠ m) : ∫p (legPoly n * legPoly m) = 0 := by
  have e : derivative ((X ^ 2 - 1) * (derivative (legPoly n : ℝ[X]) * legPoly m - legPoly n * derivative (legPoly m)))
      = C ((n : ℝ) * ((n : ℝ) + 1) - (m : ℝ) * ((m : ℝ) + 1)) * (legPoly n * legPoly m) := by
    have h1 := legPoly_ode (K := ℝ) n
    have h2 := legPoly_ode (K := ℝ) m
    simp only [derivative_mul, derivative_sub, derivative_one, derivative_pow, derivative_X, C_sub, C_mul, C_add, C_1, map_natCast] at h1 h2 ⊢
    linear_combination h1 * legPoly m - h2 * legPoly n
  have h0 := int_derivative ((X ^ 2 - 1) * (derivative (legPoly n : ℝ[X]) * legPoly m - legPoly n * derivative (legPoly m)))
  rw [e, int_C_mul] at h0
  simp only [eval_mul, eval_sub, eval_pow, eval_X, eval_one] at h0
  norm_num at h0
  rcases h0 with h0 | h0
  · exfalso
    apply h
    have hz : ((n : ℝ) - m) * ((n : ℝ) + m + 1) = 0 := by linear_combination h0
    have hp : ((n : ℝ) + m + 1) ≠ 0 := by positivity
    have := (mul_eq_zero.1 hz).resolve_right hp
    exact_mod_cast sub_eq_zero.1 this
  · exact h0

theorem legPoly_orthogonal_lower (n : Nat) : ∀ k, k ≤ n → ∀ q : ℝ[X], q.degree < k → ∫p (legPoly n * q) = 0 := by
  intro k
  induction k with
  | zero =>
    intro _ q hq
    have : q = 0 := by
      rw [← degree_eq_bot]; 
      exact (Nat.WithBot.lt_zero_iff).1 hq
    rw [this, mul_zero, int_zero]
  | succ k ih =>
    intro hk q hq
    obtain ⟨d, c⟩ := legPoly_degree (K := ℝ) k
    set a := q.coeff k / (legPoly k : ℝ[X]).coeff k with ha
    have e : legPoly n * q = legPoly n * (q - C a * legPoly k) + C a * (legPoly n * legPoly k) := by ring
    rw [e, int_add, int_C_mul, legPoly_orthogonal (by omega), mul_zero, add_zero]
    apply ih (by omega)
    rw [degree_lt_iff_coeff_zero] at hq ⊢
    intro m hm
    rcases Nat.lt_or_ge k m with h | h
    · rw [coeff_sub, coeff_C_mul, hq m (by omega), coeff_eq_zero_of_natDegree_lt (by omega)]; simp
    · obtain rfl : m = k := by omega
      rw [coeff_sub, coeff_C_mul, ha, div_mul_cancel₀ _ c, sub_self]

theorem legPoly_isLegendre (n : Nat) : Spec.IsLegendre n (legPoly n) where
  natDegree := natDegree_eq_of_le_of_coeff_ne_zero (legPoly_degree n).1 (legPoly_degree n).2
  eval_one := legPoly_one n
  orthogonal q hq := legPoly_orthogonal_lower n n le_rfl q hq

theorem int_sq_pos {q : ℝ[X]} (h : ∫p (q * q) = 0) : q = 0 := by
  by_contra hq
  have hc : Continuous fun x => (q * q).eval x := Polynomial.continuous _
  have hx : ∃ x ∈ Set.Icc (-1 : ℝ) 1, q.eval x ≠ 0 := by
    by_contra hn
    push Not at hn
    apply hq
    apply Polynomial.eq_zero_of_infinite_isRoot
    exact (Set.Icc_infinite (by norm_num : (-1 : ℝ) < 1)).mono hn
  obtain ⟨x, hx, hne⟩ := hx
  have hp : 0 < ∫ x in (-1 : ℝ)..1, (q * q).eval x := by
    apply _root_.intervalIntegral.integral_pos (by norm_num) hc.continuousOn
    · intro y _; rw [eval_mul]; exact mul_self_nonneg _
    · exact ⟨x, hx, by rw [eval_mul]; exact mul_self_pos.2 hne⟩
  exact absurd h hp.ne'

/-- There is only one Legendre polynomial of each degree. -/
theorem isLegendre_unique {n : Nat} {p q : ℝ[X]} (hp : Spec.IsLegendre n p) (hq : Spec.IsLegendre n q) : p = q := by
  -- `r := lc(q) p - lc(p) q` has smaller degree and is orthogonal to itself
  have hq0 : q ≠ 0 := by rintro rfl; have := hq.eval_one; simp at this
  set a := p.coeff n
  set b := q.coeff n
  have hr : (C b * p - C a * q).degree < n := by
    rw [degree_lt_iff_coeff_zero]
    intro m hm
    rcases Nat.lt_or_ge n m with h | h
    · rw [coeff_sub, coeff_C_mul, coeff_C_mul, coeff_eq_zero_of_natDegree_lt (by rw [hp.natDegree]; omega),
        coeff_eq_zero_of_natDegree_lt (by rw [hq.natDegree]; omega)]; simp
    · obtain rfl : m = n := by omega
      rw [coeff_sub, coeff_C_mul, coeff_C_mul]; ring
  have h0 : C b * p - C a * q = 0 := by
    apply int_sq_pos
    have e : (C b * p - C a * q) * (C b * p - C a * q)
        = C b * (p * (C b * p - C a * q)) - C a * (q * (C b * p - C a * q)) := by ring
    rw [e, int_sub, int_C_mul, int_C_mul, hp.orthogonal _ hr, hq.orthogonal _ hr]; simp
  have h1 := congrArg (Polynomial.eval 1) h0
  simp only [eval_sub, eval_mul, eval_C, hp.eval_one, hq.eval_one, eval_zero, mul_one] at h1
  have hab : b = a := sub_eq_zero.1 h1
  have hb : b ≠ 0 := by
    have : b = q.leadingCoeff := by simp only [b, leadingCoeff, hq.natDegree]
    rw [this]; exact leadingCoeff_ne_zero.2 hq0
  rw [← hab, ← mul_sub] at h0
  exact sub_eq_zero.1 ((mul_eq_zero.1 h0).resolve_left (by simpa using hb))

/-! ## Gauss quadrature -/

/-- The quotient of the Legendre polynomial by a root, and what is needed about it. -/
theorem root_quotient {n : Nat} {x : ℝ} (hx : (legPoly n : ℝ[X]).eval x = 0) :
    ∃ q : ℝ[X], legPoly n = (X - C x) * q ∧ q.degree < (n : WithBot Nat) ∧ q.eval x = (derivative (legPoly n)).eval x := by
  obtain ⟨q, hq⟩ := dvd_iff_isRoot.2 (show IsRoot (legPoly n) x from hx)
  refine ⟨q, hq, ?_, ?_⟩
  · have h1 := (legPoly_isLegendre n).natDegree
    have hq0 : q ≠ 0 := by
      rintro rfl
      have := legPoly_one (K := ℝ) n
      rw [hq] at this; simp at this
    rw [hq, natDegree_mul (X_sub_C_ne_zero x) hq0, natDegree_X_sub_C] at h1
    rw [degree_eq_natDegree hq0]
    exact_mod_cast (by omega : q.natDegree < n)
  · rw [hq]; simp

/-- Gauss quadrature: the weight formula of the code makes the rule on the roots of the Legendre polynomial
exact for every polynomial of degree below `2 n`. -/
theorem gauss_quadrature {n : Nat} (s : Finset ℝ) (hs : s.card = n) (hroot : ∀ x ∈ s, (legPoly n : ℝ[X]).eval x = 0) :
    (∀ x ∈ s, x * x ≠ 1 ∧ (derivative (legPoly n : ℝ[X])).eval x ≠ 0) ∧
    ∀ f : ℝ[X], f.degree < ((2 * n : Nat) : WithBot Nat) →
      ∫p f = ∑ x ∈ s, 2 / ((1 - x * x) * (derivative (legPoly n)).eval x * (derivative (legPoly n)).eval x) * f.eval x := by
  classical
  have hP0 : (legPoly n : ℝ[X]) ≠ 0 := by
    intro h; have := legPoly_one (K := ℝ) n; rw [h] at this; simp at this
  have hend : ∀ x ∈ s, x * x ≠ 1 := by
    intro x hx h
    rcases mul_self_eq_one_iff.1 h with h | h
    · have := hroot x hx; rw [h, legPoly_one] at this; exact one_ne_zero this
    · have := hroot x hx; rw [h, legPoly_neg, legPoly_one] at this
      simp at this
  -- interpolatory rule
  have hint : ∀ f : ℝ[X], f.degree < ((2 * n : Nat) : WithBot Nat) →
      ∫p f = ∑ x ∈ s, ∫p (Lagrange.basis s id x) * f.eval x := by
    intro f hf
    have hmod : f = legPoly n * (f / legPoly n) + f % legPoly n := (EuclideanDomain.div_add_mod f _).symm
    have hdP : (legPoly n : ℝ[X]).degree = (n : WithBot Nat) := by
      rw [degree_eq_natDegree hP0, (legPoly_isLegendre n).natDegree]
    have hr : (f % legPoly n).degree < (n : WithBot Nat) := by
      have := degree_mod_lt f hP0; rwa [hdP] at this
    have hq : (f / legPoly n).degree < (n : WithBot Nat) := by
      by_cases h0 : f / legPoly n = 0
      · rw [h0, degree_zero]; exact WithBot.bot_lt_coe _
      · have hle : (legPoly n : ℝ[X]).degree ≤ f.degree := by
          by_contra hlt
          exact h0 ((Polynomial.div_eq_zero_iff hP0).2 (not_le.1 hlt))
        have hd := degree_add_div hP0 hle
        have hf0 : f ≠ 0 := by rintro rfl; exact h0 (by simp)
        rw [hdP, degree_eq_natDegree h0, degree_eq_natDegree hf0] at hd
        rw [degree_eq_natDegree hf0] at hf
        rw [degree_eq_natDegree h0]
        have h1 : n + (f / legPoly n).natDegree = f.natDegree := by exact_mod_cast hd
        have h2 : f.natDegree < 2 * n := by exact_mod_cast hf
        exact_mod_cast (by omega : (f / legPoly n).natDegree < n)
    have hev : ∀ x ∈ s, f.eval x = (f % legPoly n).eval x := by
      intro x hx
      conv_lhs => rw [hmod]
      rw [eval_add, eval_mul, hroot x hx]; simp
    have h1 : ∫p f = ∫p (f % legPoly n) := by
      conv_lhs => rw [hmod]
      rw [int_add, (legPoly_isLegendre n).orthogonal _ hq, zero_add]
    rw [h1]
    have hl : f % legPoly n = Lagrange.interpolate s id fun x => (f % legPoly n).eval x :=
      Lagrange.eq_interpolate (Function.injective_id.injOn) (by rw [hs]; exact hr)
    rw [Finset.sum_congr rfl fun x hx => by rw [hev x hx]]
    conv_lhs => rw [hl, Lagrange.interpolate_apply, int_sum]
    exact Finset.sum_congr rfl fun x _ => by rw [int_C_mul, mul_comm]
  -- weights
  have hw : ∀ x ∈ s, ∫p (Lagrange.basis s id x) * ((derivative (legPoly n : ℝ[X])).eval x * (derivative (legPoly n)).eval x)
      = 2 / (1 - x * x) := by
    intro x hx
    obtain ⟨q, hq, hqd, hqx⟩ := root_quotient (hroot x hx)
    have hdeg : (q * derivative (legPoly n)).degree < ((2 * n : Nat) : WithBot Nat) := by
      by_cases h0 : q * derivative (legPoly n) = 0
      · rw [h0, degree_zero]; exact WithBot.bot_lt_coe _
      · have hq0 : q ≠ 0 := left_ne_zero_of_mul h0
        have hd0 : derivative (legPoly n : ℝ[X]) ≠ 0 := right_ne_zero_of_mul h0
        have h2 := (natDegree_derivative_le (legPoly n : ℝ[X]))
        rw [(legPoly_isLegendre n).natDegree] at h2
        rw [degree_eq_natDegree hq0] at hqd
        have h3 : q.natDegree < n := by exact_mod_cast hqd
        rw [degree_eq_natDegree h0, natDegree_mul hq0 hd0]
        exact_mod_cast (by omega : q.natDegree + (derivative (legPoly n : ℝ[X])).natDegree < 2 * n)
    have h1 := hint _ hdeg
    rw [Finset.sum_eq_single x] at h1
    · rw [eval_mul, hqx] at h1
      rw [← h1]
      have e : q * derivative (legPoly n) = derivative (legPoly n * q) - legPoly n * derivative q := by
        rw [derivative_mul]; ring
      have hdq : (derivative q).degree < (n : WithBot Nat) := lt_of_le_of_lt (degree_derivative_le) hqd
      rw [e, int_sub, int_derivative, (legPoly_isLegendre n).orthogonal _ hdq, sub_zero, eval_mul, eval_mul, legPoly_one]
      have e1 := congrArg (Polynomial.eval 1) hq
      have e2 := congrArg (Polynomial.eval (-1)) hq
      simp only [eval_mul, eval_sub, eval_X, eval_C, legPoly_one] at e1 e2
      have hn := legPoly_neg (K := ℝ) n 1
      rw [legPoly_one, mul_one] at hn
      rw [hn] at e2 ⊢
      have hsq : ((-1 : ℝ) ^ n) * (-1) ^ n = 1 := by rw [← pow_add, ← two_mul]; simp
      have hne : 1 - x * x ≠ 0 := sub_ne_zero.2 (hend x hx).symm
      have h1x : 1 - x ≠ 0 := by intro h; apply hne; linear_combination (1 + x) * h
      have h2x : -1 - x ≠ 0 := by intro h; apply hne; linear_combination -(1 - x) * h
      rw [eq_div_iff hne]
      have t1 : q.eval 1 * (1 - x * x) = 1 + x := by linear_combination -(1 + x) * e1
      have t2 : (-1) ^ n * q.eval (-1) * (1 - x * x) = - (1 - x) := by
        linear_combination (1 - x) * (-1) ^ n * e2 - (1 - x) * hsq
      linear_combination t1 - t2
    · intro y hy hyx
      rw [eval_mul]
      have hqy : q.eval y = 0 := by
        have := hroot y hy
        rw [hq, eval_mul] at this
        refine (mul_eq_zero.1 this).resolve_left ?_
        simpa using sub_ne_zero.2 hyx
      rw [hqy]; simp
    · exact fun h => absurd hx h
  have hd : ∀ x ∈ s, (derivative (legPoly n : ℝ[X])).eval x ≠ 0 := by
    intro x hx h
    have := hw x hx
    rw [h] at this
    have hne : 1 - x * x ≠ 0 := sub_ne_zero.2 (hend x hx).symm
    rw [mul_zero, mul_zero, eq_comm, div_eq_zero_iff] at this
    rcases this with h | h
    · norm_num at h
    · exact hne h
  refine ⟨fun x hx => ⟨hend x hx, hd x hx⟩, fun f hf => ?_⟩
  rw [hint f hf]
  refine Finset.sum_congr rfl fun x hx => ?_
  congr 1
  have hne : 1 - x * x ≠ 0 := sub_ne_zero.2 (hend x hx).symm
  have h := hw x hx
  rw [eq_div_iff hne] at h
  rw [eq_div_iff (mul_ne_zero (mul_ne_zero hne (hd x hx)) (hd x hx))]
  linear_combination h

end Quadrature
end Fenris
