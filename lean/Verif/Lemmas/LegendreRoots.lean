import Verif.Lemmas.Legendre
import Mathlib.Topology.Order.IntermediateValue
import Mathlib.Algebra.Polynomial.Roots
/-! # The Legendre polynomial of degree `n` has `n` different roots in the open interval, and Newton's method converges to them -/
set_option autoImplicit false
set_option linter.unusedSectionVars false

namespace Fenris
namespace Quadrature
open Polynomial

/-- A polynomial without roots in the open interval has one sign on the closed interval. -/
private theorem one_sign (R : ℝ[X]) (h : ∀ x, -1 < x → x < 1 → R.eval x ≠ 0) :
    (∀ x ∈ Set.Icc (-1 : ℝ) 1, 0 ≤ R.eval x) ∨ ∀ x ∈ Set.Icc (-1 : ℝ) 1, 0 ≤ (-R).eval x := by
  have key : ∀ Q : ℝ[X], (∀ x, -1 < x → x < 1 → Q.eval x ≠ 0) → 0 < Q.eval 0 → ∀ x ∈ Set.Icc (-1 : ℝ) 1, 0 ≤ Q.eval x := by
    intro Q hQ h0 x hx
    by_contra hneg
    have hneg := not_le.1 hneg
    rcases le_total x 0 with hx0 | hx0
    · obtain ⟨y, hy, hy0⟩ := intermediate_value_Ioo (f := fun t => Q.eval t) hx0 Q.continuous.continuousOn ⟨hneg, h0⟩
      exact hQ y (by linarith [hx.1, hy.1]) (by linarith [hy.2]) hy0
    · obtain ⟨y, hy, hy0⟩ := intermediate_value_Ioo' (f := fun t => Q.eval t) hx0 Q.continuous.continuousOn ⟨hneg, h0⟩
      exact hQ y (by linarith [hy.1]) (by linarith [hx.2, hy.2]) hy0
  rcases lt_or_gt_of_ne (h 0 (by norm_num) (by norm_num)) with h0 | h0
  · right
    refine key (-R) (fun x h1 h2 => ?_) (by simpa using h0)
    simpa using h x h1 h2
  · exact Or.inl (key R h h0)

/-- A nonzero polynomial that is not negative on the interval has a positive integral. -/
private theorem integral_pos' (f : ℝ[X]) (h0 : f ≠ 0) (h : ∀ x ∈ Set.Icc (-1 : ℝ) 1, 0 ≤ f.eval x) : 0 < Spec.intervalIntegral f := by
  refine intervalIntegral.integral_pos (by norm_num) f.continuous.continuousOn
    (fun x hx => h x ⟨hx.1.le, hx.2⟩) ?_
  by_contra hno
  push Not at hno
  refine h0 (Polynomial.eq_zero_of_infinite_isRoot f (Set.Infinite.mono ?_ (Set.Icc_infinite (show (-1 : ℝ) < 1 by norm_num))))
  intro x hx
  exact le_antisymm (hno x hx) (h x hx)

theorem legPoly_roots (n : Nat) : ∃ S : Finset ℝ, S.card = n ∧ ∀ x, x ∈ S ↔ -1 < x ∧ x < 1 ∧ (legPoly n : ℝ[X]).eval x = 0 := by
  classical
  set P : ℝ[X] := legPoly n with hP
  have hP0 : P ≠ 0 := by
    intro h; have := legPoly_one (K := ℝ) n; rw [← hP, h] at this; simp at this
  set M : Multiset ℝ := P.roots.filter fun x => -1 < x ∧ x < 1 with hM
  obtain ⟨R, hR⟩ := (Multiset.prod_X_sub_C_dvd_iff_le_roots hP0 M).2 (Multiset.filter_le _ _)
  have hR0 : R ≠ 0 := by rintro rfl; rw [mul_zero] at hR; exact hP0 hR
  have hroots : P.roots = M + R.roots := by
    conv_lhs => rw [hR]
    rw [roots_mul (by rw [← hR]; exact hP0), roots_multiset_prod_X_sub_C]
  have hRno : ∀ x, -1 < x → x < 1 → R.eval x ≠ 0 := by
    intro x h1 h2 hx
    have hxR : x ∈ R.roots := (mem_roots hR0).2 hx
    have hc : M.count x = P.roots.count x := by rw [hM, Multiset.count_filter_of_pos ⟨h1, h2⟩]
    rw [hroots, Multiset.count_add] at hc
    have := Multiset.count_pos.2 hxR
    omega
  set T := M.toFinset.filter fun x => Odd (M.count x) with hT
  set q : ℝ[X] := ∏ x ∈ T, (X - C x) with hq
  have hq0 : q ≠ 0 := Finset.prod_ne_zero_iff.2 fun x _ => X_sub_C_ne_zero x
  have hqdeg : q.natDegree = T.card := by
    rw [hq, natDegree_prod _ _ fun x _ => X_sub_C_ne_zero x]; simp
  set G : ℝ[X] := (M.map fun a => X - C a).prod * q with hG
  have hGpos : ∀ x, 0 ≤ G.eval x := by
    intro x
    have e1 : (M.map fun a => X - C a).prod.eval x = ∏ a ∈ M.toFinset, (x - a) ^ M.count a := by
      rw [Finset.prod_multiset_map_count, eval_prod]
      simp
    have e2 : q.eval x = ∏ a ∈ M.toFinset, if Odd (M.count a) then x - a else 1 := by
      rw [hq, eval_prod, hT, Finset.prod_filter]
      refine Finset.prod_congr rfl fun a _ => ?_
      split <;> simp
    rw [hG, eval_mul, e1, e2, ← Finset.prod_mul_distrib]
    refine Finset.prod_nonneg fun a _ => ?_
    split
    · rename_i hodd
      rw [← pow_succ]
      exact (hodd.add_one).pow_nonneg _
    · rename_i hodd
      rw [mul_one]
      exact (Nat.not_odd_iff_even.1 hodd).pow_nonneg _
  have hPq : P * q = G * R := by rw [hG, hR]; ring
  have hGR : G * R ≠ 0 := by rw [← hPq]; exact mul_ne_zero hP0 hq0
  have hint : Spec.intervalIntegral (P * q) ≠ 0 := by
    rw [hPq]
    rcases one_sign R hRno with h | h
    · refine (integral_pos' _ hGR fun x hx => ?_).ne'
      rw [eval_mul]
      exact mul_nonneg (hGpos x) (h x hx)
    · have := integral_pos' (-(G * R)) (neg_ne_zero.2 hGR) (fun x hx => by
        rw [← mul_neg, eval_mul]
        exact mul_nonneg (hGpos x) (h x hx))
      unfold Spec.intervalIntegral at this ⊢
      simp only [eval_neg, _root_.intervalIntegral.integral_neg] at this
      exact (neg_pos.1 this).ne
  have hcard : n ≤ T.card := by
    by_contra hlt
    refine hint ((legPoly_isLegendre n).orthogonal q ?_)
    rw [degree_eq_natDegree hq0, hqdeg]
    exact_mod_cast not_le.1 hlt
  have hMle : M.toFinset.card ≤ n := by
    calc M.toFinset.card ≤ M.card := Multiset.toFinset_card_le M
      _ ≤ P.roots.card := Multiset.card_le_card (Multiset.filter_le _ _)
      _ ≤ P.natDegree := card_roots' P
      _ = n := (legPoly_isLegendre n).natDegree
  refine ⟨M.toFinset, le_antisymm hMle (hcard.trans (Finset.card_le_card (Finset.filter_subset _ _))), fun x => ?_⟩
  rw [Multiset.mem_toFinset, hM, Multiset.mem_filter, mem_roots hP0]
  exact ⟨fun h => ⟨h.2.1, h.2.2, h.1⟩, fun h => ⟨h.2.2, h.1, h.2.1⟩⟩

/-- All roots of the Legendre polynomial are in the open interval and simple. -/
theorem legPoly_root_iff (n : Nat) (S : Finset ℝ) (hS : S.card = n) (hmem : ∀ x, x ∈ S ↔ -1 < x ∧ x < 1 ∧ (legPoly n : ℝ[X]).eval x = 0) :
    ∀ x, (legPoly n : ℝ[X]).eval x = 0 → x ∈ S := by
  classical
  intro x hx
  by_contra hno
  have hP0 : (legPoly n : ℝ[X]) ≠ 0 := by
    intro h; have := legPoly_one (K := ℝ) n; rw [h] at this; simp at this
  have h1 : insert x S ⊆ (legPoly n : ℝ[X]).roots.toFinset := by
    intro y hy
    rw [Multiset.mem_toFinset, mem_roots hP0]
    rcases Finset.mem_insert.1 hy with rfl | hy
    · exact hx
    · exact ((hmem y).1 hy).2.2
  have h2 := Finset.card_le_card h1
  rw [Finset.card_insert_of_notMem hno, hS] at h2
  have h3 := Multiset.toFinset_card_le (legPoly n : ℝ[X]).roots
  have h4 := card_roots' (legPoly n : ℝ[X])
  rw [(legPoly_isLegendre n).natDegree] at h4
  omega

/-- Near a root each Newton step halves the distance, and the step is at least half the distance. -/
theorem newton_contracts (n : Nat) (a : ℝ) (h1 : -1 < a) (h2 : a < 1) (h0 : (legPoly n : ℝ[X]).eval a = 0)
    (hd : (derivative (legPoly n : ℝ[X])).eval a ≠ 0) :
    ∃ δ > 0, ∀ x, |x - a| < δ →
      |x - legendreValue n x / legendreDerivative n x - a| ≤ |x - a| / 2 := by
  obtain ⟨Q, hQ⟩ := dvd_iff_isRoot.2 (show IsRoot (legPoly n : ℝ[X]) a from h0)
  have hQa : Q.eval a = (derivative (legPoly n : ℝ[X])).eval a := by
    rw [hQ]; simp [derivative_mul]
  have hcont : ContinuousAt (fun x => Q.eval x / (derivative (legPoly n : ℝ[X])).eval x) a :=
    Q.continuous.continuousAt.div (derivative (legPoly n : ℝ[X])).continuous.continuousAt hd
  have hval : (fun x => Q.eval x / (derivative (legPoly n : ℝ[X])).eval x) a = 1 := by
    simp only [hQa]; exact div_self hd
  obtain ⟨δ, hδ, hclose⟩ := Metric.continuousAt_iff.1 hcont (1 / 2) (by norm_num)
  refine ⟨min δ (min (1 - a) (1 + a)), lt_min hδ (lt_min (by linarith) (by linarith)), fun x hx => ?_⟩
  have hxδ := hclose (show dist x a < δ from lt_of_lt_of_le hx (min_le_left _ _))
  have hx1 : |x - a| < 1 - a := lt_of_lt_of_le hx ((min_le_right _ _).trans (min_le_left _ _))
  have hx2 : |x - a| < 1 + a := lt_of_lt_of_le hx ((min_le_right _ _).trans (min_le_right _ _))
  beta_reduce at hval
  rw [hval, Real.dist_eq] at hxδ
  have hxx : x * x ≠ 1 := by
    have := abs_lt.1 hx1
    have := abs_lt.1 hx2
    nlinarith
  rw [legendreDerivative_eq n x hxx, legendreValue, legendre_eq]
  simp only
  have hfac : (legPoly n : ℝ[X]).eval x = (x - a) * Q.eval x := by
    conv_lhs => rw [hQ]
    simp
  rw [hfac, show x - (x - a) * Q.eval x / (derivative (legPoly n : ℝ[X])).eval x - a =
    (x - a) * -(Q.eval x / (derivative (legPoly n : ℝ[X])).eval x - 1) by ring, abs_mul, abs_neg]
  have := mul_le_mul_of_nonneg_left hxδ.le (abs_nonneg (x - a))
  linarith

/-- From a point close to the root the loop ends, with a result within the tolerance. -/
theorem newton_terminates (n : Nat) (a δ : ℝ) (hc : ∀ x, |x - a| < δ → |x - legendreValue n x / legendreDerivative n x - a| ≤ |x - a| / 2)
    (tol : ℝ) (htol : 0 < tol) : ∀ k x, |x - a| < δ → |x - a| ≤ 2 ^ k * (tol / 2) →
      ∃ y, ∀ fuel, k < fuel → newtonLoop n tol fuel x = some (y, legendreDerivative n y) ∧ |y - a| ≤ tol ∧ |y - a| < δ := by
  intro k
  induction k with
  | zero =>
    intro x hx hk
    have h1 := hc x hx
    refine ⟨x + -legendreValue n x / legendreDerivative n x, fun fuel hf => ?_⟩
    obtain ⟨f, rfl⟩ : ∃ f, fuel = f + 1 := ⟨fuel - 1, by omega⟩
    have e : x + -legendreValue n x / legendreDerivative n x - a = x - legendreValue n x / legendreDerivative n x - a := by ring
    have hd : |-legendreValue n x / legendreDerivative n x| ≤ tol := by
      rw [show -legendreValue n x / legendreDerivative n x = (x - legendreValue n x / legendreDerivative n x - a) - (x - a) by ring]
      refine (abs_sub _ _).trans ?_
      linarith
    refine ⟨?_, ?_, ?_⟩
    · simp only [newtonLoop]; rw [if_pos hd]
    · rw [e]; linarith
    · rw [e]
      have := abs_nonneg (x - a)
      linarith
  | succ k ih =>
    intro x hx hk
    have h1 := hc x hx
    have e : x + -legendreValue n x / legendreDerivative n x - a = x - legendreValue n x / legendreDerivative n x - a := by ring
    have hlt : |x + -legendreValue n x / legendreDerivative n x - a| < δ := by
      rw [e]
      have := abs_nonneg (x - a)
      linarith
    by_cases hd : |-legendreValue n x / legendreDerivative n x| ≤ tol
    · refine ⟨x + -legendreValue n x / legendreDerivative n x, fun fuel hf => ?_⟩
      obtain ⟨f, rfl⟩ : ∃ f, fuel = f + 1 := ⟨fuel - 1, by omega⟩
      refine ⟨?_, ?_, hlt⟩
      · simp only [newtonLoop]; rw [if_pos hd]
      · rw [e]
        have h3 : |x - a| ≤ |x - legendreValue n x / legendreDerivative n x - a| + |-legendreValue n x / legendreDerivative n x| := by
          rw [show x - a = (x - legendreValue n x / legendreDerivative n x - a) - (-legendreValue n x / legendreDerivative n x) by ring]
          exact abs_sub _ _
        linarith
    · obtain ⟨y, hy⟩ := ih _ hlt (by
        rw [e]
        rw [pow_succ] at hk
        linarith)
      refine ⟨y, fun fuel hf => ?_⟩
      obtain ⟨f, rfl⟩ : ∃ f, fuel = f + 1 := ⟨fuel - 1, by omega⟩
      simp only [newtonLoop]
      rw [if_neg hd]
      exact hy f (by omega)

end Quadrature
end Fenris
