import Mathlib.MeasureTheory.Integral.DominatedConvergence
import Mathlib.MeasureTheory.Integral.Prod
import Mathlib.Analysis.SpecialFunctions.Integrals.Basic
import Mathlib.Topology.Algebra.MvPolynomial
import Mathlib.Algebra.MvPolynomial.Monad
import Mathlib.Tactic.Ring
import Mathlib.Tactic.Linarith
import Mathlib.Tactic.FieldSimp
import Mathlib.Tactic.Positivity
import Verif.Spec.Quadrature
/-! # Integrals over a triangle, cut into the cells of a grid -/
set_option autoImplicit false

namespace Fenris
namespace Quadrature
open MeasureTheory

section
variable {F : ℝ → ℝ → ℝ} (hF : Continuous fun p : ℝ × ℝ => F p.1 p.2)
include hF

theorem inner_continuous (a : ℝ) (s : ℝ → ℝ) (hs : Continuous s) : Continuous fun x => ∫ y in a..s x, F x y :=
  intervalIntegral.continuous_parametric_intervalIntegral_of_continuous (f := F) hF hs

theorem inner_integrable (x a b : ℝ) : IntervalIntegrable (F x) volume a b := by
  have : Continuous (F x) := hF.comp (by fun_prop : Continuous fun y : ℝ => (x, y))
  exact this.intervalIntegrable a b

/-- The order of integration over the reference triangle does not matter. -/
theorem triangle_swap :
    (∫ x in (-1 : ℝ)..1, ∫ y in (-1 : ℝ)..(-x), F x y) = ∫ y in (-1 : ℝ)..1, ∫ x in (-1 : ℝ)..(-y), F x y := by
  have hind : ∀ x ∈ Set.uIcc (-1 : ℝ) 1, (∫ y in (-1 : ℝ)..(-x), F x y)
      = ∫ y in (-1 : ℝ)..1, Set.indicator {p : ℝ × ℝ | p.1 + p.2 ≤ 0} (fun p => F p.1 p.2) (x, y) := by
    intro x hx
    rw [Set.uIcc_of_le (by norm_num)] at hx
    rw [← intervalIntegral.integral_indicator (a₃ := 1) (f := F x) ⟨by linarith [hx.2], by linarith [hx.1]⟩]
    congr 1; ext y
    simp only [Set.indicator, Set.mem_setOf_eq]
    refine if_congr ?_ rfl rfl
    constructor <;> intro h <;> linarith
  have hind' : ∀ y ∈ Set.uIcc (-1 : ℝ) 1, (∫ x in (-1 : ℝ)..(-y), F x y)
      = ∫ x in (-1 : ℝ)..1, Set.indicator {p : ℝ × ℝ | p.1 + p.2 ≤ 0} (fun p => F p.1 p.2) (x, y) := by
    intro y hy
    rw [Set.uIcc_of_le (by norm_num)] at hy
    rw [← intervalIntegral.integral_indicator (a₃ := 1) (f := fun x => F x y) ⟨by linarith [hy.2], by linarith [hy.1]⟩]
    congr 1; ext x
    simp only [Set.indicator, Set.mem_setOf_eq]
    refine if_congr ?_ rfl rfl
    constructor <;> intro h <;> linarith
  rw [intervalIntegral.integral_congr hind, intervalIntegral.integral_congr hind']
  simp only [intervalIntegral.integral_of_le (by norm_num : (-1 : ℝ) ≤ 1)]
  apply integral_integral_swap (f := fun x y => Set.indicator {p : ℝ × ℝ | p.1 + p.2 ≤ 0} (fun p => F p.1 p.2) (x, y))
  have hm : MeasurableSet {p : ℝ × ℝ | p.1 + p.2 ≤ 0} :=
    (isClosed_le (by fun_prop) continuous_const).measurableSet
  rw [Measure.prod_restrict]
  have hint : IntegrableOn (fun p : ℝ × ℝ => F p.1 p.2) (Set.Icc (-1) 1 ×ˢ Set.Icc (-1) 1) (volume.prod volume) :=
    hF.continuousOn.integrableOn_compact (isCompact_Icc.prod isCompact_Icc)
  have hint2 : IntegrableOn (fun p : ℝ × ℝ => F p.1 p.2) (Set.Ioc (-1) 1 ×ˢ Set.Ioc (-1) 1) (volume.prod volume) :=
    hint.mono_set (Set.prod_mono Set.Ioc_subset_Icc_self Set.Ioc_subset_Icc_self)
  exact hint2.integrable.indicator hm

/-- The lower triangle of the cell with corner `(a, b)` and side `2 c`. -/
theorem lower_piece (a b c : ℝ) :
    c * c * (∫ x in (-1 : ℝ)..1, ∫ y in (-1 : ℝ)..(-x), F (c * x + (a + c)) (c * y + (b + c)))
      = ∫ x in a..(a + 2 * c), ∫ y in b..(a + b + 2 * c - x), F x y := by
  have hi : ∀ x : ℝ, c * (∫ y in (-1 : ℝ)..(-x), F (c * x + (a + c)) (c * y + (b + c)))
      = (fun t => ∫ y in b..(a + b + 2 * c - t), F t y) (c * x + (a + c)) := by
    intro x
    rw [intervalIntegral.mul_integral_comp_mul_add (f := F (c * x + (a + c)))]
    simp only
    congr 1 <;> ring
  rw [mul_assoc, ← intervalIntegral.integral_const_mul]
  simp only [hi]
  rw [intervalIntegral.mul_integral_comp_mul_add (f := fun t => ∫ y in b..(a + b + 2 * c - t), F t y)]
  congr 1 <;> ring

/-- The upper triangle of the cell. -/
theorem upper_piece (a b c : ℝ) :
    c * c * (∫ x in (-1 : ℝ)..1, ∫ y in (-1 : ℝ)..(-x), F (a + c - c * y) (b + 2 * c + c * x + c * y))
      = ∫ x in a..(a + 2 * c), ∫ y in (a + b + 2 * c - x)..(b + 2 * c), F x y := by
  have hc : Continuous fun p : ℝ × ℝ => F (a + c - c * p.2) (b + 2 * c + c * p.1 + c * p.2) :=
    hF.comp (by fun_prop : Continuous fun p : ℝ × ℝ => (a + c - c * p.2, b + 2 * c + c * p.1 + c * p.2))
  rw [triangle_swap (F := fun x y => F (a + c - c * y) (b + 2 * c + c * x + c * y)) hc]
  have hi : ∀ y : ℝ, c * (∫ x in (-1 : ℝ)..(-y), F (a + c - c * y) (b + 2 * c + c * x + c * y))
      = (fun t => ∫ y in (a + b + 2 * c - t)..(b + 2 * c), F t y) (a + c - c * y) := by
    intro y
    have := intervalIntegral.mul_integral_comp_mul_add (f := F (a + c - c * y)) (a := -1) (b := -y) c (b + 2 * c + c * y)
    have e : (fun x => F (a + c - c * y) (b + 2 * c + c * x + c * y))
        = fun x => F (a + c - c * y) (c * x + (b + 2 * c + c * y)) := by
      funext x; congr 1; ring
    rw [e, this]
    simp only
    congr 1 <;> ring
  rw [mul_assoc, ← intervalIntegral.integral_const_mul]
  simp only [hi]
  rw [intervalIntegral.mul_integral_comp_sub_mul (f := fun t => ∫ y in (a + b + 2 * c - t)..(b + 2 * c), F t y)]
  congr 1 <;> ring

/-- Both triangles make up the cell. -/
theorem cell_integral (a b c : ℝ) :
    (∫ x in a..(a + 2 * c), ∫ y in b..(a + b + 2 * c - x), F x y) +
      (∫ x in a..(a + 2 * c), ∫ y in (a + b + 2 * c - x)..(b + 2 * c), F x y)
      = ∫ x in a..(a + 2 * c), ∫ y in b..(b + 2 * c), F x y := by
  have h2 : Continuous fun x => ∫ y in (a + b + 2 * c - x)..(b + 2 * c), F x y := by
    have := inner_continuous hF (b + 2 * c) (fun x => a + b + 2 * c - x) (by fun_prop)
    have e : (fun x => ∫ y in (a + b + 2 * c - x)..(b + 2 * c), F x y)
        = fun x => -∫ y in (b + 2 * c)..(a + b + 2 * c - x), F x y := by
      funext x; exact intervalIntegral.integral_symm _ _
    rw [e]; exact this.neg
  rw [← intervalIntegral.integral_add
    ((inner_continuous hF b (fun x => a + b + 2 * c - x) (by fun_prop)).intervalIntegrable _ _)
    (h2.intervalIntegrable _ _)]
  congr 1; funext x
  exact intervalIntegral.integral_add_adjacent_intervals (inner_integrable hF _ _ _) (inner_integrable hF _ _ _)

/-- The reference triangle is made up of the cells below the diagonal and the lower halves of the diagonal cells.
`c` is half the side of a cell. -/
theorem triangle_cells (n : Nat) (c : ℝ) (hc : (n : ℝ) * (2 * c) = 2) :
    (∫ x in (-1 : ℝ)..1, ∫ y in (-1 : ℝ)..(-x), F x y) =
      ∑ i ∈ Finset.range n, ∑ j ∈ Finset.range (i + 1),
        ((∫ x in (-1 + 2 * c * j)..(-1 + 2 * c * j + 2 * c), ∫ y in (1 - 2 * c * (i + 1))..(2 * c * j - 2 * c * i - x), F x y) +
          if i ≠ j then
            ∫ x in (-1 + 2 * c * j)..(-1 + 2 * c * j + 2 * c), ∫ y in (2 * c * j - 2 * c * i - x)..(1 - 2 * c * i), F x y
          else 0) := by
  have hH : Continuous fun x => ∫ y in (-1 : ℝ)..(-x), F x y := inner_continuous hF (-1) (fun x => -x) (by fun_prop)
  have hcol : (∫ x in (-1 : ℝ)..1, ∫ y in (-1 : ℝ)..(-x), F x y)
      = ∑ j ∈ Finset.range n, ∫ x in (-1 + 2 * c * j)..(-1 + 2 * c * j + 2 * c), ∫ y in (-1 : ℝ)..(-x), F x y := by
    have h := intervalIntegral.sum_integral_adjacent_intervals (f := fun x => ∫ y in (-1 : ℝ)..(-x), F x y)
      (a := fun k : Nat => (-1 : ℝ) + 2 * c * k) (n := n) (μ := volume) (fun k _ => hH.intervalIntegrable _ _)
    have e0 : (-1 : ℝ) + 2 * c * ((0 : Nat) : ℝ) = -1 := by simp
    have e1 : (-1 : ℝ) + 2 * c * (n : ℝ) = 1 := by linarith
    rw [e0, e1] at h
    rw [← h]
    refine Finset.sum_congr rfl fun j _ => ?_
    congr 1; push_cast; ring
  rw [hcol]
  have hswap := Finset.sum_Ico_Ico_comm 0 n fun j i : Nat =>
      ((∫ x in (-1 + 2 * c * j)..(-1 + 2 * c * j + 2 * c), ∫ y in (1 - 2 * c * (i + 1))..(2 * c * j - 2 * c * i - x), F x y) +
          if i ≠ j then
            ∫ x in (-1 + 2 * c * j)..(-1 + 2 * c * j + 2 * c), ∫ y in (2 * c * j - 2 * c * i - x)..(1 - 2 * c * i), F x y
          else 0)
  simp only [← Finset.range_eq_Ico] at hswap
  rw [← hswap]
  refine Finset.sum_congr rfl fun j hj => ?_
  rw [Finset.mem_range] at hj
  rw [Finset.sum_eq_sum_Ico_succ_bot hj]
  simp only [ne_eq, not_true_eq_false, if_false, add_zero]
  have hcells : ∀ i ∈ Finset.Ico (j + 1) n,
      ((∫ x in (-1 + 2 * c * j)..(-1 + 2 * c * j + 2 * c), ∫ y in (1 - 2 * c * (i + 1))..(2 * c * j - 2 * c * i - x), F x y) +
          if ¬ i = j then
            ∫ x in (-1 + 2 * c * j)..(-1 + 2 * c * j + 2 * c), ∫ y in (2 * c * j - 2 * c * i - x)..(1 - 2 * c * i), F x y
          else 0)
        = ∫ x in (-1 + 2 * c * j)..(-1 + 2 * c * j + 2 * c), ∫ y in (1 - 2 * c * (i + 1))..(1 - 2 * c * i), F x y := by
    intro i hi
    have hne : ¬ i = j := by have := (Finset.mem_Ico.1 hi).1; omega
    rw [if_pos hne]
    have h := cell_integral hF (-1 + 2 * c * j) (1 - 2 * c * (i + 1)) c
    have e : ∀ x : ℝ, -1 + 2 * c * (j : ℝ) + (1 - 2 * c * ((i : ℝ) + 1)) + 2 * c - x = 2 * c * j - 2 * c * i - x := by
      intro x; ring
    have e' : 1 - 2 * c * ((i : ℝ) + 1) + 2 * c = 1 - 2 * c * i := by ring
    simp only [e, e'] at h
    exact h
  rw [Finset.sum_congr rfl hcells, ← intervalIntegral.integral_finsetSum
    (fun i _ => (inner_continuous hF _ (fun _ => _) continuous_const).intervalIntegrable _ _),
    ← intervalIntegral.integral_add]
  · congr 1; funext x
    have hrow : (∑ i ∈ Finset.Ico (j + 1) n, ∫ y in (1 - 2 * c * ((i : ℝ) + 1))..(1 - 2 * c * i), F x y)
        = ∫ y in (-1 : ℝ)..(1 - 2 * c * ((j : ℝ) + 1)), F x y := by
      have h := intervalIntegral.sum_integral_adjacent_intervals_Ico (f := F x) (μ := volume)
        (a := fun k : Nat => (1 : ℝ) - 2 * c * k) (m := j + 1) (n := n) (by omega)
        (fun k _ => inner_integrable hF _ _ _)
      have e1 : (1 : ℝ) - 2 * c * (n : ℝ) = -1 := by linarith
      rw [e1] at h
      rw [intervalIntegral.integral_symm, ← neg_eq_iff_eq_neg]
      push_cast at h
      rw [← h, ← Finset.sum_neg_distrib]
      refine Finset.sum_congr rfl fun i _ => ?_
      rw [← intervalIntegral.integral_symm]
    have e : ∀ x : ℝ, 2 * c * (j : ℝ) - 2 * c * j - x = -x := by intro x; ring
    rw [hrow, e, add_comm]
    exact (intervalIntegral.integral_add_adjacent_intervals (inner_integrable hF _ _ _) (inner_integrable hF _ _ _)).symm
  · exact (inner_continuous hF _ (fun x => 2 * c * (j : ℝ) - 2 * c * j - x) (by fun_prop)).intervalIntegrable _ _
  · refine Continuous.intervalIntegrable ?_ _ _
    exact continuous_finsetSum _ fun i _ => inner_continuous hF _ (fun _ => _) continuous_const

end
end Quadrature
end Fenris
