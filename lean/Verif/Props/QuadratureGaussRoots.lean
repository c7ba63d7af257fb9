import Verif.Lemmas.LegendreRoots
import Verif.Props.QuadratureGauss
import Verif.Spec.Canonical
import Verif.Spec.LegendreRoots
/-! # C42: Gauss rules of every size -/
set_option autoImplicit false
set_option linter.unusedSectionVars false

namespace Fenris
namespace Quadrature
open Polynomial

/-- C42: the Legendre polynomial of degree `n` has exactly `n` roots, which are simple, inside of the interval and symmetric. -/
theorem C42_legendre_roots (n : Nat) (p : ℝ[X]) (hp : Spec.IsLegendre n p) :
    ∃ r : Nat → ℝ, Spec.LegendreRoots n p r := by
  obtain rfl := isLegendre_unique hp (legPoly_isLegendre n)
  obtain ⟨S, hS, hmem⟩ := legPoly_roots n
  have hall := legPoly_root_iff n S hS hmem
  have hd := (gauss_quadrature S hS fun x hx => ((hmem x).1 hx).2.2).1
  set o := S.orderEmbOfFin hS with ho
  have hoS : ∀ i, o i ∈ S := fun i => S.orderEmbOfFin_mem hS i
  have hsym : ∀ i : Fin n, -o i.rev = o i := by
    have := Finset.orderEmbOfFin_unique hS (f := fun i => -o i.rev) (fun i => by
      rw [hmem]
      obtain ⟨h1, h2, h3⟩ := (hmem _).1 (hoS i.rev)
      refine ⟨by linarith, by linarith, ?_⟩
      rw [legPoly_neg, h3, mul_zero]) (by
      intro i j hij
      have : o j.rev < o i.rev := o.strictMono (Fin.rev_lt_rev.2 hij)
      simpa using this)
    exact fun i => congrFun this i
  refine ⟨fun i => if h : i < n then o (Fin.rev ⟨i, h⟩) else 0, ?_, ?_, ?_, ?_⟩
  · intro i j hij hj
    beta_reduce
    rw [dif_pos hj, dif_pos (by omega)]
    exact o.strictMono (Fin.rev_lt_rev.2 (by exact_mod_cast hij))
  · intro i hi
    beta_reduce
    rw [dif_pos hi]
    obtain ⟨h1, h2, h3⟩ := (hmem _).1 (hoS (Fin.rev ⟨i, hi⟩))
    exact ⟨h1, h2, h3, (hd _ (hoS _)).2⟩
  · intro x hx
    obtain ⟨i, hi⟩ : x ∈ Set.range o := by rw [ho, Finset.range_orderEmbOfFin]; exact hall x hx
    refine ⟨(Fin.rev i : Fin n), (Fin.rev i).2, ?_⟩
    rw [dif_pos (Fin.rev i).2, ← hi]
    congr 1
    simp only [Fin.ext_iff, Fin.val_rev]
    omega
  · intro i hi
    beta_reduce
    rw [dif_pos hi, dif_pos (by omega), ← hsym]
    congr 3
    simp only [Fin.ext_iff, Fin.val_rev]
    omega

private noncomputable def weight (n : Nat) (x : ℝ) : ℝ := 2 / ((1 - x * x) * legendreDerivative n x * legendreDerivative n x)

/-- The result of `gauss` in terms of the results of its first loop. -/
private theorem gauss_of_points {n : Nat} (hn : 0 < n) {tol : ℝ} {guess : Nat → ℝ} {fuel : Nat} (y : Nat → ℝ)
    (h : ∀ i, i < (n + 1) / 2 → newtonLoop n tol fuel (guess i) = some (y i, legendreDerivative n (y i))) :
    gauss n tol guess fuel = some (some (
      (List.range n).map fun i => weight n (if i < (n + 1) / 2 then y i else y (n - 1 - i)),
      (List.range n).map fun i => fun _ => if i < (n + 1) / 2 then y i else -y (n - 1 - i))) := by
  have hm : (List.range ((n + 1) / 2)).mapM (gaussPoint n tol guess fuel) = some ((List.range ((n + 1) / 2)).map fun i =>
      (weight n (y i), y i)) := by
    generalize hl : List.range ((n + 1) / 2) = l
    have hlt : ∀ i ∈ l, i < (n + 1) / 2 := by intro i hi; rw [← hl] at hi; exact List.mem_range.1 hi
    clear hl
    induction l with
    | nil => rfl
    | cons i l ih =>
      rw [List.mapM_cons, ih fun j hj => hlt j (by simp [hj]), gaussPoint, h i (hlt i (by simp))]
      rfl
  unfold gauss
  rw [if_neg (by omega), hm, Option.map_some, mirror_fold n ((n + 1) / 2) _ (by simp) (by omega) _ le_rfl, Option.map_some]
  have hpairs : ((List.range ((n + 1) / 2)).map fun i => (weight n (y i), y i)) ++ ((List.range (n - (n + 1) / 2)).map fun t =>
      ((((List.range ((n + 1) / 2)).map fun i => (weight n (y i), y i)).getD (n - ((n + 1) / 2 + t) - 1) (0, 0)).1,
        -(((List.range ((n + 1) / 2)).map fun i => (weight n (y i), y i)).getD (n - ((n + 1) / 2 + t) - 1) (0, 0)).2)) =
      (List.range n).map fun i => (weight n (if i < (n + 1) / 2 then y i else y (n - 1 - i)), if i < (n + 1) / 2 then y i else -y (n - 1 - i)) := by
    apply List.ext_getElem
    · simp; omega
    · intro i h1 h2
      simp only [List.length_map, List.length_range] at h2
      simp only [List.getElem_map, List.getElem_range]
      by_cases hi : i < (n + 1) / 2
      · rw [List.getElem_append_left (by simpa using hi)]
        simp [hi]
      · rw [List.getElem_append_right (by simpa using hi)]
        simp only [List.getElem_map, List.getElem_range, List.length_map, List.length_range, hi, if_false]
        have hlt : n - ((n + 1) / 2 + (i - (n + 1) / 2)) - 1 < (n + 1) / 2 := by omega
        rw [List.getD_eq_getElem?_getD, List.getElem?_map, List.getElem?_range hlt]
        have e : n - ((n + 1) / 2 + (i - (n + 1) / 2)) - 1 = n - 1 - i := by omega
        simp only [Option.map_some, Option.getD_some, e]
  rw [hpairs, List.map_map, List.map_map]
  rfl

/-- C42: Gauss rules exist for every number of points. Started at the roots of the Legendre polynomial, with any tolerance, the loops stop at once,
and the result is the Gauss rule: its points are the roots in decreasing order, its weights are positive, and it is exact for
polynomials of degree `2 n - 1`. -/
theorem C42_gauss_of_roots (n : Nat) (hn : 0 < n) (p : ℝ[X]) (hp : Spec.IsLegendre n p) (r : Nat → ℝ) (hr : Spec.LegendreRoots n p r)
    (tol : ℝ) (htol : 0 ≤ tol) (fuel : Nat) (hf : 0 < fuel) :
    ∃ rule, gauss n tol r fuel = some (some rule) ∧ rule.2 = (List.range n).map (fun i => fun _ => r i) ∧
      Canonical.Spec.IsGaussRule n rule.1 rule.2 ∧ ∀ w ∈ rule.1, 0 < w := by
  have hpe := isLegendre_unique hp (legPoly_isLegendre n)
  have hval : ∀ i, i < n → legendreValue n (r i) = 0 := by
    intro i hi
    rw [legendreValue, legendre_eq, ← hpe]
    exact (hr.inside i hi).2.2.1
  have hw := gauss_of_points hn (tol := tol) (guess := r) (fuel := fuel) r (by
    intro i hi
    obtain ⟨f, rfl⟩ : ∃ f, fuel = f + 1 := ⟨fuel - 1, by omega⟩
    simp only [newtonLoop]
    rw [hval i (by omega), neg_zero, zero_div, abs_zero, if_pos htol, add_zero])
  have hpts : ((List.range n).map fun i => fun _ : Fin 1 => if i < (n + 1) / 2 then r i else -r (n - 1 - i)) =
      (List.range n).map (fun i => fun _ => r i) := by
    refine List.map_congr_left fun i hi => ?_
    have hi := List.mem_range.1 hi
    funext _
    split
    · rfl
    · rw [hr.symmetric i hi, neg_neg]
  rw [hpts] at hw
  have hmem : ∀ x ∈ ((List.range n).map (fun i => fun _ => r i) : List (Fin 1 → ℝ)), ∃ i, i < n ∧ x = fun _ => r i := by
    intro x hx
    obtain ⟨i, hi, rfl⟩ := List.mem_map.1 hx
    exact ⟨i, List.mem_range.1 hi, rfl⟩
  have hnd : ((List.range n).map (fun i => fun _ => r i) : List (Fin 1 → ℝ)).Nodup := by
    refine List.Nodup.map_on (fun i hi j hj h => ?_) List.nodup_range
    have h := congrFun h 0
    rcases Nat.lt_trichotomy i j with hlt | heq | hgt
    · exact absurd h (hr.decreasing i j hlt (List.mem_range.1 hj)).ne'
    · exact heq
    · exact absurd h (hr.decreasing j i hgt (List.mem_range.1 hi)).ne
  refine ⟨_, hw, rfl, ⟨?_, ?_, ?_, ?_⟩, ?_⟩
  · have := C42_gauss_symmetric hw
    exact this.1.trans this.2.1.symm
  · intro x hx
    obtain ⟨i, hi, rfl⟩ := hmem x hx
    have := hr.inside i hi
    rw [abs_le]
    constructor <;> linarith
  · intro p' hp' x hx
    obtain rfl := isLegendre_unique hp' hp
    obtain ⟨i, hi, rfl⟩ := hmem x hx
    exact (hr.inside i hi).2.2.1
  · intro q hq
    have := C42_gauss_exact hw p hp (fun x hx => by
      obtain ⟨i, hi, rfl⟩ := hmem x hx
      exact (hr.inside i hi).2.2.1) hnd q hq
    rw [← this]
    unfold integrate
    rw [List.zip_eq_zipWith, List.map_zipWith]
  · refine C42_gauss_weights_positive hw fun x hx => ?_
    obtain ⟨i, hi, rfl⟩ := hmem x hx
    obtain ⟨h1, h2, h3, h4⟩ := hr.inside i hi
    refine ⟨h1, h2, ?_⟩
    rw [legendreDerivative_eq n (r i) (by nlinarith), ← hpe]
    exact h4

/-- C42: the loops end if the guesses are good enough. For every number of points there is a distance from the roots within which Newton's method
converges: whatever the tolerance, the function returns, and every point of the result is within the tolerance of the root it stands for. -/
theorem C42_gauss_converges (n : Nat) (hn : 0 < n) (p : ℝ[X]) (hp : Spec.IsLegendre n p) (r : Nat → ℝ) (hr : Spec.LegendreRoots n p r) :
    ∃ δ > 0, ∀ tol > 0, ∀ guess : Nat → ℝ, (∀ i, i < (n + 1) / 2 → |guess i - r i| < δ) →
      ∃ fuel₀ rule, (∀ fuel, fuel₀ ≤ fuel → gauss n tol guess fuel = some (some rule)) ∧ rule.2.length = n ∧
        ∀ i x, rule.2[i]? = some x → |x 0 - r i| ≤ tol ∧ |x 0 - r i| < δ := by
  have hpe := isLegendre_unique hp (legPoly_isLegendre n)
  subst hpe
  have hex : ∀ i, ∃ δ > 0, i < n → ∀ x, |x - r i| < δ → |x - legendreValue n x / legendreDerivative n x - r i| ≤ |x - r i| / 2 := by
    intro i
    by_cases hi : i < n
    · obtain ⟨h1, h2, h3, h4⟩ := hr.inside i hi
      obtain ⟨δ, hδ, h⟩ := newton_contracts n (r i) h1 h2 h3 h4
      exact ⟨δ, hδ, fun _ => h⟩
    · exact ⟨1, one_pos, fun h => absurd h hi⟩
  choose δ hδ hc using hex
  obtain ⟨i₀, hi₀, hmin⟩ := Finset.exists_min_image (Finset.range n) δ ⟨0, Finset.mem_range.2 hn⟩
  refine ⟨δ i₀, hδ i₀, fun tol htol guess hg => ?_⟩
  have hloop : ∀ i, ∃ k y, i < (n + 1) / 2 → ∀ fuel, k < fuel → newtonLoop n tol fuel (guess i) = some (y, legendreDerivative n y) ∧
      |y - r i| ≤ tol ∧ |y - r i| < δ i₀ := by
    intro i
    by_cases hi : i < (n + 1) / 2
    · obtain ⟨k, hk⟩ := pow_unbounded_of_one_lt (|guess i - r i| / (tol / 2)) (one_lt_two (α := ℝ))
      have hin : i < n := by omega
      obtain ⟨y, hy⟩ := newton_terminates n (r i) (δ i₀)
        (fun x hx => hc i hin x (lt_of_lt_of_le hx (hmin i (Finset.mem_range.2 hin)))) tol htol k (guess i) (hg i hi) (by
          rw [div_lt_iff₀ (by positivity)] at hk
          exact hk.le)
      exact ⟨k, y, fun _ => hy⟩
    · exact ⟨0, 0, fun h => absurd h hi⟩
  choose k y hy using hloop
  obtain ⟨K, hK⟩ : ∃ K, ∀ i, i < (n + 1) / 2 → k i < K := by
    refine ⟨(Finset.range ((n + 1) / 2)).sup k + 1, fun i hi => ?_⟩
    exact Nat.lt_succ_of_le (Finset.le_sup (Finset.mem_range.2 hi))
  refine ⟨K, _, fun fuel hf => gauss_of_points hn y fun i hi => (hy i hi fuel (lt_of_lt_of_le (hK i hi) hf)).1, by simp, ?_⟩
  intro i x hx
  simp only [List.getElem?_map] at hx
  by_cases hi : i < n
  · rw [List.getElem?_range hi, Option.map_some, Option.some.injEq] at hx
    subst hx
    beta_reduce
    split
    · rename_i h
      exact (hy i h _ (hK i h)).2
    · rename_i h
      have h' : n - 1 - i < (n + 1) / 2 := by omega
      have e : -y (n - 1 - i) - r i = -(y (n - 1 - i) - r (n - 1 - i)) := by
        rw [hr.symmetric i hi]; ring
      rw [e, abs_neg]
      exact (hy _ h' _ (hK _ h')).2
  · rw [List.getElem?_eq_none (by simpa using hi)] at hx
    cases hx

/-- Non-vacuity for every size: there are roots, and hence guesses with which the function returns the Gauss rule. -/
example (n : Nat) (hn : 0 < n) : ∃ p r, Spec.IsLegendre n p ∧ Spec.LegendreRoots n p r ∧
    ∃ rule, gauss n 0 r 1 = some (some rule) ∧ Canonical.Spec.IsGaussRule n rule.1 rule.2 := by
  obtain ⟨r, hr⟩ := C42_legendre_roots n _ (legPoly_isLegendre n)
  obtain ⟨rule, h1, -, h3, -⟩ := C42_gauss_of_roots n hn _ (legPoly_isLegendre n) r hr 0 le_rfl 1 one_pos
  exact ⟨_, r, legPoly_isLegendre n, hr, rule, h1, h3⟩

end Quadrature
end Fenris
