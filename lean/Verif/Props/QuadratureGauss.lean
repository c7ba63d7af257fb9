import Mathlib.Analysis.Real.Sqrt
import Verif.Lemmas.Legendre
import Verif.Props.QuadratureSubdivide
/-! # C41 and C42: Legendre polynomials, Gauss rules and their tensor products -/
set_option autoImplicit false
set_option linter.unusedSectionVars false

namespace Fenris
namespace Quadrature
open Polynomial

/-! ## C42: the recurrence -/

/-- C42: there is exactly one Legendre polynomial of every degree … -/
theorem C42_legendre_exists_unique (n : Nat) : ∃! p : ℝ[X], Spec.IsLegendre n p :=
  ⟨legPoly n, legPoly_isLegendre n, fun _ h => isLegendre_unique h (legPoly_isLegendre n)⟩

/-- C42: … and the evaluator returns its value, its derivative (away from `±1`), and, one degree later, its value
again as the second entry. -/
theorem C42_legendre (n : Nat) (p : ℝ[X]) (hp : Spec.IsLegendre n p) (x : ℝ) :
    legendreValue n x = p.eval x ∧
    (x ≠ 1 → x ≠ -1 → legendreDerivative n x = (derivative p).eval x) ∧
    (legendre (n + 1) x).2 = p.eval x := by
  obtain rfl := isLegendre_unique hp (legPoly_isLegendre n)
  refine ⟨?_, ?_, ?_⟩
  · rw [legendreValue, legendre_eq]
  · intro h1 h2
    apply legendreDerivative_eq
    intro h
    rcases mul_self_eq_one_iff.1 h with h | h
    · exact h1 h
    · exact h2 h
  · rw [legendre_eq]; simp

example : legendreValue 3 (2 : ℚ) = 17 ∧ legendreDerivative 3 (2 : ℚ) = 57 / 2 := by
  constructor <;> norm_num [legendreValue, legendreDerivative, legendre, legendreStep, List.range']

/-! ## C42: the rule -/

theorem mapM_some_inv {α β : Type} {f : α → Option β} {l : List α} {out : List β} (h : l.mapM f = some out) :
    out.length = l.length ∧ ∀ b ∈ out, ∃ a ∈ l, f a = some b := by
  induction l generalizing out with
  | nil => cases (Option.some.inj h : [] = out); simp
  | cons a l ih =>
    rw [List.mapM_cons] at h
    cases ha : f a with
    | none => rw [ha] at h; cases h
    | some b =>
      cases hl : l.mapM f with
      | none => rw [ha, hl] at h; cases h
      | some bs =>
        rw [ha, hl] at h
        obtain rfl : b :: bs = out := Option.some.inj h
        obtain ⟨h1, h2⟩ := ih hl
        refine ⟨by simp [h1], ?_⟩
        intro c hc
        rcases List.mem_cons.1 hc with rfl | hc
        · exact ⟨a, by simp, ha⟩
        · obtain ⟨a', ha', he⟩ := h2 c hc
          exact ⟨a', by simp [ha'], he⟩

section gauss
variable {K : Type} [Field K] [LinearOrder K]

theorem mirror_fold (n m : Nat) (half : List (K × K)) (hm : half.length = m) (h2 : n ≤ 2 * m) (k : Nat) (hk : k ≤ n - m) :
    (List.range' m k).foldlM (mirrorStep n) half
      = some (half ++ (List.range k).map fun t => ((half.getD (n - (m + t) - 1) (0, 0)).1, -(half.getD (n - (m + t) - 1) (0, 0)).2)) := by
  induction k with
  | zero => simp
  | succ k ih =>
    rw [List.range'_concat, List.foldlM_append, ih (by omega)]
    have hlt : n - (m + k) - 1 < half.length := by omega
    have h1 : (half ++ (List.range k).map fun t => ((half.getD (n - (m + t) - 1) (0, 0)).1, -(half.getD (n - (m + t) - 1) (0, 0)).2))[n - (m + k) - 1]?
        = some (half.getD (n - (m + k) - 1) (0, 0)) := by
      rw [List.getElem?_append_left hlt, List.getD_eq_getElem?_getD, List.getElem?_eq_getElem hlt]; rfl
    have e : m + 1 * k = m + k := by omega
    simp only [Option.bind_eq_bind, Option.bind_some, List.foldlM_cons, List.foldlM_nil, mirrorStep, e, h1, Option.map_some]
    rw [List.range_succ, List.map_append, ← List.append_assoc]
    rfl

/-- Everything about the result of `gauss` that the code guarantees by its structure. -/
theorem gauss_structure {n : Nat} {tol : K} {guess : Nat → K} {fuel : Nat} {rule : Rule 1 K}
    (h : gauss n tol guess fuel = some (some rule)) :
    0 < n ∧ ∃ half : List (K × K), (List.range ((n + 1) / 2)).mapM (gaussPoint n tol guess fuel) = some half ∧
      half.length = (n + 1) / 2 ∧
      rule = ((half ++ (List.range (n - (n + 1) / 2)).map fun t =>
          ((half.getD (n - ((n + 1) / 2 + t) - 1) (0, 0)).1, -(half.getD (n - ((n + 1) / 2 + t) - 1) (0, 0)).2)).map Prod.fst,
        (half ++ (List.range (n - (n + 1) / 2)).map fun t =>
          ((half.getD (n - ((n + 1) / 2 + t) - 1) (0, 0)).1, -(half.getD (n - ((n + 1) / 2 + t) - 1) (0, 0)).2)).map fun q => fun _ => q.2) := by
  unfold gauss at h
  split at h
  · cases h
  next hn =>
    refine ⟨by omega, ?_⟩
    cases hh : (List.range ((n + 1) / 2)).mapM (gaussPoint n tol guess fuel) with
    | none => rw [hh] at h; cases h
    | some half =>
      have hl : half.length = (n + 1) / 2 := by
        have := (mapM_some_inv hh).1
        simpa using this
      rw [hh, Option.map_some, mirror_fold n _ half hl (by omega) _ le_rfl] at h
      exact ⟨half, rfl, hl, (Option.some.inj (Option.some.inj h)).symm⟩

/-- C42: asking for zero points panics, and nothing else does. -/
theorem C42_gauss_panics (n : Nat) (tol : K) (guess : Nat → K) (fuel : Nat) :
    gauss n tol guess fuel = some none ↔ n = 0 := by
  constructor
  · intro h
    by_contra hn
    unfold gauss at h
    rw [if_neg hn] at h
    cases hh : (List.range ((n + 1) / 2)).mapM (gaussPoint n tol guess fuel) with
    | none => rw [hh] at h; cases h
    | some half =>
      have hl : half.length = (n + 1) / 2 := by
        have := (mapM_some_inv hh).1
        simpa using this
      rw [hh, Option.map_some, mirror_fold n _ half hl (by omega) _ le_rfl] at h
      cases h
  · rintro rfl; rfl

/-- C42: `n` weights and `n` points; mirrored entries have the same weight and opposite points (the middle point of a
rule with an odd number of points has no mirror image). -/
theorem C42_gauss_symmetric {n : Nat} {tol : K} {guess : Nat → K} {fuel : Nat} {rule : Rule 1 K}
    (h : gauss n tol guess fuel = some (some rule)) :
    rule.1.length = n ∧ rule.2.length = n ∧
    ∀ i, i < n → 2 * i + 1 ≠ n →
      rule.1[n - 1 - i]? = rule.1[i]? ∧ rule.2[n - 1 - i]? = (rule.2[i]?).map fun p => fun k => -p k := by
  obtain ⟨hn, half, -, hl, hr⟩ := gauss_structure h
  have hlen : (half ++ (List.range (n - (n + 1) / 2)).map fun t =>
      ((half.getD (n - ((n + 1) / 2 + t) - 1) (0, 0)).1, -(half.getD (n - ((n + 1) / 2 + t) - 1) (0, 0)).2)).length = n := by
    simp [hl]; omega
  set L := half ++ (List.range (n - (n + 1) / 2)).map fun t =>
      ((half.getD (n - ((n + 1) / 2 + t) - 1) (0, 0)).1, -(half.getD (n - ((n + 1) / 2 + t) - 1) (0, 0)).2) with hL
  have key : ∀ i, i < (n + 1) / 2 → 2 * i + 1 ≠ n → L[n - 1 - i]? = (L[i]?).map fun q => (q.1, -q.2) := by
    intro i hi hne
    have h1 : L[i]? = some (half.getD i (0, 0)) := by
      rw [hL, List.getElem?_append_left (by omega), List.getD_eq_getElem?_getD, List.getElem?_eq_getElem (by omega)]; rfl
    rw [h1, hL, List.getElem?_append_right (by omega), hl, List.getElem?_map, List.getElem?_range (by omega)]
    have e : n - ((n + 1) / 2 + (n - 1 - i - (n + 1) / 2)) - 1 = i := by omega
    simp only [Option.map_some, e]
  have key2 : ∀ i, i < n → 2 * i + 1 ≠ n → L[n - 1 - i]? = (L[i]?).map fun q => (q.1, -q.2) := by
    intro i hi hne
    by_cases hlt : i < (n + 1) / 2
    · exact key i hlt hne
    · have h1 := key (n - 1 - i) (by omega) (by omega)
      have e : n - 1 - (n - 1 - i) = i := by omega
      rw [e] at h1
      rw [h1, Option.map_map]
      cases L[n - 1 - i]? with
      | none => rfl
      | some q => simp
  rw [hr]
  refine ⟨by rw [List.length_map, hlen], by rw [List.length_map, hlen], ?_⟩
  intro i hi hne
  simp only [List.getElem?_map, key2 i hi hne, Option.map_map]
  exact ⟨rfl, rfl⟩

private theorem newtonLoop_spec {n : Nat} {tol : K} {fuel : Nat} {x z dp : K} (h : newtonLoop n tol fuel x = some (z, dp)) :
    dp = legendreDerivative n z ∧ ∃ y, z = y + -legendreValue n y / legendreDerivative n y ∧
      |legendreValue n y / legendreDerivative n y| ≤ tol := by
  induction fuel generalizing x with
  | zero => cases h
  | succ fuel ih =>
    simp only [newtonLoop] at h
    split at h
    next hle =>
      obtain ⟨h1, h2⟩ := Prod.mk.inj (Option.some.inj h)
      refine ⟨by rw [← h2, h1], x, h1.symm, ?_⟩
      rwa [neg_div, abs_neg] at hle
    next => exact ih h

end gauss

section ordered
variable {K : Type} [Field K] [LinearOrder K] [IsStrictOrderedRing K]

private theorem legendreDerivative_neg (n : Nat) (x : K) :
    legendreDerivative n (-x) * legendreDerivative n (-x) = legendreDerivative n x * legendreDerivative n x := by
  have h : legendreDerivative n (-x) = (-1) ^ (n + 1) * legendreDerivative n x := by
    unfold legendreDerivative
    rw [legendre_eq, legendre_eq]
    cases n with
    | zero => simp
    | succ n =>
      simp only [Nat.add_eq_zero_iff, one_ne_zero, and_false, if_false, Nat.add_sub_cancel, legPoly_neg]
      rw [neg_mul_neg]
      ring
  rw [h]
  have hsq : ((-1 : K) ^ (n + 1)) * (-1) ^ (n + 1) = 1 := by rw [← pow_add, ← two_mul]; simp
  linear_combination legendreDerivative n x * legendreDerivative n x * hsq

private theorem legendreValue_neg (n : Nat) (x : K) : legendreValue n (-x) = (-1) ^ n * legendreValue n x := by
  rw [legendreValue, legendreValue, legendre_eq, legendre_eq, legPoly_neg]

/-- Every entry carries the weight of the Gauss formula at its point. -/
private theorem gauss_entries {n : Nat} {tol : K} {guess : Nat → K} {fuel : Nat} {rule : Rule 1 K}
    (h : gauss n tol guess fuel = some (some rule)) :
    ∃ L : List (K × K), rule = (L.map Prod.fst, L.map fun q => fun _ => q.2) ∧ L.length = n ∧
      ∀ q ∈ L, q.1 = 2 / ((1 - q.2 * q.2) * legendreDerivative n q.2 * legendreDerivative n q.2) ∧
        ∃ y, |q.2| = |y - legendreValue n y / legendreDerivative n y| ∧
          |legendreValue n y / legendreDerivative n y| ≤ tol := by
  obtain ⟨hn, half, hh, hl, hr⟩ := gauss_structure h
  have hhalf : ∀ q ∈ half, q.1 = 2 / ((1 - q.2 * q.2) * legendreDerivative n q.2 * legendreDerivative n q.2) ∧
        ∃ y, |q.2| = |y - legendreValue n y / legendreDerivative n y| ∧
          |legendreValue n y / legendreDerivative n y| ≤ tol := by
    intro q hq
    obtain ⟨i, -, hi⟩ := (mapM_some_inv hh).2 q hq
    unfold gaussPoint at hi
    cases hN : newtonLoop n tol fuel (guess i) with
    | none => rw [hN] at hi; cases hi
    | some r =>
      obtain ⟨z, dp⟩ := r
      rw [hN, Option.map_some] at hi
      obtain ⟨h1, y, h2, h3⟩ := newtonLoop_spec hN
      have := (Option.some.inj hi).symm
      subst this
      refine ⟨?_, y, ?_, h3⟩
      · simp only [← h1]
      · simp only [h2]; congr 1; ring
  refine ⟨_, hr, by simp [hl]; omega, ?_⟩
  intro q hq
  rcases List.mem_append.1 hq with hq | hq
  · exact hhalf q hq
  · obtain ⟨t, ht, rfl⟩ := List.mem_map.1 hq
    have ht' := List.mem_range.1 ht
    have hlt : n - ((n + 1) / 2 + t) - 1 < half.length := by omega
    have hm : half.getD (n - ((n + 1) / 2 + t) - 1) (0, 0) ∈ half := by
      rw [List.getD_eq_getElem?_getD, List.getElem?_eq_getElem hlt]; exact List.getElem_mem _
    obtain ⟨h1, y, h2, h3⟩ := hhalf _ hm
    refine ⟨?_, y, ?_, h3⟩
    · simp only [neg_mul_neg, mul_assoc, legendreDerivative_neg]
      rw [h1, mul_assoc]
    · simp only [abs_neg, h2]

/-- C42: every point is, up to sign, the result of a Newton step of length at most the tolerance on the Legendre
polynomial: `y - P_n(y) / P_n'(y)`. -/
theorem C42_gauss_points_converged {n : Nat} {tol : K} {guess : Nat → K} {fuel : Nat} {rule : Rule 1 K}
    (h : gauss n tol guess fuel = some (some rule)) :
    ∀ p ∈ rule.2, ∃ y, |p 0| = |y - legendreValue n y / legendreDerivative n y| ∧
      |legendreValue n y / legendreDerivative n y| ≤ tol := by
  obtain ⟨L, rfl, -, hL⟩ := gauss_entries h
  intro p hp
  obtain ⟨q, hq, rfl⟩ := List.mem_map.1 hp
  exact (hL q hq).2

/-- C42: weights are positive when the points are strictly inside the interval and not critical points. -/
theorem C42_gauss_weights_positive {n : Nat} {tol : K} {guess : Nat → K} {fuel : Nat} {rule : Rule 1 K}
    (h : gauss n tol guess fuel = some (some rule))
    (hin : ∀ p ∈ rule.2, -1 < p 0 ∧ p 0 < 1 ∧ legendreDerivative n (p 0) ≠ 0) : ∀ w ∈ rule.1, 0 < w := by
  obtain ⟨L, rfl, -, hL⟩ := gauss_entries h
  intro w hw
  obtain ⟨q, hq, rfl⟩ := List.mem_map.1 hw
  obtain ⟨h1, h2, h3⟩ := hin (fun _ => q.2) (List.mem_map.2 ⟨q, hq, rfl⟩)
  rw [(hL q hq).1, mul_assoc]
  have : 0 < 1 - q.2 * q.2 := by nlinarith
  have h4 := mul_self_pos.2 h3
  positivity

end ordered

/-- C42: when the points found are distinct roots of the Legendre polynomial of degree `n`, the rule with `n` points
integrates every polynomial of degree up to `2 n - 1` exactly, as documented. -/
theorem C42_gauss_exact {n : Nat} {tol : ℝ} {guess : Nat → ℝ} {fuel : Nat} {rule : Rule 1 ℝ}
    (h : gauss n tol guess fuel = some (some rule)) (p : ℝ[X]) (hp : Spec.IsLegendre n p)
    (hroot : ∀ x ∈ rule.2, p.eval (x 0) = 0) (hdist : rule.2.Nodup)
    (q : ℝ[X]) (hq : q.natDegree ≤ 2 * n - 1) :
    integrate rule (fun x => q.eval (x 0)) = ∫ x in (-1 : ℝ)..1, q.eval x := by
  obtain rfl := isLegendre_unique hp (legPoly_isLegendre n)
  have hn : 0 < n := (gauss_structure h).1
  obtain ⟨L, rfl, hlen, hL⟩ := gauss_entries h
  have hnd : (L.map Prod.snd).Nodup := by
    have : (L.map fun q => fun _ : Fin 1 => q.2) = (L.map Prod.snd).map fun x => fun _ : Fin 1 => x := by
      rw [List.map_map]; rfl
    simp only [this] at hdist
    exact List.Nodup.of_map _ hdist
  have hr : ∀ x ∈ (L.map Prod.snd).toFinset, (legPoly n : ℝ[X]).eval x = 0 := by
    intro x hx
    obtain ⟨q, hq, rfl⟩ := List.mem_map.1 (List.mem_toFinset.1 hx)
    exact hroot (fun _ => q.2) (List.mem_map.2 ⟨q, hq, rfl⟩)
  obtain ⟨h1, h2⟩ := gauss_quadrature (L.map Prod.snd).toFinset (by rw [List.toFinset_card_of_nodup hnd]; simpa using hlen) hr
  have hd : q.degree < ((2 * n : Nat) : WithBot Nat) := by
    refine lt_of_le_of_lt degree_le_natDegree ?_
    exact_mod_cast (by omega : q.natDegree < 2 * n)
  have h3 := h2 q hd
  rw [Spec.intervalIntegral, List.sum_toFinset _ hnd, List.map_map] at h3
  rw [h3]
  have e : ∀ L : List (ℝ × ℝ), integrate (L.map Prod.fst, L.map fun q => fun _ : Fin 1 => q.2) (fun x => q.eval (x 0))
      = (L.map fun r => r.1 * q.eval r.2).sum := by
    intro L
    induction L with
    | nil => rfl
    | cons a L ih => simp only [integrate, List.map_cons, List.zip_cons_cons, List.sum_cons] at ih ⊢; rw [ih]
  rw [e]
  congr 1
  apply List.map_congr_left
  intro r hr'
  obtain ⟨hx1, -⟩ := h1 r.2 (List.mem_toFinset.2 (List.mem_map.2 ⟨r, hr', rfl⟩))
  simp only [Function.comp]
  rw [(hL r hr').1, legendreDerivative_eq n r.2 hx1]

/-- The two-point rule: started at the exact root the loop stops at once, and the rule is exact for cubics. -/
example : ∃ rule, gauss 2 (1 / 10 ^ 15) (fun _ => √(1 / 3)) 1 = some (some rule) ∧
    ∀ q : ℝ[X], q.natDegree ≤ 3 → integrate rule (fun x => q.eval (x 0)) = ∫ x in (-1 : ℝ)..1, q.eval x := by
  have hs : √(1 / 3 : ℝ) * √(1 / 3) = 1 / 3 := Real.mul_self_sqrt (by norm_num)
  have hpos : 0 < √(1 / 3 : ℝ) := Real.sqrt_pos.2 (by norm_num)
  have hv : ∀ x : ℝ, legendreValue 2 x = (3 * (x * x) - 1) / 2 := by
    intro x; norm_num [legendreValue, legendre, legendreStep, List.range']; ring
  have hloop : newtonLoop 2 (1 / 10 ^ 15) 1 √(1 / 3 : ℝ) = some (√(1 / 3), legendreDerivative 2 √(1 / 3)) := by
    simp only [newtonLoop, hv, hs]
    norm_num
  have hg : gauss 2 (1 / 10 ^ 15) (fun _ => √(1 / 3 : ℝ)) 1 = some (some
      ([2 / ((1 - √(1 / 3) * √(1 / 3)) * legendreDerivative 2 √(1 / 3) * legendreDerivative 2 √(1 / 3)),
        2 / ((1 - √(1 / 3) * √(1 / 3)) * legendreDerivative 2 √(1 / 3) * legendreDerivative 2 √(1 / 3))],
       [fun _ => √(1 / 3), fun _ => -√(1 / 3)])) := by
    have hm : (List.range ((2 + 1) / 2)).mapM (gaussPoint 2 (1 / 10 ^ 15) (fun _ => √(1 / 3 : ℝ)) 1)
        = some [(2 / ((1 - √(1 / 3) * √(1 / 3)) * legendreDerivative 2 √(1 / 3) * legendreDerivative 2 √(1 / 3)), √(1 / 3))] := by
      rw [show List.range ((2 + 1) / 2) = [0] from rfl, List.mapM_cons, gaussPoint, hloop]
      rfl
    rw [gauss, if_neg (by norm_num), hm]
    rfl
  refine ⟨_, hg, fun q hq => ?_⟩
  refine C42_gauss_exact hg (legPoly 2) (legPoly_isLegendre 2) ?_ ?_ q (by omega)
  · intro x hx
    have he : (legPoly 2 : ℝ[X]).eval (x 0) = legendreValue 2 (x 0) := by rw [legendreValue, legendre_eq]
    rw [he, hv]
    rcases List.mem_cons.1 hx with rfl | hx
    · simp only [hs]; norm_num
    · rw [List.mem_singleton.1 hx]
      simp only [neg_mul_neg, hs]; norm_num
  · simp only [List.nodup_cons, List.mem_singleton, List.not_mem_nil, not_false_eq_true, List.nodup_nil, and_self, and_true]
    intro h
    have := congrFun h 0
    linarith

/-- C42: the Gauss-Lobatto rules start at `-1` and end at `1`, and differ from the table in nothing else. -/
theorem C42_lobatto {K : Type} [Field K] [LinearOrder K] (table : Nat → Option (Rule 1 K)) (n : Nat) (rule : Rule 1 K)
    (h : table n = some rule) (h2 : 2 ≤ rule.2.length) :
    ∃ points : List (Point 1 K), tryGaussLobatto table n = some (some (rule.1, points)) ∧ points.length = rule.2.length ∧
      points[0]? = some (fun _ => (-1 : K)) ∧ points[points.length - 1]? = some (fun _ => (1 : K)) ∧
      ∀ i, 0 < i → i + 1 < rule.2.length → points[i]? = rule.2[i]? := by
  unfold tryGaussLobatto
  rw [h, Option.map_some, if_neg (by intro hc; rw [hc] at h2; simp at h2)]
  refine ⟨_, rfl, by simp, ?_, ?_, ?_⟩
  · rw [List.getElem?_set_ne (by omega), List.getElem?_set_self (by omega)]
  · simp only [List.length_set]
    rw [List.getElem?_set_self (by rw [List.length_set]; omega)]
  · intro i h0 h1
    rw [List.getElem?_set_ne (by omega), List.getElem?_set_ne (by omega)]

/-- C42: no rule is returned exactly when the table has none. -/
theorem C42_lobatto_missing {K : Type} [Field K] [LinearOrder K] (table : Nat → Option (Rule 1 K)) (n : Nat) :
    tryGaussLobatto table n = none ↔ table n = none := by
  simp [tryGaussLobatto]

example : tryGaussLobatto (fun n => if n = 3 then some ([1 / 3, 4 / 3, 1 / 3], [fun _ => -99 / 100, fun _ => 0, fun _ => 99 / 100]) else none) 3
    = some (some (([1 / 3, 4 / 3, 1 / 3], [fun _ => -1, fun _ => 0, fun _ => 1]) : Rule 1 ℚ)) := by
  rfl

/-! ## C41: tensor products -/

section tensor
variable {K : Type} [Field K]

private theorem sum_product {α β : Type} (l : List α) (m : List β) (u : α → K) (v : β → K) :
    (l.map fun a => (m.map fun b => u a * v b).sum).sum = (l.map u).sum * (m.map v).sum := by
  induction l with
  | nil => simp
  | cons a l ih => rw [List.map_cons, List.sum_cons, ih, sum_map_mul, List.map_cons, List.sum_cons, add_mul]

/-- C41: on a product of functions of one variable, the tensor-product rule gives the product of the one-dimensional
results. -/
theorem C41_quadrilateral_product (rule : Rule 1 K) (f g : K → K) :
    integrate (quadrilateral rule) (fun p => f (p 0) * g (p 1))
      = integrate rule (fun p => f (p 0)) * integrate rule (fun p => g (p 0)) := by
  unfold quadrilateral
  rw [integrate_pairs, sum_flatMap]
  simp only [List.map_map, Function.comp_def, Matrix.cons_val_zero, Matrix.cons_val_one, integrate]
  rw [← sum_product]
  congr 1; apply List.map_congr_left; intro a _
  congr 1; apply List.map_congr_left; intro b _
  ring

/-- C41: the same in three dimensions. -/
theorem C41_hexahedron_product (rule : Rule 1 K) (f g k : K → K) :
    integrate (hexahedron rule) (fun p => f (p 0) * g (p 1) * k (p 2))
      = integrate rule (fun p => f (p 0)) * integrate rule (fun p => g (p 0)) * integrate rule (fun p => k (p 0)) := by
  unfold hexahedron
  rw [integrate_pairs, sum_flatMap]
  have e : ∀ qx : K × Point 1 K, (((rule.1.zip rule.2).flatMap fun qy => (rule.1.zip rule.2).map fun qz =>
        (qx.1 * qy.1 * qz.1, (![qx.2 0, qy.2 0, qz.2 0] : Point 3 K))).map fun q => q.1 * (f (q.2 0) * g (q.2 1) * k (q.2 2))).sum
      = (qx.1 * f (qx.2 0)) * (integrate rule (fun p => g (p 0)) * integrate rule fun p => k (p 0)) := by
    intro qx
    rw [sum_flatMap]
    simp only [integrate]
    rw [← sum_product, ← sum_map_mul]
    congr 1; apply List.map_congr_left; intro b _
    rw [List.map_map, ← sum_map_mul]
    congr 1; apply List.map_congr_left; intro c _
    simp only [Function.comp, Matrix.cons_val_zero, Matrix.cons_val_one, Matrix.cons_val]
    ring
  simp only [e]
  rw [List.sum_map_mul_right, mul_assoc]
  rfl

private theorem grid {α β : Type} (n : Nat) (l : List α) (g : α → List β) (hg : ∀ a ∈ l, (g a).length = n) :
    (l.flatMap g).length = l.length * n ∧
    ∀ i j a, l[i]? = some a → j < n → (l.flatMap g)[i * n + j]? = (g a)[j]? := by
  induction l with
  | nil => simp
  | cons b l ih =>
    obtain ⟨h1, h2⟩ := ih fun a ha => hg a (by simp [ha])
    have hb := hg b (by simp)
    refine ⟨by rw [List.flatMap_cons, List.length_append, h1, hb, List.length_cons, Nat.succ_mul, Nat.add_comm], ?_⟩
    intro i j a hi hj
    rw [List.flatMap_cons]
    cases i with
    | zero =>
      obtain rfl : b = a := by simpa using hi
      rw [List.getElem?_append_left (by omega)]; simp
    | succ i =>
      rw [List.getElem?_append_right (by rw [hb, Nat.succ_mul]; omega), hb]
      have e : (i + 1) * n + j - n = i * n + j := by rw [Nat.succ_mul]; omega
      rw [e]
      exact h2 i j a (by simpa using hi) hj

/-- C41: the rule has `n²` entries; entry number `i n + j` has weight `w_i w_j` and point `(x_i, x_j)`. -/
theorem C41_quadrilateral_entries (rule : Rule 1 K) (n : Nat) (h1 : rule.1.length = n) (h2 : rule.2.length = n) :
    (quadrilateral rule).1.length = n * n ∧ (quadrilateral rule).2.length = n * n ∧
    ∀ i j wi wj (xi xj : Point 1 K), rule.1[i]? = some wi → rule.1[j]? = some wj → rule.2[i]? = some xi → rule.2[j]? = some xj →
      (quadrilateral rule).1[i * n + j]? = some (wi * wj) ∧
      (quadrilateral rule).2[i * n + j]? = some ![xi 0, xj 0] := by
  have hz : (rule.1.zip rule.2).length = n := by simp [h1, h2]
  have hg := grid n (rule.1.zip rule.2) (fun qx => (rule.1.zip rule.2).map fun qy =>
    (qx.1 * qy.1, (![qx.2 0, qy.2 0] : Point 2 K))) (fun a _ => by simp [h1, h2])
  rw [hz] at hg
  refine ⟨by simpa [quadrilateral] using hg.1, by simpa [quadrilateral] using hg.1, ?_⟩
  intro i j wi wj xi xj hwi hwj hxi hxj
  have hj : j < n := by rw [← h1]; exact (List.getElem?_eq_some_iff.1 hwj).1
  have hi' : (rule.1.zip rule.2)[i]? = some (wi, xi) := by rw [List.getElem?_zip_eq_some]; exact ⟨hwi, hxi⟩
  have hj' : (rule.1.zip rule.2)[j]? = some (wj, xj) := by rw [List.getElem?_zip_eq_some]; exact ⟨hwj, hxj⟩
  have h := hg.2 i j _ hi' hj
  rw [List.getElem?_map, hj', Option.map_some] at h
  simp only [quadrilateral, List.getElem?_map, h, Option.map_some]
  exact ⟨trivial, trivial⟩

/-- C41: in three dimensions, entry number `(i n + j) n + k`. -/
theorem C41_hexahedron_entries (rule : Rule 1 K) (n : Nat) (h1 : rule.1.length = n) (h2 : rule.2.length = n) :
    (hexahedron rule).1.length = n * n * n ∧ (hexahedron rule).2.length = n * n * n ∧
    ∀ i j k wi wj wk (xi xj xk : Point 1 K), rule.1[i]? = some wi → rule.1[j]? = some wj → rule.1[k]? = some wk →
      rule.2[i]? = some xi → rule.2[j]? = some xj → rule.2[k]? = some xk →
      (hexahedron rule).1[(i * n + j) * n + k]? = some (wi * wj * wk) ∧
      (hexahedron rule).2[(i * n + j) * n + k]? = some ![xi 0, xj 0, xk 0] := by
  have hz : (rule.1.zip rule.2).length = n := by simp [h1, h2]
  have hin : ∀ qx : K × Point 1 K, _ := fun qx => grid n (rule.1.zip rule.2) (fun qy => (rule.1.zip rule.2).map fun qz =>
    (qx.1 * qy.1 * qz.1, (![qx.2 0, qy.2 0, qz.2 0] : Point 3 K))) (fun a _ => by simp [h1, h2])
  have hg := grid (n * n) (rule.1.zip rule.2) (fun qx => (rule.1.zip rule.2).flatMap fun qy => (rule.1.zip rule.2).map fun qz =>
    (qx.1 * qy.1 * qz.1, (![qx.2 0, qy.2 0, qz.2 0] : Point 3 K))) (fun a _ => by rw [(hin a).1, hz])
  rw [hz] at hg
  refine ⟨by simpa [hexahedron, mul_assoc] using hg.1, by simpa [hexahedron, mul_assoc] using hg.1, ?_⟩
  intro i j k wi wj wk xi xj xk hwi hwj hwk hxi hxj hxk
  have hj : j < n := by rw [← h1]; exact (List.getElem?_eq_some_iff.1 hwj).1
  have hk : k < n := by rw [← h1]; exact (List.getElem?_eq_some_iff.1 hwk).1
  have hi' : (rule.1.zip rule.2)[i]? = some (wi, xi) := by rw [List.getElem?_zip_eq_some]; exact ⟨hwi, hxi⟩
  have hj' : (rule.1.zip rule.2)[j]? = some (wj, xj) := by rw [List.getElem?_zip_eq_some]; exact ⟨hwj, hxj⟩
  have hk' : (rule.1.zip rule.2)[k]? = some (wk, xk) := by rw [List.getElem?_zip_eq_some]; exact ⟨hwk, hxk⟩
  have hjk : j * n + k < n * n := by
    calc j * n + k < j * n + n := by omega
      _ = (j + 1) * n := by rw [Nat.succ_mul]
      _ ≤ n * n := Nat.mul_le_mul_right _ hj
  have h := hg.2 i (j * n + k) _ hi' hjk
  rw [(hin (wi, xi)).2 j k _ hj' hk, List.getElem?_map, hk', Option.map_some] at h
  have e : (i * n + j) * n + k = i * (n * n) + (j * n + k) := by ring
  simp only [hexahedron, List.getElem?_map, e, h, Option.map_some]
  exact ⟨trivial, trivial⟩

end tensor

/-- The monomials of a rule that is exact in one variable. -/
private theorem monomial_exact {rule : Rule 1 ℝ} {deg : Nat}
    (hbase : ∀ q : ℝ[X], q.natDegree ≤ deg → integrate rule (fun p => q.eval (p 0)) = ∫ x in (-1 : ℝ)..1, q.eval x)
    {a : Nat} (ha : a ≤ deg) : integrate rule (fun p => p 0 ^ a) = ∫ x in (-1 : ℝ)..1, x ^ a := by
  have := hbase (X ^ a) (by rw [natDegree_X_pow]; exact ha)
  simpa using this

private theorem integrate_sum {K : Type} [Field K] {d : Nat} {ι : Type} (rule : Rule d K) (s : Finset ι) (c : ι → K) (f : ι → Point d K → K) :
    integrate rule (fun p => ∑ i ∈ s, c i * f i p) = ∑ i ∈ s, c i * integrate rule (f i) := by
  unfold integrate
  induction (rule.1.zip rule.2) with
  | nil => simp
  | cons a l ih =>
    simp only [List.map_cons, List.sum_cons] at ih ⊢
    rw [ih, Finset.mul_sum, ← Finset.sum_add_distrib]
    exact Finset.sum_congr rfl fun i _ => by ring

/-- C41: when the one-dimensional rule is exact up to degree `deg`, the tensor-product rule is exact for every
polynomial of degree at most `deg` in each variable. -/
theorem C41_quadrilateral_exact (rule : Rule 1 ℝ) (deg : Nat)
    (hbase : ∀ q : ℝ[X], q.natDegree ≤ deg → integrate rule (fun p => q.eval (p 0)) = ∫ x in (-1 : ℝ)..1, q.eval x)
    (q : MvPolynomial (Fin 2) ℝ) (hq : ∀ i, q.degreeOf i ≤ deg) :
    integrate (quadrilateral rule) (fun p => MvPolynomial.eval p q) = Spec.squareIntegral fun p => MvPolynomial.eval p q := by
  have hev : ∀ p : Fin 2 → ℝ, MvPolynomial.eval p q = ∑ m ∈ q.support, q.coeff m * (p 0 ^ m 0 * p 1 ^ m 1) := by
    intro p
    rw [MvPolynomial.eval_eq']
    exact Finset.sum_congr rfl fun m _ => by rw [Fin.prod_univ_two]
  have hm : ∀ m ∈ q.support, ∀ i, m i ≤ deg := fun m hm i => (MvPolynomial.degreeOf_le_iff.1 (hq i)) m hm
  simp only [hev, Spec.squareIntegral, Matrix.cons_val_zero, Matrix.cons_val_one]
  have hinner : ∀ x : ℝ, (∫ y in (-1 : ℝ)..1, ∑ m ∈ q.support, q.coeff m * (x ^ m 0 * y ^ m 1))
      = ∑ m ∈ q.support, q.coeff m * (x ^ m 0 * ∫ y in (-1 : ℝ)..1, y ^ m 1) := by
    intro x
    rw [intervalIntegral.integral_finsetSum fun m _ => by apply Continuous.intervalIntegrable; fun_prop]
    exact Finset.sum_congr rfl fun m _ => by rw [intervalIntegral.integral_const_mul, intervalIntegral.integral_const_mul]
  simp only [hinner]
  rw [intervalIntegral.integral_finsetSum fun m _ => by apply Continuous.intervalIntegrable; fun_prop]
  rw [integrate_sum]
  refine Finset.sum_congr rfl fun m hms => ?_
  rw [C41_quadrilateral_product rule (fun x => x ^ m 0) (fun y => y ^ m 1), monomial_exact hbase (hm m hms 0),
    monomial_exact hbase (hm m hms 1), intervalIntegral.integral_const_mul, intervalIntegral.integral_mul_const]

/-- C41: the same in three dimensions. -/
theorem C41_hexahedron_exact (rule : Rule 1 ℝ) (deg : Nat)
    (hbase : ∀ q : ℝ[X], q.natDegree ≤ deg → integrate rule (fun p => q.eval (p 0)) = ∫ x in (-1 : ℝ)..1, q.eval x)
    (q : MvPolynomial (Fin 3) ℝ) (hq : ∀ i, q.degreeOf i ≤ deg) :
    integrate (hexahedron rule) (fun p => MvPolynomial.eval p q) = Spec.cubeIntegral fun p => MvPolynomial.eval p q := by
  have hev : ∀ p : Fin 3 → ℝ, MvPolynomial.eval p q = ∑ m ∈ q.support, q.coeff m * (p 0 ^ m 0 * p 1 ^ m 1 * p 2 ^ m 2) := by
    intro p
    rw [MvPolynomial.eval_eq']
    exact Finset.sum_congr rfl fun m _ => by rw [Fin.prod_univ_three]
  have hm : ∀ m ∈ q.support, ∀ i, m i ≤ deg := fun m hm i => (MvPolynomial.degreeOf_le_iff.1 (hq i)) m hm
  simp only [hev, Spec.cubeIntegral, Matrix.cons_val_zero, Matrix.cons_val_one, Matrix.cons_val]
  have hinner : ∀ x y : ℝ, (∫ z in (-1 : ℝ)..1, ∑ m ∈ q.support, q.coeff m * (x ^ m 0 * y ^ m 1 * z ^ m 2))
      = ∑ m ∈ q.support, q.coeff m * (x ^ m 0 * y ^ m 1 * ∫ z in (-1 : ℝ)..1, z ^ m 2) := by
    intro x y
    rw [intervalIntegral.integral_finsetSum fun m _ => by apply Continuous.intervalIntegrable; fun_prop]
    exact Finset.sum_congr rfl fun m _ => by rw [intervalIntegral.integral_const_mul, intervalIntegral.integral_const_mul]
  have hmid : ∀ x : ℝ, (∫ y in (-1 : ℝ)..1, ∑ m ∈ q.support, q.coeff m * (x ^ m 0 * y ^ m 1 * ∫ z in (-1 : ℝ)..1, z ^ m 2))
      = ∑ m ∈ q.support, q.coeff m * (x ^ m 0 * (∫ y in (-1 : ℝ)..1, y ^ m 1) * ∫ z in (-1 : ℝ)..1, z ^ m 2) := by
    intro x
    rw [intervalIntegral.integral_finsetSum fun m _ => by apply Continuous.intervalIntegrable; fun_prop]
    exact Finset.sum_congr rfl fun m _ => by
      rw [intervalIntegral.integral_const_mul, intervalIntegral.integral_mul_const, intervalIntegral.integral_const_mul]
  simp only [hinner, hmid]
  rw [intervalIntegral.integral_finsetSum fun m _ => by apply Continuous.intervalIntegrable; fun_prop]
  rw [integrate_sum]
  refine Finset.sum_congr rfl fun m hms => ?_
  rw [C41_hexahedron_product rule (fun x => x ^ m 0) (fun y => y ^ m 1) (fun z => z ^ m 2), monomial_exact hbase (hm m hms 0),
    monomial_exact hbase (hm m hms 1), monomial_exact hbase (hm m hms 2), intervalIntegral.integral_const_mul,
    intervalIntegral.integral_mul_const, intervalIntegral.integral_mul_const]

/-- C41, C42: the Gauss rules with `n` points per direction are exact up to degree `2 n - 1` in each variable. -/
theorem C41_gauss_exact {n : Nat} {tol : ℝ} {guess : Nat → ℝ} {fuel : Nat} {rule : Rule 1 ℝ}
    (h : gauss n tol guess fuel = some (some rule)) (p : ℝ[X]) (hp : Spec.IsLegendre n p)
    (hroot : ∀ x ∈ rule.2, p.eval (x 0) = 0) (hdist : rule.2.Nodup) :
    (∀ q : MvPolynomial (Fin 2) ℝ, (∀ i, q.degreeOf i ≤ 2 * n - 1) →
      integrate (quadrilateral rule) (fun p => MvPolynomial.eval p q) = Spec.squareIntegral fun p => MvPolynomial.eval p q) ∧
    (∀ q : MvPolynomial (Fin 3) ℝ, (∀ i, q.degreeOf i ≤ 2 * n - 1) →
      integrate (hexahedron rule) (fun p => MvPolynomial.eval p q) = Spec.cubeIntegral fun p => MvPolynomial.eval p q) :=
  ⟨fun q hq => C41_quadrilateral_exact rule _ (C42_gauss_exact h p hp hroot hdist) q hq,
   fun q hq => C41_hexahedron_exact rule _ (C42_gauss_exact h p hp hroot hdist) q hq⟩

example : quadrilateral (([1, 2], [fun _ => 3, fun _ => 5]) : Rule 1 ℚ)
    = ([1, 2, 2, 4], [![3, 3], ![3, 5], ![5, 3], ![5, 5]]) := by
  norm_num [quadrilateral]

end Quadrature
end Fenris
