import Verif.Model.Calculus
import Mathlib.Tactic.Ring
import Mathlib.Tactic.Abel
import Mathlib.Tactic.FieldSimp
import Mathlib.Tactic.LinearCombination
import Mathlib.Analysis.Calculus.Deriv.Slope
import Mathlib.Analysis.Calculus.Deriv.Comp
import Mathlib.Analysis.Calculus.Deriv.Add
import Mathlib.Analysis.Calculus.FDeriv.Pi
import Mathlib.Analysis.Calculus.Deriv.Mul
import Mathlib.Tactic.FinCases
import Mathlib.Algebra.Order.Ring.Rat
import Mathlib.Algebra.Field.Rat
/-! # C34: finite differences -/
set_option autoImplicit false
set_option linter.unusedSectionVars false

namespace Fenris
namespace Calculus

open Cg (Vec)

variable {n m : Nat} {K : Type} [Field K]

/-- The points `x + h eᵢ` and `x - h eᵢ`. -/
def plus (x : Vec n K) (h : K) (i : Fin n) : Vec n K := x + h • Pi.single i 1
def minus (x : Vec n K) (h : K) (i : Fin n) : Vec n K := x - h • Pi.single i 1

private theorem update_plus (x : Vec n K) (h : K) (i : Fin n) : Function.update x i (x i + h) = plus x h i := by
  funext j
  by_cases hj : j = i
  · subst hj; simp [plus]
  · simp [plus, hj]

private theorem update_minus (x : Vec n K) (h : K) (i : Fin n) : Function.update x i (x i - h) = minus x h i := by
  funext j
  by_cases hj : j = i
  · subst hj; simp [minus]
  · simp [minus, hj]

private theorem gradientStep_eq (f : Vec n K → K) (h : K) (df x : Vec n K) (log : List (Vec n K)) (i : Fin n) :
    gradientStep f h (df, x, log) i =
      (Function.update df i ((f (plus x h i) - f (minus x h i)) / (2 * h)), x, log ++ [plus x h i, minus x h i]) := by
  have h1 : Function.update (plus x h i) i (x i - h) = minus x h i := by
    rw [← update_plus, Function.update_idem, update_minus]
  have h2 : Function.update (minus x h i) i (x i) = x := by
    rw [← update_minus, Function.update_idem, Function.update_eq_self]
  simp only [gradientStep, update_plus, h1, h2]

private theorem gradient_fold (f : Vec n K → K) (h : K) (x : Vec n K) : ∀ (l : List (Fin n)) (df : Vec n K)
    (log : List (Vec n K)), l.foldl (gradientStep f h) (df, x, log) =
      (fun i => if i ∈ l then (f (plus x h i) - f (minus x h i)) / (2 * h) else df i, x,
        log ++ l.flatMap fun i => [plus x h i, minus x h i]) := by
  intro l
  induction l with
  | nil => intro df log; simp
  | cons a l ih =>
    intro df log
    rw [List.foldl_cons, gradientStep_eq, ih]
    refine Prod.ext ?_ (Prod.ext rfl (by simp))
    funext i
    by_cases h1 : i ∈ l
    · simp [h1]
    · by_cases h2 : i = a
      · subst h2; simp [h1]
      · simp [h1, h2]

/-- **C34.** Each entry of the approximate gradient is the central difference, whatever the output vector held;
`x` is restored; the function is evaluated exactly at `x ± h eᵢ`, in this order. -/
theorem C34_gradient_is_central_difference (df : Vec n K) (f : Vec n K → K) (x : Vec n K) (h : K) :
    approximateGradientFdInto df f x h =
      (fun i => (f (x + h • Pi.single i 1) - f (x - h • Pi.single i 1)) / (2 * h), x,
        (List.finRange n).flatMap fun i => [x + h • Pi.single i 1, x - h • Pi.single i 1]) := by
  unfold approximateGradientFdInto
  rw [gradient_fold]
  simp [plus, minus]

private theorem jacobian_fold (f : Vec n K → Vec m K) (h : K) (x : Vec n K) : ∀ (l : List (Fin n))
    (J : Fin n → Vec m K) (log : List (Vec n K)), l.foldl (jacobianStep f h) (J, x, log) =
      (fun i => if i ∈ l then (fun k => (f (plus x h i) k - f (minus x h i) k) / (2 * h)) else J i, x,
        log ++ l.flatMap fun i => [plus x h i, minus x h i]) := by
  intro l
  induction l with
  | nil => intro df log; simp
  | cons a l ih =>
    intro df log
    have hstep : jacobianStep f h (df, x, log) a =
        (Function.update df a (fun k => (f (plus x h a) k - f (minus x h a) k) / (2 * h)), x,
          log ++ [plus x h a, minus x h a]) := by
      have h1 : Function.update (plus x h a) a (x a - h) = minus x h a := by
        rw [← update_plus, Function.update_idem, update_minus]
      have h2 : Function.update (minus x h a) a (x a) = x := by
        rw [← update_minus, Function.update_idem, Function.update_eq_self]
      simp only [jacobianStep, update_plus, h1, h2]
    rw [List.foldl_cons, hstep, ih]
    refine Prod.ext ?_ (Prod.ext rfl (by simp))
    funext i
    by_cases h1 : i ∈ l
    · simp [h1]
    · by_cases h2 : i = a
      · subst h2; simp [h1]
      · simp [h1, h2]

/-- **C34.** The same for the Jacobian: entry `(k, i)` (row `k`, column `i`) is the central difference of
component `k` in direction `i`. -/
theorem C34_jacobian_is_central_difference (J : Fin n → Vec m K) (f : Vec n K → Vec m K) (x : Vec n K) (h : K) :
    approximateJacobianFdInto J f x h =
      (fun i k => (f (x + h • Pi.single i 1) k - f (x - h • Pi.single i 1) k) / (2 * h), x,
        (List.finRange n).flatMap fun i => [x + h • Pi.single i 1, x - h • Pi.single i 1]) := by
  unfold approximateJacobianFdInto
  rw [jacobian_fold]
  simp [plus, minus]

private theorem plain_fold (f : Vec n K → Vec m K) (h : K) (x : Vec n K) : ∀ (l : List (Fin n)), l.Nodup →
    ∀ (J : Fin n → Vec m K) (log : List (Vec n K)), (∀ i ∈ l, J i = fun _ => 0) →
      l.foldl (plainJacobianStep f x h) (J, log) =
      (fun i => if i ∈ l then (fun k => (f (plus x h i) k - f (minus x h i) k) / (2 * h)) else J i,
        log ++ l.flatMap fun i => [plus x h i, minus x h i]) := by
  intro l
  induction l with
  | nil => intro _ df log _; simp
  | cons a l ih =>
    intro hnd df log h0
    have hstep : plainJacobianStep f x h (df, log) a =
        (Function.update df a (fun k => (f (plus x h a) k - f (minus x h a) k) / (2 * h)),
          log ++ [plus x h a, minus x h a]) := by
      simp only [plainJacobianStep, update_plus, update_minus, h0 a (by simp), zero_add]
    rw [List.foldl_cons, hstep, ih (List.nodup_cons.1 hnd).2 _ _ (fun i hi => by
      have : i ≠ a := fun h => (List.nodup_cons.1 hnd).1 (h ▸ hi)
      rw [Function.update_of_ne this]
      exact h0 i (by simp [hi]))]
    refine Prod.ext ?_ (by simp)
    funext i
    by_cases h1 : i ∈ l
    · simp [h1]
    · by_cases h2 : i = a
      · subst h2; simp [h1]
      · simp [h1, h2]

/-- **C34.** The two Jacobian functions agree: same matrix, same evaluation points. -/
theorem C34_approximate_jacobian_agrees (f : Vec n K → Vec m K) (x : Vec n K) (h : K) :
    approximateJacobian f x h = ((approximateJacobianFd f x h).1, (approximateJacobianFd f x h).2.2) := by
  unfold approximateJacobianFd
  rw [C34_jacobian_is_central_difference]
  unfold approximateJacobian
  rw [plain_fold f h x _ (List.nodup_finRange n) _ _ (fun _ _ => rfl)]
  simp [plus, minus]

/-- A polynomial of degree at most two. -/
def quadratic (c : K) (g : Vec n K) (H : Fin n → Fin n → K) (x : Vec n K) : K :=
  c + ∑ i, g i * x i + ∑ i, ∑ j, H i j * x i * x j

private theorem quadratic_difference [CharZero K] (c : K) (g : Vec n K) (H : Fin n → Fin n → K) (x : Vec n K) (h : K)
    (hh : h ≠ 0) (i : Fin n) :
    (quadratic c g H (x + h • Pi.single i 1) - quadratic c g H (x - h • Pi.single i 1)) / (2 * h) =
      g i + ∑ j, (H i j + H j i) * x j := by
  have e1 : ∀ (v : Fin n → K) (s : K), ∑ a, v a * (x + s • (Pi.single i 1 : Vec n K) : Vec n K) a = ∑ a, v a * x a + s * v i := by
    intro v s
    simp only [Pi.add_apply, Pi.smul_apply, smul_eq_mul, mul_add, Finset.sum_add_distrib]
    congr 1
    rw [Finset.sum_eq_single i]
    · simp [mul_comm]
    · intro b _ hb; simp [hb]
    · simp
  have e2 : ∀ (s : K), ∑ a, ∑ b, H a b * (x + s • (Pi.single i 1 : Vec n K) : Vec n K) a * (x + s • (Pi.single i 1 : Vec n K) : Vec n K) b =
      ∑ a, ∑ b, H a b * x a * x b + s * ∑ a, H a i * x a + s * ∑ b, H i b * x b + s * s * H i i := by
    intro s
    have h1 : ∀ a, ∑ b, H a b * (x + s • (Pi.single i 1 : Vec n K) : Vec n K) a * (x + s • (Pi.single i 1 : Vec n K) : Vec n K) b =
        (∑ b, H a b * x b + s * H a i) * (x + s • (Pi.single i 1 : Vec n K) : Vec n K) a := by
      intro a
      rw [e1 (fun b => H a b * (x + s • (Pi.single i 1 : Vec n K) : Vec n K) a) s, add_mul, Finset.sum_mul]
      congr 1
      · exact Finset.sum_congr rfl fun b _ => by ring
      · ring
    simp only [h1]
    rw [e1 (fun a => ∑ b, H a b * x b + s * H a i) s]
    simp only [add_mul, Finset.sum_add_distrib, mul_add, Finset.sum_mul, Finset.mul_sum]
    have h2 : ∀ a b, H a b * x b * x a = H a b * x a * x b := fun a b => by ring
    have h3 : ∀ a, s * H a i * x a = s * (H a i * x a) := fun a => by ring
    simp only [h2, h3]
    ring
  have hm : x - h • (Pi.single i 1 : Vec n K) = x + (-h) • (Pi.single i 1 : Vec n K) := by rw [neg_smul]; abel
  have h2 : (2 : K) ≠ 0 := two_ne_zero
  unfold quadratic
  rw [hm, e1 g h, e1 g (-h), e2 h, e2 (-h)]
  simp only [add_mul, Finset.sum_add_distrib]
  field_simp
  ring

/-- **C34.** The approximate gradient of a polynomial of degree at most two is its exact gradient, for every step
`h ≠ 0`, and `x` is restored. -/
theorem C34_gradient_exact_for_quadratics [CharZero K] (c : K) (g : Vec n K) (H : Fin n → Fin n → K) (x : Vec n K)
    (h : K) (hh : h ≠ 0) :
    (approximateGradientFd (quadratic c g H) x h).1 = (fun i => g i + ∑ j, (H i j + H j i) * x j) ∧
      (approximateGradientFd (quadratic c g H) x h).2.1 = x := by
  unfold approximateGradientFd
  rw [C34_gradient_is_central_difference]
  exact ⟨funext fun i => quadratic_difference c g H x h hh i, rfl⟩

/-- **C34.** The approximate Jacobian of a function with components of degree at most two is exact. -/
theorem C34_jacobian_exact_for_quadratics [CharZero K] (c : Vec m K) (g : Fin m → Vec n K)
    (H : Fin m → Fin n → Fin n → K) (x : Vec n K) (h : K) (hh : h ≠ 0) :
    (approximateJacobianFd (fun x k => quadratic (c k) (g k) (H k) x) x h).1 =
      (fun i k => g k i + ∑ j, (H k i j + H k j i) * x j) ∧
      (approximateJacobianFd (fun x k => quadratic (c k) (g k) (H k) x) x h).2.1 = x := by
  unfold approximateJacobianFd
  rw [C34_jacobian_is_central_difference]
  exact ⟨funext fun i => funext fun k => quadratic_difference (c k) (g k) (H k) x h hh i, rfl⟩

open Filter Topology in
/-- **C34.** For every function that is differentiable at `x`, the approximate gradient tends to the exact one as
`h` tends to zero. -/
theorem C34_gradient_is_consistent (f : Vec n ℝ → ℝ) (x : Vec n ℝ) (f' : Vec n ℝ →L[ℝ] ℝ)
    (hf : HasFDerivAt f f' x) (i : Fin n) :
    Tendsto (fun h => (approximateGradientFd f x h).1 i) (𝓝[≠] 0) (𝓝 (f' (Pi.single i 1))) := by
  have hline : HasDerivAt (fun t : ℝ => f (x + t • Pi.single i 1)) (f' (Pi.single i 1)) 0 := by
    have h1 : HasDerivAt (fun t : ℝ => x + t • (Pi.single i 1 : Vec n ℝ)) (Pi.single i 1) 0 := by
      have := ((hasDerivAt_id (0 : ℝ)).smul_const (Pi.single i 1 : Vec n ℝ)).const_add x
      simpa using this
    have h2 : HasFDerivAt f f' (x + (0 : ℝ) • (Pi.single i 1 : Vec n ℝ)) := by simpa using hf
    exact h2.comp_hasDerivAt (0 : ℝ) h1
  have hneg : HasDerivAt (fun t : ℝ => f (x + (-t) • Pi.single i 1)) (-(f' (Pi.single i 1))) 0 := by
    have h0 : HasDerivAt (fun t : ℝ => f (x + t • Pi.single i 1)) (f' (Pi.single i 1)) (-(0 : ℝ)) := by
      simpa using hline
    have := h0.scomp (0 : ℝ) (hasDerivAt_neg (0 : ℝ))
    rw [neg_smul, one_smul] at this
    exact this
  have hd := (hline.sub hneg).tendsto_slope
  have h2 := hd.const_mul (1 / 2 : ℝ)
  have e : (1 / 2 : ℝ) * (f' (Pi.single i 1) - -(f' (Pi.single i 1))) = f' (Pi.single i 1) := by ring
  rw [e] at h2
  refine h2.congr' ?_
  filter_upwards [self_mem_nhdsWithin] with h hh
  have hh0 : h ≠ 0 := hh
  unfold approximateGradientFd
  rw [C34_gradient_is_central_difference]
  simp only [slope, sub_zero, vsub_eq_sub, smul_eq_mul, neg_smul, zero_smul, add_zero, neg_zero, sub_self, Pi.sub_apply]
  rw [← sub_eq_add_neg]
  field_simp
  try ring

/-- Non-vacuity: a quadratic in two variables. -/
example : (approximateGradientFd (K := ℚ) (quadratic 1 ![2, 3] ![![1, 4], ![0, 5]]) ![1, 2] (1 / 10)).1 =
    ![12, 27] := by
  rw [(C34_gradient_exact_for_quadratics _ _ _ _ _ (by norm_num)).1]
  funext i
  fin_cases i <;> simp [Fin.sum_univ_two] <;> norm_num

end Calculus
end Fenris
