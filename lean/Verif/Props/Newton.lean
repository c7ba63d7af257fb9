import Verif.Spec.Newton
import Mathlib.Tactic.Ring
import Mathlib.Tactic.Linarith
import Mathlib.Tactic.FieldSimp
import Mathlib.Tactic.IntervalCases
import Mathlib.Tactic.NormNum
import Mathlib.Tactic.Abel
import Mathlib.Data.Fin.VecNotation
import Mathlib.Tactic.Positivity
import Mathlib.Algebra.BigOperators.Pi
import Mathlib.Algebra.Order.Ring.Rat
import Mathlib.Algebra.Field.Rat
/-! # C32, C33: Newton's method and its line searches -/
set_option autoImplicit false
set_option linter.unusedSectionVars false

namespace Fenris
namespace Newton

open Spec
open Cg (Vec)

variable {n : Nat} {K E : Type} [Field K] [LinearOrder K]

private theorem neg_eq (d : Vec n K) : (fun i => d i * -1) = -d := by
  funext i
  simp

private theorem loop_spec (c : Problem n K E) (x₀ : Vec n K) (fuel : Nat) :
    ∀ (k : Nat) (x f : Nat → Vec n K) (alpha : Nat → K) (dx : Nat → Vec n K), Steps c x₀ k x f alpha dx →
      ∀ out, loop c fuel (x k) (f k) k = some out →
      ∃ (j : Nat) (x f : Nat → Vec n K) (alpha : Nat → K) (dx : Nat → Vec n K),
        Steps c x₀ j x f alpha dx ∧ Stops c j x f out := by
  induction fuel with
  | zero => intro k x f alpha dx _ out h; cases h
  | succ fuel ih =>
    intro k x f alpha dx hs out h
    simp only [loop, iteration] at h
    by_cases hn : c.norm (f k) > c.tolerance
    · rw [if_pos hn] at h
      by_cases hm : c.maxIterations = some k
      · simp only [if_pos hm, Option.some.injEq] at h
        subst h
        exact ⟨k, x, f, alpha, dx, hs, .limit hn hm⟩
      · rw [if_neg hm] at h
        cases hj : c.solveJacobianSystem k (x k) (f k) with
        | error e =>
          simp only [hj, Option.some.injEq] at h
          subst h
          exact ⟨k, x, f, alpha, dx, hs, .jacobianFails hn e hj⟩
        | ok d =>
          simp only [hj, neg_eq] at h
          cases hl : c.lineSearch k c.function (f k) (x k) (-d) with
          | none => simp only [hl] at h; cases h
          | some t =>
            obtain ⟨res, f', x'⟩ := t
            cases res with
            | error e =>
              simp only [hl, Option.some.injEq] at h
              subst h
              exact ⟨k, x, f, alpha, dx, hs, .searchFails hn d hj e f' x' hl⟩
            | ok a =>
              simp only [hl] at h
              have key := ih (k + 1) (fun i => if i = k + 1 then x' else x i)
                (fun i => if i = k + 1 then f' else f i) (fun i => if i = k then a else alpha i)
                (fun i => if i = k then d else dx i)
              simp only [if_true] at key
              refine key ⟨?_, ?_, ?_, ?_, ?_, ?_⟩ out h
              · simpa using hs.start
              · simpa using hs.residual
              · intro i hi
                have he : i ≠ k + 1 := by omega
                simp only [if_neg he]
                by_cases hik : i = k
                · subst hik; exact hn
                · exact hs.above i (by omega)
              · intro i hi
                by_cases hik : i = k
                · subst hik; exact hm
                · exact hs.limit i (by omega)
              · intro i hi
                have he : i ≠ k + 1 := by omega
                simp only [if_neg he]
                by_cases hik : i = k
                · subst hik; simpa using hj
                · simp only [if_neg hik]; exact hs.solve i (by omega)
              · intro i hi
                have he : i ≠ k + 1 := by omega
                simp only [if_neg he]
                by_cases hik : i = k
                · subst hik; simpa using hl
                · have he' : i + 1 ≠ k + 1 := by omega
                  simp only [if_neg hik, if_neg he']; exact hs.search i (by omega)
    · simp only [if_neg hn, Option.some.injEq] at h
      subst h
      exact ⟨k, x, f, alpha, dx, hs, .converged (not_lt.1 hn)⟩

/-- **C32.** Complete description of what Newton's method returns, for every function, Jacobian solver, line
search and settings: `k` steps were made, each from a residual above the tolerance, and the procedure stops for
the reason it states. -/
theorem C32_outcome (c : Problem n K E) (fuel : Nat) (x₀ : Vec n K) (out : Outcome n K E)
    (h : newtonLineSearch c fuel x₀ = some out) :
    ∃ (k : Nat) (x f : Nat → Vec n K) (alpha : Nat → K) (dx : Nat → Vec n K),
      Steps c x₀ k x f alpha dx ∧ Stops c k x f out := by
  refine loop_spec c x₀ fuel 0 (fun _ => x₀) (fun _ => c.function x₀) (fun _ => 0) (fun _ => 0)
    ⟨rfl, rfl, ?_, ?_, ?_, ?_⟩ out h <;> intro i hi <;> omega

/-- The accumulated steps. -/
theorem C32_solution_is_accumulated_steps (c : Problem n K E) (hls : Faithful c.lineSearch) (x₀ : Vec n K) (k : Nat)
    (x f : Nat → Vec n K) (alpha : Nat → K) (dx : Nat → Vec n K) (h : Steps c x₀ k x f alpha dx) :
    ∀ i, i ≤ k → x i = x₀ - ∑ j ∈ Finset.range i, alpha j • dx j ∧ f i = c.function (x i) := by
  intro i
  induction i with
  | zero => intro _; simp [h.start, h.residual]
  | succ i ih =>
    intro hi
    obtain ⟨h1, h2⟩ := hls _ _ _ _ _ _ _ _ (h.search i (by omega))
    refine ⟨?_, h2⟩
    rw [h1, (ih (by omega)).1, Finset.sum_range_succ, smul_neg]
    abel

/-- **C32.** `Ok(k)` means that the residual at the returned `x` is at most the tolerance, after exactly `k`
steps, each of which had a residual above the tolerance. -/
theorem C32_ok_means_small_residual (c : Problem n K E) (hls : Faithful c.lineSearch) (fuel : Nat) (x₀ x f : Vec n K)
    (k : Nat) (h : newtonLineSearch c fuel x₀ = some ⟨x, f, .ok k⟩) :
    c.norm (c.function x) ≤ c.tolerance ∧ f = c.function x ∧
      ∃ (alpha : Nat → K) (dx : Nat → Vec n K), x = x₀ - ∑ j ∈ Finset.range k, alpha j • dx j ∧
        ∀ i, i < k → c.tolerance < c.norm (c.function (x₀ - ∑ j ∈ Finset.range i, alpha j • dx j)) := by
  obtain ⟨j, xs, fs, alpha, dx, hs, hstop⟩ := C32_outcome c fuel x₀ _ h
  have hacc := C32_solution_is_accumulated_steps c hls x₀ j xs fs alpha dx hs
  cases hstop with
  | converged hc =>
    obtain ⟨h1, h2⟩ := hacc k (le_refl _)
    refine ⟨by rw [← h2]; exact hc, h2, alpha, dx, h1, fun i hi => ?_⟩
    obtain ⟨h3, h4⟩ := hacc i (by omega)
    rw [← h3, ← h4]
    exact hs.above i hi

/-- **C32.** `MaximumIterationsReached(k)`: `k` is the limit and the residual at the returned `x` is above the
tolerance. -/
theorem C32_limit_means_large_residual (c : Problem n K E) (hls : Faithful c.lineSearch) (fuel : Nat)
    (x₀ x f : Vec n K) (k : Nat)
    (h : newtonLineSearch c fuel x₀ = some ⟨x, f, .error (.maximumIterationsReached k)⟩) :
    c.maxIterations = some k ∧ c.tolerance < c.norm (c.function x) ∧ f = c.function x := by
  obtain ⟨j, xs, fs, alpha, dx, hs, hstop⟩ := C32_outcome c fuel x₀ _ h
  have hacc := C32_solution_is_accumulated_steps c hls x₀ j xs fs alpha dx hs
  cases hstop with
  | limit hc hm =>
    obtain ⟨h1, h2⟩ := hacc k (le_refl _)
    exact ⟨hm, by rw [← h2]; exact hc, h2⟩

/-- **C32.** Errors of the Jacobian solver and of the line search are passed through. -/
theorem C32_errors_are_passed_through (c : Problem n K E) (fuel : Nat) (x₀ : Vec n K) (out : Outcome n K E)
    (h : newtonLineSearch c fuel x₀ = some out) (e : E) :
    (out.result = .error (.jacobianError e) → ∃ k x f, c.solveJacobianSystem k x f = .error e) ∧
    (out.result = .error (.lineSearchError e) →
      ∃ k f x d, c.lineSearch k c.function f x d = some (.error e, out.f, out.x)) := by
  obtain ⟨j, xs, fs, alpha, dx, hs, hstop⟩ := C32_outcome c fuel x₀ _ h
  clear h
  cases hstop with
  | jacobianFails hc e' hj => exact ⟨fun h => (by cases h; exact ⟨_, _, _, hj⟩), fun h => (by cases h)⟩
  | searchFails hc d hj e' f' x' hl => exact ⟨fun h => (by cases h), fun h => (by cases h; exact ⟨_, _, _, _, hl⟩)⟩
  | _ => exact ⟨fun h => (by cases h), fun h => (by cases h)⟩

private theorem loop_terminates (c : Problem n K E) (hls : ∀ i F f x d, c.lineSearch i F f x d ≠ none) (m : Nat)
    (hm : c.maxIterations = some m) :
    ∀ (fuel : Nat) (x f : Vec n K) (iter : Nat), iter ≤ m → m + 1 ≤ iter + fuel →
      ∃ out, loop c fuel x f iter = some out := by
  intro fuel
  induction fuel with
  | zero => intro x f iter _ _; omega
  | succ fuel ih =>
    intro x f iter hi hf
    simp only [loop]
    cases hit : iteration c x f iter with
    | none =>
      exfalso
      simp only [iteration] at hit
      split at hit
      · split at hit
        · cases hit
        · split at hit
          · cases hit
          · split at hit
            · rename_i hl
              exact hls _ _ _ _ _ hl
            · cases hit
            · cases hit
      · cases hit
    | some t =>
      cases t with
      | inl out => exact ⟨out, rfl⟩
      | inr xf =>
        have hne : iter ≠ m := by
          intro he
          subst he
          simp only [iteration, if_pos hm] at hit
          split at hit <;> cases hit
        exact ih xf.1 xf.2 (iter + 1) (by omega) (by omega)

/-- **C32.** With an iteration limit (and a line search that returns) the procedure returns. -/
theorem C32_terminates_within_limit (c : Problem n K E) (hls : ∀ i F f x d, c.lineSearch i F f x d ≠ none) (m : Nat)
    (hm : c.maxIterations = some m) (x₀ : Vec n K) : ∃ out, newtonLineSearch c (m + 1) x₀ = some out :=
  loop_terminates c hls m hm (m + 1) x₀ (c.function x₀) 0 (Nat.zero_le _) (by omega)

/-- **C32.** The plain step fulfils the contract of line searches and always returns. -/
theorem C32_plain_step_is_faithful :
    Faithful (noLineSearch : LineSearch n K E) ∧
      ∀ i F f x d, (noLineSearch : LineSearch n K E) i F f x d ≠ none := by
  refine ⟨?_, by intros; simp [noLineSearch]⟩
  intro i F f x d a f' x' h
  simp only [noLineSearch, Option.some.injEq, Prod.mk.injEq, Except.ok.injEq] at h
  obtain ⟨rfl, rfl, rfl⟩ := h
  refine ⟨?_, rfl⟩
  funext j
  simp [add_comm]

/-- **C32.** For an affine function `A x - b` whose Jacobian systems are solved exactly, and a limit other than
zero, the method converges in at most one step, to a point where the function vanishes unless the initial guess
was accepted. -/
theorem C32_affine_converges_in_one_step (A : Matrix (Fin n) (Fin n) K) (b : Vec n K)
    (solve : Nat → Vec n K → Vec n K → Except E (Vec n K))
    (hsolve : ∀ i x f, ∃ d, solve i x f = .ok d ∧ A.mulVec d = f)
    (maxIterations : Option Nat) (hmax : maxIterations ≠ some 0) (tolerance : K) (norm : Vec n K → K)
    (hnorm : norm 0 ≤ tolerance) (x₀ : Vec n K) :
    ∃ x f k, newton (fun x => A.mulVec x - b) solve maxIterations tolerance norm 2 x₀ = some ⟨x, f, .ok k⟩ ∧
      (k = 0 ∧ x = x₀ ∨ k = 1 ∧ A.mulVec x = b) := by
  obtain ⟨d, hd, hAd⟩ := hsolve 0 x₀ (A.mulVec x₀ - b)
  unfold newton newtonLineSearch
  simp only [loop, iteration]
  by_cases hn : norm (A.mulVec x₀ - b) > tolerance
  · have hx : A.mulVec (x₀ - d) - b = 0 := by
      rw [Matrix.mulVec_sub, hAd]; abel
    have hxe : (fun i => (fun i => d i * -1) i + x₀ i) = x₀ - d := by
      funext i
      simp only [Pi.sub_apply]
      ring
    simp only [if_pos hn, if_neg hmax, hd, noLineSearch, hxe, hx, if_neg (not_lt.2 hnorm)]
    exact ⟨_, _, _, rfl, Or.inr ⟨rfl, sub_eq_zero.1 hx⟩⟩
  · simp only [if_neg hn]
    exact ⟨_, _, _, rfl, Or.inl ⟨rfl, rfl⟩⟩

section Backtracking

variable [IsStrictOrderedRing K]

/-- The part of the sequence from position `i` to 13. -/
private def alphasFrom (i : Nat) : List K := (List.range (14 - i)).map fun j => alphaAt (i + j)

private theorem quarters_eq (i : Nat) : (quarters i : K) = (1 / 4) ^ (i + 1) := by
  induction i with
  | zero => simp [quarters]
  | succ i ih => rw [quarters, ih, pow_succ' _ (i + 1)]

private theorem alphasFrom_one : (alphasFrom 1 : List K) = trialLengths := by
  simp [alphasFrom, trialLengths, List.range_succ, alphaAt, quarters_eq]

private theorem alphasFrom_cons (i : Nat) (hi : i ≤ 13) :
    (alphasFrom i : List K) = alphaAt i :: alphasFrom (i + 1) := by
  unfold alphasFrom
  rw [show 14 - i = (14 - (i + 1)) + 1 by omega, List.range_succ_eq_map, List.map_cons, List.map_map]
  congr 1
  apply List.map_congr_left
  intro j _
  simp only [Function.comp]
  congr 1
  omega

private theorem alpha_small (i : Nat) (h1 : 1 ≤ i) (h2 : i ≤ 13) :
    ((alphaAt i : K) < 1 / 1000000 ↔ i = 13) := by
  interval_cases i <;> simp [alphaAt, quarters_eq] <;> norm_num

open Classical in
/-- What the loop does from position `i` on. -/
private theorem backtrackingLoop_spec (e : E) (F : Vec n K → Vec n K) (f x₀ p : Vec n K) :
    ∀ (m i : Nat) (fuel : Nat) (x : Vec n K), i + m = 13 → 1 ≤ i → m < fuel → x = x₀ + (alphaAt (i - 1) : K) • p →
      backtrackingLoop e F p (1 / 2 * (f ⬝ᵥ f)) fuel i x =
        some (match (alphasFrom i).find? (fun a => SufficientDecrease F f x₀ p a) with
          | some a => (.ok a, F (x₀ + a • p), x₀ + a • p)
          | none => (.error e, F (x₀ + ((1 / 4) ^ 10 : K) • p), x₀ + ((1 / 4) ^ 10 : K) • p)) := by
  intro m
  induction m with
  | zero =>
    intro i fuel x hi h1 hf hx
    obtain rfl : i = 13 := by omega
    obtain ⟨fuel, rfl⟩ : ∃ f', fuel = f' + 1 := ⟨fuel - 1, by omega⟩
    have hx' : (fun j => ((alphaAt 13 : K) - alphaAt (13 - 1)) * p j + x j) = x₀ + (alphaAt 13 : K) • p := by
      funext j
      simp only [hx, Pi.add_apply, Pi.smul_apply, smul_eq_mul]
      ring
    have hg : (1 / 2 * (F (x₀ + (alphaAt 13 : K) • p) ⬝ᵥ F (x₀ + (alphaAt 13 : K) • p)) ≤
        (1 - 1 / 10000 * alphaAt 13) * (1 / 2 * (f ⬝ᵥ f))) ↔ SufficientDecrease F f x₀ p (alphaAt 13) := by
      unfold SufficientDecrease
      constructor <;> intro h <;> nlinarith
    simp only [backtrackingLoop, hx', hg]
    rw [alphasFrom_cons 13 (by omega)]
    have ha : (alphaAt 13 : K) = (1 / 4) ^ 10 := by simp [alphaAt, quarters_eq]
    by_cases hs : SufficientDecrease F f x₀ p (alphaAt 13 : K)
    · simp [hs]
    · have hlt : (alphaAt 13 : K) < 1 / 1000000 := (alpha_small 13 (by omega) (by omega)).2 rfl
      rw [if_neg hs, if_pos hlt, List.find?_cons_of_neg (by simpa using hs)]
      simp [alphasFrom, ha]
  | succ m ih =>
    intro i fuel x hi h1 hf hx
    obtain ⟨fuel, rfl⟩ : ∃ f', fuel = f' + 1 := ⟨fuel - 1, by omega⟩
    have hx' : (fun j => ((alphaAt i : K) - alphaAt (i - 1)) * p j + x j) = x₀ + (alphaAt i : K) • p := by
      funext j
      simp only [hx, Pi.add_apply, Pi.smul_apply, smul_eq_mul]
      ring
    have hg : (1 / 2 * (F (x₀ + (alphaAt i : K) • p) ⬝ᵥ F (x₀ + (alphaAt i : K) • p)) ≤
        (1 - 1 / 10000 * alphaAt i) * (1 / 2 * (f ⬝ᵥ f))) ↔ SufficientDecrease F f x₀ p (alphaAt i) := by
      unfold SufficientDecrease
      constructor <;> intro h <;> nlinarith
    simp only [backtrackingLoop, hx', hg]
    rw [alphasFrom_cons i (by omega)]
    by_cases hs : SufficientDecrease F f x₀ p (alphaAt i : K)
    · simp [hs]
    · have hlt : ¬ (alphaAt i : K) < 1 / 1000000 := fun h => by
        have := (alpha_small i h1 (by omega)).1 h
        omega
      rw [if_neg hs, if_neg hlt, List.find?_cons_of_neg (by simpa using hs)]
      exact ih (i + 1) fuel _ (by omega) (by omega) (by omega) rfl

open Classical in
/-- **C33.** The backtracking search returns after at most 13 trials. It takes the first of the trial lengths with
sufficient decrease, leaves `x = x₀ + a p` and `f = F(x)`; if none of them decreases sufficiently it reports an
error and leaves `x` and `f` at the last trial. -/
theorem C33_first_acceptable_step (e : E) (fuel : Nat) (hf : 13 ≤ fuel) (i : Nat) (F : Vec n K → Vec n K)
    (f x p : Vec n K) :
    (backtracking e fuel : LineSearch n K E) i F f x p =
      some (match trialLengths.find? (fun a => SufficientDecrease F f x p a) with
        | some a => (.ok a, F (x + a • p), x + a • p)
        | none => (.error e, F (x + ((1 / 4) ^ 10 : K) • p), x + ((1 / 4) ^ 10 : K) • p)) := by
  unfold backtracking
  rw [backtrackingLoop_spec e F f x p 12 1 fuel x (by omega) (by omega) (by omega) (by simp [alphaAt]),
    alphasFrom_one]

private theorem trial_bounds (a : K) (h : a ∈ trialLengths) : 0 < a ∧ a ≤ 1 := by
  simp only [trialLengths, List.mem_append, List.mem_cons, List.not_mem_nil, or_false, List.mem_map,
    List.mem_range] at h
  rcases h with (rfl | rfl | rfl) | ⟨i, -, rfl⟩
  · norm_num
  · norm_num
  · norm_num
  · exact ⟨pow_pos (by norm_num) _, pow_le_one₀ (by norm_num) (by norm_num)⟩

/-- **C33.** On success the step length is in `(0, 1]`, the decrease is sufficient, hence strict unless the
residual was already zero, and no longer trial was acceptable; the contract of line searches holds. -/
theorem C33_success (e : E) (fuel : Nat) (hf : 13 ≤ fuel) (i : Nat) (F : Vec n K → Vec n K)
    (f x p : Vec n K) (a : K) (f' x' : Vec n K)
    (h : (backtracking e fuel : LineSearch n K E) i F f x p = some (.ok a, f', x')) :
    a ∈ trialLengths ∧ 0 < a ∧ a ≤ 1 ∧ x' = x + a • p ∧ f' = F x' ∧
      f' ⬝ᵥ f' ≤ (1 - 1 / 10000 * a) * (f ⬝ᵥ f) ∧ (f ≠ 0 → f' ⬝ᵥ f' < f ⬝ᵥ f) ∧
      ∀ b ∈ trialLengths, a < b → ¬ SufficientDecrease F f x p b := by
  classical
  rw [C33_first_acceptable_step e fuel hf] at h
  cases hfind : trialLengths.find? (fun a => SufficientDecrease F f x p a) with
  | none => simp only [hfind, Option.some.injEq, Prod.mk.injEq] at h; cases h.1
  | some a' =>
    simp only [hfind, Option.some.injEq, Prod.mk.injEq, Except.ok.injEq] at h
    obtain ⟨rfl, rfl, rfl⟩ := h
    have hmem := List.mem_of_find?_eq_some hfind
    have hdec : SufficientDecrease F f x p a' := by simpa using List.find?_some hfind
    obtain ⟨h0, h1⟩ := trial_bounds a' hmem
    refine ⟨hmem, h0, h1, rfl, rfl, hdec, fun hne => ?_, ?_⟩
    · have hpos : 0 < f ⬝ᵥ f := by
        obtain ⟨j, hj⟩ : ∃ j, f j ≠ 0 := by
          by_contra hcon
          exact hne (funext fun j => by_contra fun h => hcon ⟨j, h⟩)
        refine Finset.sum_pos' (fun k _ => mul_self_nonneg _) ⟨j, Finset.mem_univ _, ?_⟩
        exact mul_self_pos.2 hj
      refine lt_of_le_of_lt hdec ?_
      have : 0 < 1 / 10000 * a' * (f ⬝ᵥ f) := by positivity
      linarith
    · intro b hb hab
      -- the list is strictly decreasing
      have hsorted : (trialLengths : List K).Pairwise (· > ·) := by
        simp only [trialLengths, List.range_succ, List.range_zero]
        norm_num
      obtain ⟨hp, as, bs, heq, hall⟩ := List.find?_eq_some_iff_append.1 hfind
      rw [heq] at hb hsorted
      rcases List.mem_append.1 hb with hb | hb
      · simpa using hall b hb
      · exfalso
        rcases List.mem_cons.1 hb with rfl | hb
        · exact lt_irrefl _ hab
        · have := (List.pairwise_cons.1 (List.pairwise_append.1 hsorted).2.1).1 b hb
          exact lt_asymm hab this

/-- **C33.** On failure no trial length decreases sufficiently, and `x` is left at the last trial. -/
theorem C33_failure (e : E) (fuel : Nat) (hf : 13 ≤ fuel) (i : Nat) (F : Vec n K → Vec n K)
    (f x p : Vec n K) (e' : E) (f' x' : Vec n K)
    (h : (backtracking e fuel : LineSearch n K E) i F f x p = some (.error e', f', x')) :
    (∀ b ∈ trialLengths, ¬ SufficientDecrease F f x p b) ∧
      x' = x + ((1 / 4) ^ 10 : K) • p ∧ f' = F x' := by
  classical
  rw [C33_first_acceptable_step e fuel hf] at h
  cases hfind : trialLengths.find? (fun a => SufficientDecrease F f x p a) with
  | some a => simp only [hfind, Option.some.injEq, Prod.mk.injEq] at h; cases h.1
  | none =>
    simp only [hfind, Option.some.injEq, Prod.mk.injEq] at h
    obtain ⟨-, rfl, rfl⟩ := h
    refine ⟨fun b hb => ?_, rfl, rfl⟩
    have := List.find?_eq_none.1 hfind b hb
    simpa using this

/-- **C33, C32.** The backtracking search fulfils the contract of line searches and always returns. -/
theorem C33_backtracking_is_faithful (e : E) (fuel : Nat) (hf : 13 ≤ fuel) :
    Faithful (backtracking e fuel : LineSearch n K E) ∧
      ∀ i F f x d, (backtracking e fuel : LineSearch n K E) i F f x d ≠ none := by
  refine ⟨fun i F f x d a f' x' h => ?_, fun i F f x d h => ?_⟩
  · obtain ⟨-, -, -, h1, h2, -⟩ := C33_success e fuel hf i F f x d a f' x' h
    exact ⟨h1, h2⟩
  · rw [C33_first_acceptable_step e fuel hf] at h
    cases h

end Backtracking

/-- Non-vacuity: `x² - 2` from 1 with exact solves reaches `|F| ≤ 1/100` in two steps; with limit 1 the limit is
reported; a failing solver is reported. -/
example : ((newton (n := 1) (K := ℚ) (E := Unit) (fun x _ => x 0 * x 0 - 2)
      (fun _ x f => .ok fun _ => f 0 / (2 * x 0)) none (1 / 100) (fun v => |v 0|) 5 ![1]).map fun o =>
        (o.x 0, match o.result with | .ok k => some k | .error _ => none)) = some (17 / 12, some 2) ∧
    ((newton (n := 1) (K := ℚ) (E := Unit) (fun x _ => x 0 * x 0 - 2)
      (fun _ x f => .ok fun _ => f 0 / (2 * x 0)) (some 1) (1 / 100) (fun v => |v 0|) 5 ![1]).map fun o =>
        (o.x 0, match o.result with | .error (.maximumIterationsReached k) => some k | _ => none)) =
      some (3 / 2, some 1) := by
  constructor <;> decide +kernel

/-- Non-vacuity of C33: a direction that is twice too long is shortened to 3/4; an uphill direction fails. -/
example : ((backtracking (n := 1) (K := ℚ) () 13 0 (fun x => x) ![1] ![1] ![-2]).map fun t =>
      (t.1.toOption, t.2.1 0, t.2.2 0)) = some (some (3 / 4), -1 / 2, -1 / 2) ∧
    ((backtracking (n := 1) (K := ℚ) () 13 0 (fun x => x) ![1] ![1] ![1]).map fun t =>
      (t.1.toOption, t.2.2 0)) = some (none, 1 + (1 / 4) ^ 10) := by
  constructor <;> decide +kernel

end Newton
end Fenris
