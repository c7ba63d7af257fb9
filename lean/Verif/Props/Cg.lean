import Verif.Spec.Cg
import Mathlib.Tactic.Ring
import Mathlib.Tactic.Linarith
import Mathlib.Tactic.FieldSimp
/-! # C30: what the conjugate gradient solver reports -/
set_option autoImplicit false
set_option linter.unusedSectionVars false

namespace Fenris
namespace Cg

open Spec

variable {n : Nat} {K E : Type} [Field K] [LinearOrder K]

/-- The loop started after `k` steps of the method. -/
private theorem loop_spec (c : Solver n K E) (b x₀ : Vec n K) (fuel : Nat) :
    ∀ (k : Nat) (x r z p : Nat → Vec n K), Iterates c.operator c.preconditioner b x₀ k x r z p →
      (∀ i, i < k → c.hasConverged (x i) b (c.norm b) i (r i) = .ok false) →
      (∀ m, c.maxIter = some m → k ≤ m) →
      ∀ res, loop c b fuel ⟨x k, r k, z k, p k, z k ⬝ᵥ r k, k⟩ = res →
      ∃ (j : Nat) (x r z p : Nat → Vec n K), Iterates c.operator c.preconditioner b x₀ j x r z p ∧
        (∀ i, i < j → c.hasConverged (x i) b (c.norm b) i (r i) = .ok false) ∧
        (∀ m, c.maxIter = some m → j ≤ m) ∧
        ((∃ out, res = some out ∧ Stops c b j x r z p out) ∨ (res = none ∧ j = k + fuel)) := by
  induction fuel with
  | zero => intro k x r z p h1 h2 h3 res h; exact ⟨k, x, r, z, p, h1, h2, h3, Or.inr ⟨h.symm, rfl⟩⟩
  | succ fuel ih =>
    intro k x r z p hit hnc hlim res h
    simp only [loop, iteration] at h
    cases hc : c.hasConverged (x k) b (c.norm b) k (r k) with
    | error kind =>
      simp only [hc] at h
      subst h
      exact ⟨k, x, r, z, p, hit, hnc, hlim,
            Or.inl ⟨_, rfl, .criterionFails kind hc⟩⟩
    | ok conv =>
      cases conv with
      | true =>
        simp only [hc] at h
        subst h
        exact ⟨k, x, r, z, p, hit, hnc, hlim,
            Or.inl ⟨_, rfl, .converged hc⟩⟩
      | false =>
        simp only [hc] at h
        cases hl : limitReached c.maxIter k with
        | some m =>
          simp only [hl] at h
          subst h
          have : c.maxIter = some k ∧ m = k := by
            cases hm : c.maxIter with
            | none => rw [hm] at hl; cases hl
            | some m' =>
              rw [hm] at hl
              simp only [limitReached] at hl
              split at hl
              · cases hl
                have := hlim m hm
                have : m = k := by omega
                subst this
                exact ⟨rfl, rfl⟩
              · cases hl
          obtain ⟨hm, rfl⟩ := this
          exact ⟨m, x, r, z, p, hit, hnc, hlim,
            Or.inl ⟨_, rfl, .limit hc hm⟩⟩
        | none =>
          have hlim' : ∀ m, c.maxIter = some m → k < m := by
            intro m hm
            rw [hm] at hl
            simp only [limitReached] at hl
            split at hl
            · cases hl
            · omega
          simp only [hl] at h
          cases ho : c.operator (k + 1) (p k) with
          | error e =>
            simp only [ho] at h
            subst h
            exact ⟨k, x, r, z, p, hit, hnc, hlim,
            Or.inl ⟨_, rfl, .operatorFails hc e ho⟩⟩
          | ok q =>
            simp only [ho] at h
            by_cases hpq : p k ⬝ᵥ q ≤ 0
            · simp only [if_pos hpq] at h
              subst h
              exact ⟨k, x, r, z, p, hit, hnc, hlim,
            Or.inl ⟨_, rfl, .indefiniteOperator hc q ho hpq⟩⟩
            · rw [if_neg hpq] at h
              by_cases hzr : z k ⬝ᵥ r k ≤ 0
              · simp only [if_pos hzr] at h
                subst h
                exact ⟨k, x, r, z, p, hit, hnc, hlim,
            Or.inl ⟨_, rfl, .indefinitePreconditioner hc q ho (not_le.1 hpq) hzr⟩⟩
              · rw [if_neg hzr] at h
                have hx : (fun i => x k i + z k ⬝ᵥ r k / (p k ⬝ᵥ q) * p k i) =
                    x k + (z k ⬝ᵥ r k / (p k ⬝ᵥ q)) • p k := rfl
                have hr : (fun i => r k i - z k ⬝ᵥ r k / (p k ⬝ᵥ q) * q i) =
                    r k - (z k ⬝ᵥ r k / (p k ⬝ᵥ q)) • q := rfl
                simp only [hx, hr, finishIteration] at h
                cases hp : c.preconditioner (k + 1) (r k - (z k ⬝ᵥ r k / (p k ⬝ᵥ q)) • q) with
                | error e =>
                  simp only [hp] at h
                  subst h
                  refine ⟨k, x, r, z, p, hit, hnc, hlim,
            Or.inl ⟨_, rfl, .preconditionerFails hc q ho (not_le.1 hpq)
                    (not_le.1 hzr) e (fun hm => absurd (hlim' k hm) (lt_irrefl _)) hp⟩⟩
                | ok z' =>
                  simp only [hp] at h
                  set x' := x k + (z k ⬝ᵥ r k / (p k ⬝ᵥ q)) • p k with hx'
                  set r' := r k - (z k ⬝ᵥ r k / (p k ⬝ᵥ q)) • q with hr'
                  set p' : Vec n K := fun i => p k i * (z' ⬝ᵥ r' / (z k ⬝ᵥ r k)) + z' i with hp'
                  have hpe : p' = z' + (z' ⬝ᵥ r' / (z k ⬝ᵥ r k)) • p k := by
                    funext i
                    simp only [hp', Pi.add_apply, Pi.smul_apply, smul_eq_mul]
                    ring
                  have hne : k + 1 ≠ 0 := Nat.succ_ne_zero k
                  have key := ih (k + 1) (fun i => if i = k + 1 then x' else x i)
                    (fun i => if i = k + 1 then r' else r i) (fun i => if i = k + 1 then z' else z i)
                    (fun i => if i = k + 1 then p' else p i)
                  simp only [if_true] at key
                  have e1 : k + 1 + fuel = k + (fuel + 1) := by omega
                  rw [e1] at key
                  refine key ?_ ?_ (fun m hm => hlim' m hm) res h
                  · refine ⟨?_, ?_, ?_, ?_, ?_⟩
                    · simpa using hit.start
                    · simpa using hit.residual
                    · simpa using hit.direction
                    · intro i hi
                      by_cases he : i = k + 1
                      · subst he; simpa using hp
                      · simp only [if_neg he]; exact hit.precondition i (by omega)
                    · intro i hi
                      have he : i ≠ k + 1 := by omega
                      simp only [if_neg he]
                      by_cases hik : i = k
                      · subst hik
                        simp only [if_true]
                        exact ⟨q, ho, ⟨not_le.1 hpq, not_le.1 hzr, rfl, rfl, hpe⟩⟩
                      · have he' : i + 1 ≠ k + 1 := by omega
                        simp only [if_neg he']
                        exact hit.step i (by omega)
                  · intro i hi
                    have he : i ≠ k + 1 := by omega
                    simp only [if_neg he]
                    by_cases hik : i = k
                    · subst hik; exact hc
                    · exact hnc i (by omega)

/-- Following the solver for `fuel` rounds: it has returned, or `fuel` well defined steps were made. -/
theorem solve_progress (c : Solver n K E) (fuel : Nat) (b x₀ : Vec n K)
    (h : solveWithGuess c fuel b x₀ = none) :
    ∃ (x r z p : Nat → Vec n K), Iterates c.operator c.preconditioner b x₀ fuel x r z p ∧
      ∀ i, i < fuel → c.hasConverged (x i) b (c.norm b) i (r i) = .ok false := by
  unfold solveWithGuess at h
  cases ho : c.operator 0 x₀ with
  | error e => simp only [ho] at h; cases h
  | ok y =>
    have hr : (fun i => b i - y i) = b - y := rfl
    simp only [ho, hr] at h
    cases hp : c.preconditioner 0 (b - y) with
    | error e => simp only [hp] at h; cases h
    | ok z =>
      simp only [hp] at h
      split at h
      · cases h
      · obtain ⟨j, x, r, z, p, h1, h2, -, h3⟩ := loop_spec c b x₀ fuel 0 (fun _ => x₀) (fun _ => b - y)
          (fun _ => z) (fun _ => z)
          ⟨rfl, ⟨y, ho, rfl⟩, rfl, fun i hi => by obtain rfl : i = 0 := by omega
                                                  exact hp, fun i hi => by omega⟩
          (fun i hi => by omega) (fun m _ => by omega) _ h
        rcases h3 with ⟨out, h3, -⟩ | ⟨-, rfl⟩
        · cases h3
        · rw [Nat.zero_add] at h1 h2
          exact ⟨x, r, z, p, h1, h2⟩

/-- **C30.** Complete description of what a solve returns. Either the very first application of the operator
or of the preconditioner fails and is passed through with `x` untouched; or `b` has norm zero and the answer
is `x = 0` after zero iterations; or there are `k ≤ max_iter` well defined steps of the textbook method, at
none of which the criterion held, and the solver stops at step `k` for the reason it states. -/
theorem C30_outcome (c : Solver n K E) (fuel : Nat) (b x₀ : Vec n K) (out : Outcome n K E)
    (h : solveWithGuess c fuel b x₀ = some out) :
    (∃ e, c.operator 0 x₀ = .error e ∧ out = ⟨x₀, 0, .error (.operatorError e)⟩) ∨
    (∃ y e, c.operator 0 x₀ = .ok y ∧ c.preconditioner 0 (b - y) = .error e ∧
      out = ⟨x₀, 0, .error (.preconditionerError e)⟩) ∨
    (c.norm b = 0 ∧ out = ⟨0, 0, .ok ()⟩) ∨
    (c.norm b ≠ 0 ∧ ∃ (k : Nat) (x r z p : Nat → Vec n K),
      Iterates c.operator c.preconditioner b x₀ k x r z p ∧
      (∀ i, i < k → c.hasConverged (x i) b (c.norm b) i (r i) = .ok false) ∧
      (∀ m, c.maxIter = some m → k ≤ m) ∧ Stops c b k x r z p out) := by
  unfold solveWithGuess at h
  cases ho : c.operator 0 x₀ with
  | error e =>
    simp only [ho, Option.some.injEq] at h
    exact Or.inl ⟨e, rfl, h.symm⟩
  | ok y =>
    have hr : (fun i => b i - y i) = b - y := rfl
    simp only [ho, hr] at h
    cases hp : c.preconditioner 0 (b - y) with
    | error e =>
      simp only [hp, Option.some.injEq] at h
      exact Or.inr (Or.inl ⟨y, e, rfl, hp, h.symm⟩)
    | ok z =>
      simp only [hp] at h
      by_cases hb : c.norm b = 0
      · simp only [if_pos hb, Option.some.injEq] at h
        exact Or.inr (Or.inr (Or.inl ⟨hb, h.symm⟩))
      · rw [if_neg hb] at h
        refine Or.inr (Or.inr (Or.inr ⟨hb, ?_⟩))
        have key := loop_spec c b x₀ fuel 0 (fun _ => x₀) (fun _ => b - y) (fun _ => z) (fun _ => z) ?_ ?_ ?_ _ h
        · obtain ⟨j, x, r, z, p, h1, h2, h3, h4⟩ := key
          refine ⟨j, x, r, z, p, h1, h2, h3, ?_⟩
          rcases h4 with ⟨out', h4, h5⟩ | ⟨h4, -⟩
          · cases h4; exact h5
          · cases h4
        · refine ⟨rfl, ⟨y, ho, rfl⟩, rfl, ?_, ?_⟩
          · intro i hi
            obtain rfl : i = 0 := by omega
            exact hp
          · intro i hi; omega
        · intro i hi; omega
        · intro m _; omega

private theorem loop_terminates (c : Solver n K E) (b : Vec n K) (m : Nat) (hm : c.maxIter = some m) :
    ∀ (fuel : Nat) (s : State n K), m + 1 ≤ s.numIterations + fuel → 0 < fuel → ∃ out, loop c b fuel s = some out := by
  intro fuel
  induction fuel with
  | zero => intro s _ h; omega
  | succ fuel ih =>
    intro s hs _
    simp only [loop]
    cases hi : iteration c b s with
    | inl out => exact ⟨out, rfl⟩
    | inr s' =>
      have : s.numIterations < m ∧ s'.numIterations = s.numIterations + 1 := by
        by_cases hge : s.numIterations ≥ m
        · simp only [iteration, hm, limitReached, if_pos hge] at hi
          split at hi <;> cases hi
        simp only [iteration] at hi
        split at hi
        · cases hi
        · cases hi
        · rw [hm] at hi
          simp only [limitReached] at hi
          split at hi
          · cases hi
          · split at hi
            · cases hi
            · split at hi
              · cases hi
              · split at hi
                · cases hi
                · simp only [finishIteration] at hi
                  split at hi
                  · cases hi
                  · cases hi
                    exact ⟨by omega, rfl⟩
      exact ih s' (by omega) (by omega)

/-- **C30.** With an iteration limit the solver returns, after at most `max_iter + 1` rounds of the loop. -/
theorem C30_terminates_within_limit (c : Solver n K E) (m : Nat) (hm : c.maxIter = some m) (fuel : Nat)
    (hf : m < fuel) (b x₀ : Vec n K) : ∃ out, solveWithGuess c fuel b x₀ = some out ∧ out.numIterations ≤ m := by
  have hex : ∃ out, solveWithGuess c fuel b x₀ = some out := by
    unfold solveWithGuess
    split
    · exact ⟨_, rfl⟩
    · split
      · exact ⟨_, rfl⟩
      · split
        · exact ⟨_, rfl⟩
        · exact loop_terminates c b m hm fuel _ (by simp; omega) (by omega)
  obtain ⟨out, h⟩ := hex
  refine ⟨out, h, ?_⟩
  rcases C30_outcome c fuel b x₀ out h with ⟨e, -, rfl⟩ | ⟨y, e, -, -, rfl⟩ | ⟨-, rfl⟩ |
    ⟨-, k, x, r, z, p, -, -, hk, hs⟩
  · exact Nat.zero_le _
  · exact Nat.zero_le _
  · exact Nat.zero_le _
  · have := hk m hm
    cases hs with
    | preconditionerFails h q ho hpq hzr e hne hp =>
      have : m ≠ k := fun h => hne (by rw [hm, h])
      show k + 1 ≤ m
      omega
    | _ => exact this

private theorem loop_mono (c : Solver n K E) (b : Vec n K) : ∀ (fuel fuel' : Nat) (s : State n K)
    (out : Outcome n K E), fuel ≤ fuel' → loop c b fuel s = some out → loop c b fuel' s = some out := by
  intro fuel
  induction fuel with
  | zero => intro _ _ _ _ h; cases h
  | succ fuel ih =>
    intro fuel' s out hf h
    obtain ⟨f', rfl⟩ : ∃ f', fuel' = f' + 1 := ⟨fuel' - 1, by omega⟩
    simp only [loop] at h ⊢
    cases hi : iteration c b s with
    | inl o => rw [hi] at h; exact h
    | inr s' => rw [hi] at h; exact ih f' s' out (by omega) h

/-- The number of rounds we follow the loop for does not influence the outcome. -/
theorem C30_outcome_is_unique (c : Solver n K E) (fuel fuel' : Nat) (b x₀ : Vec n K) (out out' : Outcome n K E)
    (h : solveWithGuess c fuel b x₀ = some out) (h' : solveWithGuess c fuel' b x₀ = some out') : out = out' := by
  unfold solveWithGuess at h h'
  cases ho : c.operator 0 x₀ with
  | error e => simp only [ho] at h h'; rw [h] at h'; exact Option.some.inj h'
  | ok y =>
    simp only [ho] at h h'
    cases hp : c.preconditioner 0 (fun i => b i - y i) with
    | error e => simp only [hp] at h h'; rw [h] at h'; exact Option.some.inj h'
    | ok z =>
      simp only [hp] at h h'
      by_cases hb : c.norm b = 0
      · simp only [if_pos hb] at h h'; rw [h] at h'; exact Option.some.inj h'
      · simp only [if_neg hb] at h h'
        have h1 := loop_mono c b fuel (max fuel fuel') _ out (le_max_left _ _) h
        have h2 := loop_mono c b fuel' (max fuel fuel') _ out' (le_max_right _ _) h'
        rw [h1] at h2
        exact Option.some.inj h2

/-- **C30.** `Ok(k)`: the right-hand side has norm zero and the answer is zero, or the criterion held for
the returned `x`, which is the `k`-th iterate, with the residual maintained by the method. -/
theorem C30_ok_means_criterion_held (c : Solver n K E) (fuel : Nat) (b x₀ x : Vec n K) (k : Nat)
    (h : solveWithGuess c fuel b x₀ = some ⟨x, k, .ok ()⟩) :
    (c.norm b = 0 ∧ x = 0 ∧ k = 0) ∨ ∃ (xs r z p : Nat → Vec n K),
      Iterates c.operator c.preconditioner b x₀ k xs r z p ∧ x = xs k ∧
      c.hasConverged x b (c.norm b) k (r k) = .ok true := by
  rcases C30_outcome c fuel b x₀ _ h with ⟨e, -, h⟩ | ⟨y, e, -, -, h⟩ | ⟨hb, h⟩ |
    ⟨-, k', xs, r, z, p, hit, -, hk, hs⟩
  · cases h
  · cases h
  · cases h; exact Or.inl ⟨hb, rfl, rfl⟩
  · cases hs with
    | converged hc => exact Or.inr ⟨xs, r, z, p, hit, rfl, hc⟩

/-- **C30.** `MaxIterationsReached { max_iter }`: exactly `max_iter` steps were made, and the criterion was
evaluated for the returned `x` and did not hold — unless the criterion itself reports this error. -/
theorem C30_max_iterations (c : Solver n K E) (fuel : Nat) (b x₀ x : Vec n K) (k m : Nat)
    (h : solveWithGuess c fuel b x₀ = some ⟨x, k, .error (.maxIterationsReached m)⟩)
    (hcrit : ∀ x b nb k r, c.hasConverged x b nb k r ≠ .error (.maxIterationsReached m)) :
    c.maxIter = some m ∧ k = m ∧ ∃ (xs r z p : Nat → Vec n K),
      Iterates c.operator c.preconditioner b x₀ k xs r z p ∧ x = xs k ∧
      ∀ i, i ≤ k → c.hasConverged (xs i) b (c.norm b) i (r i) = .ok false := by
  rcases C30_outcome c fuel b x₀ _ h with ⟨e, -, h⟩ | ⟨y, e, -, -, h⟩ | ⟨hb, h⟩ |
    ⟨-, k', xs, r, z, p, hit, hnc, hk, hs⟩
  · cases h
  · cases h
  · cases h
  · cases hs with
    | criterionFails _ h => exact absurd h (hcrit _ _ _ _ _)
    | limit hc hm =>
      refine ⟨hm, rfl, xs, r, z, p, hit, rfl, fun i hi => ?_⟩
      by_cases he : i = k
      · subst he; exact hc
      · exact hnc i (by omega)

/-- **C30.** `IndefiniteOperator` is reported only if the operator maps the current search direction `p` to
some `q` with `p·q ≤ 0`; `IndefinitePreconditioner` only if `z·r ≤ 0` (unless the criterion itself reports
these errors). -/
theorem C30_indefinite (c : Solver n K E) (fuel : Nat) (b x₀ x : Vec n K) (k : Nat) :
    ((∀ x b nb k r, c.hasConverged x b nb k r ≠ .error .indefiniteOperator) →
      solveWithGuess c fuel b x₀ = some ⟨x, k, .error .indefiniteOperator⟩ →
      ∃ (xs r z p : Nat → Vec n K) (q : Vec n K),
        Iterates c.operator c.preconditioner b x₀ k xs r z p ∧ x = xs k ∧
        c.operator (k + 1) (p k) = .ok q ∧ p k ⬝ᵥ q ≤ 0) ∧
    ((∀ x b nb k r, c.hasConverged x b nb k r ≠ .error .indefinitePreconditioner) →
      solveWithGuess c fuel b x₀ = some ⟨x, k, .error .indefinitePreconditioner⟩ →
      ∃ (xs r z p : Nat → Vec n K),
        Iterates c.operator c.preconditioner b x₀ k xs r z p ∧ x = xs k ∧
        c.preconditioner k (r k) = .ok (z k) ∧ z k ⬝ᵥ r k ≤ 0) := by
  constructor
  · intro hcrit h
    rcases C30_outcome c fuel b x₀ _ h with ⟨e, -, h⟩ | ⟨y, e, -, -, h⟩ | ⟨hb, h⟩ |
      ⟨-, k', xs, r, z, p, hit, hnc, hk, hs⟩
    · cases h
    · cases h
    · cases h
    · cases hs with
      | criterionFails _ h => exact absurd h (hcrit _ _ _ _ _)
      | indefiniteOperator h q ho hpq => exact ⟨xs, r, z, p, q, hit, rfl, ho, hpq⟩
  · intro hcrit h
    rcases C30_outcome c fuel b x₀ _ h with ⟨e, -, h⟩ | ⟨y, e, -, -, h⟩ | ⟨hb, h⟩ |
      ⟨-, k', xs, r, z, p, hit, hnc, hk, hs⟩
    · cases h
    · cases h
    · cases h
    · cases hs with
      | criterionFails _ h => exact absurd h (hcrit _ _ _ _ _)
      | indefinitePreconditioner h q ho hpq hzr =>
        exact ⟨xs, r, z, p, hit, rfl, hit.precondition k (le_refl _), hzr⟩

/-- **C30.** Errors are passed through: an `OperatorError(e)` comes from a call of the operator that returned
`e`, a `PreconditionerError(e)` from such a call of the preconditioner (or from the criterion). -/
theorem C30_errors_are_passed_through (c : Solver n K E) (fuel : Nat) (b x₀ : Vec n K) (out : Outcome n K E)
    (h : solveWithGuess c fuel b x₀ = some out) (e : E) :
    (out.result = .error (.operatorError e) →
      (∃ i v, c.operator i v = .error e) ∨
      ∃ x k r, c.hasConverged x b (c.norm b) k r = .error (.operatorError e)) ∧
    (out.result = .error (.preconditionerError e) →
      (∃ i v, c.preconditioner i v = .error e) ∨
      ∃ x k r, c.hasConverged x b (c.norm b) k r = .error (.preconditionerError e)) := by
  rcases C30_outcome c fuel b x₀ _ h with ⟨e, he, rfl⟩ | ⟨y, e, -, he, rfl⟩ | ⟨hb, rfl⟩ |
    ⟨-, k, xs, r, z, p, hit, hnc, hk, hs⟩
  · refine ⟨fun h => ?_, fun h => by cases h⟩
    cases h; exact Or.inl ⟨0, x₀, he⟩
  · refine ⟨fun h => (by cases h), fun h => ?_⟩
    cases h; exact Or.inl ⟨0, _, he⟩
  · exact ⟨fun h => (by cases h), fun h => by cases h⟩
  · cases hs with
    | criterionFails kind hc =>
      exact ⟨fun h => (by cases h; exact Or.inr ⟨_, _, _, hc⟩), fun h => by cases h; exact Or.inr ⟨_, _, _, hc⟩⟩
    | operatorFails hc e' ho =>
      exact ⟨fun h => (by cases h; exact Or.inl ⟨_, _, ho⟩), fun h => by cases h⟩
    | preconditionerFails hc q ho hpq hzr e' hm hp =>
      exact ⟨fun h => (by cases h), fun h => by cases h; exact Or.inl ⟨_, _, hp⟩⟩
    | _ => exact ⟨fun h => (by cases h), fun h => by cases h⟩

end Cg
end Fenris
