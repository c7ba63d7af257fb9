import Verif.Model.ShippedRules.Basic
import Verif.Spec.ShippedRules
import Mathlib.Analysis.SpecialFunctions.Integrals.Basic
import Mathlib.Data.Nat.Choose.Sum
import Mathlib.Tactic.Ring
import Mathlib.Tactic.Linarith
import Mathlib.Tactic.FieldSimp
/-! # Checking quadrature rules with integers, and what the check means -/
set_option autoImplicit false

namespace Fenris.ShippedRules

/-! ## The check -/

/-- A power of an integer, in a form that the kernel evaluates fast. -/
def ipow (x : Int) (k : Nat) : Int := match x with
  | .ofNat n => .ofNat (Nat.pow n k)
  | .negSucc n => bif Nat.beq (Nat.mod k 2) 0 then .ofNat (Nat.pow (n + 1) k) else Int.negOfNat (Nat.pow (n + 1) k)

/-- The weight times the monomial. -/
def mono : List Nat → List Int → Int
  | [], [w] => w
  | a :: es, x :: rest => Int.mul (ipow x a) (mono es rest)
  | _, _ => 0

def total (rows : List (List Int)) (e : List Nat) : Int := rows.foldr (fun row acc => Int.add (mono e row) acc) 0

/-- The exponents of the monomials in `d` variables of total degree at most `s`. -/
def tuples : Nat → Nat → List (List Nat)
  | 0, _ => [[]]
  | d + 1, s => (List.range (s + 1)).flatMap fun a => (tuples d (s - a)).map (a :: ·)

def okMonomial (q : ℚ) (f : RuleFile) (e : List Nat) : Bool :=
  let p := 10 ^ (f.decimals * (e.sum + 1))
  decide ((total f.rows e * q.den - q.num * p).natAbs * 10 ^ 36 ≤ q.den * p)

/-- The check of a file: number of rows, shape of the rows, positive weights, points in the domain, and every monomial. -/
def check (ex : List Nat → ℚ) (inside : Int → List Int → Bool) (d : Nat) (f : RuleFile) : Bool :=
  decide (f.rows.length = f.size) &&
  (f.rows.all fun r => decide (r.length = d + 1) && decide (0 < r.getLastD 0) && inside (10 ^ f.decimals) r) &&
  (tuples d f.strength).all fun e => okMonomial (ex e) f e

/-! ## Its meaning -/

theorem ipow_eq (x : Int) (k : Nat) : ipow x k = x ^ k := by
  cases x with
  | ofNat n => simp [ipow]
  | negSucc n =>
    simp only [ipow]
    have e : Int.negSucc n = -((n + 1 : Nat) : Int) := rfl
    by_cases h : k % 2 = 0
    · have : Nat.beq (Nat.mod k 2) 0 = true := Nat.beq_eq ▸ h
      rw [this, cond_true, e, Even.neg_pow (Nat.even_iff.mpr h)]
      simp
    · have : Nat.beq (Nat.mod k 2) 0 = false := by
        rw [← Bool.not_eq_true, Nat.beq_eq]
        exact h
      rw [this, cond_false, e, Odd.neg_pow (Nat.odd_iff.mpr (by omega))]
      simp [Int.negOfNat_eq]

theorem mem_tuples (d s : Nat) (e : List Nat) (h : e.length = d) (hs : e.sum ≤ s) : e ∈ tuples d s := by
  induction d generalizing s e with
  | zero =>
    rw [List.length_eq_zero_iff] at h
    subst h
    simp [tuples]
  | succ d ih =>
    cases e with
    | nil => cases h
    | cons a e =>
      rw [List.sum_cons] at hs
      simp only [tuples, List.mem_flatMap, List.mem_range, List.mem_map]
      exact ⟨a, by omega, e, ih (s - a) e (by simpa using h) (by omega), rfl⟩

/-- The value of a weighted monomial at the numbers of a row. -/
noncomputable def realMono : List Nat → List ℝ → ℝ
  | [], [w] => w
  | a :: es, x :: rest => x ^ a * realMono es rest
  | _, _ => 0

theorem realMono_number (f : RuleFile) (e : List Nat) (row : List Int) (h : row.length = e.length + 1) :
    realMono e (row.map (f.number ℝ)) = (mono e row : ℝ) / 10 ^ (f.decimals * (e.sum + 1)) := by
  induction e generalizing row with
  | nil =>
    obtain ⟨w, rfl⟩ := List.length_eq_one_iff.mp (by simpa using h)
    simp [realMono, mono, RuleFile.number]
  | cons a e ih =>
    cases row with
    | nil => simp at h
    | cons x rest =>
      rw [List.map_cons, realMono, ih rest (by simpa using h)]
      have : ((mono (a :: e) (x :: rest) : ℤ) : ℝ) = (x : ℝ) ^ a * (mono e rest : ℝ) := by
        change ((ipow x a * mono e rest : ℤ) : ℝ) = _
        rw [ipow_eq]
        push_cast
        ring
      rw [this, RuleFile.number, List.sum_cons, div_pow, ← pow_mul, div_mul_div_comm, ← pow_add]
      congr 2
      ring

theorem total_number (f : RuleFile) (e : List Nat) (rows : List (List Int)) (h : ∀ row ∈ rows, row.length = e.length + 1) :
    (rows.map fun row => realMono e (row.map (f.number ℝ))).sum = (total rows e : ℝ) / 10 ^ (f.decimals * (e.sum + 1)) := by
  induction rows with
  | nil => simp [total]
  | cons row rows ih =>
    rw [List.map_cons, List.sum_cons, ih fun r hr => h r (List.mem_cons_of_mem _ hr),
      realMono_number f e row (h row List.mem_cons_self)]
    have : ((total (row :: rows) e : ℤ) : ℝ) = (mono e row : ℝ) + (total rows e : ℝ) := by
      change ((mono e row + total rows e : ℤ) : ℝ) = _
      push_cast
      ring
    rw [this, add_div]

theorem okMonomial_spec (q : ℚ) (f : RuleFile) (e : List Nat) (h : okMonomial q f e = true) :
    |(total f.rows e : ℝ) / 10 ^ (f.decimals * (e.sum + 1)) - q| ≤ 1 / 10 ^ 36 := by
  simp only [okMonomial, decide_eq_true_eq] at h
  have hp : (0 : ℝ) < 10 ^ (f.decimals * (e.sum + 1)) := by positivity
  have hq : (0 : ℝ) < (q.den : ℝ) := by exact_mod_cast q.den_pos
  have e1 : ((q : ℚ) : ℝ) = (q.num : ℝ) / q.den := by
    conv_lhs => rw [← Rat.num_div_den q]
    push_cast
    ring
  have h' : |((total f.rows e * q.den - q.num * 10 ^ (f.decimals * (e.sum + 1)) : ℤ) : ℝ)| * 10 ^ 36 ≤
      q.den * 10 ^ (f.decimals * (e.sum + 1)) := by
    rw [← Int.cast_abs, Int.abs_eq_natAbs]
    exact_mod_cast h
  push_cast at h'
  generalize (10 : ℝ) ^ (f.decimals * (e.sum + 1)) = P at *
  rw [e1, div_sub_div _ _ hp.ne' hq.ne', abs_div, abs_of_pos (mul_pos hp hq), div_le_div_iff₀ (mul_pos hp hq) (by positivity)]
  rw [one_mul, mul_comm P (q.num : ℝ), mul_comm P (q.den : ℝ)]
  exact h'

/-! ## From monomials to polynomials -/

theorem integrate_rule (d : Nat) (f : RuleFile) (g : (Fin d → ℝ) → ℝ) :
    (List.zipWith (fun w x => w * g x) (fixedRule ℝ d (f.rule ℝ)).1 (fixedRule ℝ d (f.rule ℝ)).2).sum =
      (f.rows.map fun row => f.number ℝ (row.getLastD 0) * g fun i : Fin d => (row.dropLast.map (f.number ℝ)).getD i 0).sum := by
  simp only [fixedRule, RuleFile.rule, List.map_map]
  congr 1
  rw [List.zipWith_map]
  generalize f.rows = rows
  induction rows with
  | nil => rfl
  | cons r rows ih => rw [List.zipWith_cons_cons, List.map_cons, ih]; rfl

private theorem row_two (row : List Int) (h : row.length = 3) : ∃ x y w, row = [x, y, w] := by
  match row, h with
  | [x, y, w], _ => exact ⟨x, y, w, rfl⟩

private theorem row_three (row : List Int) (h : row.length = 4) : ∃ x y z w, row = [x, y, z, w] := by
  match row, h with
  | [x, y, z, w], _ => exact ⟨x, y, z, w, rfl⟩

private theorem sum_map_sum {ι : Type} (s : Finset ι) (c : ι → ℝ) (F : ι → List Int → ℝ) (rows : List (List Int)) :
    (rows.map fun r => ∑ i ∈ s, c i * F i r).sum = ∑ i ∈ s, c i * (rows.map (F i)).sum := by
  induction rows with
  | nil => simp
  | cons r rows ih =>
    simp only [List.map_cons, List.sum_cons]
    rw [ih, ← Finset.sum_add_distrib]
    exact Finset.sum_congr rfl fun i _ => by ring

/-- A file that passes the check is a rule. -/
theorem check_two (ex : List Nat → ℚ) (inside : Int → List Int → Bool) (f : RuleFile) (h : check ex inside 2 f = true)
    (I : ((Fin 2 → ℝ) → ℝ) → ℝ) (hI : ∀ p : MvPolynomial (Fin 2) ℝ, I (fun x => MvPolynomial.eval x p) = ∑ m ∈ p.support, p.coeff m * (ex [m 0, m 1] : ℝ))
    (domain : (Fin 2 → ℝ) → Prop)
    (hd : ∀ (P : Int) (x y w : Int), 0 < P → inside P [x, y, w] = true → domain ![(x : ℝ) / P, (y : ℝ) / P]) :
    (fixedRule ℝ 2 (f.rule ℝ)).1.length = f.size ∧
    Spec.IsRule I domain f.strength (fixedRule ℝ 2 (f.rule ℝ)).1 (fixedRule ℝ 2 (f.rule ℝ)).2 := by
  simp only [check, Bool.and_eq_true, decide_eq_true_eq, List.all_eq_true] at h
  obtain ⟨⟨hlen, hrow⟩, hmono⟩ := h
  have hP : (0 : ℤ) < 10 ^ f.decimals := by positivity
  refine ⟨by simp [fixedRule, RuleFile.rule, hlen], by simp [fixedRule, RuleFile.rule], ?_, ?_, ?_⟩
  · intro w hw
    simp only [fixedRule, RuleFile.rule, List.mem_map] at hw
    obtain ⟨r, hr, rfl⟩ := hw
    have := (hrow r hr).1.2
    have h' : (0 : ℝ) < ((r.getLastD 0 : ℤ) : ℝ) := by exact_mod_cast this
    rw [RuleFile.number]
    positivity
  · intro p hp
    simp only [fixedRule, RuleFile.rule, List.mem_map] at hp
    obtain ⟨_, ⟨r, hr, rfl⟩, rfl⟩ := hp
    obtain ⟨x, y, w, rfl⟩ := row_two r (hrow r hr).1.1
    have := hd _ x y w hP (hrow _ hr).2
    convert this using 1
    funext i
    fin_cases i <;> simp [RuleFile.number]
  · intro p hp
    rw [integrate_rule 2 f fun x => MvPolynomial.eval x p, hI]
    have e1 : (f.rows.map fun row => f.number ℝ (row.getLastD 0) * MvPolynomial.eval (fun i : Fin 2 => (row.dropLast.map (f.number ℝ)).getD i 0) p) =
        f.rows.map fun row => ∑ m ∈ p.support, p.coeff m * realMono [m 0, m 1] (row.map (f.number ℝ)) := by
      apply List.map_congr_left
      intro r hr
      obtain ⟨x, y, w, rfl⟩ := row_two r (hrow r hr).1.1
      rw [MvPolynomial.eval_eq', Finset.mul_sum]
      refine Finset.sum_congr rfl fun m _ => ?_
      rw [Fin.prod_univ_two]
      simp [realMono]
      ring
    rw [e1, sum_map_sum, ← Finset.sum_sub_distrib, Spec.coefficientSum, Finset.sum_div]
    refine (Finset.abs_sum_le_sum_abs _ _).trans (Finset.sum_le_sum fun m hm => ?_)
    rw [← mul_sub, abs_mul, div_eq_mul_one_div]
    refine mul_le_mul_of_nonneg_left ?_ (abs_nonneg _)
    rw [total_number f [m 0, m 1] f.rows fun r hr => (hrow r hr).1.1]
    refine okMonomial_spec _ f _ (hmono _ (mem_tuples 2 _ _ rfl ?_))
    have := MvPolynomial.le_totalDegree hm
    rw [Finsupp.sum_fintype _ _ (fun _ => rfl), Fin.sum_univ_two] at this
    simpa using this.trans hp

/-- The same for three variables. -/
theorem check_three (ex : List Nat → ℚ) (inside : Int → List Int → Bool) (f : RuleFile) (h : check ex inside 3 f = true)
    (I : ((Fin 3 → ℝ) → ℝ) → ℝ) (hI : ∀ p : MvPolynomial (Fin 3) ℝ, I (fun x => MvPolynomial.eval x p) = ∑ m ∈ p.support, p.coeff m * (ex [m 0, m 1, m 2] : ℝ))
    (domain : (Fin 3 → ℝ) → Prop)
    (hd : ∀ (P : Int) (x y z w : Int), 0 < P → inside P [x, y, z, w] = true → domain ![(x : ℝ) / P, (y : ℝ) / P, (z : ℝ) / P]) :
    (fixedRule ℝ 3 (f.rule ℝ)).1.length = f.size ∧
    Spec.IsRule I domain f.strength (fixedRule ℝ 3 (f.rule ℝ)).1 (fixedRule ℝ 3 (f.rule ℝ)).2 := by
  simp only [check, Bool.and_eq_true, decide_eq_true_eq, List.all_eq_true] at h
  obtain ⟨⟨hlen, hrow⟩, hmono⟩ := h
  have hP : (0 : ℤ) < 10 ^ f.decimals := by positivity
  refine ⟨by simp [fixedRule, RuleFile.rule, hlen], by simp [fixedRule, RuleFile.rule], ?_, ?_, ?_⟩
  · intro w hw
    simp only [fixedRule, RuleFile.rule, List.mem_map] at hw
    obtain ⟨r, hr, rfl⟩ := hw
    have := (hrow r hr).1.2
    have h' : (0 : ℝ) < ((r.getLastD 0 : ℤ) : ℝ) := by exact_mod_cast this
    rw [RuleFile.number]
    positivity
  · intro p hp
    simp only [fixedRule, RuleFile.rule, List.mem_map] at hp
    obtain ⟨_, ⟨r, hr, rfl⟩, rfl⟩ := hp
    obtain ⟨x, y, z, w, rfl⟩ := row_three r (hrow r hr).1.1
    have := hd _ x y z w hP (hrow _ hr).2
    convert this using 1
    funext i
    fin_cases i <;> simp [RuleFile.number]
  · intro p hp
    rw [integrate_rule 3 f fun x => MvPolynomial.eval x p, hI]
    have e1 : (f.rows.map fun row => f.number ℝ (row.getLastD 0) * MvPolynomial.eval (fun i : Fin 3 => (row.dropLast.map (f.number ℝ)).getD i 0) p) =
        f.rows.map fun row => ∑ m ∈ p.support, p.coeff m * realMono [m 0, m 1, m 2] (row.map (f.number ℝ)) := by
      apply List.map_congr_left
      intro r hr
      obtain ⟨x, y, z, w, rfl⟩ := row_three r (hrow r hr).1.1
      rw [MvPolynomial.eval_eq', Finset.mul_sum]
      refine Finset.sum_congr rfl fun m _ => ?_
      rw [Fin.prod_univ_three]
      simp [realMono]
      ring
    rw [e1, sum_map_sum, ← Finset.sum_sub_distrib, Spec.coefficientSum, Finset.sum_div]
    refine (Finset.abs_sum_le_sum_abs _ _).trans (Finset.sum_le_sum fun m hm => ?_)
    rw [← mul_sub, abs_mul, div_eq_mul_one_div]
    refine mul_le_mul_of_nonneg_left ?_ (abs_nonneg _)
    rw [total_number f [m 0, m 1, m 2] f.rows fun r hr => (hrow r hr).1.1]
    refine okMonomial_spec _ f _ (hmono _ (mem_tuples 3 _ _ rfl ?_))
    have := MvPolynomial.le_totalDegree hm
    rw [Finsupp.sum_fintype _ _ (fun _ => rfl), Fin.sum_univ_three] at this
    simpa [add_assoc] using this.trans hp

end Fenris.ShippedRules
