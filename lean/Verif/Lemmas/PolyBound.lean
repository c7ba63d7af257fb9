import Verif.Spec.ShippedRules
import Mathlib.Algebra.MvPolynomial.Degrees
import Mathlib.Tactic.Ring
import Mathlib.Tactic.Linarith
import Mathlib.Tactic.Positivity
/-! # Functions that are polynomials of bounded degree with bounded coefficients -/
set_option autoImplicit false

namespace Fenris.ShippedRules
open Spec MvPolynomial
variable {d : Nat}

/-! ## The sum of the coefficients -/

theorem coefficientSum_eq_sum (p : MvPolynomial (Fin d) ℝ) (s : Finset (Fin d →₀ ℕ)) (h : p.support ⊆ s) : coefficientSum p = ∑ m ∈ s, |p.coeff m| := by
  refine Finset.sum_subset h fun m _ hm => ?_
  rw [notMem_support_iff.mp hm, abs_zero]

theorem coefficientSum_nonneg (p : MvPolynomial (Fin d) ℝ) : 0 ≤ coefficientSum p := Finset.sum_nonneg fun _ _ => abs_nonneg _

theorem coefficientSum_add (p q : MvPolynomial (Fin d) ℝ) : coefficientSum (p + q) ≤ coefficientSum p + coefficientSum q := by
  classical
  rw [coefficientSum_eq_sum (p + q) (p.support ∪ q.support) support_add, coefficientSum_eq_sum p (p.support ∪ q.support) Finset.subset_union_left,
    coefficientSum_eq_sum q (p.support ∪ q.support) Finset.subset_union_right, ← Finset.sum_add_distrib]
  refine Finset.sum_le_sum fun m _ => ?_
  rw [coeff_add]
  exact abs_add_le _ _

theorem coefficientSum_monomial_mul (m : Fin d →₀ ℕ) (c : ℝ) (q : MvPolynomial (Fin d) ℝ) :
    coefficientSum (monomial m c * q) ≤ |c| * coefficientSum q := by
  classical
  have hs : (monomial m c * q).support ⊆ q.support.image (m + ·) := by
    intro k hk
    rw [mem_support_iff, coeff_monomial_mul'] at hk
    split at hk
    · rename_i hle
      refine Finset.mem_image.mpr ⟨k - m, mem_support_iff.mpr fun h => hk (by rw [h, mul_zero]), ?_⟩
      exact add_tsub_cancel_of_le hle
    · exact absurd rfl hk
  rw [coefficientSum_eq_sum _ _ hs, Finset.sum_image (fun a _ b _ h => add_left_cancel h), coefficientSum, Finset.mul_sum]
  refine Finset.sum_le_sum fun k _ => ?_
  rw [add_comm m k, mul_comm, coeff_mul_monomial, abs_mul, mul_comm]

theorem coefficientSum_sum {ι : Type} (s : Finset ι) (f : ι → MvPolynomial (Fin d) ℝ) : coefficientSum (∑ i ∈ s, f i) ≤ ∑ i ∈ s, coefficientSum (f i) := by
  classical
  induction s using Finset.induction_on with
  | empty => simp [coefficientSum]
  | insert a s ha ih =>
    rw [Finset.sum_insert ha, Finset.sum_insert ha]
    exact (coefficientSum_add _ _).trans (add_le_add_right ih _)

theorem coefficientSum_mul (p q : MvPolynomial (Fin d) ℝ) : coefficientSum (p * q) ≤ coefficientSum p * coefficientSum q := by
  conv_lhs => rw [p.as_sum, Finset.sum_mul]
  refine (coefficientSum_sum _ _).trans ?_
  rw [coefficientSum, Finset.sum_mul]
  exact Finset.sum_le_sum fun m _ => coefficientSum_monomial_mul _ _ _

theorem coefficientSum_C (c : ℝ) : coefficientSum (C c : MvPolynomial (Fin d) ℝ) ≤ |c| := by
  classical
  rw [coefficientSum_eq_sum (C c) {0} (by rw [C_apply]; exact support_monomial_subset), Finset.sum_singleton, coeff_C, if_pos rfl]

theorem coefficientSum_X (i : Fin d) : coefficientSum (X i : MvPolynomial (Fin d) ℝ) = 1 := by
  rw [coefficientSum, support_X, Finset.sum_singleton, coeff_X, if_pos rfl, abs_one]

/-! ## Total degree -/

/-- A polynomial function of total degree at most `n` whose coefficients add up to at most `B`. -/
def PolyBd (n : Nat) (B : ℝ) (f : (Fin d → ℝ) → ℝ) : Prop :=
  ∃ p : MvPolynomial (Fin d) ℝ, p.totalDegree ≤ n ∧ coefficientSum p ≤ B ∧ ∀ x, f x = eval x p

namespace PolyBd
variable {n n' : Nat} {B B' : ℝ} {f g : (Fin d → ℝ) → ℝ}

theorem nonneg (h : PolyBd n B f) : 0 ≤ B := by
  obtain ⟨p, -, h2, -⟩ := h
  exact (coefficientSum_nonneg p).trans h2

theorem mono (h : PolyBd n B f) (hn : n ≤ n') (hB : B ≤ B') : PolyBd n' B' f := by
  obtain ⟨p, h1, h2, h3⟩ := h
  exact ⟨p, h1.trans hn, h2.trans hB, h3⟩

theorem const (c : ℝ) : PolyBd (d := d) 0 |c| fun _ => c := ⟨C c, by simp, coefficientSum_C c, fun x => by simp⟩

theorem coord (i : Fin d) : PolyBd 1 1 fun x => x i :=
  ⟨X i, by rw [totalDegree_X], (coefficientSum_X i).le, fun x => by simp⟩

theorem add (h : PolyBd n B f) (h' : PolyBd n B' g) : PolyBd n (B + B') fun x => f x + g x := by
  obtain ⟨p, h1, h2, h3⟩ := h
  obtain ⟨q, h4, h5, h6⟩ := h'
  refine ⟨p + q, (totalDegree_add p q).trans (max_le h1 h4), (coefficientSum_add p q).trans (add_le_add h2 h5), fun x => ?_⟩
  rw [eval_add, ← h3, ← h6]

theorem mul (h : PolyBd n B f) (h' : PolyBd n' B' g) : PolyBd (n + n') (B * B') fun x => f x * g x := by
  have hB := h.nonneg
  obtain ⟨p, h1, h2, h3⟩ := h
  obtain ⟨q, h4, h5, h6⟩ := h'
  refine ⟨p * q, (totalDegree_mul p q).trans (add_le_add h1 h4),
    (coefficientSum_mul p q).trans (mul_le_mul h2 h5 (coefficientSum_nonneg q) hB), fun x => ?_⟩
  rw [eval_mul, ← h3, ← h6]

theorem smul (h : PolyBd n B f) (c : ℝ) : PolyBd n (|c| * B) fun x => c * f x := by
  have := (const c).mul h
  rwa [zero_add] at this

theorem zero : PolyBd (d := d) n 0 fun _ => 0 := by
  have := (const (d := d) 0).mono (Nat.zero_le n) (le_refl _)
  rwa [abs_zero] at this

theorem sum {ι : Type} (s : Finset ι) (F : ι → (Fin d → ℝ) → ℝ) (b : ι → ℝ) (h : ∀ i ∈ s, PolyBd n (b i) (F i)) :
    PolyBd n (∑ i ∈ s, b i) fun x => ∑ i ∈ s, F i x := by
  classical
  induction s using Finset.induction_on with
  | empty => simpa using zero
  | insert a s ha ih =>
    have := (h a (Finset.mem_insert_self a s)).add (ih fun i hi => h i (Finset.mem_insert_of_mem hi))
    simpa only [Finset.sum_insert ha] using this

theorem congr (h : PolyBd n B f) (hg : ∀ x, g x = f x) : PolyBd n B g := by
  obtain ⟨p, h1, h2, h3⟩ := h
  exact ⟨p, h1, h2, fun x => (hg x).trans (h3 x)⟩

theorem sub (h : PolyBd n B f) (h' : PolyBd n B' g) : PolyBd n (B + B') fun x => f x - g x := by
  have := h.add (h'.smul (-1))
  rw [abs_neg, abs_one, one_mul] at this
  exact this.congr fun x => by ring

end PolyBd

/-! ## Degrees in the variables -/

/-- A polynomial function of degree at most `v i` in variable `i`. -/
def PolyVar (v : Fin d → Nat) (f : (Fin d → ℝ) → ℝ) : Prop :=
  ∃ p : MvPolynomial (Fin d) ℝ, (∀ i, p.degreeOf i ≤ v i) ∧ ∀ x, f x = eval x p

namespace PolyVar
variable {v w : Fin d → Nat} {f g : (Fin d → ℝ) → ℝ}

theorem mono (h : PolyVar v f) (hv : ∀ i, v i ≤ w i) : PolyVar w f := by
  obtain ⟨p, h1, h2⟩ := h
  exact ⟨p, fun i => (h1 i).trans (hv i), h2⟩

theorem const (v : Fin d → Nat) (c : ℝ) : PolyVar v fun _ => c := ⟨C c, fun i => by simp, fun x => by simp⟩

theorem coord (i : Fin d) : PolyVar (Pi.single i 1) fun x => x i :=
  ⟨X i, fun j => by
    classical
    rw [degreeOf_X]
    split
    · rename_i h
      rw [h, Pi.single_eq_same]
    · exact Nat.zero_le _, fun x => by simp⟩

theorem add (h : PolyVar v f) (h' : PolyVar v g) : PolyVar v fun x => f x + g x := by
  obtain ⟨p, h1, h2⟩ := h
  obtain ⟨q, h3, h4⟩ := h'
  refine ⟨p + q, fun i => (degreeOf_add_le i p q).trans (max_le (h1 i) (h3 i)), fun x => ?_⟩
  rw [eval_add, ← h2, ← h4]

theorem mul (h : PolyVar v f) (h' : PolyVar w g) : PolyVar (v + w) fun x => f x * g x := by
  obtain ⟨p, h1, h2⟩ := h
  obtain ⟨q, h3, h4⟩ := h'
  refine ⟨p * q, fun i => (degreeOf_mul_le i p q).trans (add_le_add (h1 i) (h3 i)), fun x => ?_⟩
  rw [eval_mul, ← h2, ← h4]

theorem smul (h : PolyVar v f) (c : ℝ) : PolyVar v fun x => c * f x := by
  have := (const (0 : Fin d → Nat) c).mul h
  rwa [zero_add] at this

theorem sum {ι : Type} (s : Finset ι) (F : ι → (Fin d → ℝ) → ℝ) (h : ∀ i ∈ s, PolyVar v (F i)) : PolyVar v fun x => ∑ i ∈ s, F i x := by
  classical
  induction s using Finset.induction_on with
  | empty => simpa using const v 0
  | insert a s ha ih =>
    have := (h a (Finset.mem_insert_self a s)).add (ih fun i hi => h i (Finset.mem_insert_of_mem hi))
    simpa only [Finset.sum_insert ha] using this

theorem congr (h : PolyVar v f) (hg : ∀ x, g x = f x) : PolyVar v g := by
  obtain ⟨p, h1, h2⟩ := h
  exact ⟨p, h1, fun x => (hg x).trans (h2 x)⟩

theorem sub (h : PolyVar v f) (h' : PolyVar v g) : PolyVar v fun x => f x - g x :=
  (h.add (h'.smul (-1))).congr fun x => by ring

/-- A polynomial of degree two in one coordinate. -/
theorem univariate (i : Fin d) (a b c : ℝ) : PolyVar (Pi.single i 2) fun x => a * (x i * x i) + b * x i + c := by
  have e : (Pi.single i 2 : Fin d → Nat) = Pi.single i 1 + Pi.single i 1 := by rw [← Pi.single_add]
  refine ((((coord i).mul (coord i)).smul a).congr ?_ |>.mono (w := Pi.single i 2) (by rw [e]; intro j; exact le_refl _)).add
    (((coord i).smul b).mono ?_) |>.add (const _ c)
  · intro x; rfl
  · intro j
    by_cases h : j = i
    · subst h; simp
    · simp [h]

/-- A polynomial of degree one in one coordinate. -/
theorem linear (i : Fin d) (b c : ℝ) : PolyVar (Pi.single i 1) fun x => b * x i + c := ((coord i).smul b).add (const _ c)

end PolyVar

end Fenris.ShippedRules
