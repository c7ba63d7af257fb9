import Verif.Model.Lobatto.Basic
import Verif.Spec.Lobatto
import Mathlib.Analysis.SpecialFunctions.Integrals.Basic
/-! # A check of the moments of a tabulated rule that the kernel can evaluate, and what it means -/
set_option autoImplicit false

namespace Fenris.Lobatto
open Polynomial

/-- `10^31`. -/
def scale : Nat := 10000000000000000000000000000000

/-- The points after the ends have been replaced. -/
def ends (t : Table) : List Int := (t.points.set 0 (-10000000000000000000000000000000)).set (t.points.length - 1) 10000000000000000000000000000000

def increasing : List Int → Bool
  | [] => true
  | [_] => true
  | a :: b :: l => decide (a < b) && increasing (b :: l)

/-- Lengths, signs, order, range and total weight. -/
def shape (n : Nat) (t : Table) : Bool :=
  decide (2 ≤ n) && decide (n ≤ 512) && t.weights.length == n && t.points.length == n && t.weights.all (fun w => decide (0 < w)) && increasing (ends t) &&
    (ends t).all (fun x => decide (x.natAbs ≤ scale)) && decide (t.weights.sum ≤ 3 * (scale : Int))

/-- Weights and absolute values of the negative points. -/
def negatives (t : Table) : List (Nat × Nat) :=
  ((t.weights.zip (ends t)).filter fun q => decide (q.2 < 0)).map fun q => (q.1.natAbs, q.2.natAbs)

/-- Weights and values of the other points. -/
def positives (t : Table) : List (Nat × Nat) :=
  ((t.weights.zip (ends t)).filter fun q => !decide (q.2 < 0)).map fun q => (q.1.natAbs, q.2.natAbs)

/-- From rounded powers to the next ones. -/
def next : List (Nat × Nat) → List Nat → List Nat
  | [], _ => []
  | _, [] => []
  | x :: xs, p :: ps => Nat.div (Nat.mul p x.2) 10000000000000000000000000000000 :: next xs ps

/-- Weighted sum of the rounded powers. -/
def sumL : List (Nat × Nat) → List Nat → Nat → Nat
  | [], _, a => a
  | _, [], a => a
  | x :: xs, p :: ps, a => sumL xs ps (Nat.add a (Nat.mul x.1 p))

def near (a b t : Nat) : Bool := Nat.ble a (Nat.add b t) && Nat.ble b (Nat.add a t)

/-- The moments `k, …, k + 2 m - 1` are checked. -/
def run (neg pos : List (Nat × Nat)) : Nat → Nat → List Nat → List Nat → Option (List Nat × List Nat)
  | 0, _, pn, pp => some (pn, pp)
  | m + 1, k, pn, pp =>
    bif near (Nat.mul (Nat.add (sumL neg pn 0) (sumL pos pp 0)) (Nat.add k 1)) 200000000000000000000000000000000000000000000000000000000000000
        (Nat.mul (Nat.add k 1) 500000000000000000000000000000000000000000000000) &&
      near (sumL neg (next neg pn) 0) (sumL pos (next pos pp) 0) 500000000000000000000000000000000000000000000000 then
      run neg pos m (Nat.add k 2) (next neg (next neg pn)) (next pos (next pos pp))
    else none

def moments (m : Nat) (t : Table) : Bool :=
  (run (negatives t) (positives t) m 0 ((negatives t).map fun _ => scale) ((positives t).map fun _ => scale)).isSome

theorem run_then {neg pos : List (Nat × Nat)} {m k m' k' m'' : Nat} {pn pp a b : List Nat} (h : run neg pos m k pn pp = some (a, b))
    (h' : (run neg pos m' k' a b).isSome = true) (hk : k' = k + 2 * m) (hm : m'' = m + m') :
    (run neg pos m'' k pn pp).isSome = true := by
  subst hm
  induction m generalizing k pn pp with
  | zero =>
    simp only [run, Option.some.injEq, Prod.mk.injEq] at h
    obtain ⟨rfl, rfl⟩ := h
    rw [hk] at h'
    simpa using h'
  | succ m ih =>
    rw [show m + 1 + m' = (m + m') + 1 by omega]
    simp only [run] at h ⊢
    generalize (near _ _ _ && near _ _ _) = c at h ⊢
    cases c with
    | false => simp at h
    | true =>
      simp only [cond_true] at h ⊢
      exact ih h (by rw [hk]; simp only [Nat.add_eq]; omega)

/-! ## The rounded powers -/

/-- `p` is the `k`-th power of the coordinate of `x`, rounded down `k` times. -/
def Rounded (k : Nat) (x : Nat × Nat) (p : Nat) : Prop :=
  (p : ℝ) ≤ (scale : ℝ) * ((x.2 : ℝ) / scale) ^ k ∧ (scale : ℝ) * ((x.2 : ℝ) / scale) ^ k ≤ p + k

private theorem scale_real : (scale : ℝ) = 10 ^ 31 := by rw [scale]; norm_num
private theorem scale_pos : (0 : ℝ) < scale := by rw [scale_real]; positivity

theorem rounded_next {k : Nat} {x : Nat × Nat} {p : Nat} (hx : x.2 ≤ scale) (h : Rounded k x p) :
    Rounded (k + 1) x (Nat.div (Nat.mul p x.2) 10000000000000000000000000000000) := by
  have hs := scale_pos
  have e : Nat.div (Nat.mul p x.2) 10000000000000000000000000000000 = p * x.2 / scale := rfl
  rw [e]
  have hr0 : (0 : ℝ) ≤ (x.2 : ℝ) / scale := by positivity
  have hr1 : (x.2 : ℝ) / scale ≤ 1 := by
    rw [div_le_one hs]
    exact_mod_cast hx
  have f1 : ((p * x.2 / scale : Nat) : ℝ) ≤ (p : ℝ) * ((x.2 : ℝ) / scale) := by
    refine le_trans Nat.cast_div_le ?_
    rw [Nat.cast_mul, mul_div_assoc]
  have f2 : (p : ℝ) * ((x.2 : ℝ) / scale) ≤ ((p * x.2 / scale : Nat) : ℝ) + 1 := by
    have g : p * x.2 ≤ (p * x.2 / scale + 1) * scale := by
      have := Nat.lt_div_mul_add (a := p * x.2) (b := scale) (by decide)
      rw [Nat.add_mul, Nat.one_mul]
      exact this.le
    rw [← mul_div_assoc, div_le_iff₀ hs]
    exact_mod_cast g
  rw [Rounded] at h ⊢
  generalize (x.2 : ℝ) / scale = r at h hr0 hr1 f1 f2 ⊢
  generalize ((p * x.2 / scale : Nat) : ℝ) = q at f1 f2 ⊢
  obtain ⟨h1, h2⟩ := h
  refine ⟨?_, ?_⟩
  · refine f1.trans ?_
    rw [pow_succ, ← mul_assoc]
    exact mul_le_mul_of_nonneg_right h1 hr0
  · rw [pow_succ, ← mul_assoc]
    refine (mul_le_mul_of_nonneg_right h2 hr0).trans ?_
    push_cast
    have : (k : ℝ) * r ≤ k := mul_le_of_le_one_right (Nat.cast_nonneg k) hr1
    nlinarith

theorem forall_next {k : Nat} {l : List (Nat × Nat)} {ps : List Nat} (hl : ∀ x ∈ l, x.2 ≤ scale) (h : List.Forall₂ (Rounded k) l ps) :
    List.Forall₂ (Rounded (k + 1)) l (next l ps) := by
  induction h with
  | nil => exact List.Forall₂.nil
  | cons hx _ ih =>
    exact List.Forall₂.cons (rounded_next (hl _ List.mem_cons_self) hx) (ih fun y hy => hl y (List.mem_cons_of_mem _ hy))

/-- `∑ w a^k`. -/
noncomputable def powerSum (k : Nat) (l : List (Nat × Nat)) : ℝ := (l.map fun x => (x.1 : ℝ) / scale * ((x.2 : ℝ) / scale) ^ k).sum

theorem sumL_acc (l : List (Nat × Nat)) (ps : List Nat) (a : Nat) : sumL l ps a = a + sumL l ps 0 := by
  induction l generalizing ps a with
  | nil => simp [sumL]
  | cons x l ih =>
    cases ps with
    | nil => simp [sumL]
    | cons p ps =>
      simp only [sumL]
      rw [ih ps (Nat.add a _), ih ps (Nat.add 0 _)]
      simp only [Nat.add_eq]
      omega

theorem sumL_bounds {k : Nat} {l : List (Nat × Nat)} {ps : List Nat} (h : List.Forall₂ (Rounded k) l ps) :
    (sumL l ps 0 : ℝ) ≤ (scale : ℝ) ^ 2 * powerSum k l ∧
      (scale : ℝ) ^ 2 * powerSum k l ≤ (sumL l ps 0 : ℝ) + k * ((l.map Prod.fst).sum : Nat) := by
  have hs := scale_pos
  induction h with
  | nil => simp [sumL, powerSum]
  | @cons x p l ps hx _ ih =>
    obtain ⟨i1, i2⟩ := ih
    obtain ⟨h1, h2⟩ := hx
    have e : (scale : ℝ) ^ 2 * powerSum k (x :: l) = (x.1 : ℝ) * ((scale : ℝ) * ((x.2 : ℝ) / scale) ^ k) + (scale : ℝ) ^ 2 * powerSum k l := by
      rw [powerSum, powerSum, List.map_cons, List.sum_cons]
      field_simp
    have e' : ((sumL (x :: l) (p :: ps) 0 : Nat) : ℝ) = (x.1 : ℝ) * p + (sumL l ps 0 : Nat) := by
      rw [sumL, sumL_acc]
      simp only [Nat.add_eq, Nat.mul_eq]
      push_cast
      ring
    rw [e, e', List.map_cons, List.sum_cons]
    push_cast at i2 ⊢
    have hx0 : (0 : ℝ) ≤ x.1 := Nat.cast_nonneg _
    have g1 := mul_le_mul_of_nonneg_left h1 hx0
    have g2 := mul_le_mul_of_nonneg_left h2 hx0
    constructor <;> nlinarith

/-- What the check of one moment says. -/
theorem near_real {a b t : Nat} (h : near a b t = true) : |(a : ℝ) - b| ≤ t := by
  rw [near, Bool.and_eq_true] at h
  obtain ⟨h1, h2⟩ := h
  have g1 : a ≤ b + t := Nat.le_of_ble_eq_true h1
  have g2 : b ≤ a + t := Nat.le_of_ble_eq_true h2
  have g1' : (a : ℝ) ≤ b + t := by exact_mod_cast g1
  have g2' : (b : ℝ) ≤ a + t := by exact_mod_cast g2
  rw [abs_le]
  constructor <;> linarith

/-- The value of the `k`-th moment. -/
noncomputable def exactMoment (k : Nat) : ℝ := if Even k then 2 / ((k : ℝ) + 1) else 0

theorem run_moments {neg pos : List (Nat × Nat)} (hn : ∀ x ∈ neg, x.2 ≤ scale) (hp : ∀ x ∈ pos, x.2 ≤ scale)
    (hw : (neg.map Prod.fst).sum + (pos.map Prod.fst).sum ≤ 3 * scale) {m k : Nat} {pn pp : List Nat} (hk : Even k)
    (h1 : List.Forall₂ (Rounded k) neg pn) (h2 : List.Forall₂ (Rounded k) pos pp) (h : (run neg pos m k pn pp).isSome = true) {j : Nat}
    (hj : k ≤ j) (hj' : j < k + 2 * m) :
    |(-1) ^ j * powerSum j neg + powerSum j pos - exactMoment j| ≤ 5 / 10 ^ 15 + 3 * j / 10 ^ 31 := by
  induction m generalizing k pn pp with
  | zero => omega
  | succ m ih =>
    simp only [run] at h
    cases hc : (near (Nat.mul (Nat.add (sumL neg pn 0) (sumL pos pp 0)) (Nat.add k 1))
        200000000000000000000000000000000000000000000000000000000000000
        (Nat.mul (Nat.add k 1) 500000000000000000000000000000000000000000000000) &&
      near (sumL neg (next neg pn) 0) (sumL pos (next pos pp) 0) 500000000000000000000000000000000000000000000000) with
    | false => rw [hc] at h; simp at h
    | true =>
      rw [hc, cond_true] at h
      rw [Bool.and_eq_true] at hc
      obtain ⟨c1, c2⟩ := hc
      have n1 := forall_next hn h1
      have n2 := forall_next hp h2
      have hw' : (((neg.map Prod.fst).sum : Nat) : ℝ) + ((pos.map Prod.fst).sum : Nat) ≤ 3 * 10 ^ 31 := by
        rw [← scale_real]
        exact_mod_cast hw
      have hwn : (0 : ℝ) ≤ ((neg.map Prod.fst).sum : Nat) := Nat.cast_nonneg _
      have hwp : (0 : ℝ) ≤ ((pos.map Prod.fst).sum : Nat) := Nat.cast_nonneg _
      rcases Nat.lt_or_ge j (k + 2) with hlt | hge
      · rcases Nat.lt_or_ge j (k + 1) with hlt' | hge'
        · obtain rfl : j = k := by omega
          have b1 := sumL_bounds h1
          have b2 := sumL_bounds h2
          have c := near_real c1
          simp only [Nat.add_eq, Nat.mul_eq] at c
          push_cast at c
          rw [exactMoment, if_pos hk, hk.neg_one_pow, one_mul]
          rw [scale_real] at b1 b2
          generalize (sumL neg pn 0 : ℝ) = A at *
          generalize (sumL pos pp 0 : ℝ) = B at *
          generalize powerSum j neg = a at *
          generalize powerSum j pos = b at *
          generalize (((neg.map Prod.fst).sum : Nat) : ℝ) = wn at *
          generalize (((pos.map Prod.fst).sum : Nat) : ℝ) = wp at *
          have hj0 : (0 : ℝ) ≤ j := Nat.cast_nonneg j
          generalize (j : ℝ) = J at *
          have hJ : 0 < J + 1 := by linarith
          have e : (A + B) * (J + 1) - 200000000000000000000000000000000000000000000000000000000000000 =
              (A + B - 2 / (J + 1) * 10 ^ 62) * (J + 1) := by
            field_simp
            ring
          rw [e, abs_mul, abs_of_pos hJ, mul_comm (J + 1)] at c
          have c' := le_of_mul_le_mul_right c hJ
          have hJw : J * wn + J * wp ≤ J * (3 * 10 ^ 31) := by
            rw [← mul_add]
            exact mul_le_mul_of_nonneg_left hw' hj0
          generalize 2 / (J + 1) = E at *
          rw [abs_le] at c' ⊢
          obtain ⟨b11, b12⟩ := b1
          obtain ⟨b21, b22⟩ := b2
          obtain ⟨c11, c12⟩ := c'
          constructor
          · linarith
          · linarith
        · obtain rfl : j = k + 1 := by omega
          have b1 := sumL_bounds n1
          have b2 := sumL_bounds n2
          have c := near_real c2
          push_cast at c
          have hodd : Odd (k + 1) := hk.add_one
          rw [exactMoment, if_neg (Nat.not_even_iff_odd.mpr hodd), hodd.neg_one_pow]
          rw [scale_real] at b1 b2
          generalize (sumL neg (next neg pn) 0 : ℝ) = A at *
          generalize (sumL pos (next pos pp) 0 : ℝ) = B at *
          generalize powerSum (k + 1) neg = a at *
          generalize powerSum (k + 1) pos = b at *
          generalize (((neg.map Prod.fst).sum : Nat) : ℝ) = wn at *
          generalize (((pos.map Prod.fst).sum : Nat) : ℝ) = wp at *
          have hj0 : (0 : ℝ) ≤ ((k + 1 : Nat) : ℝ) := Nat.cast_nonneg _
          generalize ((k + 1 : Nat) : ℝ) = J at *
          have hJn : 0 ≤ J * wn := mul_nonneg hj0 hwn
          have hJp : 0 ≤ J * wp := mul_nonneg hj0 hwp
          have hJw : J * wn + J * wp ≤ J * (3 * 10 ^ 31) := by
            rw [← mul_add]
            exact mul_le_mul_of_nonneg_left hw' hj0
          rw [abs_le] at c ⊢
          obtain ⟨b11, b12⟩ := b1
          obtain ⟨b21, b22⟩ := b2
          obtain ⟨c11, c12⟩ := c
          constructor
          · linarith
          · linarith
      · exact ih (k := k + 2) (hk.add (by decide)) (forall_next hn n1) (forall_next hp n2) h hge (by omega)

/-! ## From the check to the rule -/

theorem increasing_pairwise {l : List Int} (h : increasing l = true) : l.Pairwise (· < ·) := by
  rw [← List.isChain_iff_pairwise]
  induction l with
  | nil => exact List.IsChain.nil
  | cons a l ih =>
    cases l with
    | nil => exact List.IsChain.singleton a
    | cons b l =>
      rw [increasing, Bool.and_eq_true, decide_eq_true_eq] at h
      exact List.IsChain.cons_cons h.1 (ih h.2)

private theorem rounded_zero (l : List (Nat × Nat)) : List.Forall₂ (Rounded 0) l (l.map fun _ => scale) := by
  induction l with
  | nil => exact List.Forall₂.nil
  | cons x l ih => exact List.Forall₂.cons ⟨by simp, by simp⟩ ih

/-- The two halves together. -/
private theorem halves (k : Nat) (l : List (Int × Int)) (hw : ∀ q ∈ l, 0 < q.1) :
    (-1) ^ k * powerSum k ((l.filter fun q => decide (q.2 < 0)).map fun q => (q.1.natAbs, q.2.natAbs)) +
      powerSum k ((l.filter fun q => !decide (q.2 < 0)).map fun q => (q.1.natAbs, q.2.natAbs)) =
      (l.map fun q => (q.1 : ℝ) / 10 ^ 31 * ((q.2 : ℝ) / 10 ^ 31) ^ k).sum := by
  induction l with
  | nil => simp [powerSum]
  | cons q l ih =>
    have ih := ih fun y hy => hw y (List.mem_cons_of_mem _ hy)
    have hq := hw q List.mem_cons_self
    have ew : ((q.1.natAbs : Nat) : ℝ) = (q.1 : ℝ) := by
      rw [Nat.cast_natAbs, abs_of_pos hq]
    rw [List.map_cons, List.sum_cons, ← ih]
    simp only [powerSum] at *
    by_cases h : q.2 < 0
    · have ex : ((q.2.natAbs : Nat) : ℝ) = -(q.2 : ℝ) := by
        rw [Nat.cast_natAbs, abs_of_neg h, Int.cast_neg]
      rw [List.filter_cons_of_pos (by simpa using h), List.filter_cons_of_neg (by simpa using h)]
      simp only [List.map_cons, List.sum_cons, ew, ex, scale_real]
      rw [neg_div, neg_pow ((q.2 : ℝ) / 10 ^ 31)]
      have : ((-1 : ℝ) ^ k) * (-1) ^ k = 1 := by rw [← mul_pow]; norm_num
      linear_combination ((q.1 : ℝ) / 10 ^ 31 * ((q.2 : ℝ) / 10 ^ 31) ^ k) * this
    · have ex : ((q.2.natAbs : Nat) : ℝ) = (q.2 : ℝ) := by
        rw [Nat.cast_natAbs, abs_of_nonneg (not_lt.mp h)]
      rw [List.filter_cons_of_neg (by simpa using h), List.filter_cons_of_pos (by simpa using h)]
      simp only [List.map_cons, List.sum_cons, ew, ex, scale_real]
      ring

private theorem halves_weight (l : List (Int × Int)) :
    (((l.filter fun q => decide (q.2 < 0)).map fun q => (q.1.natAbs, q.2.natAbs)).map Prod.fst).sum +
      (((l.filter fun q => !decide (q.2 < 0)).map fun q => (q.1.natAbs, q.2.natAbs)).map Prod.fst).sum =
      (l.map fun q => q.1.natAbs).sum := by
  induction l with
  | nil => rfl
  | cons q l ih =>
    by_cases h : q.2 < 0
    · rw [List.filter_cons_of_pos (by simpa using h), List.filter_cons_of_neg (by simpa using h)]
      simp only [List.map_cons, List.sum_cons]
      omega
    · rw [List.filter_cons_of_neg (by simpa using h), List.filter_cons_of_pos (by simpa using h)]
      simp only [List.map_cons, List.sum_cons]
      omega

private theorem sum_natAbs {l : List Int} (h : ∀ w ∈ l, 0 < w) : (((l.map Int.natAbs).sum : Nat) : Int) = l.sum := by
  induction l with
  | nil => rfl
  | cons w l ih =>
    rw [List.map_cons, List.sum_cons, List.sum_cons, Nat.cast_add, ih fun v hv => h v (List.mem_cons_of_mem _ hv),
      Int.natAbs_of_nonneg (h w List.mem_cons_self).le]

theorem exactMoment_eq (k : Nat) : ∫ x in (-1 : ℝ)..1, x ^ k = exactMoment k := by
  rw [integral_pow, exactMoment]
  split
  · next h => rw [(h.add_one).neg_one_pow]; norm_num
  · next h => rw [(Nat.not_even_iff_odd.mp h).add_one.neg_one_pow]; norm_num

/-- Accuracy on monomials gives accuracy on polynomials. -/
theorem accurate_of_moments {weights points : List ℝ} {N : Nat} {e : ℝ}
    (h : ∀ k : Nat, k ≤ N → |(List.zipWith (fun w x => w * x ^ k) weights points).sum - exactMoment k| ≤ e) (p : ℝ[X]) (hp : p.natDegree ≤ N) :
    |(List.zipWith (fun w x => w * p.eval x) weights points).sum - Fenris.Spec.intervalIntegral p| ≤ (∑ k ∈ p.support, |p.coeff k|) * e := by
  have e1 : (List.zipWith (fun w x => w * p.eval x) weights points).sum =
      ∑ k ∈ p.support, p.coeff k * (List.zipWith (fun w x => w * x ^ k) weights points).sum := by
    clear h
    induction weights generalizing points with
    | nil => simp
    | cons w ws ih =>
      cases points with
      | nil => simp
      | cons x xs =>
        simp only [List.zipWith_cons_cons, List.sum_cons, mul_add, Finset.sum_add_distrib, ih]
        rw [eval_eq_sum, Polynomial.sum, Finset.mul_sum]
        congr 1
        exact Finset.sum_congr rfl fun k _ => by ring
  have e2 : Fenris.Spec.intervalIntegral p = ∑ k ∈ p.support, p.coeff k * exactMoment k := by
    rw [Fenris.Spec.intervalIntegral]
    simp only [eval_eq_sum, Polynomial.sum]
    rw [intervalIntegral.integral_finsetSum]
    · refine Finset.sum_congr rfl fun k _ => ?_
      rw [intervalIntegral.integral_const_mul, exactMoment_eq]
    · intro k _
      exact (Continuous.intervalIntegrable (by fun_prop) _ _)
  rw [e1, e2, ← Finset.sum_sub_distrib, Finset.sum_mul]
  refine (Finset.abs_sum_le_sum_abs _ _).trans (Finset.sum_le_sum fun k hk => ?_)
  rw [← mul_sub, abs_mul]
  exact mul_le_mul_of_nonneg_left (h k ((le_natDegree_of_mem_supp k hk).trans hp)) (abs_nonneg _)

/-- A table that passes the checks gives a rule as promised. -/
theorem rule_of_checks {n : Nat} {t : Table} (hs : shape n t = true) (hm : moments (n - 1) t = true) :
    Spec.IsLobattoRule n (t.weights.map fun (w : Int) => (w : ℝ) / 10 ^ 31) ((ends t).map fun (x : Int) => (x : ℝ) / 10 ^ 31) := by
  simp only [shape, Bool.and_eq_true, decide_eq_true_eq, beq_iff_eq, List.all_eq_true] at hs
  obtain ⟨⟨⟨⟨⟨⟨⟨h2, h512⟩, hwl⟩, hpl⟩, hpos⟩, hinc⟩, habs⟩, hsum⟩ := hs
  have hel : (ends t).length = n := by rw [ends, List.length_set, List.length_set, hpl]
  have hzl : (t.weights.zip (ends t)).map Prod.fst = t.weights := by
    rw [← List.unzip_fst, List.unzip_zip_left (by omega)]
  have hwz : ∀ q ∈ t.weights.zip (ends t), 0 < q.1 := fun q hq => hpos _ (List.of_mem_zip hq).1
  have hn : ∀ x ∈ negatives t, x.2 ≤ scale := by
    intro x hx
    obtain ⟨q, hq, rfl⟩ := List.mem_map.mp hx
    exact habs _ (List.of_mem_zip (List.mem_filter.mp hq).1).2
  have hp : ∀ x ∈ positives t, x.2 ≤ scale := by
    intro x hx
    obtain ⟨q, hq, rfl⟩ := List.mem_map.mp hx
    exact habs _ (List.of_mem_zip (List.mem_filter.mp hq).1).2
  have hw : ((negatives t).map Prod.fst).sum + ((positives t).map Prod.fst).sum ≤ 3 * scale := by
    rw [negatives, positives, halves_weight]
    have e : (t.weights.zip (ends t)).map (fun q => q.1.natAbs) = t.weights.map Int.natAbs := by
      conv_rhs => rw [← hzl, List.map_map]
      rfl
    rw [e]
    have := sum_natAbs hpos
    omega
  refine ⟨by rw [List.length_map, hwl], by rw [List.length_map, hel], ?_, ?_, ?_, ?_, ?_⟩
  · intro w hw
    obtain ⟨v, hv, rfl⟩ := List.mem_map.mp hw
    have : (0 : ℝ) < v := by exact_mod_cast hpos v hv
    positivity
  · rw [List.pairwise_map]
    refine (increasing_pairwise hinc).imp fun {a b} hab => ?_
    have : (a : ℝ) < b := by exact_mod_cast hab
    exact div_lt_div_of_pos_right this (by positivity)
  · rw [List.head?_map, List.head?_eq_getElem?, ends, List.getElem?_set_ne (by omega), List.getElem?_set_self (by omega)]
    norm_num
  · rw [List.getLast?_map, List.getLast?_eq_getElem?, ends, List.length_set, List.length_set, List.getElem?_set_self (by rw [List.length_set]; omega)]
    norm_num
  · intro p hp'
    rw [div_eq_mul_inv]
    refine accurate_of_moments (N := 2 * n - 3) (fun k hk => ?_) p hp'
    have g := run_moments hn hp hw (m := n - 1) (k := 0) (by decide) (rounded_zero _) (rounded_zero _) hm (Nat.zero_le k) (by omega)
    rw [negatives, positives, halves k _ hwz] at g
    have e : (List.zipWith (fun w x => w * x ^ k) (t.weights.map fun (w : Int) => (w : ℝ) / 10 ^ 31) ((ends t).map fun (x : Int) => (x : ℝ) / 10 ^ 31)).sum =
        ((t.weights.zip (ends t)).map fun q => (q.1 : ℝ) / 10 ^ 31 * ((q.2 : ℝ) / 10 ^ 31) ^ k).sum := by
      rw [List.zipWith_map, List.zip_eq_zipWith, List.map_zipWith]
    rw [e]
    refine g.trans ?_
    have hk' : (k : ℝ) ≤ 1021 := by exact_mod_cast (show k ≤ 1021 by omega)
    have : 3 * (k : ℝ) / 10 ^ 31 ≤ 3 * 1021 / 10 ^ 31 := by
      apply div_le_div_of_nonneg_right _ (by positivity)
      linarith
    refine (add_le_add_right this _).trans ?_
    norm_num

end Fenris.Lobatto
