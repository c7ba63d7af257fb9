import Verif.Lemmas.ShippedRules
import Verif.Lemmas.PolyBound
import Mathlib.Algebra.MvPolynomial.Eval
import Mathlib.Combinatorics.Nullstellensatz
/-! # Polynomials that vanish at the points of a rule -/
set_option autoImplicit false

namespace Fenris.ShippedRules
open MvPolynomial

/-! ## A check with integers -/

/-- The monomial at the first numbers of a row. -/
def monoAt : List Nat → List Int → Int
  | a :: es, x :: rest => Int.mul (ipow x a) (monoAt es rest)
  | _, _ => 1

/-- The monomial `e`, as a form of degree `k`, at the rows, summed with the coefficients `l`. -/
def combine (scale : Nat) (k : Nat) (e : List Nat) : List Int → List (List Int) → Int
  | c :: l, row :: rows => Int.add (Int.mul c (Int.mul (monoAt e row) (.ofNat (Nat.pow scale (k - e.sum))))) (combine scale k e l rows)
  | _, _ => 0

/-- Row `e` is strictly diagonally dominant. -/
def dominant (f : RuleFile) (k : Nat) (es : List (List Nat)) (e : List Nat) (l : List Int) : Bool :=
  decide ((es.foldr (fun e' acc => bif e' == e then acc else Nat.add (combine (10 ^ f.decimals) k e' l f.rows).natAbs acc) 0) <
    (combine (10 ^ f.decimals) k e l f.rows).natAbs)

/-- The check: the rows have `d + 1` numbers, and for each monomial of degree at most `k` there is a diagonally dominant combination. -/
def separates (d k : Nat) (f : RuleFile) (L : List (List Int)) : Bool :=
  (f.rows.all fun r => decide (r.length = d + 1)) && decide ((tuples d k).length = L.length) &&
    ((tuples d k).zip L).all fun el => dominant f k (tuples d k) el.1 el.2

/-! ## Its meaning -/

variable {d : Nat}

/-- The point of a row. -/
noncomputable def rowPoint (d : Nat) (f : RuleFile) (row : List Int) : Fin d → ℝ := fun i => (row.dropLast.map (f.number ℝ)).getD i 0

private theorem monoAt_eq (d : Nat) (m : Fin d → Nat) (row : List Int) (h : d ≤ row.length) :
    monoAt (List.ofFn m) row = ∏ i : Fin d, (row.getD i 0) ^ m i := by
  induction d generalizing row with
  | zero => simp [monoAt]
  | succ d ih =>
    cases row with
    | nil => simp at h
    | cons x row =>
      rw [List.ofFn_succ, Fin.prod_univ_succ]
      simp only [monoAt]
      rw [ih (fun i => m i.succ) row (by simpa using h), ipow_eq]
      rfl

private theorem rowPoint_eq (f : RuleFile) (row : List Int) (h : row.length = d + 1) (i : Fin d) :
    rowPoint d f row i = (row.getD i 0 : Int) / (10 : ℝ) ^ f.decimals := by
  have hi : (i : Nat) < row.length := by omega
  have hi' : (i : Nat) < row.dropLast.length := by simp [h]
  unfold rowPoint
  rw [List.getD_eq_getElem?_getD, List.getElem?_map, List.getElem?_eq_getElem hi', Option.map_some, Option.getD_some,
    List.getD_eq_getElem?_getD, List.getElem?_eq_getElem hi, Option.getD_some, List.getElem_dropLast]
  rfl

private theorem combine_eq (f : RuleFile) (k : Nat) (m : Fin d →₀ ℕ) (hm : ∑ i, m i ≤ k) (l : List Int) (rows : List (List Int))
    (hrows : ∀ r ∈ rows, r.length = d + 1) :
    ((combine (10 ^ f.decimals) k (List.ofFn m) l rows : Int) : ℝ) =
      ((10 : ℝ) ^ f.decimals) ^ k * (List.zipWith (fun (c : Int) row => (c : ℝ) * ∏ i, rowPoint d f row i ^ m i) l rows).sum := by
  induction rows generalizing l with
  | nil => cases l <;> simp [combine]
  | cons row rows ih =>
    cases l with
    | nil => simp [combine]
    | cons c l =>
      have hr := hrows row List.mem_cons_self
      simp only [combine, List.zipWith_cons_cons, List.sum_cons]
      have hsum : (List.ofFn m).sum = ∑ i, m i := List.sum_ofFn
      have hmono : ((monoAt (List.ofFn m) row : Int) : ℝ) = ((10 : ℝ) ^ f.decimals) ^ (∑ i, m i) * ∏ i, rowPoint d f row i ^ m i := by
        rw [monoAt_eq d m row (by omega)]
        push_cast
        rw [← Finset.prod_pow_eq_pow_sum, ← Finset.prod_mul_distrib]
        refine Finset.prod_congr rfl fun i _ => ?_
        rw [rowPoint_eq f row hr i, ← mul_pow, mul_div_cancel₀ _ (by positivity)]
      have hpow : ((10 : ℝ) ^ f.decimals) ^ k = ((10 : ℝ) ^ f.decimals) ^ (∑ i, m i) * ((10 : ℝ) ^ f.decimals) ^ (k - ∑ i, m i) := by
        rw [← pow_add, Nat.add_sub_cancel' hm]
      have e : ∀ a b : Int, Int.add a b = a + b := fun _ _ => rfl
      have e' : ∀ a b : Int, Int.mul a b = a * b := fun _ _ => rfl
      have e'' : (Int.ofNat (Nat.pow (10 ^ f.decimals) (k - (List.ofFn m).sum)) : Int) = (10 ^ f.decimals) ^ (k - (List.ofFn m).sum) := by
        rw [Int.ofNat_eq_natCast]
        push_cast
        rfl
      rw [e, e', e', e'', Int.cast_add, ih l fun r hr => hrows r (List.mem_cons_of_mem _ hr)]
      push_cast
      rw [hmono, hsum, hpow]
      ring

private theorem dominant_sum (f : RuleFile) (k : Nat) (es : List (List Nat)) (e : List Nat) (l : List Int) (hnd : es.Nodup) (s : Finset (List Nat))
    (hs : ∀ e' ∈ s, e' ∈ es ∧ e' ≠ e) :
    ∑ e' ∈ s, (combine (10 ^ f.decimals) k e' l f.rows).natAbs ≤
      es.foldr (fun e' acc => bif e' == e then acc else Nat.add (combine (10 ^ f.decimals) k e' l f.rows).natAbs acc) 0 := by
  induction es generalizing s with
  | nil =>
    have : s = ∅ := Finset.eq_empty_of_forall_notMem fun e' he' => by simpa using (hs e' he').1
    rw [this]
    simp
  | cons a es ih =>
    rw [List.nodup_cons] at hnd
    rw [List.foldr_cons]
    by_cases ha : a ∈ s
    · have hne := (hs a ha).2
      have : (a == e) = false := beq_eq_false_iff_ne.2 hne
      rw [this, cond_false, ← Finset.add_sum_erase s _ ha]
      refine Nat.add_le_add_left (ih hnd.2 _ fun e' he' => ?_) _
      obtain ⟨h1, h2⟩ := Finset.mem_erase.1 he'
      have := hs e' h2
      exact ⟨(List.mem_cons.1 this.1).resolve_left h1, this.2⟩
    · have h1 := ih hnd.2 s fun e' he' => by
        have := hs e' he'
        refine ⟨(List.mem_cons.1 this.1).resolve_left fun h => ha (h ▸ he'), this.2⟩
      cases a == e with
      | true => exact h1
      | false => exact h1.trans (Nat.le_add_left _ _)

private theorem tuples_nodup (d s : Nat) : (tuples d s).Nodup := by
  induction d generalizing s with
  | zero => simp [tuples]
  | succ d ih =>
    rw [tuples, List.nodup_flatMap]
    refine ⟨fun a _ => (ih _).map fun _ _ h => (List.cons.inj h).2, ?_⟩
    refine List.nodup_range.imp fun {a b} hab => ?_
    intro x hx hy
    obtain ⟨_, -, rfl⟩ := List.mem_map.1 hx
    obtain ⟨_, -, h⟩ := List.mem_map.1 hy
    exact hab (List.cons.inj h).1.symm

/-- A polynomial of degree at most `k` that vanishes at the points of a file that passes the check is zero. -/
theorem eq_zero_of_separates {k : Nat} {f : RuleFile} {L : List (List Int)} (h : separates d k f L = true) (p : MvPolynomial (Fin d) ℝ)
    (hp : p.totalDegree ≤ k) (hz : ∀ row ∈ f.rows, eval (rowPoint d f row) p = 0) : p = 0 := by
  classical
  simp only [separates, Bool.and_eq_true, List.all_eq_true, decide_eq_true_eq] at h
  obtain ⟨⟨hrows, hlen⟩, hdom⟩ := h
  by_contra hne
  obtain ⟨m, hm, hmax⟩ := Finset.exists_max_image p.support (fun m => |p.coeff m|) (support_nonempty.2 hne)
  have hdeg : ∀ m ∈ p.support, ∑ i, m i ≤ k := by
    intro m hm
    have := (le_totalDegree hm).trans hp
    rwa [Finsupp.sum_fintype _ _ fun _ => rfl] at this
  have hmem : ∀ m ∈ p.support, List.ofFn m ∈ tuples d k := fun m hm => mem_tuples d k _ (by simp) (by rw [List.sum_ofFn]; exact hdeg m hm)
  obtain ⟨n, hn, hnm⟩ := List.mem_iff_getElem.1 (hmem m hm)
  have hnL : n < L.length := hlen ▸ hn
  have hd := hdom (List.ofFn m, L[n]) (by
    rw [List.mem_iff_getElem]
    exact ⟨n, by simp [hn, hnL], by simp [hnm]⟩)
  simp only [dominant, decide_eq_true_eq] at hd
  set G : List Nat → Int := fun e => combine (10 ^ f.decimals) k e L[n] f.rows with hG
  -- the combination of the values
  have hcomb : ∑ m' ∈ p.support, p.coeff m' * (G (List.ofFn m') : ℝ) = 0 := by
    have e1 : ∀ m' ∈ p.support, p.coeff m' * (G (List.ofFn m') : ℝ) = ((10 : ℝ) ^ f.decimals) ^ k *
        (List.zipWith (fun (c : Int) row => (c : ℝ) * (p.coeff m' * ∏ i, rowPoint d f row i ^ m' i)) L[n] f.rows).sum := by
      intro m' hm'
      rw [hG]
      beta_reduce
      rw [combine_eq f k m' (hdeg m' hm') _ _ hrows, mul_left_comm]
      congr 1
      generalize L[n] = l
      generalize f.rows = rows
      induction rows generalizing l with
      | nil => simp
      | cons r rows ih =>
        cases l with
        | nil => simp
        | cons c l =>
          simp only [List.zipWith_cons_cons, List.sum_cons, mul_add]
          rw [ih l]
          ring
    rw [Finset.sum_congr rfl e1, ← Finset.mul_sum]
    have e2 : ∑ m' ∈ p.support, (List.zipWith (fun (c : Int) row => (c : ℝ) * (p.coeff m' * ∏ i, rowPoint d f row i ^ m' i)) L[n] f.rows).sum =
        (List.zipWith (fun (c : Int) row => (c : ℝ) * eval (rowPoint d f row) p) L[n] f.rows).sum := by
      generalize L[n] = l
      generalize f.rows = rows
      induction rows generalizing l with
      | nil => simp
      | cons r rows ih =>
        cases l with
        | nil => simp
        | cons c l =>
          simp only [List.zipWith_cons_cons, List.sum_cons, Finset.sum_add_distrib]
          rw [ih l, ← Finset.mul_sum, eval_eq']
    rw [e2]
    have e3 : ∀ x ∈ List.zipWith (fun (c : Int) row => (c : ℝ) * eval (rowPoint d f row) p) L[n] f.rows, x = 0 := by
      intro x hx
      rw [List.mem_iff_getElem] at hx
      obtain ⟨j, hj, rfl⟩ := hx
      rw [List.getElem_zipWith, hz _ (List.getElem_mem _), mul_zero]
    rw [List.sum_eq_zero e3, mul_zero]
  rw [← Finset.add_sum_erase _ _ hm] at hcomb
  have hle : |p.coeff m| * ((G (List.ofFn m)).natAbs : ℝ) ≤ |p.coeff m| * ∑ m' ∈ p.support.erase m, ((G (List.ofFn m')).natAbs : ℝ) := by
    have habs : ∀ z : Int, ((z.natAbs : Nat) : ℝ) = |(z : ℝ)| := fun z => by rw [Nat.cast_natAbs, Int.cast_abs]
    calc |p.coeff m| * ((G (List.ofFn m)).natAbs : ℝ) = |p.coeff m * (G (List.ofFn m) : ℝ)| := by rw [habs, abs_mul]
      _ = |∑ m' ∈ p.support.erase m, p.coeff m' * (G (List.ofFn m') : ℝ)| := by
          rw [eq_neg_of_add_eq_zero_left hcomb, abs_neg]
      _ ≤ ∑ m' ∈ p.support.erase m, |p.coeff m' * (G (List.ofFn m') : ℝ)| := Finset.abs_sum_le_sum_abs _ _
      _ ≤ ∑ m' ∈ p.support.erase m, |p.coeff m| * ((G (List.ofFn m')).natAbs : ℝ) := by
          refine Finset.sum_le_sum fun m' hm' => ?_
          rw [abs_mul, habs]
          exact mul_le_mul_of_nonneg_right (hmax m' (Finset.mem_of_mem_erase hm')) (abs_nonneg _)
      _ = _ := by rw [Finset.mul_sum]
  have hpos : 0 < |p.coeff m| := abs_pos.2 (mem_support_iff.1 hm)
  have hle' := le_of_mul_le_mul_left hle hpos
  have hinj : ∀ m' : Fin d →₀ ℕ, ∀ m'' : Fin d →₀ ℕ, List.ofFn m' = List.ofFn m'' → m' = m'' := fun m' m'' hmm =>
    DFunLike.coe_injective (List.ofFn_injective hmm)
  have hsum : ∑ m' ∈ p.support.erase m, (G (List.ofFn m')).natAbs = ∑ e ∈ (p.support.erase m).image fun m' : Fin d →₀ ℕ => List.ofFn m', (G e).natAbs :=
    (Finset.sum_image (f := fun e => (G e).natAbs) (g := fun m' : Fin d →₀ ℕ => List.ofFn m') fun m' _ m'' _ hmm => hinj m' m'' hmm).symm
  have hlt : ∑ m' ∈ p.support.erase m, (G (List.ofFn m')).natAbs < (G (List.ofFn m)).natAbs := by
    rw [hsum]
    refine lt_of_le_of_lt (dominant_sum f k (tuples d k) (List.ofFn m) L[n] (tuples_nodup d k) _ fun e he => ?_) hd
    obtain ⟨m', hm', rfl⟩ := Finset.mem_image.1 he
    obtain ⟨h1, h2⟩ := Finset.mem_erase.1 hm'
    exact ⟨hmem m' h2, fun hmm => h1 (hinj _ _ hmm)⟩
  have : ((∑ m' ∈ p.support.erase m, (G (List.ofFn m')).natAbs : Nat) : ℝ) < ((G (List.ofFn m)).natAbs : ℝ) := by exact_mod_cast hlt
  push_cast at this
  linarith

end Fenris.ShippedRules
