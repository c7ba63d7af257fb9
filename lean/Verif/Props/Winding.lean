import Verif.Spec.Winding
import Mathlib.Analysis.SpecialFunctions.Complex.Log
import Mathlib.Topology.Order.IntermediateValue
import Mathlib.Data.Complex.BigOperators
import Mathlib.Tactic.Linarith
import Mathlib.Tactic.LinearCombination
import Mathlib.Tactic.NormNum
import Mathlib.Tactic.FinCases
/-! # C74: winding numbers of triangle surfaces -/
set_option autoImplicit false

namespace Fenris.Geometry
open Fenris.Spec
noncomputable section

/-! ### Sums of angles -/

private theorem foldl_none (xs : List (Option ℝ)) : xs.foldl addAngle none = none := by
  induction xs with
  | nil => rfl
  | cons x xs ih => exact ih

private theorem foldl_sum (xs : List ℝ) (s : ℝ) : (xs.map some).foldl addAngle (some s) = some (s + xs.sum) := by
  induction xs generalizing s with
  | nil => simp
  | cons x xs ih =>
    rw [List.map_cons, List.foldl_cons]
    show (xs.map some).foldl addAngle (some (s + x)) = _
    rw [ih, List.sum_cons, add_assoc]

/-- When all angles are numbers the result is their sum over `4 π`. -/
private theorem winding_of (T : List (Tri 3 ℝ)) (p : Point 3 ℝ) (f : Tri 3 ℝ → ℝ)
    (h : ∀ t ∈ T, t.solidAngle p = some (f t)) : windingNumber T p = some ((T.map f).sum / (4 * Real.pi)) := by
  have e : (T.map fun t => t.solidAngle p) = (T.map f).map some := by
    rw [List.map_map]
    exact List.map_congr_left fun t ht => h t ht
  have : angleSum T p = some (T.map f).sum := by
    rw [angleSum, e]
    cases T with
    | nil => rfl
    | cons t T =>
      simp only [List.map_cons, List.sum_cons]
      exact foldl_sum _ _
  rw [windingNumber, this]
  rfl

private theorem foldl_mem_none (xs : List (Option ℝ)) (x : Option ℝ) (h : none ∈ x :: xs) : xs.foldl addAngle x = none := by
  induction xs generalizing x with
  | nil =>
    have := List.mem_singleton.mp h
    exact this.symm
  | cons y ys ih =>
    rw [List.foldl_cons]
    rcases List.mem_cons.mp h with h | h
    · rw [← h]
      exact foldl_none _
    · rcases List.mem_cons.mp h with h | h
      · rw [← h]
        have : addAngle x none = none := by cases x <;> rfl
        rw [this]
        exact foldl_none _
      · exact ih _ (List.mem_cons_of_mem _ h)

/-- When an angle is not a number neither is the result. -/
private theorem winding_none (T : List (Tri 3 ℝ)) (p : Point 3 ℝ) (t : Tri 3 ℝ) (ht : t ∈ T) (h : t.solidAngle p = none) :
    windingNumber T p = none := by
  have : angleSum T p = none := by
    rw [angleSum]
    cases T with
    | nil => cases ht
    | cons u T =>
      simp only [List.map_cons]
      apply foldl_mem_none
      rw [← List.map_cons (f := fun t : Tri 3 ℝ => t.solidAngle p), ← h]
      exact List.mem_map_of_mem ht
  rw [windingNumber, this]
  rfl

/-! ### Small angles -/

private theorem norm3_eq (v : Point 3 ℝ) : Real.sqrt (∑ i, v i ^ 2) = norm3 v := by
  rw [norm3, Fin.sum_univ_three]
  congr 1
  ring

private theorem small_iff (t : Tri 3 ℝ) (p : Point 3 ℝ) :
    SmallAngle t p ↔ 0 < angleDen (fun i => t.a i - p i) (fun i => t.b i - p i) fun i => t.c i - p i := by
  rw [angleDen, ← norm3_eq, ← norm3_eq, ← norm3_eq]
  rfl

private theorem norm3_sq (v : Point 3 ℝ) : norm3 v * norm3 v = v 0 * v 0 + v 1 * v 1 + v 2 * v 2 :=
  Real.mul_self_sqrt (by nlinarith [mul_self_nonneg (v 0), mul_self_nonneg (v 1), mul_self_nonneg (v 2)])

private theorem norm3_nonneg (v : Point 3 ℝ) : 0 ≤ norm3 v := Real.sqrt_nonneg _

private theorem norm3_pos (v : Point 3 ℝ) (h : v ≠ 0) : 0 < norm3 v := by
  rcases (norm3_nonneg v).lt_or_eq with h1 | h1
  · exact h1
  · exfalso
    have := norm3_sq v
    rw [← h1] at this
    apply h
    funext i
    have h0 : v 0 = 0 := by nlinarith [mul_self_nonneg (v 0), mul_self_nonneg (v 1), mul_self_nonneg (v 2)]
    have h1 : v 1 = 0 := by nlinarith [mul_self_nonneg (v 0), mul_self_nonneg (v 1), mul_self_nonneg (v 2)]
    have h2 : v 2 = 0 := by nlinarith [mul_self_nonneg (v 0), mul_self_nonneg (v 1), mul_self_nonneg (v 2)]
    fin_cases i
    · exact h0
    · exact h1
    · exact h2

private theorem norm3_zero : norm3 0 = 0 := by simp [norm3]

/-! ### Spinors -/

/-- A spinor of a direction. -/
private def spin (a : Point 3 ℝ) : ℂ × ℂ :=
  if norm3 a + a 2 = 0 then (0, 1) else (⟨norm3 a + a 2, 0⟩, ⟨a 0, a 1⟩)

private def pairing (a b : Point 3 ℝ) : ℂ :=
  (starRingEnd ℂ) (spin a).1 * (spin b).1 + (starRingEnd ℂ) (spin a).2 * (spin b).2

private theorem pairing_symm (a b : Point 3 ℝ) : pairing b a = (starRingEnd ℂ) (pairing a b) := by
  simp [pairing, mul_comm]

private theorem spin_spec (a : Point 3 ℝ) (ha : a ≠ 0) : ∃ m : ℝ, 0 < m ∧
    (⟨norm3 a + a 2, 0⟩ : ℂ) = m * ((spin a).1 * (starRingEnd ℂ) (spin a).1) ∧
    (⟨a 0, -a 1⟩ : ℂ) = m * ((spin a).1 * (starRingEnd ℂ) (spin a).2) ∧
    (⟨a 0, a 1⟩ : ℂ) = m * ((spin a).2 * (starRingEnd ℂ) (spin a).1) ∧
    (⟨norm3 a - a 2, 0⟩ : ℂ) = m * ((spin a).2 * (starRingEnd ℂ) (spin a).2) := by
  have hn := norm3_pos a ha
  have hs := norm3_sq a
  by_cases h : norm3 a + a 2 = 0
  · have h2 : a 2 = -norm3 a := by linarith
    have h0 : a 0 = 0 := by
      rw [h2] at hs
      nlinarith [mul_self_nonneg (a 0), mul_self_nonneg (a 1)]
    have h1 : a 1 = 0 := by
      rw [h2] at hs
      nlinarith [mul_self_nonneg (a 0), mul_self_nonneg (a 1)]
    refine ⟨2 * norm3 a, by linarith, ?_, ?_, ?_, ?_⟩ <;> rw [spin, if_pos h] <;> apply Complex.ext <;> simp [h0, h1, h2] <;> ring
  · have hp : 0 < norm3 a + a 2 := by
      rcases lt_or_gt_of_ne h with h1 | h1
      · nlinarith [mul_self_nonneg (a 0), mul_self_nonneg (a 1)]
      · exact h1
    obtain ⟨m, hm⟩ : ∃ m, m = (norm3 a + a 2)⁻¹ := ⟨_, rfl⟩
    have hm1 : m * (norm3 a + a 2) = 1 := by rw [hm, inv_mul_cancel₀ h]
    have hm0 : 0 < m := by rw [hm]; exact inv_pos.mpr hp
    refine ⟨m, hm0, ?_, ?_, ?_, ?_⟩ <;> rw [spin, if_neg h] <;> apply Complex.ext <;>
      simp only [Complex.mul_re, Complex.mul_im, Complex.conj_re, Complex.conj_im, Complex.ofReal_re, Complex.ofReal_im]
    · linear_combination -(norm3 a + a 2) * hm1
    · ring
    · linear_combination -a 0 * hm1
    · linear_combination a 1 * hm1
    · linear_combination -a 0 * hm1
    · linear_combination -a 1 * hm1
    · linear_combination m * hs - (norm3 a - a 2) * hm1
    · ring

/-- The complex number of a triangle is, up to a positive factor, a product over its edges. -/
private theorem triangle_prod (a b c : Point 3 ℝ) (h : 0 < angleDen a b c) : ∃ m : ℝ, 0 < m ∧
    (⟨angleDen a b c, det3 a b c⟩ : ℂ) = m * (pairing a b * pairing b c * pairing c a) := by
  have ha : a ≠ 0 := by
    rintro rfl
    simp [angleDen, norm3_zero, dot] at h
  have hb : b ≠ 0 := by
    rintro rfl
    simp [angleDen, norm3_zero, dot] at h
  have hc : c ≠ 0 := by
    rintro rfl
    simp [angleDen, norm3_zero, dot] at h
  obtain ⟨l, hl, a1, a2, a3, a4⟩ := spin_spec a ha
  obtain ⟨m, hm, b1, b2, b3, b4⟩ := spin_spec b hb
  obtain ⟨n, hn, c1, c2, c3, c4⟩ := spin_spec c hc
  refine ⟨l * m * n / 2, by positivity, ?_⟩
  have tr : (2 : ℂ) * ⟨angleDen a b c, det3 a b c⟩ =
      ⟨norm3 a + a 2, 0⟩ * ⟨norm3 b + b 2, 0⟩ * ⟨norm3 c + c 2, 0⟩ + ⟨norm3 a + a 2, 0⟩ * ⟨b 0, -b 1⟩ * ⟨c 0, c 1⟩
      + ⟨a 0, -a 1⟩ * ⟨b 0, b 1⟩ * ⟨norm3 c + c 2, 0⟩ + ⟨a 0, -a 1⟩ * ⟨norm3 b - b 2, 0⟩ * ⟨c 0, c 1⟩
      + ⟨a 0, a 1⟩ * ⟨norm3 b + b 2, 0⟩ * ⟨c 0, -c 1⟩ + ⟨a 0, a 1⟩ * ⟨b 0, -b 1⟩ * ⟨norm3 c - c 2, 0⟩
      + ⟨norm3 a - a 2, 0⟩ * ⟨b 0, b 1⟩ * ⟨c 0, -c 1⟩ + ⟨norm3 a - a 2, 0⟩ * ⟨norm3 b - b 2, 0⟩ * ⟨norm3 c - c 2, 0⟩ := by
    apply Complex.ext
    · simp only [Complex.mul_re, Complex.mul_im, Complex.add_re, Complex.re_ofNat, Complex.im_ofNat, angleDen, dot, det3,
        Fin.sum_univ_three]
      ring
    · simp only [Complex.mul_re, Complex.mul_im, Complex.add_im, Complex.re_ofNat, Complex.im_ofNat, angleDen, dot, det3,
        Fin.sum_univ_three]
      ring
  have e : (⟨angleDen a b c, det3 a b c⟩ : ℂ) = (2 * ⟨angleDen a b c, det3 a b c⟩) / 2 := by ring
  rw [e, tr, a1, a2, a3, a4, b1, b2, b3, b4, c1, c2, c3, c4]
  simp only [pairing]
  push_cast
  ring

/-! ### Closed surfaces -/

private theorem closed_pos {α : Type} (E : α × α → ℂ) (hE : ∀ u v, E (v, u) = (starRingEnd ℂ) (E (u, v)))
    (hd : ∀ u, 0 ≤ (E (u, u)).re) (n : Nat) : ∀ L : List (α × α), L.length = n → L.Perm (L.map Prod.swap) →
    (∀ e ∈ L, E e ≠ 0) → ∃ r : ℝ, 0 < r ∧ (L.map E).prod = r := by
  classical
  induction n using Nat.strong_induction_on with
  | _ n ih =>
    intro L hlen hp hne
    cases L with
    | nil => exact ⟨1, one_pos, by simp⟩
    | cons e L =>
      obtain ⟨u, v⟩ := e
      by_cases huv : u = v
      · subst huv
        have hp' : L.Perm (L.map Prod.swap) := by
          rw [List.map_cons] at hp
          exact hp.cons_inv
        obtain ⟨r, hr, e⟩ := ih L.length (by rw [← hlen]; simp) L rfl hp' fun e he => hne e (List.mem_cons_of_mem _ he)
        have him : (E (u, u)).im = 0 := by
          have := congrArg Complex.im (hE u u)
          rw [Complex.conj_im] at this
          linarith
        have hre : 0 < (E (u, u)).re := by
          rcases (hd u).lt_or_eq with h | h
          · exact h
          · exact absurd (Complex.ext h.symm him) (hne _ (by simp))
        refine ⟨(E (u, u)).re * r, mul_pos hre hr, ?_⟩
        rw [List.map_cons, List.prod_cons, e, Complex.ofReal_mul]
        congr 1
        exact Complex.ext rfl him
      · have hmem : (v, u) ∈ L := by
          have h1 : (v, u) ∈ ((u, v) :: L).map Prod.swap := by simp
          have h2 := hp.mem_iff.mpr h1
          rcases List.mem_cons.mp h2 with h | h
          · exact absurd (congrArg Prod.snd h) huv
          · exact h
        obtain ⟨L', hL'⟩ : ∃ L', L.Perm ((v, u) :: L') := ⟨_, List.perm_cons_erase hmem⟩
        have hp' : L'.Perm (L'.map Prod.swap) := by
          have h1 : ((u, v) :: (v, u) :: L').Perm ((v, u) :: (u, v) :: L'.map Prod.swap) :=
            ((hL'.cons (u, v)).symm.trans hp).trans ((hL'.cons (u, v)).map Prod.swap)
          exact (h1.trans (List.Perm.swap _ _ _)).cons_inv.cons_inv
        have hlen' : L'.length + 2 = n := by
          rw [← hlen, List.length_cons, hL'.length_eq, List.length_cons]
        obtain ⟨r, hr, e⟩ := ih L'.length (by omega) L' rfl hp' fun e he =>
          hne e (List.mem_cons_of_mem _ (hL'.mem_iff.mpr (List.mem_cons_of_mem _ he)))
        refine ⟨Complex.normSq (E (u, v)) * r, mul_pos (Complex.normSq_pos.mpr (hne _ (by simp))) hr, ?_⟩
        rw [((hL'.cons (u, v)).map E).prod_eq, List.map_cons, List.map_cons, List.prod_cons, List.prod_cons, e, hE u v,
          ← mul_assoc, Complex.mul_conj, Complex.ofReal_mul]

private theorem polar (den num : ℝ) (h : 0 < den) : ∃ r : ℝ, 0 < r ∧
    (⟨den, num⟩ : ℂ) = r * Complex.exp (Real.arctan (num / den) * Complex.I) := by
  have hs : 0 < Real.sqrt (1 + (num / den) ^ 2) := Real.sqrt_pos.mpr (by positivity)
  refine ⟨den * Real.sqrt (1 + (num / den) ^ 2), mul_pos h hs, ?_⟩
  rw [Complex.exp_mul_I, ← Complex.ofReal_cos, ← Complex.ofReal_sin, Real.cos_arctan, Real.sin_arctan]
  apply Complex.ext
  · simp
    field_simp
  · simp
    field_simp

/-- The angle of a triangle that is seen under a small angle. -/
private def ang (t : Tri 3 ℝ) (p : Point 3 ℝ) : ℝ :=
  Real.arctan (det3 (fun i => t.a i - p i) (fun i => t.b i - p i) (fun i => t.c i - p i)
    / angleDen (fun i => t.a i - p i) (fun i => t.b i - p i) fun i => t.c i - p i)

private theorem solidAngle_small (t : Tri 3 ℝ) (p : Point 3 ℝ) (h : SmallAngle t p) : t.solidAngle p = some (2 * ang t p) := by
  have := (small_iff t p).mp h
  simp only [Tri.solidAngle, atanDiv, if_neg this.ne', Option.map_some, ang]

private theorem winding_small (T : List (Tri 3 ℝ)) (p : Point 3 ℝ) (h : ∀ t ∈ T, SmallAngle t p) :
    windingNumber T p = some ((T.map fun t => ang t p).sum / (2 * Real.pi)) := by
  rw [winding_of T p (fun t => 2 * ang t p) fun t ht => solidAngle_small t p (h t ht), List.sum_map_mul_left]
  congr 1
  have := Real.pi_pos
  field_simp
  ring

private theorem prod_angles (T : List (Tri 3 ℝ)) (p : Point 3 ℝ) (h : ∀ t ∈ T, SmallAngle t p) :
    (∃ r : ℝ, 0 < r ∧ (T.map fun t => (⟨angleDen (fun i => t.a i - p i) (fun i => t.b i - p i) fun i => t.c i - p i,
        det3 (fun i => t.a i - p i) (fun i => t.b i - p i) fun i => t.c i - p i⟩ : ℂ)).prod
      = r * Complex.exp ((T.map fun t => ang t p).sum * Complex.I)) ∧
    (∃ r : ℝ, 0 < r ∧ (T.map fun t => (⟨angleDen (fun i => t.a i - p i) (fun i => t.b i - p i) fun i => t.c i - p i,
        det3 (fun i => t.a i - p i) (fun i => t.b i - p i) fun i => t.c i - p i⟩ : ℂ)).prod
      = r * ((triangleEdges T).map fun e => pairing (fun i => e.1 i - p i) fun i => e.2 i - p i).prod) ∧
    ∀ e ∈ triangleEdges T, pairing (fun i => e.1 i - p i) (fun i => e.2 i - p i) ≠ 0 := by
  induction T with
  | nil => exact ⟨⟨1, one_pos, by simp⟩, ⟨1, one_pos, by simp [triangleEdges]⟩, by simp [triangleEdges]⟩
  | cons t T ih =>
    obtain ⟨⟨r, hr, e⟩, ⟨s, hs, e'⟩, hne⟩ := ih fun t ht => h t (List.mem_cons_of_mem _ ht)
    have hd := (small_iff t p).mp (h t (by simp))
    obtain ⟨r0, hr0, f⟩ := polar _ (det3 (fun i => t.a i - p i) (fun i => t.b i - p i) fun i => t.c i - p i) hd
    obtain ⟨s0, hs0, f'⟩ := triangle_prod _ _ _ hd
    have hz : (⟨angleDen (fun i => t.a i - p i) (fun i => t.b i - p i) fun i => t.c i - p i,
        det3 (fun i => t.a i - p i) (fun i => t.b i - p i) fun i => t.c i - p i⟩ : ℂ) ≠ 0 := by
      intro e
      have := congrArg Complex.re e
      simp only [Complex.zero_re] at this
      linarith
    refine ⟨⟨r0 * r, mul_pos hr0 hr, ?_⟩, ⟨s0 * s, mul_pos hs0 hs, ?_⟩, ?_⟩
    · rw [List.map_cons, List.prod_cons, e, f, List.map_cons, List.sum_cons]
      push_cast
      rw [add_mul, Complex.exp_add]
      simp only [ang]
      ring
    · rw [List.map_cons, List.prod_cons, e', f']
      simp only [triangleEdges, List.flatMap_cons, List.map_append, List.prod_append, List.map_cons, List.map_nil, List.prod_cons,
        List.prod_nil]
      push_cast
      ring
    · intro e he
      simp only [triangleEdges, List.flatMap_cons, List.mem_append] at he
      rcases he with he | he
      · rw [f'] at hz
        have hz' := right_ne_zero_of_mul hz
        simp only [List.mem_cons, List.not_mem_nil, or_false] at he
        rcases he with rfl | rfl | rfl
        · exact left_ne_zero_of_mul (left_ne_zero_of_mul hz')
        · exact right_ne_zero_of_mul (left_ne_zero_of_mul hz')
        · exact right_ne_zero_of_mul hz'
      · exact hne e he

/-- C74: the winding number of a closed surface is a whole number, when every triangle is seen under a solid angle of
less than `π`. -/
theorem C74_whole_number_partial (T : List (Tri 3 ℝ)) (hT : ClosedSurface T) (p : Point 3 ℝ)
    (h : ∀ t ∈ T, SmallAngle t p) : ∃ k : ℤ, windingNumber T p = some (k : ℝ) := by
  obtain ⟨⟨r, hr, e⟩, ⟨s, hs, e'⟩, hne⟩ := prod_angles T p h
  obtain ⟨q, hq, e''⟩ := closed_pos (fun e : Point 3 ℝ × Point 3 ℝ => pairing (fun i => e.1 i - p i) fun i => e.2 i - p i)
    (fun u v => pairing_symm _ _) (fun u => by
      simp only [pairing, Complex.add_re, Complex.mul_re, Complex.conj_re, Complex.conj_im]
      nlinarith [mul_self_nonneg (spin fun i => u i - p i).1.re, mul_self_nonneg (spin fun i => u i - p i).1.im,
        mul_self_nonneg (spin fun i => u i - p i).2.re, mul_self_nonneg (spin fun i => u i - p i).2.im]) _ _ rfl hT hne
  rw [e, e''] at e'
  have hn := congrArg (fun z : ℂ => ‖z‖) e'
  simp only [norm_mul, Complex.norm_real, Complex.norm_exp_ofReal_mul_I, mul_one, Real.norm_eq_abs, abs_of_pos hr,
    abs_of_pos hs, abs_of_pos hq] at hn
  have h1 : Complex.exp ((T.map fun t => ang t p).sum * Complex.I) = 1 := by
    have hr' : (r : ℂ) ≠ 0 := by exact_mod_cast hr.ne'
    apply mul_left_cancel₀ hr'
    rw [e', mul_one, hn]
    push_cast
    rfl
  obtain ⟨k, hk⟩ := Complex.exp_eq_one_iff.mp h1
  refine ⟨k, ?_⟩
  rw [winding_small T p h]
  congr 1
  have h2 : (((T.map fun t => ang t p).sum : ℝ) : ℂ) = ((k * (2 * Real.pi) : ℝ) : ℂ) := by
    apply mul_right_cancel₀ Complex.I_ne_zero
    rw [hk]
    push_cast
    ring
  have h3 := Complex.ofReal_injective h2
  rw [h3]
  have := Real.pi_pos
  field_simp

/-! ### Moving the point -/

private theorem norm3_continuous : Continuous norm3 := by
  unfold norm3
  fun_prop

private theorem det3_continuous : Continuous fun x : Point 3 ℝ × Point 3 ℝ × Point 3 ℝ => det3 x.1 x.2.1 x.2.2 := by
  unfold det3
  fun_prop

private theorem angleDen_continuous : Continuous fun x : Point 3 ℝ × Point 3 ℝ × Point 3 ℝ => angleDen x.1 x.2.1 x.2.2 := by
  unfold angleDen dot
  have h1 : Continuous fun x : Point 3 ℝ × Point 3 ℝ × Point 3 ℝ => norm3 x.1 := norm3_continuous.comp continuous_fst
  have h2 : Continuous fun x : Point 3 ℝ × Point 3 ℝ × Point 3 ℝ => norm3 x.2.1 :=
    norm3_continuous.comp (continuous_fst.comp continuous_snd)
  have h3 : Continuous fun x : Point 3 ℝ × Point 3 ℝ × Point 3 ℝ => norm3 x.2.2 :=
    norm3_continuous.comp (continuous_snd.comp continuous_snd)
  fun_prop

private theorem from_continuous (t : Tri 3 ℝ) : Continuous fun p : Point 3 ℝ =>
    (((fun i => t.a i - p i), (fun i => t.b i - p i), (fun i => t.c i - p i)) : Point 3 ℝ × Point 3 ℝ × Point 3 ℝ) := by
  fun_prop

private theorem ang_continuousOn (t : Tri 3 ℝ) (S : Set (Point 3 ℝ)) (h : ∀ p ∈ S, SmallAngle t p) :
    ContinuousOn (ang t) S := by
  apply Real.continuous_arctan.comp_continuousOn
  refine ContinuousOn.div (det3_continuous.comp (from_continuous t)).continuousOn
    (angleDen_continuous.comp (from_continuous t)).continuousOn fun p hp => ?_
  exact ((small_iff t p).mp (h p hp)).ne'

private theorem sum_continuousOn (T : List (Tri 3 ℝ)) (S : Set (Point 3 ℝ)) (h : ∀ p ∈ S, ∀ t ∈ T, SmallAngle t p) :
    ContinuousOn (fun p => (T.map fun t => ang t p).sum) S := by
  induction T with
  | nil => simpa using continuousOn_const
  | cons t T ih =>
    simp only [List.map_cons, List.sum_cons]
    exact (ang_continuousOn t S fun p hp => h p hp t (by simp)).add
      (ih fun p hp u hu => h p hp u (List.mem_cons_of_mem _ hu))

/-- C74: the winding number of a closed surface does not change along a connected set of points from which every triangle
is seen under a solid angle of less than `π`. -/
theorem C74_locally_constant_partial (T : List (Tri 3 ℝ)) (hT : ClosedSurface T) (S : Set (Point 3 ℝ))
    (hS : IsPreconnected S) (h : ∀ p ∈ S, ∀ t ∈ T, SmallAngle t p) (p q : Point 3 ℝ) (hp : p ∈ S) (hq : q ∈ S) :
    windingNumber T p = windingNumber T q := by
  obtain ⟨f, hf⟩ : ∃ f : Point 3 ℝ → ℝ, f = fun p => (T.map fun t => ang t p).sum / (2 * Real.pi) := ⟨_, rfl⟩
  have hc : ContinuousOn f S := by
    rw [hf]
    exact (sum_continuousOn T S h).div_const _
  have hw : ∀ x ∈ S, windingNumber T x = some (f x) := by
    intro x hx
    rw [winding_small T x (h x hx), hf]
  have hint : ∀ x ∈ S, ∃ k : ℤ, f x = k := by
    intro x hx
    obtain ⟨k, hk⟩ := C74_whole_number_partial T hT x (h x hx)
    rw [hw x hx, Option.some.injEq] at hk
    exact ⟨k, hk⟩
  have key : ∀ x ∈ S, ∀ y ∈ S, ¬ f x < f y := by
    intro x hx y hy hlt
    obtain ⟨m, hm⟩ := hint x hx
    obtain ⟨n, hn⟩ := hint y hy
    have hmn : m + 1 ≤ n := by
      have : (m : ℝ) < n := by rw [← hm, ← hn]; exact hlt
      exact_mod_cast this
    have hmn' : (m : ℝ) + 1 ≤ n := by exact_mod_cast hmn
    obtain ⟨z, hz, e⟩ := hS.intermediate_value hx hy hc (show (m : ℝ) + 1 / 2 ∈ Set.Icc (f x) (f y) by
      rw [hm, hn]
      constructor <;> linarith)
    obtain ⟨k, hk⟩ := hint z hz
    rw [hk] at e
    have h1 : (m : ℝ) < k := by linarith
    have h2 : (k : ℝ) < (m + 1 : ℤ) := by push_cast; linarith
    have h3 : m < k := by exact_mod_cast h1
    have h4 : k < m + 1 := by exact_mod_cast h2
    omega
  rw [hw p hp, hw q hq, le_antisymm (not_lt.mp (key q hq p hp)) (not_lt.mp (key p hp q hq))]

private theorem norm3_smul (s : ℝ) (hs : 0 ≤ s) (v : Point 3 ℝ) : norm3 (fun i => s * v i) = s * norm3 v := by
  have : s * v 0 * (s * v 0) + s * v 1 * (s * v 1) + s * v 2 * (s * v 2)
      = s ^ 2 * (v 0 * v 0 + v 1 * v 1 + v 2 * v 2) := by ring
  rw [norm3, this, Real.sqrt_mul (sq_nonneg s), Real.sqrt_sq hs]
  rfl

/-- C74: a point from which one can go to infinity on a ray along which every triangle is seen under a solid angle of less
than `π` has winding number zero. -/
theorem C74_outside_partial (T : List (Tri 3 ℝ)) (hT : ClosedSurface T) (p d : Point 3 ℝ) (hd : d ≠ 0)
    (h : ∀ s : ℝ, 0 ≤ s → ∀ t ∈ T, SmallAngle t fun i => p i + s * d i) : windingNumber T p = some 0 := by
  obtain ⟨ray, hray⟩ : ∃ ray : ℝ → Point 3 ℝ, ray = fun s i => p i + s * d i := ⟨_, rfl⟩
  have hconst : ∀ s : ℝ, 0 ≤ s → windingNumber T (ray s) = windingNumber T p := by
    intro s hs
    have hcont : Continuous ray := by
      rw [hray]
      fun_prop
    have hpre : IsPreconnected (ray '' Set.Ici 0) := isPreconnected_Ici.image _ hcont.continuousOn
    refine C74_locally_constant_partial T hT _ hpre ?_ _ _ ⟨s, hs, rfl⟩ ⟨0, le_refl (0 : ℝ), ?_⟩
    · rintro _ ⟨u, hu, rfl⟩ t ht
      rw [hray]
      exact h u hu t ht
    · rw [hray]
      funext i
      simp
  -- the angles along the ray, in the inverse of the parameter
  obtain ⟨g, hg⟩ : ∃ g : Tri 3 ℝ → ℝ → ℝ, g = fun t u =>
      Real.arctan (det3 (fun i => u * (t.a i - p i) - d i) (fun i => u * (t.b i - p i) - d i) (fun i => u * (t.c i - p i) - d i)
      / angleDen (fun i => u * (t.a i - p i) - d i) (fun i => u * (t.b i - p i) - d i) fun i => u * (t.c i - p i) - d i) :=
    ⟨_, rfl⟩
  have hang : ∀ t : Tri 3 ℝ, ∀ u : ℝ, 0 < u → ang t (ray u⁻¹) = g t u := by
    intro t u hu
    have hv : ∀ v : Point 3 ℝ, (fun i => v i - ray u⁻¹ i) = fun i => u⁻¹ * (u * (v i - p i) - d i) := by
      intro v
      funext i
      rw [hray]
      field_simp
      ring
    have hi : 0 < u⁻¹ := inv_pos.mpr hu
    rw [ang, hg, hv, hv, hv]
    obtain ⟨w, hw⟩ : ∃ w, w = u⁻¹ := ⟨_, rfl⟩
    rw [← hw] at hi ⊢
    congr 1
    have e1 : ∀ a b c : Point 3 ℝ, det3 (fun i => w * a i) (fun i => w * b i) (fun i => w * c i) = w ^ 3 * det3 a b c := by
      intro a b c
      simp only [det3]
      ring
    have e2 : ∀ a b c : Point 3 ℝ, angleDen (fun i => w * a i) (fun i => w * b i) (fun i => w * c i) = w ^ 3 * angleDen a b c := by
      intro a b c
      simp only [angleDen, dot, Fin.sum_univ_three, norm3_smul w hi.le]
      ring
    rw [e1 (fun i => u * (t.a i - p i) - d i) (fun i => u * (t.b i - p i) - d i) fun i => u * (t.c i - p i) - d i,
      e2 (fun i => u * (t.a i - p i) - d i) (fun i => u * (t.b i - p i) - d i) fun i => u * (t.c i - p i) - d i,
      mul_div_mul_left _ _ (pow_ne_zero 3 hi.ne')]
  have hlim : ∀ t : Tri 3 ℝ, Filter.Tendsto (g t) (nhds 0) (nhds 0) := by
    intro t
    have hm : Continuous fun u : ℝ => (((fun i => u * (t.a i - p i) - d i), (fun i => u * (t.b i - p i) - d i),
        (fun i => u * (t.c i - p i) - d i)) : Point 3 ℝ × Point 3 ℝ × Point 3 ℝ) := by fun_prop
    have hden : angleDen (fun i => (0 : ℝ) * (t.a i - p i) - d i) (fun i => 0 * (t.b i - p i) - d i)
        (fun i => 0 * (t.c i - p i) - d i) ≠ 0 := by
      have hd' : (fun i => -d i) ≠ (0 : Point 3 ℝ) := by
        intro e
        apply hd
        funext i
        have := congrFun e i
        simpa using this
      have hp := norm3_pos _ hd'
      have hs := norm3_sq fun i => -d i
      simp only [zero_mul, zero_sub, angleDen, dot, Fin.sum_univ_three]
      rw [← hs]
      positivity
    have hcont : ContinuousAt (g t) 0 := by
      rw [hg]
      exact Real.continuous_arctan.continuousAt.comp
        (ContinuousAt.div (det3_continuous.comp hm).continuousAt (angleDen_continuous.comp hm).continuousAt hden)
    have h0 : g t 0 = 0 := by
      rw [hg]
      simp only [zero_mul, zero_sub, det3]
      rw [show -d 0 * (-d 1 * -d 2 - -d 1 * -d 2) - -d 0 * (-d 1 * -d 2 - -d 1 * -d 2)
        + -d 0 * (-d 1 * -d 2 - -d 1 * -d 2) = 0 by ring, zero_div, Real.arctan_zero]
    have := hcont.tendsto
    rwa [h0] at this
  have hsum : ∀ U : List (Tri 3 ℝ), Filter.Tendsto (fun u => (U.map fun t => g t u).sum) (nhds 0) (nhds 0) := by
    intro U
    induction U with
    | nil => simpa using tendsto_const_nhds
    | cons t U ih =>
      simp only [List.map_cons, List.sum_cons]
      simpa using (hlim t).add ih
  have hpi := Real.pi_pos
  obtain ⟨e, he, hball⟩ := Metric.tendsto_nhds_nhds.mp (hsum T) (2 * Real.pi) (by positivity)
  have hu : dist (e / 2) 0 < e := by
    rw [Real.dist_eq, sub_zero, abs_of_pos (by positivity)]
    linarith
  have hb := hball hu
  rw [Real.dist_eq, sub_zero] at hb
  have hpos : 0 < e / 2 := by positivity
  have hmap : (T.map fun t => g t (e / 2)) = T.map fun t => ang t (ray (e / 2)⁻¹) :=
    List.map_congr_left fun t _ => (hang t _ hpos).symm
  rw [hmap] at hb
  have hsm : ∀ t ∈ T, SmallAngle t (ray (e / 2)⁻¹) := by
    rw [hray]
    exact h _ (inv_pos.mpr hpos).le
  obtain ⟨k, hk⟩ := C74_whole_number_partial T hT _ hsm
  have hk' := hk
  rw [winding_small T _ hsm, Option.some.injEq, div_eq_iff (by positivity)] at hk'
  rw [hk', abs_mul, abs_of_pos (show 0 < 2 * Real.pi by positivity)] at hb
  have hk1 : |(k : ℝ)| < 1 := by
    by_contra hcon
    nlinarith
  have hk0 : k = 0 := by
    have : |k| < 1 := by exact_mod_cast hk1
    exact Int.abs_lt_one_iff.mp this
  rw [← hconst (e / 2)⁻¹ (inv_pos.mpr hpos).le, hk, hk0]
  simp

/-! ### Order and orientation -/

private theorem all_or_none (T : List (Tri 3 ℝ)) (p : Point 3 ℝ) :
    (∃ t ∈ T, t.solidAngle p = none) ∨ ∃ f : Tri 3 ℝ → ℝ, ∀ t ∈ T, t.solidAngle p = some (f t) := by
  by_cases h : ∃ t ∈ T, t.solidAngle p = none
  · exact .inl h
  · right
    refine ⟨fun t => (t.solidAngle p).getD 0, fun t ht => ?_⟩
    cases e : t.solidAngle p with
    | none => exact absurd ⟨t, ht, e⟩ h
    | some r => simp only [e, Option.getD_some]

/-- C74: the order of the triangles does not matter. -/
theorem C74_order (T T' : List (Tri 3 ℝ)) (h : T.Perm T') (p : Point 3 ℝ) : windingNumber T p = windingNumber T' p := by
  rcases all_or_none T p with ⟨t, ht, e⟩ | ⟨f, hf⟩
  · rw [winding_none T p t ht e, winding_none T' p t (h.mem_iff.mp ht) e]
  · rw [winding_of T p f hf, winding_of T' p f fun t ht => hf t (h.mem_iff.mpr ht), (h.map f).sum_eq]

private theorem atanDiv_neg (n d : ℝ) : atanDiv (-n) d = (atanDiv n d).map fun r => -r := by
  unfold atanDiv
  by_cases hd : d = 0
  · rw [if_pos hd, if_pos hd]
    rcases lt_trichotomy n 0 with h | h | h
    · rw [if_neg (by linarith), if_pos (by linarith), if_neg h.ne, if_neg (by linarith)]
      simp
    · rw [if_pos (by linarith), if_pos h]
      rfl
    · rw [if_neg (by linarith), if_neg (by linarith), if_neg h.ne', if_pos h]
      rfl
  · rw [if_neg hd, if_neg hd, neg_div, Real.arctan_neg]
    rfl

private theorem solidAngle_swap (t : Tri 3 ℝ) (p : Point 3 ℝ) :
    Tri.solidAngle ⟨t.a, t.c, t.b⟩ p = (t.solidAngle p).map fun r => -r := by
  simp only [Tri.solidAngle]
  have e1 : ∀ a b c : Point 3 ℝ, det3 a c b = -det3 a b c := by
    intro a b c
    simp only [det3]
    ring
  have e2 : ∀ a b c : Point 3 ℝ, angleDen a c b = angleDen a b c := by
    intro a b c
    simp only [angleDen, dot, Fin.sum_univ_three]
    ring
  rw [e1, e2, atanDiv_neg, Option.map_map, Option.map_map]
  congr 1
  funext r
  simp

/-- C74: turning all triangles around changes the sign, and the first vertex of a triangle can be chosen freely. -/
theorem C74_orientation (T : List (Tri 3 ℝ)) (p : Point 3 ℝ) :
    windingNumber (T.map fun t => ⟨t.a, t.c, t.b⟩) p = (windingNumber T p).map (fun w => -w) ∧
    windingNumber (T.map fun t => ⟨t.b, t.c, t.a⟩) p = windingNumber T p := by
  constructor
  · rcases all_or_none T p with ⟨t, ht, e⟩ | ⟨f, hf⟩
    · rw [winding_none T p t ht e, winding_none _ p ⟨t.a, t.c, t.b⟩ (List.mem_map.mpr ⟨t, ht, rfl⟩) (by
        rw [solidAngle_swap, e]; rfl)]
      rfl
    · rw [winding_of T p f hf, winding_of _ p (fun t => -f ⟨t.a, t.c, t.b⟩) (by
        intro t ht
        obtain ⟨u, hu, rfl⟩ := List.mem_map.mp ht
        rw [solidAngle_swap, hf u hu]
        rfl), List.map_map, Option.map_some]
      congr 1
      rw [← neg_div]
      congr 1
      have : ∀ U : List (Tri 3 ℝ), (U.map fun t => -f t).sum = -(U.map f).sum := by
        intro U
        induction U with
        | nil => simp
        | cons t U ih =>
          rw [List.map_cons, List.sum_cons, ih, List.map_cons, List.sum_cons]
          ring
      exact this T
  · have e : ∀ t : Tri 3 ℝ, Tri.solidAngle ⟨t.b, t.c, t.a⟩ p = t.solidAngle p := by
      intro t
      simp only [Tri.solidAngle]
      have e1 : ∀ a b c : Point 3 ℝ, det3 b c a = det3 a b c := by
        intro a b c
        simp only [det3]
        ring
      have e2 : ∀ a b c : Point 3 ℝ, angleDen b c a = angleDen a b c := by
        intro a b c
        simp only [angleDen, dot, Fin.sum_univ_three]
        ring
      rw [e1, e2]
    rw [windingNumber, windingNumber, angleSum, angleSum, List.map_map]
    have : ((fun t : Tri 3 ℝ => t.solidAngle p) ∘ fun t => ⟨t.b, t.c, t.a⟩) = fun t : Tri 3 ℝ => t.solidAngle p := funext e
    rw [this]

/-! ### Tetrahedra -/

private theorem atanDiv_pos (n d : ℝ) (h : 0 < n) : ∃ r, atanDiv n d = some r ∧ r ≤ Real.pi / 2 ∧ (d ≠ 0 → r < Real.pi / 2) := by
  unfold atanDiv
  by_cases hd : d = 0
  · rw [if_pos hd, if_neg h.ne', if_pos h]
    exact ⟨_, rfl, le_refl _, fun h => absurd hd h⟩
  · rw [if_neg hd]
    exact ⟨_, rfl, (Real.arctan_lt_pi_div_two _).le, fun _ => Real.arctan_lt_pi_div_two _⟩

private theorem tet_dets (V : Fin 4 → Point 3 ℝ) (hV : 0 < tetDet V) (p : Point 3 ℝ) (hp : InsideTet V p) (t : Tri 3 ℝ)
    (ht : t ∈ tetSurface V) : 0 < det3 (fun i => t.a i - p i) (fun i => t.b i - p i) fun i => t.c i - p i := by
  obtain ⟨l, hl, hs, e⟩ := hp
  rw [Fin.sum_univ_four] at hs
  have e0 := e 0
  have e1 := e 1
  have e2 := e 2
  rw [Fin.sum_univ_four] at e0 e1 e2
  have key : ∀ i : Fin 4, 0 < l i * tetDet V := fun i => mul_pos (hl i) hV
  have hl0 : l 0 = 1 - l 1 - l 2 - l 3 := by linarith
  simp only [tetSurface, List.mem_cons, List.not_mem_nil, or_false] at ht
  rcases ht with rfl | rfl | rfl | rfl
  · refine lt_of_lt_of_eq (key 3) ?_
    simp only [tetDet, dot, cross3, det3, Fin.sum_univ_three, Matrix.cons_val_zero, Matrix.cons_val_one, Matrix.cons_val]
    rw [e0, e1, e2, hl0]
    ring
  · refine lt_of_lt_of_eq (key 2) ?_
    simp only [tetDet, dot, cross3, det3, Fin.sum_univ_three, Matrix.cons_val_zero, Matrix.cons_val_one, Matrix.cons_val]
    rw [e0, e1, e2, hl0]
    ring
  · refine lt_of_lt_of_eq (key 0) ?_
    simp only [tetDet, dot, cross3, det3, Fin.sum_univ_three, Matrix.cons_val_zero, Matrix.cons_val_one, Matrix.cons_val]
    rw [e0, e1, e2, hl0]
    ring
  · refine lt_of_lt_of_eq (key 1) ?_
    simp only [tetDet, dot, cross3, det3, Fin.sum_univ_three, Matrix.cons_val_zero, Matrix.cons_val_one, Matrix.cons_val]
    rw [e0, e1, e2, hl0]
    ring

/-- The surface of a tetrahedron is closed. -/
theorem C74_tetrahedron_closed (V : Fin 4 → Point 3 ℝ) : ClosedSurface (tetSurface V) := by
  classical
  simp only [ClosedSurface, tetSurface, triangleEdges, List.flatMap_cons, List.flatMap_nil, List.cons_append, List.nil_append,
    List.append_nil, List.map_cons, List.map_nil, Prod.swap]
  have h : ([(0, 2), (2, 1), (1, 0), (0, 1), (1, 3), (3, 0), (1, 2), (2, 3), (3, 1), (0, 3), (3, 2), (2, 0)] : List (Fin 4 × Fin 4)).Perm
      [(2, 0), (1, 2), (0, 1), (1, 0), (3, 1), (0, 3), (2, 1), (3, 2), (1, 3), (3, 0), (2, 3), (0, 2)] := by decide
  exact h.map fun e => (V e.1, V e.2)

/-- Finding: with the arctangent of the quotient a triangle counts for at most a quarter, so the four faces of a tetrahedron
give less than one at every point strictly inside, unless all four denominators vanish. The result should be one. -/
theorem C74_tetrahedron_inside (V : Fin 4 → Point 3 ℝ) (hV : 0 < tetDet V) (p : Point 3 ℝ) (hp : InsideTet V p) :
    ∃ w, windingNumber (tetSurface V) p = some w ∧ w ≤ 1 ∧ ((∃ t ∈ tetSurface V, SmallAngle t p) → w < 1) := by
  have hpi := Real.pi_pos
  have h : ∀ t ∈ tetSurface V, ∃ r, t.solidAngle p = some r ∧ r ≤ Real.pi ∧ (SmallAngle t p → r < Real.pi) := by
    intro t ht
    obtain ⟨r, e, h1, h2⟩ := atanDiv_pos _ (angleDen (fun i => t.a i - p i) (fun i => t.b i - p i) fun i => t.c i - p i)
      (tet_dets V hV p hp t ht)
    refine ⟨2 * r, ?_, by linarith, fun hs => ?_⟩
    · simp only [Tri.solidAngle, e, Option.map_some]
    · have := h2 ((small_iff t p).mp hs).ne'
      linarith
  simp only [tetSurface, List.mem_cons, List.not_mem_nil, or_false, forall_eq_or_imp, forall_eq] at h
  obtain ⟨⟨r0, a0, b0, c0⟩, ⟨r1, a1, b1, c1⟩, ⟨r2, a2, b2, c2⟩, r3, a3, b3, c3⟩ := h
  refine ⟨(r0 + r1 + r2 + r3) / (4 * Real.pi), ?_, ?_, ?_⟩
  · simp only [windingNumber, angleSum, tetSurface, List.map_cons, List.map_nil, a0, a1, a2, a3, List.foldl_cons, List.foldl_nil,
      addAngle, Option.bind_some, Option.map_some]
  · rw [div_le_one (by positivity)]
    linarith
  · rintro ⟨t, ht, hs⟩
    rw [div_lt_one (by positivity)]
    simp only [tetSurface, List.mem_cons, List.not_mem_nil, or_false] at ht
    rcases ht with rfl | rfl | rfl | rfl
    · have := c0 hs
      linarith
    · have := c1 hs
      linarith
    · have := c2 hs
      linarith
    · have := c3 hs
      linarith

/-- Finding: the winding number of a closed surface around a point strictly inside is not always one. -/
theorem C74_inside_false : ¬ ∀ (V : Fin 4 → Point 3 ℝ) (p : Point 3 ℝ), 0 < tetDet V → InsideTet V p →
    windingNumber (tetSurface V) p = some 1 := by
  intro h
  obtain ⟨V, hVdef⟩ : ∃ V : Fin 4 → Point 3 ℝ, V = ![![2, 2, -1], ![-2, 2, -1], ![0, -4, -3], ![0, 0, 1]] := ⟨_, rfl⟩
  have hV : 0 < tetDet V := by
    rw [hVdef]
    simp [tetDet, dot, cross3, Fin.sum_univ_three]
    norm_num
  have hp : InsideTet V 0 := by
    refine ⟨![1 / 8, 1 / 8, 1 / 8, 5 / 8], ?_, ?_, ?_⟩
    · intro i
      fin_cases i <;> simp <;> norm_num
    · simp [Fin.sum_univ_four]
      norm_num
    · intro k
      rw [hVdef]
      fin_cases k <;> simp [Fin.sum_univ_four] <;> norm_num
  obtain ⟨w, e, -, hlt⟩ := C74_tetrahedron_inside V hV 0 hp
  have hs : ∃ t ∈ tetSurface V, SmallAngle t 0 := by
    refine ⟨⟨V 0, V 2, V 1⟩, by simp [tetSurface], ?_⟩
    rw [small_iff]
    have n0 : norm3 (fun i => V 0 i - (0 : Point 3 ℝ) i) = 3 := by
      rw [hVdef, norm3, show (3 : ℝ) = Real.sqrt (3 ^ 2) by rw [Real.sqrt_sq (by norm_num)]]
      congr 1
      simp
      norm_num
    have n1 : norm3 (fun i => V 1 i - (0 : Point 3 ℝ) i) = 3 := by
      rw [hVdef, norm3, show (3 : ℝ) = Real.sqrt (3 ^ 2) by rw [Real.sqrt_sq (by norm_num)]]
      congr 1
      simp
      norm_num
    have n2 : norm3 (fun i => V 2 i - (0 : Point 3 ℝ) i) = 5 := by
      rw [hVdef, norm3, show (5 : ℝ) = Real.sqrt (5 ^ 2) by rw [Real.sqrt_sq (by norm_num)]]
      congr 1
      simp
      norm_num
    rw [angleDen, n0, n1, n2, hVdef]
    simp [dot, Fin.sum_univ_three]
    norm_num
  rw [h V 0 hV hp, Option.some.injEq] at e
  have := hlt hs
  linarith

/-- The hypotheses of the theorems are met: from a point far away the faces of the standard tetrahedron are seen under small
angles, all along a ray. -/
example : windingNumber (tetSurface ![![0, 0, 0], ![1, 0, 0], ![0, 1, 0], ![0, 0, 1]]) ![2, 2, 2] = some 0 := by
  apply C74_outside_partial _ (C74_tetrahedron_closed _) _ ![1, 1, 1] (by
    intro e
    have := congrFun e 0
    simp at this)
  intro s hs t ht
  rw [small_iff]
  have hpos : ∀ v : Point 3 ℝ, v 0 < 0 → 0 < norm3 v := fun v hv => norm3_pos v fun e => by
    rw [e] at hv
    simp at hv
  have key : ∀ a b c : Point 3 ℝ, (∀ i, a i < 0) → (∀ i, b i < 0) → (∀ i, c i < 0) → 0 < angleDen a b c := by
    intro a b c ha hb hc
    have h1 := hpos a (ha 0)
    have h2 := hpos b (hb 0)
    have h3 := hpos c (hc 0)
    have d : ∀ u v : Point 3 ℝ, (∀ i, u i < 0) → (∀ i, v i < 0) → 0 < dot u v := fun u v hu hv =>
      Finset.sum_pos (fun i _ => mul_pos_of_neg_of_neg (hu i) (hv i)) Finset.univ_nonempty
    have := d a b ha hb
    have := d b c hb hc
    have := d c a hc ha
    rw [angleDen]
    positivity
  simp only [tetSurface, List.mem_cons, List.not_mem_nil, or_false] at ht
  rcases ht with rfl | rfl | rfl | rfl <;> apply key <;> intro i <;> fin_cases i <;> simp <;> linarith

end
end Fenris.Geometry
