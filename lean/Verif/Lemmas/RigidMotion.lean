import Verif.Spec.Elasticity
import Mathlib.Tactic.FinCases
import Mathlib.Tactic.LinearCombination
import Mathlib.Analysis.Calculus.MeanValue
/-! # Rigid motions -/
set_option autoImplicit false

namespace Fenris.Elasticity
open Fenris.Elasticity.Spec Matrix

/-- A map that does not change distances to first order is a rigid motion. -/
theorem rigid_of_orthogonal {d : Nat} (f : (Fin d → ℝ) → Fin d → ℝ) (h : ∀ x y, (f x - f y) ⬝ᵥ (x - y) = 0) :
    ∃ S : Matrix (Fin d) (Fin d) ℝ, Sᵀ = -S ∧ ∀ x, f x = S *ᵥ x + f 0 := by
  have h0 : ∀ x, (f x - f 0) ⬝ᵥ x = 0 := fun x => by simpa using h x 0
  have hskew : ∀ x y, (f x - f 0) ⬝ᵥ y = -((f y - f 0) ⬝ᵥ x) := by
    intro x y
    have e : (f x - f y) ⬝ᵥ (x - y) = (f x - f 0) ⬝ᵥ x - (f x - f 0) ⬝ᵥ y - (f y - f 0) ⬝ᵥ x + (f y - f 0) ⬝ᵥ y := by
      have : f x - f y = (f x - f 0) - (f y - f 0) := by abel
      rw [this, sub_dotProduct, dotProduct_sub, dotProduct_sub]
      ring
    have := h x y
    rw [e, h0 x, h0 y] at this
    linarith
  have hs : ∀ i j : Fin d, (f (Pi.single j 1) - f 0) i = -(f (Pi.single i 1) - f 0) j := by
    intro i j
    have := hskew (Pi.single j 1) (Pi.single i 1)
    simpa using this
  refine ⟨Matrix.of fun i j => (f (Pi.single j 1) - f 0) i, ?_, fun x => ?_⟩
  · ext i j
    rw [transpose_apply, Matrix.of_apply, neg_apply, Matrix.of_apply]
    exact hs j i
  · ext i
    have := hskew x (Pi.single i 1)
    rw [dotProduct_single, mul_one] at this
    have e : f x i = (f x - f 0) i + f 0 i := by simp
    rw [e, this, Pi.add_apply]
    congr 1
    rw [mulVec, dotProduct, dotProduct, ← Finset.sum_neg_distrib]
    refine Finset.sum_congr rfl fun j _ => ?_
    rw [Matrix.of_apply, hs i j]
    ring

/-- A map whose symmetric gradient is zero everywhere is a rigid motion. -/
theorem rigid_of_strain_zero {d : Nat} (f : (Fin d → ℝ) → Fin d → ℝ) (D : (Fin d → ℝ) → Matrix (Fin d) (Fin d) ℝ)
    (hD : ∀ x l, ∃ L : (Fin d → ℝ) →L[ℝ] ℝ, HasFDerivAt (fun y => f y l) L x ∧ ∀ w, L w = ∑ m, D x m l * w m)
    (hs : ∀ x m l, D x m l + D x l m = 0) : ∃ S : Matrix (Fin d) (Fin d) ℝ, Sᵀ = -S ∧ ∀ x, f x = S *ᵥ x + f 0 := by
  refine rigid_of_orthogonal f fun x y => ?_
  set h := x - y with hh
  have hd : ∀ t : ℝ, HasDerivAt (fun t : ℝ => f (y + t • h) ⬝ᵥ h) 0 t := by
    intro t
    have hp : HasDerivAt (fun t : ℝ => y + t • h) h t := by
      simpa using ((hasDerivAt_id t).smul_const h).const_add y
    have hl : ∀ l : Fin d, HasDerivAt (fun t : ℝ => f (y + t • h) l * h l) ((∑ m, D (y + t • h) m l * h m) * h l) t := by
      intro l
      obtain ⟨L, h1, h2⟩ := hD (y + t • h) l
      have := (h1.comp_hasDerivAt t hp).mul_const (h l)
      rw [h2] at this
      exact this
    have hsum := HasDerivAt.fun_sum fun l (_ : l ∈ Finset.univ) => hl l
    have h0 : ∑ l, (∑ m, D (y + t • h) m l * h m) * h l = 0 := by
      have e1 : ∑ l, (∑ m, D (y + t • h) m l * h m) * h l = ∑ l, ∑ m, D (y + t • h) m l * (h m * h l) :=
        Finset.sum_congr rfl fun l _ => by rw [Finset.sum_mul]; exact Finset.sum_congr rfl fun m _ => by ring
      have e2 : ∑ l, ∑ m, D (y + t • h) m l * (h m * h l) = ∑ l, ∑ m, D (y + t • h) l m * (h m * h l) := by
        rw [Finset.sum_comm]
        exact Finset.sum_congr rfl fun l _ => Finset.sum_congr rfl fun m _ => by rw [mul_comm (h l)]
      have e3 : ∑ l, ∑ m, D (y + t • h) m l * (h m * h l) + ∑ l, ∑ m, D (y + t • h) l m * (h m * h l) = 0 := by
        rw [← Finset.sum_add_distrib]
        refine Finset.sum_eq_zero fun l _ => ?_
        rw [← Finset.sum_add_distrib]
        exact Finset.sum_eq_zero fun m _ => by rw [← add_mul, hs, zero_mul]
      rw [e1]
      linarith
    rw [h0] at hsum
    exact hsum
  have hc := is_const_of_deriv_eq_zero (fun t => (hd t).differentiableAt) (fun t => (hd t).deriv) 1 0
  simp only [one_smul, zero_smul, add_zero] at hc
  rw [sub_dotProduct, ← hc, hh, add_sub_cancel]
  exact sub_self _

/-- In the plane, two different points fix a rigid motion, and fewer do not. -/
theorem fixes_plane (points : Set (Point 2 ℝ)) : Fixes points ↔ ∃ x ∈ points, ∃ y ∈ points, x ≠ y := by
  constructor
  · intro h
    by_contra hno
    push Not at hno
    obtain ⟨z, hz⟩ : ∃ z : Point 2 ℝ, ∀ x ∈ points, x = z := by
      by_cases hne : points.Nonempty
      · obtain ⟨z, hz⟩ := hne
        exact ⟨z, fun x hx => hno x hx z hz⟩
      · exact ⟨0, fun x hx => absurd ⟨x, hx⟩ hne⟩
    have := (h !![0, -1; 1, 0] (-(!![0, -1; 1, 0] *ᵥ z)) (by ext i j; fin_cases i <;> fin_cases j <;> simp) (by
      intro x hx
      rw [hz x hx, add_neg_cancel])).1
    have := congrFun (congrFun this 1) 0
    simp at this
  · rintro ⟨x, hx, y, hy, hxy⟩ W b hW hfix
    have hs : ∀ i j, W j i = -W i j := fun i j => by
      have := congrFun (congrFun hW i) j
      simpa using this
    have h00 : W 0 0 = 0 := by have := hs 0 0; linarith
    have h11 : W 1 1 = 0 := by have := hs 1 1; linarith
    have h10 := hs 0 1
    have ex0 := congrFun (hfix x hx) 0
    have ex1 := congrFun (hfix x hx) 1
    have ey0 := congrFun (hfix y hy) 0
    have ey1 := congrFun (hfix y hy) 1
    simp [mulVec, dotProduct, Fin.sum_univ_two, h00, h11, h10] at ex0 ex1 ey0 ey1
    have hw : W 0 1 = 0 := by
      by_contra hne
      apply hxy
      ext i
      fin_cases i
      · have : W 0 1 * (x 0 - y 0) = 0 := by linear_combination ey1 - ex1
        simpa [hne, sub_eq_zero] using this
      · have : W 0 1 * (x 1 - y 1) = 0 := by linear_combination ex0 - ey0
        simpa [hne, sub_eq_zero] using this
    rw [hw] at ex0 ex1
    refine ⟨?_, ?_⟩
    · ext i j
      fin_cases i <;> fin_cases j <;> simp [h00, h11, h10, hw]
    · ext i
      fin_cases i
      · simpa using ex0
      · simpa using ex1

private theorem cross_matrix (v : Point 3 ℝ) :
    (!![0, -v 2, v 1; v 2, 0, -v 0; -v 1, v 0, 0] : Matrix (Fin 3) (Fin 3) ℝ)ᵀ = -!![0, -v 2, v 1; v 2, 0, -v 0; -v 1, v 0, 0] := by
  ext i j
  fin_cases i <;> fin_cases j <;> simp

private theorem not_fixes_line {points : Set (Point 3 ℝ)} (p v : Point 3 ℝ) (hv : v ≠ 0)
    (h : ∀ x ∈ points, v 1 * (x 2 - p 2) - v 2 * (x 1 - p 1) = 0 ∧ v 2 * (x 0 - p 0) - v 0 * (x 2 - p 2) = 0 ∧
      v 0 * (x 1 - p 1) - v 1 * (x 0 - p 0) = 0) : ¬ Fixes points := by
  intro hfix
  have h0 := (hfix _ (-(!![0, -v 2, v 1; v 2, 0, -v 0; -v 1, v 0, 0] *ᵥ p)) (cross_matrix v) (by
    intro x hx
    obtain ⟨h1, h2, h3⟩ := h x hx
    ext i
    fin_cases i <;> simp [mulVec, dotProduct, Fin.sum_univ_three]
    · linear_combination h1
    · linear_combination h2
    · linear_combination h3)).1
  apply hv
  ext i
  have e0 := congrFun (congrFun h0 2) 1
  have e1 := congrFun (congrFun h0 0) 2
  have e2 := congrFun (congrFun h0 1) 0
  simp at e0 e1 e2
  fin_cases i <;> simp [e0, e1, e2]

/-- In space, three points that are not on a line fix a rigid motion, and points on a line do not. -/
theorem fixes_space (points : Set (Point 3 ℝ)) :
    Fixes points ↔ ∃ x ∈ points, ∃ y ∈ points, ∃ z ∈ points, PatchTest.Spec.triNormal x y z ≠ 0 := by
  constructor
  · intro h
    by_contra hno
    push Not at hno
    by_cases hne : points.Nonempty
    · obtain ⟨p, hp⟩ := hne
      by_cases hq : ∃ q ∈ points, q ≠ p
      · obtain ⟨q, hq, hqp⟩ := hq
        refine not_fixes_line p (q - p) (sub_ne_zero.2 hqp) (fun x hx => ?_) h
        have := hno p hp q hq x hx
        have e0 := congrFun this 0
        have e1 := congrFun this 1
        have e2 := congrFun this 2
        simp only [PatchTest.Spec.triNormal, cons_val_zero, cons_val_one, cons_val, Pi.zero_apply] at e0 e1 e2
        exact ⟨e0, e1, e2⟩
      · push Not at hq
        refine not_fixes_line p (fun _ => 1) (fun h => one_ne_zero (congrFun h 0)) (fun x hx => ?_) h
        rw [hq x hx]
        simp
    · refine not_fixes_line 0 (fun _ => 1) (fun h => one_ne_zero (congrFun h 0)) (fun x hx => absurd ⟨x, hx⟩ hne) h
  · rintro ⟨x, hx, y, hy, z, hz, hxyz⟩ W b hW hfix
    have hs : ∀ i j, W j i = -W i j := fun i j => by
      have := congrFun (congrFun hW i) j
      simpa using this
    have h00 : W 0 0 = 0 := by have := hs 0 0; linarith
    have h11 : W 1 1 = 0 := by have := hs 1 1; linarith
    have h22 : W 2 2 = 0 := by have := hs 2 2; linarith
    have h10 := hs 0 1
    have h20 := hs 0 2
    have h21 := hs 1 2
    have hp : ∀ p ∈ points, (W 0 1 * p 1 + W 0 2 * p 2 + b 0 = 0 ∧ -(W 0 1 * p 0) + W 1 2 * p 2 + b 1 = 0) ∧
        -(W 0 2 * p 0) + -(W 1 2 * p 1) + b 2 = 0 := by
      intro p hp
      have e0 := congrFun (hfix p hp) 0
      have e1 := congrFun (hfix p hp) 1
      have e2 := congrFun (hfix p hp) 2
      simp [mulVec, dotProduct, Fin.sum_univ_three, h00, h11, h22, h10, h20, h21] at e0 e1 e2
      exact ⟨⟨e0, e1⟩, e2⟩
    obtain ⟨⟨x0, x1⟩, x2⟩ := hp x hx
    obtain ⟨⟨y0, y1⟩, y2⟩ := hp y hy
    obtain ⟨⟨z0, z1⟩, z2⟩ := hp z hz
    set a0 := y 0 - x 0 with ha0
    set a1 := y 1 - x 1 with ha1
    set a2 := y 2 - x 2 with ha2
    set b0 := z 0 - x 0 with hb0
    set b1 := z 1 - x 1 with hb1
    set b2 := z 2 - x 2 with hb2
    have A0 : W 0 1 * a1 + W 0 2 * a2 = 0 := by rw [ha1, ha2]; linear_combination y0 - x0
    have A1 : -(W 0 1 * a0) + W 1 2 * a2 = 0 := by rw [ha0, ha2]; linear_combination y1 - x1
    have A2 : W 0 2 * a0 + W 1 2 * a1 = 0 := by rw [ha0, ha1]; linear_combination x2 - y2
    have B0 : W 0 1 * b1 + W 0 2 * b2 = 0 := by rw [hb1, hb2]; linear_combination z0 - x0
    have B1 : -(W 0 1 * b0) + W 1 2 * b2 = 0 := by rw [hb0, hb2]; linear_combination z1 - x1
    have B2 : W 0 2 * b0 + W 1 2 * b1 = 0 := by rw [hb0, hb1]; linear_combination x2 - z2
    have hn : ¬ (a1 * b2 - a2 * b1 = 0 ∧ a2 * b0 - a0 * b2 = 0 ∧ a0 * b1 - a1 * b0 = 0) := by
      rintro ⟨n0, n1, n2⟩
      apply hxyz
      ext i
      fin_cases i
      · exact n0
      · exact n1
      · exact n2
    have hW0 : W 0 1 = 0 ∧ W 0 2 = 0 ∧ W 1 2 = 0 := by
      by_contra hne
      apply hn
      have key : ∀ w : ℝ, w ≠ 0 → ∀ c : ℝ, w * c = 0 → c = 0 := fun w hw c h => (mul_eq_zero.1 h).resolve_left hw
      by_cases w1 : W 0 1 = 0
      · by_cases w2 : W 0 2 = 0
        · have w3 : W 1 2 ≠ 0 := fun w3 => hne ⟨w1, w2, w3⟩
          have c1 := key _ w3 a1 (by rw [w2] at A2; linarith)
          have c2 := key _ w3 a2 (by rw [w1] at A1; linarith)
          have c3 := key _ w3 b1 (by rw [w2] at B2; linarith)
          have c4 := key _ w3 b2 (by rw [w1] at B1; linarith)
          rw [c1, c2, c3, c4]
          simp
        · refine ⟨key _ w2 _ ?_, key _ w2 _ ?_, key _ (mul_ne_zero w2 w2) _ ?_⟩
          · linear_combination a1 * B0 - b1 * A0
          · linear_combination b0 * A0 - a0 * B0 + (a0 * b1 - a1 * b0) * w1
          · linear_combination W 0 2 * b1 * A2 - W 0 2 * a1 * B2
      · refine ⟨key _ w1 _ ?_, key _ w1 _ ?_, key _ w1 _ ?_⟩
        · linear_combination b2 * A0 - a2 * B0
        · linear_combination a2 * B1 * (-1) + b2 * A1
        · linear_combination -b1 * A1 - b0 * A0 + a2 * B2
    obtain ⟨w1, w2, w3⟩ := hW0
    rw [w1, w2] at x0
    rw [w1, w3] at x1
    rw [w2, w3] at x2
    refine ⟨?_, ?_⟩
    · ext i j
      fin_cases i <;> fin_cases j <;> simp [h00, h11, h22, h10, h20, h21, w1, w2, w3]
    · ext i
      fin_cases i
      · simpa using x0
      · simpa using x1
      · simpa using x2

end Fenris.Elasticity
