import Mathlib.Analysis.Calculus.Deriv.Mul
import Mathlib.Analysis.Calculus.Deriv.Add
import Mathlib.Analysis.Calculus.Deriv.Pow
import Mathlib.Analysis.Calculus.Deriv.Polynomial
import Mathlib.Analysis.Calculus.Deriv.Slope
import Mathlib.Analysis.SpecialFunctions.Log.Deriv
import Mathlib.LinearAlgebra.Matrix.NonsingularInverse
import Mathlib.LinearAlgebra.Matrix.Charpoly.Coeff
import Mathlib.Topology.Instances.Matrix
import Mathlib.Tactic.FieldSimp
import Mathlib.Tactic.Ring
import Mathlib.Tactic.LinearCombination
import Verif.Spec.Solid
import Verif.Spec.ElementAssembly
import Verif.Spec.Variational
import Verif.Lemmas.ElementAssembly
/-! # Hyperelastic materials (C56-C59)

`fenris-solid/src/{lib,logdet,materials}.rs`. -/
set_option autoImplicit false

namespace Fenris
namespace Solid

open Matrix Topology

variable {d : Nat}

/-! ### Derivatives of matrix functions, entry by entry -/

/-- `A' ` is the derivative of `A` at zero, entry by entry. -/
private def HasMD (A : ℝ → Matrix (Fin d) (Fin d) ℝ) (A' : Matrix (Fin d) (Fin d) ℝ) : Prop :=
  ∀ i j, HasDerivAt (fun t => A t i j) (A' i j) 0

private theorem md_line (F H : Matrix (Fin d) (Fin d) ℝ) : HasMD (fun t => F + t • H) H := by
  intro i j
  have := ((hasDerivAt_id (0 : ℝ)).mul_const (H i j)).const_add (F i j)
  simpa [Matrix.add_apply, Matrix.smul_apply] using this

private theorem md_const (A : Matrix (Fin d) (Fin d) ℝ) : HasMD (fun _ => A) 0 := by
  intro i j
  simpa using hasDerivAt_const (0 : ℝ) (A i j)

private theorem md_add {A B : ℝ → Matrix (Fin d) (Fin d) ℝ} {A' B'} (hA : HasMD A A') (hB : HasMD B B') :
    HasMD (fun t => A t + B t) (A' + B') := fun i j => (hA i j).add (hB i j)

private theorem md_sub {A B : ℝ → Matrix (Fin d) (Fin d) ℝ} {A' B'} (hA : HasMD A A') (hB : HasMD B B') :
    HasMD (fun t => A t - B t) (A' - B') := fun i j => (hA i j).sub (hB i j)

private theorem md_csmul {A : ℝ → Matrix (Fin d) (Fin d) ℝ} {A'} (c : ℝ) (hA : HasMD A A') :
    HasMD (fun t => c • A t) (c • A') := fun i j => (hA i j).const_mul c

private theorem md_smul {f : ℝ → ℝ} {f'} {A : ℝ → Matrix (Fin d) (Fin d) ℝ} {A'} (hf : HasDerivAt f f' 0)
    (hA : HasMD A A') : HasMD (fun t => f t • A t) (f' • A 0 + f 0 • A') := fun i j => hf.mul (hA i j)

private theorem md_transpose {A : ℝ → Matrix (Fin d) (Fin d) ℝ} {A'} (hA : HasMD A A') :
    HasMD (fun t => (A t)ᵀ) A'ᵀ := fun i j => hA j i

private theorem md_mul {A B : ℝ → Matrix (Fin d) (Fin d) ℝ} {A' B'} (hA : HasMD A A') (hB : HasMD B B') :
    HasMD (fun t => A t * B t) (A' * B 0 + A 0 * B') := by
  intro i j
  have h := HasDerivAt.fun_sum (u := Finset.univ) (fun k _ => (hA i k).mul (hB k j))
  simp only [Matrix.mul_apply, Matrix.add_apply, ← Finset.sum_add_distrib]
  exact h

private theorem md_trace {A : ℝ → Matrix (Fin d) (Fin d) ℝ} {A'} (hA : HasMD A A') :
    HasDerivAt (fun t => (A t).trace) A'.trace 0 :=
  HasDerivAt.fun_sum (u := Finset.univ) (fun k _ => hA k k)

private theorem dot_eq_trace (A B : Matrix (Fin d) (Fin d) ℝ) : dot A B = (Aᵀ * B).trace := by
  rw [dot, Matrix.trace, Finset.sum_comm]
  rfl

private theorem md_dot {A B : ℝ → Matrix (Fin d) (Fin d) ℝ} {A' B'} (hA : HasMD A A') (hB : HasMD B B') :
    HasDerivAt (fun t => dot (A t) (B t)) (dot A' (B 0) + dot (A 0) B') 0 := by
  simp only [dot_eq_trace]
  rw [← Matrix.trace_add]
  exact md_trace (md_mul (md_transpose hA) hB)

private theorem dot_comm (A B : Matrix (Fin d) (Fin d) ℝ) : dot A B = dot B A := by
  simp only [dot, mul_comm]

private theorem md_apply {A : ℝ → Matrix (Fin d) (Fin d) ℝ} {A'} (hA : HasMD A A') (a : Point d ℝ) (i : Fin d) :
    HasDerivAt (fun t => ∑ k, A t i k * a k) ((A' *ᵥ a) i) 0 :=
  HasDerivAt.fun_sum (u := Finset.univ) (fun k _ => (hA i k).mul_const (a k))

private theorem of_eq_vecMulVec (c b : Point d ℝ) : (Matrix.of fun j m => c j * b m) = vecMulVec c b := rfl

/-! ### Linear elasticity -/

private theorem strain_symm (F : Matrix (Fin d) (Fin d) ℝ) : (infinitesimalStrain F)ᵀ = infinitesimalStrain F := by
  simp only [infinitesimalStrain, symmetricPart, transpose_sub, transpose_smul, transpose_add, transpose_transpose,
    transpose_one, add_comm]

private theorem md_strain (F H : Matrix (Fin d) (Fin d) ℝ) :
    HasMD (fun t => infinitesimalStrain (F + t • H)) (symmetricPart H) := by
  have h := md_sub (md_csmul (1 / 2 : ℝ) (md_add (md_line F H) (md_transpose (md_line F H))))
    (md_const (1 : Matrix (Fin d) (Fin d) ℝ))
  rw [sub_zero] at h
  exact h

private theorem dot_symmetricPart (A H : Matrix (Fin d) (Fin d) ℝ) (hA : Aᵀ = A) :
    dot A (symmetricPart H) = dot A H := by
  have h : (A * Hᵀ).trace = (A * H).trace := by
    rw [← Matrix.trace_transpose, transpose_mul, transpose_transpose, hA, Matrix.trace_mul_comm]
  rw [dot_eq_trace, dot_eq_trace, hA, symmetricPart, mul_smul_comm, Matrix.mul_add, Matrix.trace_smul,
    Matrix.trace_add, h, smul_eq_mul]
  ring

private theorem trace_symmetricPart (H : Matrix (Fin d) (Fin d) ℝ) : (symmetricPart H).trace = H.trace := by
  rw [symmetricPart, Matrix.trace_smul, Matrix.trace_add, Matrix.trace_transpose, smul_eq_mul]
  ring

private theorem dot_diagonal (c : ℝ) (H : Matrix (Fin d) (Fin d) ℝ) :
    dot (Matrix.diagonal fun _ => c) H = c * H.trace := by
  rw [dot_eq_trace, Matrix.diagonal_transpose, Matrix.trace, Matrix.trace, Finset.mul_sum]
  refine Finset.sum_congr rfl fun i _ => ?_
  simp [Matrix.diagonal_mul]

private theorem dot_add (A B H : Matrix (Fin d) (Fin d) ℝ) : dot (A + B) H = dot A H + dot B H := by
  simp only [dot_eq_trace, transpose_add, Matrix.add_mul, Matrix.trace_add]

private theorem dot_smul (c : ℝ) (A H : Matrix (Fin d) (Fin d) ℝ) : dot (c • A) H = c * dot A H := by
  simp only [dot_eq_trace, transpose_smul, smul_mul_assoc, Matrix.trace_smul, smul_eq_mul]

/-- C56 (linear elasticity): for all deformation gradients and parameters, in every dimension, the stress is the
derivative of the energy density. -/
theorem C56_linear_elastic (F : Matrix (Fin d) (Fin d) ℝ) (p : Lame ℝ) :
    ∃ P, (linearElastic d).stress F p = .val P ∧
      Spec.StressIsDerivative (fun F => (linearElastic d).energy F p) F P := by
  refine ⟨leStress F p, rfl, fun H => ⟨Filter.Eventually.of_forall fun t => WithTop.coe_ne_top, ?_⟩⟩
  have h1 := md_dot (md_strain F H) (md_strain F H)
  have h2 := (md_trace (md_strain F H)).pow 2
  have h := (h1.const_mul p.mu).add (h2.const_mul (1 / 2 * p.lambda))
  refine h.congr_deriv ?_
  simp only [zero_smul, add_zero]
  rw [dot_comm (symmetricPart H), dot_symmetricPart _ _ (strain_symm F), trace_symmetricPart]
  change _ = dot (leStress F p) H
  rw [leStress, dot_add, dot_smul, dot_smul, dot_diagonal]
  push_cast
  ring

private theorem md_leStress (F H : Matrix (Fin d) (Fin d) ℝ) (p : Lame ℝ) :
    HasMD (fun t => leStress (F + t • H) p)
      (p.mu • (2 : ℝ) • symmetricPart H + Matrix.diagonal fun _ => p.lambda * H.trace) := by
  have h1 := md_csmul p.mu (md_csmul (2 : ℝ) (md_strain F H))
  have h2 := (md_trace (md_strain F H)).const_mul p.lambda
  rw [trace_symmetricPart] at h2
  refine md_add h1 fun i j => ?_
  by_cases hij : i = j
  · subst hij
    simpa using h2
  · simpa [Matrix.diagonal_apply_ne _ hij] using hasDerivAt_const (0 : ℝ) (0 : ℝ)

private theorem symm_mulVec (c b a : Point d ℝ) :
    symmetricPart (vecMulVec c b) *ᵥ a = (1 / 2 : ℝ) • ((b ⬝ᵥ a) • c + (c ⬝ᵥ a) • b) := by
  rw [symmetricPart, transpose_vecMulVec, smul_mulVec, add_mulVec]
  congr 2 <;>
  · ext i
    simp only [mulVec, vecMulVec_apply, dotProduct, Pi.smul_apply, smul_eq_mul, Finset.sum_mul]
    exact Finset.sum_congr rfl fun k _ => by ring

/-- C57 (linear elasticity): the contraction is the derivative of the stress. -/
theorem C57_linear_elastic (F : Matrix (Fin d) (Fin d) ℝ) (p : Lame ℝ) :
    ∃ C : Point d ℝ → Point d ℝ → Matrix (Fin d) (Fin d) ℝ,
      (∀ a b, (linearElastic d).contraction F a b p = .val (C a b)) ∧
      (∀ a b, C a b = (C b a)ᵀ) ∧
      Spec.ContractionIsDerivative (fun F => (linearElastic d).stress F p) F C := by
  refine ⟨fun a b => leContraction F a b p, fun a b => rfl, ?_, ?_⟩
  · intro a b
    simp only [leContraction, transpose_add, transpose_smul, transpose_one, transpose_vecMulVec, dotProduct_comm a b]
  · intro a b c
    refine ⟨Filter.Eventually.of_forall fun t => ⟨_, rfl⟩, fun i => ?_⟩
    have h := md_apply (md_leStress F (vecMulVec c b) p) a i
    refine h.congr_deriv ?_
    change _ = (leContraction F a b p *ᵥ c) i
    rw [add_mulVec, smul_mulVec, smul_mulVec, symm_mulVec, leContraction, add_mulVec, smul_mulVec, smul_mulVec,
      add_mulVec, smul_mulVec, one_mulVec, vecMulVec_mulVec, vecMulVec_mulVec, trace_vecMulVec]
    have e : (Matrix.diagonal fun _ => p.lambda * (c ⬝ᵥ b)) *ᵥ a = (p.lambda * (c ⬝ᵥ b)) • a := by
      ext k
      simp [mulVec_diagonal]
    rw [e]
    simp only [Pi.add_apply, Pi.smul_apply, smul_eq_mul, MulOpposite.smul_eq_mul_unop, MulOpposite.unop_op]
    rw [dotProduct_comm b a, dotProduct_comm c b, dotProduct_comm c a]
    ring

/-! ### St. Venant-Kirchhoff -/

theorem green_symm (F : Matrix (Fin d) (Fin d) ℝ) : (greenStrain F)ᵀ = greenStrain F := by
  simp only [greenStrain, transpose_smul, transpose_sub, transpose_mul, transpose_transpose, transpose_one]

private theorem md_green (F H : Matrix (Fin d) (Fin d) ℝ) :
    HasMD (fun t => greenStrain (F + t • H)) (symmetricPart (Fᵀ * H)) := by
  have h := md_csmul (1 / 2 : ℝ) (md_sub (md_mul (md_transpose (md_line F H)) (md_line F H))
    (md_const (1 : Matrix (Fin d) (Fin d) ℝ)))
  have e : symmetricPart (Fᵀ * H) = (1 / 2 : ℝ) • (Hᵀ * (F + (0 : ℝ) • H) + (F + (0 : ℝ) • H)ᵀ * H - 0) := by
    rw [symmetricPart, transpose_mul, transpose_transpose, zero_smul, add_zero, sub_zero, add_comm]
  rw [e]
  exact h

private theorem dot_mul_left (F E H : Matrix (Fin d) (Fin d) ℝ) : dot (F * E) H = dot E (Fᵀ * H) := by
  rw [dot_eq_trace, dot_eq_trace, transpose_mul, Matrix.mul_assoc]

/-- C56 (St. Venant-Kirchhoff): the stress is the derivative of the energy density. -/
theorem C56_stvk (F : Matrix (Fin d) (Fin d) ℝ) (p : Lame ℝ) :
    ∃ P, (stvk d).stress F p = .val P ∧ Spec.StressIsDerivative (fun F => (stvk d).energy F p) F P := by
  refine ⟨stvkStress F p, rfl, fun H => ⟨Filter.Eventually.of_forall fun t => WithTop.coe_ne_top, ?_⟩⟩
  have h1 := md_dot (md_green F H) (md_green F H)
  have h2 := (md_trace (md_green F H)).pow 2
  have h := (h1.const_mul p.mu).add (h2.const_mul (1 / 2 * p.lambda))
  refine h.congr_deriv ?_
  simp only [zero_smul, add_zero]
  rw [dot_comm (symmetricPart _), dot_symmetricPart _ _ (green_symm F), trace_symmetricPart]
  change _ = dot (stvkStress F p) H
  rw [stvkStress, dot_add, dot_smul, dot_smul, dot_smul, dot_smul, dot_mul_left, dot_eq_trace F H]
  push_cast
  ring

private theorem md_stvkStress (F H : Matrix (Fin d) (Fin d) ℝ) (p : Lame ℝ) :
    HasMD (fun t => stvkStress (F + t • H) p)
      (p.mu • (2 : ℝ) • (H * greenStrain F + F * symmetricPart (Fᵀ * H))
        + ((Fᵀ * H).trace • p.lambda • F + (greenStrain F).trace • p.lambda • H)) := by
  have h1 := md_csmul p.mu (md_csmul (2 : ℝ) (md_mul (md_line F H) (md_green F H)))
  have h2 := md_smul (md_trace (md_green F H)) (md_csmul p.lambda (md_line F H))
  have h := md_add h1 h2
  simp only [zero_smul, add_zero, trace_symmetricPart] at h
  exact h

/-- C57 (St. Venant-Kirchhoff): the contraction is the derivative of the stress. -/
theorem C57_stvk (F : Matrix (Fin d) (Fin d) ℝ) (p : Lame ℝ) :
    ∃ C : Point d ℝ → Point d ℝ → Matrix (Fin d) (Fin d) ℝ,
      (∀ a b, (stvk d).contraction F a b p = .val (C a b)) ∧
      (∀ a b, C a b = (C b a)ᵀ) ∧
      Spec.ContractionIsDerivative (fun F => (stvk d).stress F p) F C := by
  have esymm : ∀ a b : Point d ℝ, a ⬝ᵥ (greenStrain F *ᵥ b) = b ⬝ᵥ (greenStrain F *ᵥ a) := fun a b => by
    rw [dotProduct_mulVec, ← mulVec_transpose, green_symm, dotProduct_comm]
  refine ⟨fun a b => stvkContraction F a b p, fun a b => rfl, ?_, ?_⟩
  · intro a b
    simp only [stvkContraction, transpose_add, transpose_smul, transpose_one, transpose_vecMulVec, transpose_mul,
      transpose_transpose, dotProduct_comm a b, esymm a b]
  · intro a b c
    refine ⟨Filter.Eventually.of_forall fun t => ⟨_, rfl⟩, fun i => ?_⟩
    have h := md_apply (md_stvkStress F (vecMulVec c b) p) a i
    refine h.congr_deriv ?_
    change _ = (stvkContraction F a b p *ᵥ c) i
    have e0 : Fᵀ * vecMulVec c b = vecMulVec (Fᵀ *ᵥ c) b := mul_vecMulVec _ _ _
    have e1 : (Fᵀ *ᵥ c) ⬝ᵥ b = (F *ᵥ b) ⬝ᵥ c := by
      rw [mulVec_transpose, ← dotProduct_mulVec, dotProduct_comm]
    have e2 : (Fᵀ *ᵥ c) ⬝ᵥ a = (F *ᵥ a) ⬝ᵥ c := by
      rw [mulVec_transpose, ← dotProduct_mulVec, dotProduct_comm]
    have e3 : (F * symmetricPart (vecMulVec (Fᵀ *ᵥ c) b)) *ᵥ a
        = (1 / 2 : ℝ) • ((b ⬝ᵥ a) • ((F * Fᵀ) *ᵥ c) + ((F *ᵥ a) ⬝ᵥ c) • (F *ᵥ b)) := by
      rw [← mulVec_mulVec, symm_mulVec, mulVec_smul, mulVec_add, mulVec_smul, mulVec_smul, mulVec_mulVec, e2]
    have e4 : (vecMulVec c b * greenStrain F) *ᵥ a = (a ⬝ᵥ (greenStrain F *ᵥ b)) • c := by
      rw [← mulVec_mulVec, vecMulVec_mulVec, esymm a b]
      ext k
      simp [mul_comm]
    have e5 : vecMulVec c b *ᵥ a = (b ⬝ᵥ a) • c := by
      rw [vecMulVec_mulVec]
      ext k
      simp [mul_comm]
    rw [e0]
    simp only [add_mulVec, smul_mulVec, e3, e4, e5, trace_vecMulVec, e1, stvkContraction, one_mulVec,
      vecMulVec_mulVec]
    simp only [Pi.add_apply, Pi.smul_apply, smul_eq_mul, MulOpposite.smul_eq_mul_unop, MulOpposite.unop_op]
    rw [dotProduct_comm b a]
    ring

/-! ### Logarithm of the determinant -/

/-- C58: in two and three dimensions `log_det_F` returns the logarithm of `det (I + du/dX)`, and `None` exactly
if that determinant is not positive. Missing: dimension one, where it is false (`C58_one_dimension_wrong`). -/
theorem C58_log_det_F_partial (hd : d = 2 ∨ d = 3) (u : Matrix (Fin d) (Fin d) ℝ) :
    ((1 + u).det > 0 → logDetF d u = some (Real.log (1 + u).det)) ∧
    ((1 + u).det ≤ 0 → logDetF d u = none) := by
  rcases hd with rfl | rfl
  · have e : (1 + u).det = 1 + (u 0 0 * u 1 1 + u 0 0 + u 1 1 - u 0 1 * u 1 0) := by
      rw [Matrix.det_fin_two]
      simp only [Matrix.add_apply, Matrix.one_apply, Fin.reduceEq, if_true, if_false]
      ring
    rw [e]
    refine ⟨fun h => ?_, fun h => ?_⟩
    · change logDetF2 u = _
      rw [logDetF2, if_pos (by linarith)]
    · change logDetF2 u = _
      rw [logDetF2, if_neg (by linarith)]
  · have e : (1 + u).det = 1 + (u 0 0 * u 1 1 * u 2 2 + u 0 0 * u 1 1 + u 0 0 * u 2 2 + u 1 1 * u 2 2 + u 0 0 + u 1 1
        + u 2 2 + u 0 1 * u 1 2 * u 2 0 + u 0 2 * u 1 0 * u 2 1 - u 0 2 * (1 + u 1 1) * u 2 0
        - u 0 1 * u 1 0 * (1 + u 2 2) - (1 + u 0 0) * u 1 2 * u 2 1) := by
      rw [Matrix.det_fin_three]
      simp only [Matrix.add_apply, Matrix.one_apply, Fin.reduceEq, if_true, if_false]
      ring
    rw [e]
    refine ⟨fun h => ?_, fun h => ?_⟩
    · change logDetF3 u = _
      rw [logDetF3, if_pos (by linarith)]
    · change logDetF3 u = _
      rw [logDetF3, if_neg (by linarith)]

/-- The hypotheses of `C58_log_det_F_partial` hold in non-trivial cases: a shear with stretch, and a reflection. -/
example : (1 + !![1, 3; 0, 0] : Matrix (Fin 2) (Fin 2) ℝ).det > 0 ∧
    (1 + !![-2, 3; 0, 0] : Matrix (Fin 2) (Fin 2) ℝ).det ≤ 0 := by
  constructor <;> simp [Matrix.det_fin_two] <;> norm_num

/-- C58 (finding): in one dimension `log_det_F` returns the logarithm of `du/dX` itself. It gives `None` for the
undeformed state and for every compression, and `ln u` instead of `ln (1 + u)` for every extension. -/
theorem C58_one_dimension_wrong (u : ℝ) :
    (u ≤ 0 → logDetF 1 !![u] = none) ∧ (0 < u → logDetF 1 !![u] = some (Real.log u)) ∧
    logDetF 1 !![u] ≠ some (Real.log (1 + !![u] : Matrix (Fin 1) (Fin 1) ℝ).det) := by
  have h1 : u ≤ 0 → logDetF 1 !![u] = none := fun h => by
    simp only [logDetF]
    exact if_neg (not_lt.mpr h)
  have h2 : 0 < u → logDetF 1 !![u] = some (Real.log u) := fun h => by
    simp only [logDetF]
    exact if_pos h
  refine ⟨h1, h2, ?_⟩
  rcases le_or_gt u 0 with h | h
  · rw [h1 h]
    exact fun e => by cases e
  · rw [h2 h]
    intro e
    have e := Option.some.inj e
    have hd : (1 + !![u] : Matrix (Fin 1) (Fin 1) ℝ).det = 1 + u := by simp
    rw [hd] at e
    have := Real.log_lt_log h (show u < 1 + u by linarith)
    linarith

/-! ### Neo-Hookean -/

private theorem hasDerivAt_det (F H : Matrix (Fin d) (Fin d) ℝ) (hF : F.det ≠ 0) :
    HasDerivAt (fun t : ℝ => (F + t • H).det) (F.det * (F⁻¹ * H).trace) 0 := by
  have hu : IsUnit F.det := isUnit_iff_ne_zero.mpr hF
  have e : (fun t : ℝ => (F + t • H).det) = fun t => F.det * (1 + (F⁻¹ * H).trace * t
      + (Matrix.det (1 + (Polynomial.X : Polynomial ℝ) • (F⁻¹ * H).map Polynomial.C)).divX.divX.eval t * t ^ 2) := by
    funext t
    rw [← Matrix.det_one_add_smul, ← Matrix.det_mul, Matrix.mul_add, Matrix.mul_one, mul_smul_comm,
      Matrix.mul_nonsing_inv_cancel_left _ _ hu]
  rw [e]
  have h := ((((hasDerivAt_id (0 : ℝ)).const_mul (F⁻¹ * H).trace).const_add 1).add
    ((Polynomial.hasDerivAt (Matrix.det (1 + (Polynomial.X : Polynomial ℝ) • (F⁻¹ * H).map Polynomial.C)).divX.divX
      (0 : ℝ)).mul ((hasDerivAt_id (0 : ℝ)).pow 2))).const_mul F.det
  refine h.congr_deriv ?_
  simp

private theorem det_pos_near (F H : Matrix (Fin d) (Fin d) ℝ) (hF : 0 < F.det) :
    ∀ᶠ t : ℝ in 𝓝 0, 0 < (F + t • H).det := by
  have h := (hasDerivAt_det F H hF.ne').continuousAt
  have h0 : 0 < (F + (0 : ℝ) • H).det := by rwa [zero_smul, add_zero]
  exact h.eventually (lt_mem_nhds h0)

private theorem dot_self_F (F : Matrix (Fin d) (Fin d) ℝ) :
    (F - 1).trace + 1 / 2 * dot (F - 1) (F - 1) = 1 / 2 * (dot F F - d) := by
  have h : (1 : Matrix (Fin d) (Fin d) ℝ).trace = d := by simp
  rw [dot_eq_trace, dot_eq_trace, transpose_sub, transpose_one, Matrix.sub_mul, Matrix.mul_sub, Matrix.mul_one,
    Matrix.one_mul, Matrix.trace_sub, Matrix.trace_sub, Matrix.trace_sub, Matrix.trace_sub, Matrix.trace_transpose, h]
  ring

private theorem nhEnergy_eq (hd : d = 2 ∨ d = 3) (F : Matrix (Fin d) (Fin d) ℝ) (p : Lame ℝ) (hF : 0 < F.det) :
    (neoHookean d).energy F p
      = ((p.mu * (1 / 2 * (dot F F - d)) - p.mu * Real.log F.det + 1 / 2 * p.lambda * Real.log F.det ^ 2 : ℝ) :
          WithTop ℝ) := by
  have e : (1 : Matrix (Fin d) (Fin d) ℝ) + (uGradFromF F)ᵀ = F := by
    rw [uGradFromF, transpose_transpose, add_sub_cancel]
  have h := (C58_log_det_F_partial hd ((uGradFromF F)ᵀ)).1 (by rwa [e])
  rw [e] at h
  change nhEnergyDu (uGradFromF F) p = _
  rw [nhEnergyDu]
  simp only [h]
  rw [uGradFromF, transpose_transpose, dot_self_F]

/-- C56 (Neo-Hookean): the energy density is finite exactly if `det F > 0`, in two and three dimensions. Missing:
dimension one, where it is false (`C56_neo_hookean_one_dimension`). -/
theorem C56_neo_hookean_finite_partial (hd : d = 2 ∨ d = 3) (F : Matrix (Fin d) (Fin d) ℝ) (p : Lame ℝ) :
    (neoHookean d).energy F p ≠ ⊤ ↔ 0 < F.det := by
  refine ⟨fun h => ?_, fun h => ?_⟩
  · by_contra hn
    refine h ?_
    have e : (1 : Matrix (Fin d) (Fin d) ℝ) + (uGradFromF F)ᵀ = F := by
      rw [uGradFromF, transpose_transpose, add_sub_cancel]
    have h := (C58_log_det_F_partial hd ((uGradFromF F)ᵀ)).2 (by rw [e]; exact not_lt.mp hn)
    change nhEnergyDu (uGradFromF F) p = _
    rw [nhEnergyDu]
    simp only [h]
  · rw [nhEnergy_eq hd F p h]
    exact WithTop.coe_ne_top

private theorem tryInverse_eq (F : Matrix (Fin d) (Fin d) ℝ) (hF : F.det ≠ 0) : Local.tryInverse F = some F⁻¹ := by
  rw [Local.tryInverse, if_neg hF, Matrix.inv_def, Ring.inverse_eq_inv']

theorem nhStress_eq (F : Matrix (Fin d) (Fin d) ℝ) (p : Lame ℝ) (hF : 0 < F.det) :
    nhStress F p = .val ((-p.mu + p.lambda * Real.log F.det) • F⁻¹ᵀ + p.mu • F) := by
  rw [nhStress]
  simp only [if_neg (not_le.mpr hF), tryInverse_eq F hF.ne']

/-- C56 (Neo-Hookean, two and three dimensions): wherever `det F > 0` the stress is the derivative of the energy
density. Missing: dimension one, where it is false (`C56_neo_hookean_one_dimension`). -/
theorem C56_neo_hookean_partial (hd : d = 2 ∨ d = 3) (F : Matrix (Fin d) (Fin d) ℝ) (p : Lame ℝ) (hF : 0 < F.det) :
    ∃ P, (neoHookean d).stress F p = .val P ∧
      Spec.StressIsDerivative (fun F => (neoHookean d).energy F p) F P := by
  refine ⟨_, nhStress_eq F p hF, fun H => ⟨?_, ?_⟩⟩
  · filter_upwards [det_pos_near F H hF] with t ht
    exact (C56_neo_hookean_finite_partial hd _ p).mpr ht
  · have hJ := hasDerivAt_det F H hF.ne'
    have h0 : (F + (0 : ℝ) • H).det = F.det := by rw [zero_smul, add_zero]
    have hL : HasDerivAt (fun t : ℝ => Real.log (F + t • H).det) (F⁻¹ * H).trace 0 := by
      have := hJ.log (by rw [h0]; exact hF.ne')
      refine this.congr_deriv ?_
      rw [h0]
      field_simp
    have h1 := md_dot (md_line F H) (md_line F H)
    have h := (((h1.sub_const (d : ℝ)).const_mul (1 / 2)).const_mul p.mu |>.sub (hL.const_mul p.mu)).add
      ((hL.pow 2).const_mul (1 / 2 * p.lambda))
    refine (h.congr_of_eventuallyEq ?_).congr_deriv ?_
    · filter_upwards [det_pos_near F H hF] with t ht
      rw [nhEnergy_eq hd _ p ht]
      rfl
    · change _ = dot ((-p.mu + p.lambda * Real.log F.det) • F⁻¹ᵀ + p.mu • F) H
      simp only [zero_smul, add_zero]
      rw [dot_add (_ • _), dot_smul, dot_smul, dot_eq_trace F⁻¹ᵀ, transpose_transpose, dot_comm H F]
      push_cast
      ring

/-- The hypotheses of `C56_neo_hookean_partial` hold for a shear with stretch. -/
example : 0 < (!![2, 3; 0, 1] : Matrix (Fin 2) (Fin 2) ℝ).det := by simp

private theorem md_inv (F H : Matrix (Fin d) (Fin d) ℝ) (hF : F.det ≠ 0) :
    HasMD (fun t => (F + t • H)⁻¹) (-(F⁻¹ * H * F⁻¹)) := by
  have hcd : ContinuousAt (fun t : ℝ => (F + t • H).det) 0 := (hasDerivAt_det F H hF).continuousAt
  have h0 : (F + (0 : ℝ) • H) = F := by rw [zero_smul, add_zero]
  have hne : ∀ᶠ t : ℝ in 𝓝 0, (F + t • H).det ≠ 0 := hcd.eventually_ne (by rwa [h0])
  have hline : Continuous fun t : ℝ => F + t • H := continuous_const.add (continuous_id.smul continuous_const)
  have hcont : ∀ i j, ContinuousAt (fun t : ℝ => (F + t • H)⁻¹ i j) 0 := by
    intro i j
    have e : (fun t : ℝ => (F + t • H)⁻¹ i j) = fun t => (F + t • H).det⁻¹ * (F + t • H).adjugate i j := by
      funext t
      rw [Matrix.inv_def, Ring.inverse_eq_inv']
      rfl
    rw [e]
    refine ContinuousAt.mul (hcd.inv₀ (by rwa [h0])) ?_
    exact ((continuous_apply_apply i j).comp hline.matrix_adjugate).continuousAt
  intro i j
  rw [hasDerivAt_iff_tendsto_slope_zero]
  have hev : ∀ᶠ t : ℝ in 𝓝[≠] 0,
      (∑ k, (F + t • H)⁻¹ i k * (-(H * F⁻¹) k j))
        = t⁻¹ • ((F + (0 + t) • H)⁻¹ i j - (F + (0 : ℝ) • H)⁻¹ i j) := by
    filter_upwards [nhdsWithin_le_nhds hne, self_mem_nhdsWithin] with t ht ht0
    have ht0 : t ≠ 0 := ht0
    have key : (F + t • H)⁻¹ - F⁻¹ = t • ((F + t • H)⁻¹ * -(H * F⁻¹)) := by
      have e1 : (F + t • H)⁻¹ * (F + t • H) = 1 := Matrix.nonsing_inv_mul _ (isUnit_iff_ne_zero.mpr ht)
      have e2 : F * F⁻¹ = 1 := Matrix.mul_nonsing_inv _ (isUnit_iff_ne_zero.mpr hF)
      calc (F + t • H)⁻¹ - F⁻¹ = (F + t • H)⁻¹ * (F * F⁻¹) - (F + t • H)⁻¹ * (F + t • H) * F⁻¹ := by
            rw [e1, e2, Matrix.mul_one, Matrix.one_mul]
        _ = (F + t • H)⁻¹ * (F * F⁻¹ - (F + t • H) * F⁻¹) := by rw [Matrix.mul_sub, Matrix.mul_assoc _ (F + t • H)]
        _ = (F + t • H)⁻¹ * (-(t • (H * F⁻¹))) := by
            rw [Matrix.add_mul, smul_mul_assoc, sub_add_cancel_left]
        _ = t • ((F + t • H)⁻¹ * -(H * F⁻¹)) := by rw [← smul_neg, mul_smul_comm]
    rw [zero_add, h0]
    have key' := congrFun (congrFun key i) j
    rw [Matrix.sub_apply] at key'
    rw [key', Matrix.smul_apply, smul_eq_mul, smul_eq_mul, ← mul_assoc, inv_mul_cancel₀ ht0, one_mul,
      Matrix.mul_apply]
    rfl
  refine Filter.Tendsto.congr' hev ?_
  have hlim : Filter.Tendsto (fun t : ℝ => ∑ k, (F + t • H)⁻¹ i k * (-(H * F⁻¹) k j)) (𝓝[≠] 0)
      (𝓝 (∑ k, (F + (0 : ℝ) • H)⁻¹ i k * (-(H * F⁻¹) k j))) :=
    tendsto_finset_sum _ fun k _ => ((hcont i k).tendsto.mono_left nhdsWithin_le_nhds).mul_const _
  have e : (∑ k, (F + (0 : ℝ) • H)⁻¹ i k * (-(H * F⁻¹) k j)) = (-(F⁻¹ * H * F⁻¹)) i j := by
    rw [h0, Matrix.mul_assoc, ← Matrix.mul_neg, Matrix.mul_apply]
    rfl
  rw [← e]
  exact hlim

private theorem nhContraction_eq (F : Matrix (Fin d) (Fin d) ℝ) (a b : Point d ℝ) (p : Lame ℝ) (hF : 0 < F.det) :
    nhContraction F a b p = .val (nhKernel F⁻¹ᵀ (-p.mu + p.lambda * Real.log F.det) p a b) := by
  rw [nhContraction]
  simp only [if_neg (not_le.mpr hF), tryInverse_eq F hF.ne']

/-- C57 (Neo-Hookean, every dimension): wherever `det F > 0` the contraction is the derivative of the stress. -/
theorem C57_neo_hookean (F : Matrix (Fin d) (Fin d) ℝ) (p : Lame ℝ) (hF : 0 < F.det) :
    ∃ C : Point d ℝ → Point d ℝ → Matrix (Fin d) (Fin d) ℝ,
      (∀ a b, (neoHookean d).contraction F a b p = .val (C a b)) ∧
      (∀ a b, C a b = (C b a)ᵀ) ∧
      Spec.ContractionIsDerivative (fun F => (neoHookean d).stress F p) F C := by
  refine ⟨_, fun a b => nhContraction_eq F a b p hF, ?_, ?_⟩
  · intro a b
    simp only [nhKernel, transpose_add, transpose_sub, transpose_smul, transpose_one, transpose_vecMulVec,
      dotProduct_comm a b, vecMulVec_smul, smul_vecMulVec]
  · intro a b c
    have hpos := det_pos_near F (vecMulVec c b) hF
    refine ⟨?_, fun i => ?_⟩
    · filter_upwards [hpos] with t ht
      exact ⟨_, nhStress_eq _ p ht⟩
    · have hJ := hasDerivAt_det F (vecMulVec c b) hF.ne'
      have h0 : (F + (0 : ℝ) • vecMulVec c b) = F := by rw [zero_smul, add_zero]
      have hL : HasDerivAt (fun t : ℝ => Real.log (F + t • vecMulVec c b).det) (F⁻¹ * vecMulVec c b).trace 0 := by
        have := hJ.log (by rw [h0]; exact hF.ne')
        refine this.congr_deriv ?_
        rw [h0]
        field_simp
      have h1 := md_smul ((hL.const_mul p.lambda).const_add (-p.mu)) (md_transpose (md_inv F (vecMulVec c b) hF.ne'))
      have h := md_apply (md_add h1 (md_csmul p.mu (md_line F (vecMulVec c b)))) a i
      refine (h.congr_of_eventuallyEq ?_).congr_deriv ?_
      · filter_upwards [hpos] with t ht
        have e : (neoHookean d).stress (F + t • vecMulVec c b) p = _ := nhStress_eq (F + t • vecMulVec c b) p ht
        rw [of_eq_vecMulVec, e]
        rfl
      · change _ = (nhKernel F⁻¹ᵀ (-p.mu + p.lambda * Real.log F.det) p a b *ᵥ c) i
        simp only [h0]
        generalize -p.mu + p.lambda * Real.log F.det = alpha
        generalize F⁻¹ = G
        have e1 : (G * vecMulVec c b).trace = (Gᵀ *ᵥ b) ⬝ᵥ c := by
          rw [mul_vecMulVec, trace_vecMulVec, mulVec_transpose, ← dotProduct_mulVec, dotProduct_comm]
        have e2 : (-(G * vecMulVec c b * G))ᵀ *ᵥ a = -(((Gᵀ *ᵥ a) ⬝ᵥ c) • (Gᵀ *ᵥ b)) := by
          rw [transpose_neg, neg_mulVec, transpose_mul, transpose_mul, transpose_vecMulVec, ← mulVec_mulVec,
            ← mulVec_mulVec, vecMulVec_mulVec, mulVec_smul]
          congr 1
          have : c ⬝ᵥ (Gᵀ *ᵥ a) = (Gᵀ *ᵥ a) ⬝ᵥ c := dotProduct_comm _ _
          ext k
          simp [mulVec_mulVec, this, mul_comm]
        have e5 : vecMulVec c b *ᵥ a = (b ⬝ᵥ a) • c := by
          rw [vecMulVec_mulVec]
          ext k
          simp [mul_comm]
        simp only [add_mulVec, sub_mulVec, smul_mulVec, e1, e2, e5, nhKernel, one_mulVec, vecMulVec_mulVec,
          smul_dotProduct]
        simp only [Pi.add_apply, Pi.sub_apply, Pi.neg_apply, Pi.smul_apply, smul_eq_mul,
          MulOpposite.smul_eq_mul_unop, MulOpposite.unop_op]
        rw [dotProduct_comm b a]
        ring

/-! ### Batched contractions -/

private theorem addBlock_entry (hd : 0 < d) (out : Nat → Nat → Num) (I J : Nat) (alpha : ℝ) (m : Fin d → Fin d → Num)
    (I' J' : Nat) (i j : Fin d) :
    addBlock out (d * I) (d * J) alpha m (d * I' + i) (d * J' + j)
      = if I' = I ∧ J' = J then mulAdd alpha (out (d * I' + i) (d * J' + j)) (m i j)
        else out (d * I' + i) (d * J' + j) := by
  have hin : ∀ (A B : Nat) (k : Fin d), d * A ≤ d * B + k ∧ d * B + k < d * A + d ↔ B = A := by
    intro A B k
    have hk := k.2
    constructor
    · rintro ⟨h1, h2⟩
      have a1 : A < B + 1 := by
        refine Nat.lt_of_mul_lt_mul_left (a := d) ?_
        rw [Nat.mul_add, Nat.mul_one]
        omega
      have a2 : B < A + 1 := by
        refine Nat.lt_of_mul_lt_mul_left (a := d) ?_
        rw [Nat.mul_add, Nat.mul_one]
        omega
      omega
    · rintro rfl
      omega
  rw [addBlock]
  simp only [hin]
  split_ifs with h
  · obtain ⟨rfl, rfl⟩ := h
    simp
  · rfl

private theorem inner_entry (hd : 0 < d) (alpha : ℝ) (a b : List ℝ)
    (f : Point d ℝ → Point d ℝ → Out (Matrix (Fin d) (Fin d) ℝ))
    (C : Point d ℝ → Point d ℝ → Fin d → Fin d → Num) (hf : ∀ a b, (f a b).entries = some (C a b)) (J : Nat) :
    ∀ (Is : List Nat), Is.Nodup → ∀ out : Nat → Nat → Num, ∃ out', batchInner alpha a b f J Is out = some out' ∧
      ∀ (I' J' : Nat) (i j : Fin d), out' (d * I' + i) (d * J' + j)
        = if I' ∈ Is ∧ J' = J then
            mulAdd alpha (out (d * I' + i) (d * J' + j)) (C (rowsGeneric d a I') (rowsGeneric d b J) i j)
          else out (d * I' + i) (d * J' + j) := by
  intro Is
  induction Is with
  | nil =>
    intro _ out
    exact ⟨out, rfl, fun I' J' i j => by simp⟩
  | cons I Is ih =>
    intro hn out
    obtain ⟨hI, hn⟩ := List.nodup_cons.mp hn
    obtain ⟨out', h1, h2⟩ := ih hn (addBlock out (d * I) (d * J) alpha (C (rowsGeneric d a I) (rowsGeneric d b J)))
    refine ⟨out', ?_, ?_⟩
    · rw [batchInner, hf]
      exact h1
    · intro I' J' i j
      rw [h2, addBlock_entry hd]
      by_cases hJ : J' = J
      · by_cases hII : I' = I
        · subst hII
          simp [hI, hJ]
        · by_cases hm : I' ∈ Is <;> simp [hII, hJ, hm]
      · simp [hJ]

private theorem outer_entry (hd : 0 < d) (alpha : ℝ) (a b : List ℝ)
    (f : Point d ℝ → Point d ℝ → Out (Matrix (Fin d) (Fin d) ℝ))
    (C : Point d ℝ → Point d ℝ → Fin d → Fin d → Num) (hf : ∀ a b, (f a b).entries = some (C a b)) (M : Nat) :
    ∀ (Js : List Nat), Js.Nodup → ∀ out : Nat → Nat → Num, ∃ out', batchOuter alpha a b f M Js out = some out' ∧
      ∀ (I' J' : Nat) (i j : Fin d), out' (d * I' + i) (d * J' + j)
        = if I' ≤ J' ∧ I' < M ∧ J' ∈ Js then
            mulAdd alpha (out (d * I' + i) (d * J' + j)) (C (rowsGeneric d a I') (rowsGeneric d b J') i j)
          else out (d * I' + i) (d * J' + j) := by
  intro Js
  induction Js with
  | nil =>
    intro _ out
    exact ⟨out, rfl, fun I' J' i j => by simp⟩
  | cons J Js ih =>
    intro hn out
    obtain ⟨hJ, hn⟩ := List.nodup_cons.mp hn
    obtain ⟨out1, h1, h2⟩ := inner_entry hd alpha a b f C hf J (List.range (min (J + 1) M)) List.nodup_range out
    obtain ⟨out', h3, h4⟩ := ih hn out1
    refine ⟨out', ?_, ?_⟩
    · rw [batchOuter, h1, Option.bind_some, h3]
    · intro I' J' i j
      rw [h4, h2]
      by_cases hJJ : J' = J
      · subst hJJ
        have e : (I' ∈ List.range (min (J' + 1) M) ∧ J' = J') ↔ (I' ≤ J' ∧ I' < M ∧ J' ∈ J' :: Js) := by
          simp only [List.mem_range, List.mem_cons, true_or, and_true]
          omega
        rw [if_neg (fun h => hJ h.2.2)]
        by_cases hh : I' ≤ J' ∧ I' < M ∧ J' ∈ J' :: Js
        · rw [if_pos hh, if_pos (e.mpr hh)]
        · rw [if_neg hh, if_neg (mt e.mp hh)]
      · have e : (I' ≤ J' ∧ I' < M ∧ J' ∈ J :: Js) ↔ (I' ≤ J' ∧ I' < M ∧ J' ∈ Js) := by
          simp [hJJ]
        simp only [e, hJJ, and_false, if_false]

/-- C57: the batched contraction, for any closure that returns numbers: it panics exactly if the sizes are
inconsistent, and otherwise every entry of every block on or above the diagonal gains `alpha` times the entry of
the contraction of the corresponding vectors, and every other entry keeps its value. -/
theorem C57_batch_contraction (hd : 0 < d) (nrows ncols : Nat) (out : Nat → Nat → Num) (alpha : ℝ) (a b : List ℝ)
    (f : Point d ℝ → Point d ℝ → Out (Matrix (Fin d) (Fin d) ℝ))
    (C : Point d ℝ → Point d ℝ → Matrix (Fin d) (Fin d) ℝ) (hf : ∀ a b, f a b = .val (C a b)) :
    (computeBatchContraction nrows ncols out alpha a b f = none ↔
      ¬(d ∣ a.length ∧ d ∣ b.length ∧ nrows = a.length ∧ ncols = b.length)) ∧
    ∀ out', computeBatchContraction nrows ncols out alpha a b f = some out' →
      Spec.BatchAccumulated alpha a b C out out' := by
  have hcond : (d ≠ 0 ∧ a.length % d = 0 ∧ b.length % d = 0 ∧ nrows = d * (a.length / d) ∧
      ncols = d * (b.length / d)) ↔ (d ∣ a.length ∧ d ∣ b.length ∧ nrows = a.length ∧ ncols = b.length) := by
    rw [← Nat.dvd_iff_mod_eq_zero, ← Nat.dvd_iff_mod_eq_zero]
    constructor
    · rintro ⟨-, h1, h2, h3, h4⟩
      rw [Nat.mul_div_cancel' h1] at h3
      rw [Nat.mul_div_cancel' h2] at h4
      exact ⟨h1, h2, h3, h4⟩
    · rintro ⟨h1, h2, h3, h4⟩
      rw [Nat.mul_div_cancel' h1, Nat.mul_div_cancel' h2]
      exact ⟨hd.ne', h1, h2, h3, h4⟩
  obtain ⟨o, h1, h2⟩ := outer_entry hd alpha a b f (fun a b i j => some (C a b i j))
    (fun a b => by rw [hf]; rfl) (a.length / d) (List.range (b.length / d)) List.nodup_range out
  rw [computeBatchContraction]
  simp only [hcond]
  refine ⟨?_, ?_⟩
  · by_cases h : d ∣ a.length ∧ d ∣ b.length ∧ nrows = a.length ∧ ncols = b.length
    · simp [h, h1]
    · simp [h]
  · intro out' h
    split_ifs at h with hc
    rw [h1] at h
    cases h
    intro I J i j hI hJ
    rw [h2]
    have hI' : I < a.length / d := by
      rw [Nat.lt_div_iff_mul_lt hd]
      have := i.2
      obtain ⟨q, hq⟩ := hc.1
      rw [hq] at hI ⊢
      have : I < q := Nat.lt_of_mul_lt_mul_left (a := d) (by omega)
      have : d * (I + 1) ≤ d * q := Nat.mul_le_mul_left d this
      rw [Nat.mul_add] at this
      rw [Nat.mul_comm I d]
      omega
    have hJ' : J < b.length / d := by
      rw [Nat.lt_div_iff_mul_lt hd]
      have := j.2
      obtain ⟨q, hq⟩ := hc.2.1
      rw [hq] at hJ ⊢
      have : J < q := Nat.lt_of_mul_lt_mul_left (a := d) (by omega)
      have : d * (J + 1) ≤ d * q := Nat.mul_le_mul_left d this
      rw [Nat.mul_add] at this
      rw [Nat.mul_comm J d]
      omega
    simp only [hI', List.mem_range, hJ', and_true]
    split_ifs
    · cases out (d * I + i) (d * J + j) <;> rfl
    · rfl

private theorem stvkBatchKernel_eq (F : Matrix (Fin d) (Fin d) ℝ) (p : Lame ℝ) (a b : Point d ℝ) :
    stvkBatchKernel F (greenStrain F) (F * Fᵀ) (greenStrain F).trace p a b = stvkContraction F a b p := by
  rw [stvkBatchKernel, stvkContraction]
  simp only [vecMulVec_smul, smul_smul]
  rw [mul_comm p.mu (a ⬝ᵥ b)]

/-- C57: for the linear elastic and the St. Venant-Kirchhoff material (which shares computations between the
blocks), the batched contraction panics exactly if the sizes are inconsistent and otherwise accumulates the same
blocks as the contraction of single pairs of vectors. -/
theorem C57_batch_elastic_stvk (hd : 0 < d) (m : Material d) (hm : m = linearElastic d ∨ m = stvk d)
    (nrows ncols : Nat) (out : Nat → Nat → Num) (alpha : ℝ) (F : Matrix (Fin d) (Fin d) ℝ) (a b : List ℝ)
    (p : Lame ℝ) :
    ∃ C : Point d ℝ → Point d ℝ → Matrix (Fin d) (Fin d) ℝ, (∀ a b, m.contraction F a b p = .val (C a b)) ∧
    (m.batch nrows ncols out alpha F a b p = none ↔
      ¬(d ∣ a.length ∧ d ∣ b.length ∧ nrows = a.length ∧ ncols = b.length)) ∧
    ∀ out', m.batch nrows ncols out alpha F a b p = some out' → Spec.BatchAccumulated alpha a b C out out' := by
  rcases hm with rfl | rfl
  · exact ⟨fun a b => leContraction F a b p, fun _ _ => rfl,
      C57_batch_contraction hd nrows ncols out alpha a b _ _ fun _ _ => rfl⟩
  · exact ⟨fun a b => stvkContraction F a b p, fun _ _ => rfl,
      C57_batch_contraction hd nrows ncols out alpha a b _ _ fun a b => by rw [stvkBatchKernel_eq]⟩

/-- C57: the same for the Neo-Hookean material where `det F > 0`. -/
theorem C57_batch_neo_hookean (hd : 0 < d) (nrows ncols : Nat) (out : Nat → Nat → Num) (alpha : ℝ)
    (F : Matrix (Fin d) (Fin d) ℝ) (hF : 0 < F.det) (a b : List ℝ) (p : Lame ℝ) :
    ∃ C : Point d ℝ → Point d ℝ → Matrix (Fin d) (Fin d) ℝ,
    (∀ a b, (neoHookean d).contraction F a b p = .val (C a b)) ∧
    ((neoHookean d).batch nrows ncols out alpha F a b p = none ↔
      ¬(d ∣ a.length ∧ d ∣ b.length ∧ nrows = a.length ∧ ncols = b.length)) ∧
    ∀ out', (neoHookean d).batch nrows ncols out alpha F a b p = some out' →
      Spec.BatchAccumulated alpha a b C out out' := by
  have e : (neoHookean d).batch nrows ncols out alpha F a b p = computeBatchContraction nrows ncols out alpha a b
      fun a b => .val (nhKernel F⁻¹ᵀ (-p.mu + p.lambda * Real.log F.det) p a b) := by
    change nhBatch nrows ncols out alpha F a b p = _
    rw [nhBatch]
    simp only [if_neg (not_le.mpr hF), tryInverse_eq F hF.ne']
  rw [e]
  exact ⟨_, fun a b => nhContraction_eq F a b p hF, C57_batch_contraction hd nrows ncols out alpha a b _ _ fun _ _ => rfl⟩

/-- C57: the batched contraction in terms of the displacement gradient, the one that the assembly uses,
accumulates the contractions at `F = I + ∇uᵀ`, for every material whose contractions there are numbers. -/
theorem C57_batch_displacement (hd : 0 < d) (m : Material d) (nrows ncols : Nat) (out : Nat → Nat → Num) (alpha : ℝ)
    (uGrad : Matrix (Fin d) (Fin d) ℝ) (a b : List ℝ) (p : Lame ℝ)
    (C : Point d ℝ → Point d ℝ → Matrix (Fin d) (Fin d) ℝ)
    (hC : ∀ a b, m.contraction (1 + uGradᵀ) a b p = .val (C a b)) :
    (m.batchDu nrows ncols out alpha uGrad a b p = none ↔
      ¬(d ∣ a.length ∧ d ∣ b.length ∧ nrows = a.length ∧ ncols = b.length)) ∧
    ∀ out', m.batchDu nrows ncols out alpha uGrad a b p = some out' → Spec.BatchAccumulated alpha a b C out out' :=
  C57_batch_contraction hd nrows ncols out alpha a b _ _ hC

/-- The hypotheses of the batch theorems hold for two stacked pairs of vectors in the plane. -/
example : ∃ out', (stvk 2).batch 4 4 (fun _ _ => some 1) 3 !![2, 1; 0, 1] [1, 2, 3, 4] [5, 6, 7, 8] ⟨1, 2⟩ = some out' := by
  obtain ⟨C, -, h, -⟩ := C57_batch_elastic_stvk (by norm_num) (stvk 2) (Or.inr rfl) 4 4 (fun _ _ => some 1) 3
    !![2, 1; 0, 1] [1, 2, 3, 4] [5, 6, 7, 8] ⟨1, 2⟩
  rw [← Option.ne_none_iff_exists']
  intro hn
  exact h.mp hn (by decide)

/-- C57 (finding): where `det F ≤ 0` the single contraction of the Neo-Hookean material is a matrix of `NaN`, but
the batched one panics, whatever the other arguments; the batched one in terms of the displacement gradient
does not panic. -/
theorem C57_neo_hookean_batch_panics (nrows ncols : Nat) (out : Nat → Nat → Num) (alpha : ℝ)
    (F : Matrix (Fin d) (Fin d) ℝ) (hF : F.det ≤ 0) (a b : List ℝ) (p : Lame ℝ) (v w : Point d ℝ) :
    (neoHookean d).batch nrows ncols out alpha F a b p = none ∧
    (neoHookean d).contraction F v w p = .nan ∧
    (0 < d → d ∣ a.length → d ∣ b.length →
      ∃ out', (neoHookean d).batchDu a.length b.length out alpha (uGradFromF F) a b p = some out') := by
  refine ⟨?_, ?_, ?_⟩
  · change nhBatch nrows ncols out alpha F a b p = _
    rw [nhBatch]
    simp only [if_pos hF]
  · change nhContraction F v w p = _
    rw [nhContraction]
    simp only [if_pos hF]
  · intro hd ha hb
    have e : deformationGradient (uGradFromF F) = F := by
      rw [deformationGradient, uGradFromF, transpose_transpose, add_sub_cancel]
    obtain ⟨o, h1, -⟩ := outer_entry hd alpha a b
      (fun a b => (neoHookean d).contractionDu (uGradFromF F) a b p) (fun _ _ _ _ => none)
      (fun a b => by
        rw [Material.contractionDu, e]
        change (nhContraction F a b p).entries = _
        rw [nhContraction]
        simp only [if_pos hF]
        rfl) (a.length / d) (List.range (b.length / d)) List.nodup_range out
    refine ⟨o, ?_⟩
    rw [Material.batchDu, computeBatchContraction, if_pos ⟨hd.ne', Nat.mod_eq_zero_of_dvd ha,
      Nat.mod_eq_zero_of_dvd hb, (Nat.mul_div_cancel' ha).symm, (Nat.mul_div_cancel' hb).symm⟩]
    exact h1

/-! ### The undeformed state -/

private theorem strain_one : infinitesimalStrain (1 : Matrix (Fin d) (Fin d) ℝ) = 0 := by
  rw [infinitesimalStrain, symmetricPart, transpose_one, ← two_smul ℝ, smul_smul]
  norm_num

private theorem green_one : greenStrain (1 : Matrix (Fin d) (Fin d) ℝ) = 0 := by
  rw [greenStrain, transpose_one, Matrix.one_mul, sub_self, smul_zero]

/-- C56: energy and stress vanish in the undeformed state: linear elastic and St. Venant-Kirchhoff in every
dimension. -/
theorem C56_undeformed (m : Material d) (hm : m = linearElastic d ∨ m = stvk d) (p : Lame ℝ) :
    m.energy 1 p = 0 ∧ m.energyDu 0 p = 0 ∧ m.stress 1 p = .val 0 := by
  have e : deformationGradient (0 : Matrix (Fin d) (Fin d) ℝ) = 1 := by simp [deformationGradient]
  rcases hm with rfl | rfl
  · have h : leEnergy (1 : Matrix (Fin d) (Fin d) ℝ) p = 0 := by simp [leEnergy, strain_one, dot]
    refine ⟨?_, ?_, ?_⟩
    · change ((leEnergy 1 p : ℝ) : WithTop ℝ) = 0
      rw [h, WithTop.coe_zero]
    · change ((leEnergy (deformationGradient 0) p : ℝ) : WithTop ℝ) = 0
      rw [e, h, WithTop.coe_zero]
    · change Out.val (leStress 1 p) = _
      congr 1
      simp [leStress, strain_one]
  · have h : stvkEnergy (1 : Matrix (Fin d) (Fin d) ℝ) p = 0 := by simp [stvkEnergy, green_one, dot]
    refine ⟨?_, ?_, ?_⟩
    · change ((stvkEnergy 1 p : ℝ) : WithTop ℝ) = 0
      rw [h, WithTop.coe_zero]
    · change ((stvkEnergy (deformationGradient 0) p : ℝ) : WithTop ℝ) = 0
      rw [e, h, WithTop.coe_zero]
    · change Out.val (stvkStress 1 p) = _
      congr 1
      simp [stvkStress, green_one]

/-- C56: energy and stress of the Neo-Hookean material vanish in the undeformed state in two and three
dimensions. Missing: dimension one, where it is false (`C56_neo_hookean_one_dimension`). -/
theorem C56_undeformed_neo_hookean_partial (hd : d = 2 ∨ d = 3) (p : Lame ℝ) :
    (neoHookean d).energy 1 p = 0 ∧ (neoHookean d).energyDu 0 p = 0 ∧ (neoHookean d).stress 1 p = .val 0 := by
  have h1 : (0 : ℝ) < (1 : Matrix (Fin d) (Fin d) ℝ).det := by simp
  have hE : (neoHookean d).energy 1 p = 0 := by
    rw [nhEnergy_eq hd 1 p h1]
    have : dot (1 : Matrix (Fin d) (Fin d) ℝ) 1 = d := by
      rw [dot_eq_trace]
      simp
    rw [this]
    simp
  refine ⟨hE, ?_, ?_⟩
  · have e : uGradFromF (1 : Matrix (Fin d) (Fin d) ℝ) = 0 := by simp [uGradFromF]
    have : (neoHookean d).energy 1 p = (neoHookean d).energyDu (uGradFromF 1) p := rfl
    rw [← hE, this, e]
  · change nhStress 1 p = _
    rw [nhStress_eq 1 p h1]
    simp

/-- C56 (finding): in one dimension the Neo-Hookean energy density is infinite in the undeformed state and
under every compression, although the stress there is a number (zero in the undeformed state). -/
theorem C56_neo_hookean_one_dimension (F : ℝ) (hF : 0 < F) (hF1 : F ≤ 1) (p : Lame ℝ) :
    (neoHookean 1).energy !![F] p = ⊤ ∧ ∃ P, (neoHookean 1).stress !![F] p = .val P ∧ (F = 1 → P = 0) := by
  constructor
  · change nhEnergyDu (uGradFromF !![F]) p = ⊤
    have e : (uGradFromF !![F])ᵀ = !![F - 1] := by
      ext i j
      fin_cases i; fin_cases j
      simp [uGradFromF]
    rw [nhEnergyDu, e]
    simp only [(C58_one_dimension_wrong (F - 1)).1 (by linarith)]
  · refine ⟨_, nhStress_eq _ p (by simpa using hF), ?_⟩
    rintro rfl
    have e : (!![1] : Matrix (Fin 1) (Fin 1) ℝ) = 1 := by
      ext i j
      fin_cases i; fin_cases j
      simp
    rw [e]
    simp

/-! ### Parameters and deformation gradients -/

/-- C59: the Lamé parameters computed from Young's modulus and Poisson's ratio satisfy the defining relations,
over any ordered field, whenever the ratio is admissible. -/
theorem C59_lame_parameters {K : Type} [Field K] [LinearOrder K] [IsStrictOrderedRing K] (q : YoungPoisson K)
    (h1 : -1 < q.poisson) (h2 : q.poisson < 1 / 2) (hE : 0 < q.young) :
    let l := Lame.fromYoungPoisson q
    0 < l.mu ∧ 0 < l.lambda + l.mu ∧
    q.young = l.mu * (3 * l.lambda + 2 * l.mu) / (l.lambda + l.mu) ∧
    q.poisson = l.lambda / (2 * (l.lambda + l.mu)) := by
  obtain ⟨E, nu⟩ := q
  simp only at h1 h2 hE
  have a1 : 0 < 1 + nu := by linarith
  have a2 : 0 < 1 - 2 * nu := by linarith
  have hmu : (Lame.fromYoungPoisson (⟨E, nu⟩ : YoungPoisson K)).mu = E / (2 * (1 + nu)) := by
    simp only [Lame.fromYoungPoisson]
    field_simp
  have hla : (Lame.fromYoungPoisson (⟨E, nu⟩ : YoungPoisson K)).lambda = E * nu / ((1 + nu) * (1 - 2 * nu)) := by
    simp only [Lame.fromYoungPoisson]
    field_simp
  have hsum : E * nu / ((1 + nu) * (1 - 2 * nu)) + E / (2 * (1 + nu)) = E / (2 * (1 + nu) * (1 - 2 * nu)) := by
    rw [div_add_div _ _ (by positivity) (by positivity), div_eq_div_iff (by positivity) (by positivity)]
    ring
  simp only [hmu, hla, hsum]
  refine ⟨by positivity, by positivity, ?_, ?_⟩
  · rw [eq_div_iff (by positivity)]
    generalize hw : 1 - 2 * nu = w at *
    generalize hv : 1 + nu = v at *
    have : nu = v - 1 := by linarith
    subst this
    have : w = 3 - 2 * v := by linarith
    field_simp
    rw [this]
    ring
  · rw [eq_div_iff (by positivity)]
    generalize hw : 1 - 2 * nu = w at *
    field_simp

/-- The hypotheses of `C59_lame_parameters` hold for a rubber-like and for an auxetic material. -/
example : (-1 : ℚ) < 49 / 100 ∧ (49 / 100 : ℚ) < 1 / 2 ∧ (-1 : ℚ) < -(1 / 4) ∧ (-(1 / 4) : ℚ) < 1 / 2 := by norm_num

/-- C59: conversely, every pair of Lamé parameters with the usual signs comes from exactly one admissible pair
of Young's modulus and Poisson's ratio. -/
theorem C59_lame_parameters_bijective {K : Type} [Field K] [LinearOrder K] [IsStrictOrderedRing K] (l : Lame K)
    (h1 : 0 < l.mu) (h2 : 0 < 3 * l.lambda + 2 * l.mu) :
    ∃! q : YoungPoisson K, (-1 < q.poisson ∧ q.poisson < 1 / 2 ∧ 0 < q.young) ∧ Lame.fromYoungPoisson q = l := by
  obtain ⟨mu, la⟩ := l
  simp only at h1 h2
  have h3 : 0 < la + mu := by linarith
  refine ⟨⟨mu * (3 * la + 2 * mu) / (la + mu), la / (2 * (la + mu))⟩, ⟨⟨?_, ?_, ?_⟩, ?_⟩, ?_⟩
  · simp only
    rw [lt_div_iff₀ (by linarith)]
    linarith
  · simp only
    rw [div_lt_div_iff₀ (by linarith) (by norm_num)]
    linarith
  · simp only
    positivity
  · have e1 : (1 : K) + la / (2 * (la + mu)) = (3 * la + 2 * mu) / (2 * (la + mu)) := by
      field_simp
      ring
    have e2 : (1 : K) - 2 * (la / (2 * (la + mu))) = mu / (la + mu) := by
      field_simp
      ring
    have e3 : 1 / 2 * (mu * (3 * la + 2 * mu) / (la + mu)) / ((3 * la + 2 * mu) / (2 * (la + mu))) = mu := by
      field_simp
    simp only [Lame.fromYoungPoisson, e1, e2, e3]
    congr 1
    field_simp
  · rintro ⟨E, nu⟩ ⟨⟨a1, a2, a3⟩, e⟩
    have h := C59_lame_parameters ⟨E, nu⟩ a1 a2 a3
    rw [e] at h
    obtain ⟨-, -, hE, hnu⟩ := h
    simp only at hE hnu
    rw [hE, hnu]

/-- C59: deformation gradient and displacement gradient determine each other: the conversions are mutually
inverse, and `F = I + ∇uᵀ`. -/
theorem C59_deformation_gradient {K : Type} [Field K] (u F : Matrix (Fin d) (Fin d) K) :
    (∀ i j, deformationGradient u i j = (if i = j then 1 else 0) + u j i) ∧
    uGradFromF (deformationGradient u) = u ∧ deformationGradient (uGradFromF F) = F := by
  refine ⟨fun i j => ?_, ?_, ?_⟩
  · simp [deformationGradient, Matrix.one_apply]
  · rw [uGradFromF, deformationGradient, add_sub_cancel_left, transpose_transpose]
  · rw [deformationGradient, uGradFromF, transpose_transpose, add_sub_cancel]

/-- C59: the methods in terms of the displacement gradient agree with those in terms of the deformation gradient,
for all three materials. -/
theorem C59_displacement_methods (m : Material d) (hm : m = linearElastic d ∨ m = stvk d ∨ m = neoHookean d)
    (u : Matrix (Fin d) (Fin d) ℝ) (p : Lame ℝ) (a b : Point d ℝ) :
    m.energyDu u p = m.energy (1 + uᵀ) p ∧ m.stressDu u p = m.stress (1 + uᵀ) p ∧
    m.contractionDu u a b p = m.contraction (1 + uᵀ) a b p := by
  refine ⟨?_, rfl, rfl⟩
  rcases hm with rfl | rfl | rfl
  · rfl
  · rfl
  · change nhEnergyDu u p = nhEnergyDu (uGradFromF (deformationGradient u)) p
    rw [(C59_deformation_gradient u u).2.1]

/-! ### The operator of a material -/

/-- C57: the operators of the linear elastic and the St. Venant-Kirchhoff material keep the symmetry that
`MaterialEllipticOperator` announces, so the assembled matrices of C28 are those of the full contraction. -/
theorem C57_operator_symmetric :
    Local.Spec.SymmetryLaw (leOperator d) ∧ Local.Spec.SymmetryLaw (stvkOperator d) := by
  refine ⟨fun _ G a b p => ?_, fun _ G a b p => ?_⟩
  · obtain ⟨C, h1, h2, -⟩ := C57_linear_elastic (deformationGradient G) p
    exact (Out.val.inj (h1 a b)).trans ((h2 a b).trans (congrArg transpose (Out.val.inj (h1 b a)).symm))
  · obtain ⟨C, h1, h2, -⟩ := C57_stvk (deformationGradient G) p
    exact (Out.val.inj (h1 a b)).trans ((h2 a b).trans (congrArg transpose (Out.val.inj (h1 b a)).symm))

private theorem flux_direction (n : Nat) (b c : Fin n → Fin d → ℝ) :
    (Matrix.of fun k j => ∑ J, b J k * c J j)ᵀ = ∑ J, vecMulVec (c J) (b J) := by
  ext i j
  rw [transpose_apply, Matrix.of_apply, Matrix.sum_apply]
  exact Finset.sum_congr rfl fun J _ => by rw [vecMulVec_apply, mul_comm]

private theorem deformation_line (G H : Matrix (Fin d) (Fin d) ℝ) (t : ℝ) :
    deformationGradient (G + t • H) = deformationGradient G + t • Hᵀ := by
  rw [deformationGradient, deformationGradient, transpose_add, transpose_smul, add_assoc]

/-- The laws of an operator follow from those of the material, if the derivative of the stress in direction `H`
is additive in `H`. -/
private theorem operator_laws (energy : Matrix (Fin d) (Fin d) ℝ → Lame ℝ → ℝ)
    (stress : Matrix (Fin d) (Fin d) ℝ → Lame ℝ → Matrix (Fin d) (Fin d) ℝ)
    (contraction : Matrix (Fin d) (Fin d) ℝ → Point d ℝ → Point d ℝ → Lame ℝ → Matrix (Fin d) (Fin d) ℝ)
    (D : Matrix (Fin d) (Fin d) ℝ → Lame ℝ → Matrix (Fin d) (Fin d) ℝ → Matrix (Fin d) (Fin d) ℝ)
    (h1 : ∀ F p H, HasDerivAt (fun t : ℝ => energy (F + t • H) p) (∑ i, ∑ j, stress F p i j * H i j) 0)
    (h2 : ∀ F p a b c i, HasDerivAt (fun t : ℝ => ∑ k, stress (F + t • vecMulVec c b) p i k * a k)
      (∑ j, contraction F a b p i j * c j) 0)
    (hD : ∀ F p H, HasMD (fun t => stress (F + t • H) p) (D F p H))
    (hadd : ∀ F p A B, D F p (A + B) = D F p A + D F p B) :
    Local.Spec.EnergyLaw (materialOperator energy stress contraction) ∧
    Local.Spec.ContractionLaw (materialOperator energy stress contraction) := by
  refine ⟨fun G H p => ?_, fun G p n b c a i => ?_⟩
  · have h := h1 (deformationGradient G) p Hᵀ
    simp only [materialOperator, deformation_line]
    refine h.congr_deriv ?_
    rw [Finset.sum_comm]
    rfl
  · simp only [materialOperator, deformation_line, flux_direction, transpose_apply]
    have h := md_apply (hD (deformationGradient G) p (∑ J, vecMulVec (c J) (b J))) a i
    refine h.congr_deriv ?_
    have e : D (deformationGradient G) p (∑ J, vecMulVec (c J) (b J))
        = ∑ J, D (deformationGradient G) p (vecMulVec (c J) (b J)) :=
      map_sum (AddMonoidHom.mk' (D (deformationGradient G) p) (hadd _ _)) _ _
    rw [e, Matrix.sum_mulVec, Finset.sum_apply]
    refine Finset.sum_congr rfl fun J _ => ?_
    exact HasDerivAt.unique (md_apply (hD (deformationGradient G) p (vecMulVec (c J) (b J))) a i)
      (h2 (deformationGradient G) p a (b J) (c J) i)

private theorem symmetricPart_add (A B : Matrix (Fin d) (Fin d) ℝ) :
    symmetricPart (A + B) = symmetricPart A + symmetricPart B := by
  rw [symmetricPart, symmetricPart, symmetricPart, transpose_add, ← smul_add]
  congr 1
  abel

/-- C71 (materials): the operators of the linear elastic and of the St. Venant-Kirchhoff material derive from their
energies, so that C71 applies to them: the assembled vector is the gradient of the assembled elastic energy and the
assembled matrix the derivative of that vector. -/
theorem C71_elastic_operators (d : Nat) :
    (Local.Spec.EnergyLaw (leOperator d) ∧ Local.Spec.ContractionLaw (leOperator d)) ∧
    (Local.Spec.EnergyLaw (stvkOperator d) ∧ Local.Spec.ContractionLaw (stvkOperator d)) := by
  refine ⟨operator_laws _ _ _ (fun _ p H => p.mu • (2 : ℝ) • symmetricPart H
      + Matrix.diagonal fun _ => p.lambda * H.trace) ?_ ?_ (fun F p H => md_leStress F H p) ?_,
    operator_laws _ _ _ (fun F p H => p.mu • (2 : ℝ) • (H * greenStrain F + F * symmetricPart (Fᵀ * H))
        + ((Fᵀ * H).trace • p.lambda • F + (greenStrain F).trace • p.lambda • H)) ?_ ?_
      (fun F p H => md_stvkStress F H p) ?_⟩
  · intro F p H
    obtain ⟨P, hP, h⟩ := C56_linear_elastic F p
    cases hP
    exact (h H).2
  · intro F p a b c i
    obtain ⟨C, hC, -, h⟩ := C57_linear_elastic F p
    have e : C = fun a b => leContraction F a b p := by
      funext a b
      exact (Out.val.inj (hC a b)).symm
    subst e
    exact (h a b c).2 i
  · intro F p A B
    rw [symmetricPart_add, Matrix.trace_add]
    simp only [smul_add, mul_add]
    rw [← Matrix.diagonal_add]
    abel
  · intro F p H
    obtain ⟨P, hP, h⟩ := C56_stvk F p
    cases hP
    exact (h H).2
  · intro F p a b c i
    obtain ⟨C, hC, -, h⟩ := C57_stvk F p
    have e : C = fun a b => stvkContraction F a b p := by
      funext a b
      exact (Out.val.inj (hC a b)).symm
    subst e
    exact (h a b c).2 i
  · intro F p A B
    simp only [Matrix.mul_add, Matrix.add_mul, symmetricPart_add, Matrix.trace_add, add_smul, smul_add]
    abel

/-- C57: the batched contraction that `MaterialEllipticOperator` forwards to computes the same entries as the
default implementation modelled in C28, for the vectors `A_I`, `B_J` stacked in `a` and `b`. -/
theorem C57_operator_batch (hd : 0 < d) (m : Material d) (o : Local.Operator d d ℝ (Lame ℝ)) (hsym : o.symmetric = true)
    (ho : ∀ G a b p, m.contractionDu G a b p = .val (o.contract G a b p))
    (out : Nat → Nat → ℝ) (alpha : ℝ) (G : Matrix (Fin d) (Fin d) ℝ) (A B : List (Point d ℝ)) (p : Lame ℝ) :
    ∃ out', m.batchDu (d * A.length) (d * B.length) (fun r c => some (out r c)) alpha G
        (A.flatMap List.ofFn) (B.flatMap List.ofFn) p = some out' ∧
      ∀ (I J : Nat) (i j : Fin d), I < A.length → J < B.length →
        out' (d * I + i) (d * J + j)
          = some (Local.accumulateContractions o out alpha G A B p (d * I + i) (d * J + j)) := by
  have hlen : ∀ A : List (Point d ℝ), (A.flatMap List.ofFn).length = d * A.length := by
    intro A
    induction A with
    | nil => simp
    | cons x A ih => rw [List.flatMap_cons, List.length_append, ih, List.length_ofFn, List.length_cons, Nat.mul_succ,
        Nat.add_comm]
  have hgrp : ∀ (A : List (Point d ℝ)) (I : Nat) (hI : I < A.length), Spec.group d (A.flatMap List.ofFn) I = A[I] := by
    intro A
    induction A with
    | nil => intro I hI; simp at hI
    | cons x A ih =>
      intro I hI
      funext k
      rw [Spec.group, List.flatMap_cons, List.getD_eq_getElem?_getD]
      cases I with
      | zero =>
        rw [List.getElem?_append_left (by simp)]
        simp
      | succ I =>
        rw [List.getElem?_append_right (by simp [Nat.mul_succ]; omega)]
        have e : d * (I + 1) + (k : Nat) - (List.ofFn x).length = d * I + k := by
          rw [List.length_ofFn, Nat.mul_succ]
          omega
        rw [e, ← List.getD_eq_getElem?_getD]
        have := congrFun (ih I (by simpa using hI)) k
        rw [Spec.group] at this
        rw [this]
        rfl
  have hC : ∀ a b, m.contraction (1 + Gᵀ) a b p = .val (o.contract G a b p) := fun a b => ho G a b p
  obtain ⟨h1, h2⟩ := C57_batch_displacement hd m (d * A.length) (d * B.length) (fun r c => some (out r c)) alpha G
    (A.flatMap List.ofFn) (B.flatMap List.ofFn) p _ hC
  have hne : m.batchDu (d * A.length) (d * B.length) (fun r c => some (out r c)) alpha G
        (A.flatMap List.ofFn) (B.flatMap List.ofFn) p ≠ none := by
    intro hn
    refine h1.mp hn ?_
    rw [hlen, hlen]
    exact ⟨Dvd.intro _ rfl, Dvd.intro _ rfl, rfl, rfl⟩
  obtain ⟨out', ho'⟩ := Option.ne_none_iff_exists'.mp hne
  refine ⟨out', ho', fun I J i j hI hJ => ?_⟩
  have hidx : ∀ (N I : Nat) (i : Fin d), I < N → d * I + (i : Nat) < d * N := by
    intro N I i h
    have := Nat.mul_le_mul_left d (Nat.succ_le_of_lt h)
    rw [Nat.mul_succ] at this
    have := i.2
    omega
  rw [h2 out' ho' I J i j (by rw [hlen]; exact hidx _ _ _ hI) (by rw [hlen]; exact hidx _ _ _ hJ), hgrp A I hI,
    hgrp B J hJ, Local.accumulateContractions_entry o out alpha G A B p I J i j A[I] B[J]
      (List.getElem?_eq_getElem hI) (List.getElem?_eq_getElem hJ)]
  simp only [hsym, true_implies, Option.map_some]
  split_ifs <;> simp

/-- The hypotheses of `C57_operator_batch` hold for both materials. -/
example : (∀ G a b p, (linearElastic d).contractionDu G a b p = .val ((leOperator d).contract G a b p)) ∧
    (∀ G a b p, (stvk d).contractionDu G a b p = .val ((stvkOperator d).contract G a b p)) :=
  ⟨fun _ _ _ _ => rfl, fun _ _ _ _ => rfl⟩

/-! ### Invariance and sign of the energies -/

private theorem green_rotate (Q F : Matrix (Fin d) (Fin d) ℝ) (hQ : Qᵀ * Q = 1) : greenStrain (Q * F) = greenStrain F := by
  rw [greenStrain, greenStrain, transpose_mul, Matrix.mul_assoc, ← Matrix.mul_assoc Qᵀ, hQ, Matrix.one_mul]

private theorem dot_self_eq_trace (A : Matrix (Fin d) (Fin d) ℝ) : dot A A = (Aᵀ * A).trace := dot_eq_trace A A

private theorem trace_conj (Q A : Matrix (Fin d) (Fin d) ℝ) (hQ : Q * Qᵀ = 1) : (Qᵀ * A * Q).trace = A.trace := by
  rw [trace_mul_comm, ← Matrix.mul_assoc, hQ, Matrix.one_mul]

private theorem dot_conj (Q A : Matrix (Fin d) (Fin d) ℝ) (hQ : Q * Qᵀ = 1) :
    dot (Qᵀ * A * Q) (Qᵀ * A * Q) = dot A A := by
  rw [dot_self_eq_trace, dot_self_eq_trace]
  have e : (Qᵀ * A * Q)ᵀ * (Qᵀ * A * Q) = Qᵀ * (Aᵀ * A) * Q := by
    simp only [transpose_mul, transpose_transpose, Matrix.mul_assoc]
    rw [← Matrix.mul_assoc Q Qᵀ, hQ, Matrix.one_mul]
  rw [e, trace_conj Q _ hQ]

private theorem green_conj (Q F : Matrix (Fin d) (Fin d) ℝ) (hQ : Qᵀ * Q = 1) :
    greenStrain (F * Q) = Qᵀ * greenStrain F * Q := by
  rw [greenStrain, greenStrain, transpose_mul, Matrix.mul_smul, Matrix.smul_mul, Matrix.mul_sub, Matrix.sub_mul,
    Matrix.mul_one, hQ]
  simp only [Matrix.mul_assoc]

/-- C72 (St. Venant-Kirchhoff): rotating or reflecting the deformed body leaves the energy density unchanged and
turns the stress along; rotating or reflecting the material leaves the energy unchanged. -/
theorem C72_stvk_objective (F Q : Matrix (Fin d) (Fin d) ℝ) (p : Lame ℝ) (hQ : Qᵀ * Q = 1) :
    (stvk d).energy (Q * F) p = (stvk d).energy F p ∧
    (∀ P, (stvk d).stress F p = .val P → (stvk d).stress (Q * F) p = .val (Q * P)) ∧
    (stvk d).energy (F * Q) p = (stvk d).energy F p := by
  refine ⟨?_, ?_, ?_⟩
  · change ((stvkEnergy (Q * F) p : ℝ) : WithTop ℝ) = ((stvkEnergy F p : ℝ) : WithTop ℝ)
    rw [stvkEnergy, stvkEnergy, green_rotate Q F hQ]
  · rintro P hP
    cases hP
    change Out.val (stvkStress (Q * F) p) = _
    congr 1
    rw [stvkStress, stvkStress, green_rotate Q F hQ]
    simp only [Matrix.mul_add, Matrix.mul_smul, Matrix.mul_assoc]
  · change ((stvkEnergy (F * Q) p : ℝ) : WithTop ℝ) = ((stvkEnergy F p : ℝ) : WithTop ℝ)
    have hQ' : Q * Qᵀ = 1 := mul_eq_one_comm.mp hQ
    rw [stvkEnergy, stvkEnergy, green_conj Q F hQ]
    simp only [dot_conj Q _ hQ', trace_conj Q _ hQ']

private theorem dot_rotate (Q F : Matrix (Fin d) (Fin d) ℝ) (hQ : Qᵀ * Q = 1) : dot (Q * F) (Q * F) = dot F F := by
  rw [dot_self_eq_trace, dot_self_eq_trace, transpose_mul, Matrix.mul_assoc, ← Matrix.mul_assoc Qᵀ, hQ, Matrix.one_mul]

private theorem dot_rotate_right (Q F : Matrix (Fin d) (Fin d) ℝ) (hQ : Q * Qᵀ = 1) : dot (F * Q) (F * Q) = dot F F := by
  rw [dot_self_eq_trace, dot_self_eq_trace, transpose_mul, Matrix.mul_assoc, ← Matrix.mul_assoc Fᵀ, ← Matrix.mul_assoc,
    trace_conj Q _ hQ]

/-- C72 (Neo-Hookean): rotating the deformed body or the material leaves the energy density unchanged, and rotating
the body turns the stress along. In every dimension that can be instantiated. -/
theorem C72_neo_hookean_objective (F Q : Matrix (Fin d) (Fin d) ℝ) (p : Lame ℝ) (hQ : Qᵀ * Q = 1) (hdet : Q.det = 1) :
    (d = 1 ∨ d = 2 ∨ d = 3 → (neoHookean d).energy (Q * F) p = (neoHookean d).energy F p ∧
      (neoHookean d).energy (F * Q) p = (neoHookean d).energy F p) ∧
    (∀ P, (neoHookean d).stress F p = .val P → (neoHookean d).stress (Q * F) p = .val (Q * P)) ∧
    ((neoHookean d).stress F p = .nan → (neoHookean d).stress (Q * F) p = .nan) := by
  have hQ' : Q * Qᵀ = 1 := mul_eq_one_comm.mp hQ
  have h1 : (Q * F).det = F.det := by rw [Matrix.det_mul, hdet, one_mul]
  have h2 : (F * Q).det = F.det := by rw [Matrix.det_mul, hdet, mul_one]
  refine ⟨fun hd => ?_, fun P hP => ?_, fun hn => ?_⟩
  · rcases hd with rfl | hd
    · have e : Q = 1 := by
        ext i j
        rw [Subsingleton.elim i 0, Subsingleton.elim j 0, Matrix.one_apply_eq]
        rwa [Matrix.det_unique] at hdet
      rw [e, Matrix.one_mul, Matrix.mul_one]
      exact ⟨rfl, rfl⟩
    by_cases hF : 0 < F.det
    · rw [nhEnergy_eq hd F p hF, nhEnergy_eq hd _ p (h1.symm ▸ hF), nhEnergy_eq hd _ p (h2.symm ▸ hF), h1, h2,
        dot_rotate Q F hQ, dot_rotate_right Q F hQ']
      exact ⟨rfl, rfl⟩
    · have h := fun G : Matrix (Fin d) (Fin d) ℝ => (C56_neo_hookean_finite_partial hd G p).not
      have e0 : (neoHookean d).energy F p = ⊤ := not_not.mp ((h F).mpr hF)
      have e1 : (neoHookean d).energy (Q * F) p = ⊤ := not_not.mp ((h _).mpr (by rwa [h1]))
      have e2 : (neoHookean d).energy (F * Q) p = ⊤ := not_not.mp ((h _).mpr (by rwa [h2]))
      rw [e0, e1, e2]
      exact ⟨rfl, rfl⟩
  · change nhStress F p = _ at hP
    change nhStress (Q * F) p = _
    by_cases hF : 0 < F.det
    · rw [nhStress_eq F p hF] at hP
      cases hP
      rw [nhStress_eq _ p (h1.symm ▸ hF), h1]
      congr 1
      have e : (Q * F)⁻¹ᵀ = Q * F⁻¹ᵀ := by
        rw [Matrix.mul_inv_rev, Matrix.inv_eq_left_inv hQ, transpose_mul, transpose_transpose]
      rw [e]
      simp only [Matrix.mul_add, Matrix.mul_smul]
    · rw [nhStress] at hP
      simp only [if_pos (not_lt.mp hF)] at hP
      cases hP
  · change nhStress F p = _ at hn
    change nhStress (Q * F) p = _
    by_cases hF : 0 < F.det
    · rw [nhStress_eq F p hF] at hn
      cases hn
    · rw [nhStress]
      simp only [if_pos (h1.symm ▸ not_lt.mp hF)]

/-- The hypotheses of the two theorems hold for the rotation by 90 degrees. -/
example : (!![0, -1; 1, 0] : Matrix (Fin 2) (Fin 2) ℝ)ᵀ * !![0, -1; 1, 0] = 1 ∧
    (!![0, -1; 1, 0] : Matrix (Fin 2) (Fin 2) ℝ).det = 1 := by
  constructor
  · ext i j
    fin_cases i <;> fin_cases j <;> simp [Matrix.mul_apply, Fin.sum_univ_two]
  · simp

/-- C72 (linear elasticity): the energy density of the linear material sees only the symmetric part of the displacement
gradient, so that an infinitesimal rotation costs no energy, and it is unchanged if body and material are rotated together.
(It is not objective: `C72_linear_elastic_not_objective`.) -/
theorem C72_linear_elastic_invariant (F W Q : Matrix (Fin d) (Fin d) ℝ) (p : Lame ℝ) (hW : Wᵀ = -W) (hQ : Qᵀ * Q = 1) :
    (linearElastic d).energy (F + W) p = (linearElastic d).energy F p ∧
    (linearElastic d).stress (F + W) p = (linearElastic d).stress F p ∧
    (linearElastic d).energy (Qᵀ * F * Q) p = (linearElastic d).energy F p := by
  have e : infinitesimalStrain (F + W) = infinitesimalStrain F := by
    rw [infinitesimalStrain, infinitesimalStrain, symmetricPart_add]
    have : symmetricPart W = 0 := by rw [symmetricPart, hW, add_neg_cancel, smul_zero]
    rw [this, add_zero]
  refine ⟨?_, ?_, ?_⟩
  · change ((leEnergy (F + W) p : ℝ) : WithTop ℝ) = ((leEnergy F p : ℝ) : WithTop ℝ)
    rw [leEnergy, leEnergy, e]
  · change Out.val (leStress (F + W) p) = Out.val (leStress F p)
    rw [leStress, leStress, e]
  · change ((leEnergy (Qᵀ * F * Q) p : ℝ) : WithTop ℝ) = ((leEnergy F p : ℝ) : WithTop ℝ)
    have hQ' : Q * Qᵀ = 1 := mul_eq_one_comm.mp hQ
    have e : infinitesimalStrain (Qᵀ * F * Q) = Qᵀ * infinitesimalStrain F * Q := by
      rw [infinitesimalStrain, infinitesimalStrain, symmetricPart, symmetricPart, Matrix.mul_sub, Matrix.sub_mul,
        Matrix.mul_one, hQ, Matrix.mul_smul, Matrix.smul_mul, Matrix.mul_add, Matrix.add_mul]
      simp only [transpose_mul, transpose_transpose, Matrix.mul_assoc]
    rw [leEnergy, leEnergy, e]
    simp only [dot_conj Q _ hQ', trace_conj Q _ hQ']

/-- C72: the energy density of the linear material does change under a finite rotation (by 90 degrees). -/
theorem C72_linear_elastic_not_objective :
    (linearElastic 2).energy (!![0, -1; 1, 0] * 1) ⟨1, 0⟩ ≠ (linearElastic 2).energy 1 ⟨1, 0⟩ := by
  intro h
  have h0 := (C56_undeformed (linearElastic 2) (.inl rfl) ⟨1, 0⟩).1
  rw [h0] at h
  change ((leEnergy (!![0, -1; 1, 0] * 1) ⟨1, 0⟩ : ℝ) : WithTop ℝ) = ((0 : ℝ) : WithTop ℝ) at h
  have h := WithTop.coe_injective h
  revert h
  simp only [leEnergy, dot, infinitesimalStrain, symmetricPart, Matrix.mul_one, Fin.sum_univ_two, Matrix.trace_fin_two]
  simp

private theorem dot_self_nonneg (A : Matrix (Fin d) (Fin d) ℝ) : 0 ≤ dot A A :=
  Finset.sum_nonneg fun i _ => Finset.sum_nonneg fun j _ => mul_self_nonneg (A i j)

private theorem dot_self_zero {A : Matrix (Fin d) (Fin d) ℝ} (h : dot A A = 0) : A = 0 := by
  ext i j
  have h1 := (Finset.sum_eq_zero_iff_of_nonneg fun i _ => Finset.sum_nonneg fun j _ => mul_self_nonneg (A i j)).mp h
    i (Finset.mem_univ i)
  have h2 := (Finset.sum_eq_zero_iff_of_nonneg fun j _ => mul_self_nonneg (A i j)).mp h1 j (Finset.mem_univ j)
  exact mul_self_eq_zero.mp h2

private theorem quad_nonneg (mu lambda a t : ℝ) (hmu : 0 < mu) (hl : 0 ≤ lambda) (ha : 0 ≤ a) :
    0 ≤ mu * a + 1 / 2 * lambda * t ^ 2 ∧ (mu * a + 1 / 2 * lambda * t ^ 2 = 0 → a = 0) := by
  have h1 : 0 ≤ mu * a := mul_nonneg hmu.le ha
  have h2 : 0 ≤ 1 / 2 * lambda * t ^ 2 := by positivity
  refine ⟨by linarith, fun h => ?_⟩
  have : mu * a = 0 := by linarith
  exact (mul_eq_zero.mp this).resolve_left hmu.ne'

/-- C72: for `μ > 0` and `λ ≥ 0` the energy densities of the linear and the St. Venant-Kirchhoff material are never
negative, and vanish exactly in the unstrained states: a skew displacement gradient for the former, an orthogonal deformation
gradient for the latter. -/
theorem C72_energy_nonneg (F : Matrix (Fin d) (Fin d) ℝ) (p : Lame ℝ) (hmu : 0 < p.mu) (hl : 0 ≤ p.lambda) :
    0 ≤ (linearElastic d).energy F p ∧ 0 ≤ (stvk d).energy F p ∧
    ((linearElastic d).energy F p = 0 ↔ (F - 1)ᵀ = -(F - 1)) ∧
    ((stvk d).energy F p = 0 ↔ Fᵀ * F = 1) := by
  have h1 := quad_nonneg p.mu p.lambda (dot (infinitesimalStrain F) (infinitesimalStrain F)) (infinitesimalStrain F).trace hmu hl
    (dot_self_nonneg _)
  have h2 := quad_nonneg p.mu p.lambda (dot (greenStrain F) (greenStrain F)) (greenStrain F).trace hmu hl
    (dot_self_nonneg _)
  have hdot0 : dot (0 : Matrix (Fin d) (Fin d) ℝ) 0 = 0 := by simp [dot]
  refine ⟨WithTop.coe_le_coe.mpr h1.1, WithTop.coe_le_coe.mpr h2.1, ?_, ?_⟩
  · change ((leEnergy F p : ℝ) : WithTop ℝ) = ((0 : ℝ) : WithTop ℝ) ↔ _
    rw [WithTop.coe_inj]
    have e : infinitesimalStrain F = (1 / 2 : ℝ) • ((F - 1) + (F - 1)ᵀ) := by
      rw [infinitesimalStrain, symmetricPart, transpose_sub, transpose_one]
      ext i j
      simp only [Matrix.sub_apply, Matrix.smul_apply, Matrix.add_apply, smul_eq_mul]
      ring
    constructor
    · intro h
      have := dot_self_zero (h1.2 h)
      rw [e] at this
      have := (smul_eq_zero.mp this).resolve_left (by norm_num)
      exact eq_neg_of_add_eq_zero_right this
    · intro h
      have : infinitesimalStrain F = 0 := by rw [e, h, add_neg_cancel, smul_zero]
      rw [leEnergy, this]
      simp [hdot0]
  · change ((stvkEnergy F p : ℝ) : WithTop ℝ) = ((0 : ℝ) : WithTop ℝ) ↔ _
    rw [WithTop.coe_inj]
    constructor
    · intro h
      have := dot_self_zero (h2.2 h)
      rw [greenStrain] at this
      exact sub_eq_zero.mp ((smul_eq_zero.mp this).resolve_left (by norm_num))
    · intro h
      have : greenStrain F = 0 := by rw [greenStrain, h, sub_self, smul_zero]
      rw [stvkEnergy, this]
      simp [hdot0]

/-- The hypotheses of `C72_energy_nonneg` hold for the parameters of a material with Young's modulus 10 and Poisson's ratio
1/4. -/
example : 0 < (Lame.fromYoungPoisson ⟨10, 1 / 4⟩ : Lame ℝ).mu ∧ 0 ≤ (Lame.fromYoungPoisson ⟨10, 1 / 4⟩ : Lame ℝ).lambda := by
  constructor <;> norm_num [Lame.fromYoungPoisson]

end Solid
end Fenris
