import Verif.Spec.Rotation
import Verif.Spec.Polygon
import Mathlib.Analysis.Calculus.Deriv.Inv
import Mathlib.Analysis.Calculus.Deriv.Pow
import Mathlib.LinearAlgebra.Matrix.NonsingularInverse
import Mathlib.Data.Fintype.Pi
import Mathlib.Tactic.LinearCombination
import Mathlib.Tactic.FinCases
/-! # C85: rotations and frames -/
set_option autoImplicit false
set_option linter.unusedSectionVars false

namespace Fenris
namespace Rotation
open Spec
variable {K : Type} [Field K] [LinearOrder K] [IsStrictOrderedRing K] {n : Nat}

/-! ### Frames -/

/-- C85: `compute_orthonormal_vectors_3d` completes every unit vector to a right-handed orthonormal frame. -/
theorem C85_orthonormal_vectors (copysign : K → K) (hs : IsCopysign copysign) (v : Point 3 K) (hv : inner v v = 1) :
    Frame (orthonormalVectors copysign v).1 (orthonormalVectors copysign v).2 v := by
  have hsz : copysign (v 2) ^ 2 = 1 ∧ copysign (v 2) + v 2 ≠ 0 := by
    obtain ⟨h1, h2, h3⟩ := hs (v 2)
    constructor
    · rcases h3 with h | h <;> rw [h] <;> norm_num
    · rcases lt_trichotomy (v 2) 0 with h | h | h
      · rw [h2 h]
        linarith
      · rw [h]
        rcases h3 with h' | h' <;> rw [← h, h', h] <;> norm_num
      · rw [h1 h]
        linarith
  obtain ⟨h1, h2⟩ := hsz
  simp only [inner] at hv
  simp only [orthonormalVectors]
  generalize copysign (v 2) = s at h1 h2 ⊢
  have hq : -1 / (s + v 2) * (s + v 2) = -1 := div_mul_cancel₀ _ h2
  generalize -1 / (s + v 2) = a at hq ⊢
  have hx' : a * (v 0 ^ 2 + v 1 ^ 2) = -(s - v 2) := by linear_combination a * hv - a * h1 + (s - v 2) * hq
  have hx : a ^ 2 * (v 0 ^ 2 + v 1 ^ 2) = -a * (s - v 2) := by linear_combination a * hx'
  have c2 : ∀ p q r : K, (![p, q, r] : Point 3 K) 2 = r := fun _ _ _ => rfl
  constructor <;> try simp only [inner, Matrix.cons_val_zero, Matrix.cons_val_one, c2]
  · linear_combination (v 0 ^ 4 * a ^ 2 + v 0 ^ 2 * v 1 ^ 2 * a ^ 2 + v 0 ^ 2) * h1 + v 0 ^ 2 * hx + v 0 ^ 2 * hq
  · linear_combination h1 + v 1 ^ 2 * hx + v 1 ^ 2 * hq
  · exact hv
  · linear_combination s * v 0 * v 1 * hx + s * v 0 * v 1 * hq - v 0 * v 1 * a * h1
  · linear_combination s * v 0 * hx' - v 0 * h1
  · linear_combination v 1 * hx'
  · funext i
    fin_cases i <;> simp only [vecCross, Fin.zero_eta, Fin.mk_one, Fin.reduceFinMk, Matrix.cons_val_zero, Matrix.cons_val_one, c2]
    · linear_combination v 0 * h1
    · ring
    · linear_combination hx' + v 0 ^ 2 * a * h1

/-- C85: the tangents of a plane with its normal are a right-handed orthonormal frame, also after flipping the plane. -/
theorem C85_plane_tangents (copysign : K → K) (hs : IsCopysign copysign) (p : Plane K) (hp : inner p.normal p.normal = 1) :
    Frame (p.tangentVectors copysign).1 (p.tangentVectors copysign).2 p.normal ∧
    Frame (p.flipped.tangentVectors copysign).1 (p.flipped.tangentVectors copysign).2 fun i => -p.normal i := by
  refine ⟨C85_orthonormal_vectors copysign hs _ hp, C85_orthonormal_vectors copysign hs _ ?_⟩
  simp only [inner, Plane.flipped] at hp ⊢
  linear_combination hp

/-- C85: flipping a plane turns the height of every point above it round (so the points of the plane stay the same), and keeps the point
that the plane is given by. -/
theorem C85_plane_flipped (p : Plane K) (x : Point 3 K) :
    inner p.flipped.normal (fun i => x i - p.flipped.point i) = -inner p.normal (fun i => x i - p.point i) ∧ p.flipped.point = p.point := by
  refine ⟨?_, rfl⟩
  simp only [inner, Plane.flipped]
  ring

/-- C85: `orient2d_inexact` is twice the signed area of the triangle. -/
theorem C85_orient2d (a b c : Point 2 K) : orient2d a b c = Fenris.Spec.orient2 a b c := by
  rw [orient2d, Matrix.det_fin_three]
  simp [Fenris.Spec.orient2]
  ring

/-- C85: `cross_product_matrix` multiplies like the cross product, and is antisymmetric. -/
theorem C85_cross_product_matrix (x y : Point 3 K) :
    (crossProductMatrix x).mulVec y = vecCross x y ∧ (crossProductMatrix x).transpose = -crossProductMatrix x := by
  constructor
  · funext i
    fin_cases i <;> simp [crossProductMatrix, vecCross, Matrix.mulVec, dotProduct, Fin.sum_univ_three] <;> ring
  · ext i j
    fin_cases i <;> fin_cases j <;> simp [crossProductMatrix]

/-! ### The singular value decomposition with rotations -/

private theorem negate_col (u : Matrix (Fin n) (Fin n) K) (k : Fin n) :
    (Matrix.of fun i j => if j = k then u i j * -1 else u i j) = u * Matrix.diagonal (Function.update (fun _ => (1 : K)) k (-1)) := by
  ext i j
  rw [Matrix.mul_diagonal, Matrix.of_apply]
  by_cases h : j = k
  · subst h
    simp
  · simp [h]

private theorem negate_row (u : Matrix (Fin n) (Fin n) K) (k : Fin n) :
    (Matrix.of fun i j => if i = k then u i j * -1 else u i j) = Matrix.diagonal (Function.update (fun _ => (1 : K)) k (-1)) * u := by
  ext i j
  rw [Matrix.diagonal_mul, Matrix.of_apply]
  by_cases h : i = k
  · subst h
    simp
  · simp [h]

private theorem flip_det (k : Fin n) : (Matrix.diagonal (Function.update (fun _ => (1 : K)) k (-1))).det = -1 := by
  rw [Matrix.det_diagonal, Finset.prod_update_of_mem (Finset.mem_univ k)]
  simp

private theorem flip_sq (k : Fin n) : Matrix.diagonal (Function.update (fun _ => (1 : K)) k (-1)) *
    Matrix.diagonal (Function.update (fun _ => (1 : K)) k (-1)) = 1 := by
  rw [Matrix.diagonal_mul_diagonal, ← Matrix.diagonal_one]
  congr 1
  funext i
  by_cases h : i = k
  · subst h
    simp
  · simp [h]

private theorem orthogonal_det (M : Matrix (Fin n) (Fin n) K) (h : M.transpose * M = 1) : M.det = 1 ∨ M.det = -1 := by
  have := congrArg Matrix.det h
  rw [Matrix.det_mul, Matrix.det_transpose, Matrix.det_one] at this
  exact mul_self_eq_one_iff.mp this

private theorem flip_update (s : Fin n → K) (k : Fin n) : Matrix.diagonal (Function.update s k (s k * -1)) =
    Matrix.diagonal (Function.update (fun _ => (1 : K)) k (-1)) * Matrix.diagonal s := by
  rw [Matrix.diagonal_mul_diagonal]
  congr 1
  funext i
  by_cases h : i = k
  · subst h
    simp
  · simp [h]

/-- C85: `rotation_svd` turns a singular value decomposition of a matrix into a decomposition of the same matrix with two rotations. The
diagonal entries are the singular values up to sign; all except that of the smallest one are not negative, and their product is the
determinant of the matrix. -/
theorem C85_rotation_svd (imin : (Fin n → K) → Fin n) (himin : ∀ (s : Fin n → K) i, s (imin s) ≤ s i) (A : Matrix (Fin n) (Fin n) K) (d : Svd n K) (hd : IsSvd A d) :
    IsRotation (rotationSvd imin d).u ∧ IsRotation (rotationSvd imin d).vt ∧
    (rotationSvd imin d).u * Matrix.diagonal (rotationSvd imin d).s * (rotationSvd imin d).vt = A ∧
    (∀ i, |(rotationSvd imin d).s i| = d.s i) ∧ (∀ i, (rotationSvd imin d).s i < 0 → ∀ j, d.s i ≤ d.s j) ∧
    (∀ i j, (rotationSvd imin d).s i < 0 → (rotationSvd imin d).s j < 0 → i = j) ∧ ∏ i, (rotationSvd imin d).s i = A.det := by
  obtain ⟨hu, hv, hs, hA⟩ := hd
  have hk := himin d.s
  generalize hkk : imin d.s = k at hk
  let D : Matrix (Fin n) (Fin n) K := Matrix.diagonal (Function.update (fun _ => (1 : K)) k (-1))
  have hD2 : D * D = 1 := flip_sq k
  have hDt : D.transpose = D := Matrix.diagonal_transpose _
  have hDdet : D.det = -1 := flip_det k
  have hDcomm : ∀ s : Fin n → K, D * Matrix.diagonal s = Matrix.diagonal s * D := by
    intro s
    simp only [D, Matrix.diagonal_mul_diagonal]
    congr 1
    funext i
    ring
  -- the new factors
  have hu' : IsRotation (rotationSvd imin d).u ∧ ((rotationSvd imin d).u = if d.u.det < 0 then d.u * D else d.u) := by
    have he : (rotationSvd imin d).u = if d.u.det < 0 then d.u * D else d.u := by
      simp only [rotationSvd, hkk]
      by_cases h : d.u.det < 0
      · simp only [h, true_and, if_true]
        exact negate_col d.u k
      · simp only [h, false_and, if_false]
        rfl
    refine ⟨?_, he⟩
    rw [he]
    split
    · rename_i h
      refine ⟨?_, ?_⟩
      · rw [Matrix.transpose_mul, Matrix.mul_assoc, ← Matrix.mul_assoc d.u.transpose, hu, Matrix.one_mul, hDt, hD2]
      · rw [Matrix.det_mul, hDdet]
        rcases orthogonal_det d.u hu with h' | h'
        · rw [h'] at h
          norm_num at h
        · rw [h']
          norm_num
    · rename_i h
      refine ⟨hu, ?_⟩
      rcases orthogonal_det d.u hu with h' | h'
      · exact h'
      · rw [h'] at h
        norm_num at h
  have hv' : IsRotation (rotationSvd imin d).vt ∧ ((rotationSvd imin d).vt = if d.vt.det < 0 then D * d.vt else d.vt) := by
    have he : (rotationSvd imin d).vt = if d.vt.det < 0 then D * d.vt else d.vt := by
      simp only [rotationSvd, hkk]
      by_cases h : d.vt.det < 0
      · simp only [h, true_and, if_true]
        exact negate_row d.vt k
      · simp only [h, false_and, if_false]
        rfl
    refine ⟨?_, he⟩
    rw [he]
    split
    · rename_i h
      refine ⟨?_, ?_⟩
      · rw [Matrix.transpose_mul, Matrix.mul_assoc, ← Matrix.mul_assoc D.transpose, hDt, hD2, Matrix.one_mul, hv]
      · rw [Matrix.det_mul, hDdet]
        rcases orthogonal_det d.vt hv with h' | h'
        · rw [h'] at h
          norm_num at h
        · rw [h']
          norm_num
    · rename_i h
      refine ⟨hv, ?_⟩
      rcases orthogonal_det d.vt hv with h' | h'
      · exact h'
      · rw [h'] at h
        norm_num at h
  have hs' : Matrix.diagonal (rotationSvd imin d).s = (if d.vt.det < 0 then D else 1) * ((if d.u.det < 0 then D else 1) * Matrix.diagonal d.s) := by
    simp only [rotationSvd, hkk]
    split <;> split
    · rw [flip_update, flip_update]
    · rw [flip_update, Matrix.one_mul]
    · rw [flip_update, Matrix.one_mul]
    · rw [Matrix.one_mul, Matrix.one_mul]
  have hprod : (rotationSvd imin d).u * Matrix.diagonal (rotationSvd imin d).s * (rotationSvd imin d).vt = A := by
    rw [hu'.2, hv'.2, hs', ← hA]
    have hSDD : D * Matrix.diagonal d.s * D = Matrix.diagonal d.s := by
      rw [hDcomm, Matrix.mul_assoc, hD2, Matrix.mul_one]
    have hDDS : D * (D * Matrix.diagonal d.s) = Matrix.diagonal d.s := by
      rw [← Matrix.mul_assoc, hD2, Matrix.one_mul]
    split <;> split
    · rw [hDDS]
      calc d.u * D * Matrix.diagonal d.s * (D * d.vt) = d.u * (D * Matrix.diagonal d.s * D) * d.vt := by simp only [Matrix.mul_assoc]
        _ = _ := by rw [hSDD]
    · rw [Matrix.one_mul, Matrix.mul_assoc d.u D, hDDS]
    · rw [Matrix.one_mul]
      calc d.u * (D * Matrix.diagonal d.s) * (D * d.vt) = d.u * (D * Matrix.diagonal d.s * D) * d.vt := by simp only [Matrix.mul_assoc]
        _ = _ := by rw [hSDD]
    · simp
  have hentry : ∀ i, (rotationSvd imin d).s i = d.s i ∨ i = k ∧ (rotationSvd imin d).s i = -d.s i := by
    intro i
    simp only [rotationSvd, hkk]
    by_cases h : i = k
    · subst h
      split <;> split <;> simp
    · left
      split <;> split <;> simp [h]
  refine ⟨hu'.1, hv'.1, hprod, ?_, ?_, ?_, ?_⟩
  · intro i
    rcases hentry i with h | ⟨-, h⟩ <;> rw [h]
    · exact abs_of_nonneg (hs i)
    · rw [abs_neg, abs_of_nonneg (hs i)]
  · intro i hi j
    rcases hentry i with h | ⟨rfl, h⟩
    · rw [h] at hi
      exact absurd (hs i) (not_le.mpr hi)
    · exact hk j
  · intro i j hi hj
    have : ∀ i, (rotationSvd imin d).s i < 0 → i = k := by
      intro i hi
      rcases hentry i with h | ⟨h, -⟩
      · rw [h] at hi
        exact absurd (hs i) (not_le.mpr hi)
      · exact h
    rw [this i hi, this j hj]
  · have := congrArg Matrix.det hprod
    rw [Matrix.det_mul, Matrix.det_mul, hu'.1.2, hv'.1.2, Matrix.det_diagonal, one_mul, mul_one] at this
    exact this

/-! ### The analytic polar decomposition -/

private theorem toMatrix_mul (p q : Quat K) : (p.mul q).toMatrix = p.toMatrix * q.toMatrix := by
  ext i j
  fin_cases i <;> fin_cases j <;> simp [Quat.toMatrix, Quat.mul, Matrix.mul_apply, Fin.sum_univ_three] <;> ring

private theorem toMatrix_orthogonal (q : Quat K) : q.toMatrix.transpose * q.toMatrix = (q.w ^ 2 + q.x ^ 2 + q.y ^ 2 + q.z ^ 2) ^ 2 • 1 := by
  ext i j
  fin_cases i <;> fin_cases j <;> simp [Quat.toMatrix, Matrix.mul_apply, Fin.sum_univ_three] <;> ring

private theorem toMatrix_det (q : Quat K) : q.toMatrix.det = (q.w ^ 2 + q.x ^ 2 + q.y ^ 2 + q.z ^ 2) ^ 3 := by
  rw [Matrix.det_fin_three]
  simp [Quat.toMatrix]
  ring

private theorem unit_rotation (q : Quat K) (h : Spec.IsUnit q) : IsRotation q.toMatrix := by
  refine ⟨?_, ?_⟩
  · rw [toMatrix_orthogonal, h, one_pow, one_smul]
  · rw [toMatrix_det, h, one_pow]

private theorem mul_unit (p q : Quat K) (hp : Spec.IsUnit p) (hq : Spec.IsUnit q) : Spec.IsUnit (p.mul q) := by
  simp only [Spec.IsUnit, Quat.mul] at *
  linear_combination (q.w ^ 2 + q.x ^ 2 + q.y ^ 2 + q.z ^ 2) * hp + hq

private theorem normSq_nonneg (v : Point 3 K) : 0 ≤ normSq v := by
  simp only [normSq]
  nlinarith [mul_self_nonneg (v 0), mul_self_nonneg (v 1), mul_self_nonneg (v 2)]

private theorem cayley_unit (omega : Point 3 K) : Spec.IsUnit (cayley omega) := by
  have h := normSq_nonneg omega
  have h1 : 1 + normSq omega ≠ 0 := by linarith
  simp only [Spec.IsUnit, cayley]
  have h2 : omega 0 ^ 2 + omega 1 ^ 2 + omega 2 ^ 2 = normSq omega := by simp only [normSq]; ring
  generalize normSq omega = l at h1 h2 ⊢
  field_simp
  linear_combination 4 * h2

private theorem mul_one' (q : Quat K) : q.mul ⟨1, 0, 0, 0⟩ = q := by
  simp [Quat.mul]

private theorem mul_assoc' (p q r : Quat K) : (p.mul q).mul r = p.mul (q.mul r) := by
  ext <;> simp only [Quat.mul] <;> ring

private theorem apdLoop_unit (F : Matrix (Fin 3) (Fin 3) K) (tolSq : K) (rounds : Nat) (res : K) (q : Quat K) (hq : Spec.IsUnit q) :
    Spec.IsUnit (apdLoop F tolSq rounds res q) := by
  induction rounds generalizing res q with
  | zero => exact hq
  | succ rounds ih =>
    simp only [apdLoop]
    split
    · exact ih _ _ (mul_unit q _ hq (cayley_unit _))
    · exact hq

/-- C85: for every matrix, tolerance and number of rounds, `apd` returns a unit quaternion; its matrix is a rotation. -/
theorem C85_apd_is_rotation (maxValue : K) (F : Matrix (Fin 3) (Fin 3) K) (q : Quat K) (hq : Spec.IsUnit q) (maxIter : Nat) (tol : K) :
    Spec.IsUnit (apd maxValue F q maxIter tol) ∧ IsRotation (apd maxValue F q maxIter tol).toMatrix := by
  have h := apdLoop_unit F (tol * tol) maxIter maxValue q hq
  exact ⟨h, unit_rotation _ h⟩

private theorem gradient_zero (B : Matrix (Fin 3) (Fin 3) K) (h : B.transpose = B) : apdGradient B = 0 := by
  have hij : ∀ i j, B i j = B j i := fun i j => congrFun (congrFun h j) i
  funext i
  fin_cases i <;> simp [apdGradient]
  · rw [hij 1 2, sub_self]
  · rw [hij 2 0, sub_self]
  · rw [hij 0 1, sub_self]

private theorem omega_zero (F : Matrix (Fin 3) (Fin 3) K) (q : Quat K) (h : apdGradient (q.toMatrix.transpose * F) = 0) : apdOmega F q = 0 := by
  have hN : ∀ H : Matrix (Fin 3) (Fin 3) K, apdNewton H 0 = 0 := by
    intro H
    funext i
    fin_cases i <;> simp [apdNewton]
  simp only [apdOmega, h, hN]
  split <;> funext i <;> simp

private theorem cayley_zero : cayley (0 : Point 3 K) = ⟨1, 0, 0, 0⟩ := by
  simp [cayley, normSq]

/-- C85: a rotation that already is the polar factor of the matrix, `F = R S` with symmetric `S`, is returned unchanged. -/
theorem C85_apd_keeps_polar_factor (maxValue : K) (q : Quat K) (hq : Spec.IsUnit q) (S : Matrix (Fin 3) (Fin 3) K) (hS : S.transpose = S)
    (maxIter : Nat) (tol : K) : apd maxValue (q.toMatrix * S) q maxIter tol = q := by
  have hB : q.toMatrix.transpose * (q.toMatrix * S) = S := by
    rw [← Matrix.mul_assoc, (unit_rotation q hq).1, Matrix.one_mul]
  have ho : apdOmega (q.toMatrix * S) q = 0 := omega_zero _ _ (by rw [hB]; exact gradient_zero S hS)
  rw [apd]
  generalize maxValue = res
  induction maxIter generalizing res with
  | zero => rfl
  | succ rounds ih =>
    simp only [apdLoop, ho, cayley_zero, mul_one']
    split
    · exact ih _
    · rfl

/-- C85: `apd` does not depend on the choice of the coordinate system of the deformed body: rotating the matrix and the initial guess
rotates the result. -/
theorem C85_apd_is_objective (maxValue : K) (F : Matrix (Fin 3) (Fin 3) K) (p q : Quat K) (hp : Spec.IsUnit p) (maxIter : Nat) (tol : K) :
    apd maxValue (p.toMatrix * F) (p.mul q) maxIter tol = p.mul (apd maxValue F q maxIter tol) := by
  have ho : ∀ q, apdOmega (p.toMatrix * F) (p.mul q) = apdOmega F q := by
    intro q
    have : (p.mul q).toMatrix.transpose * (p.toMatrix * F) = q.toMatrix.transpose * F := by
      rw [toMatrix_mul, Matrix.transpose_mul, Matrix.mul_assoc, ← Matrix.mul_assoc p.toMatrix.transpose, (unit_rotation p hp).1, Matrix.one_mul]
    simp only [apdOmega, this]
  rw [apd, apd]
  generalize maxValue = res
  induction maxIter generalizing res q with
  | zero => rfl
  | succ rounds ih =>
    simp only [apdLoop, ho, mul_assoc']
    split
    · exact ih _ _
    · rfl

private theorem apdDet_eq (B : Matrix (Fin 3) (Fin 3) K) : apdDet (apdHessian B) = (apdHessian B).det := by
  rw [Matrix.det_fin_three]
  simp [apdDet, apdHessian]
  ring

private theorem newton_solves (B : Matrix (Fin 3) (Fin 3) K) (g : Point 3 K) (h : apdDet (apdHessian B) ≠ 0) :
    (apdHessian B).mulVec (apdNewton (apdHessian B) g) = fun i => -(g i / 4) := by
  have h01 : apdHessian B 1 0 = apdHessian B 0 1 := rfl
  have h02 : apdHessian B 2 0 = apdHessian B 0 2 := rfl
  have h12 : apdHessian B 2 1 = apdHessian B 1 2 := rfl
  generalize apdHessian B = H at *
  have hd : apdDet H * (apdDet H)⁻¹ = 1 := mul_inv_cancel₀ h
  have hdet : apdDet H = -(H 0 2 * H 0 2 * H 1 1) + H 0 1 * H 0 2 * H 1 2 * 2 - H 0 0 * H 1 2 * H 1 2 - H 0 1 * H 0 1 * H 2 2 + H 0 0 * H 1 1 * H 2 2 := rfl
  have c2 : ∀ p q r : K, (![p, q, r] : Point 3 K) 2 = r := fun _ _ _ => rfl
  funext i
  simp only [Matrix.mulVec, dotProduct, Fin.sum_univ_three, apdNewton, Matrix.cons_val_zero, Matrix.cons_val_one, c2]
  generalize (apdDet H)⁻¹ = w at hd ⊢
  rw [hdet] at hd
  fin_cases i <;> simp only [Fin.zero_eta, Fin.mk_one, Fin.reduceFinMk, h01, h02, h12]
  · linear_combination -(g 0 / 4) * hd
  · linear_combination -(g 1 / 4) * hd
  · linear_combination -(g 2 / 4) * hd

private theorem loop_exit (F : Matrix (Fin 3) (Fin 3) K) (tolSq : K) (rounds : Nat) (res : K) (q : Quat K) (h : tolSq < res) :
    ∃ k ≤ rounds, apdLoop F tolSq rounds res q = (fun p => p.mul (cayley (apdOmega F p)))^[k] q ∧
      (k < rounds → ∃ p, normSq (apdOmega F p) ≤ tolSq ∧ apdLoop F tolSq rounds res q = p.mul (cayley (apdOmega F p))) := by
  induction rounds generalizing res q with
  | zero => exact ⟨0, le_refl 0, rfl, fun h => absurd h (lt_irrefl 0)⟩
  | succ rounds ih =>
    simp only [apdLoop, if_pos h]
    by_cases hs : tolSq < normSq (apdOmega F q)
    · obtain ⟨k, hk, he, hc⟩ := ih _ (q.mul (cayley (apdOmega F q))) hs
      exact ⟨k + 1, by omega, by rw [he]; rfl, fun h => hc (by omega)⟩
    · have he : apdLoop F tolSq rounds (normSq (apdOmega F q)) (q.mul (cayley (apdOmega F q))) = q.mul (cayley (apdOmega F q)) := by
        cases rounds with
        | zero => rfl
        | succ rounds => simp only [apdLoop, if_neg hs]
      exact ⟨1, by omega, he, fun _ => ⟨q, not_lt.mp hs, he⟩⟩

private theorem omega_cases (F : Matrix (Fin 3) (Fin 3) K) (p : Quat K) :
    (∀ i, apdOmega F p i = -(apdGradient (p.toMatrix.transpose * F) i)) ∨
    (∀ i, apdOmega F p i = apdGradient (p.toMatrix.transpose * F) i * (-1 / 8)) ∨
    (apdHessian (p.toMatrix.transpose * F)).mulVec (apdOmega F p) = fun i => -(apdGradient (p.toMatrix.transpose * F) i / 4) := by
  by_cases hd : |apdDet (apdHessian (p.toMatrix.transpose * F))| < 1 / 10 ^ 9
  · simp only [apdOmega, if_pos hd]
    split
    · exact Or.inr (Or.inl fun _ => rfl)
    · exact Or.inl fun _ => rfl
  · simp only [apdOmega, if_neg hd]
    split
    · exact Or.inr (Or.inl fun _ => rfl)
    · refine Or.inr (Or.inr (newton_solves _ _ fun h0 => hd ?_))
      rw [h0, abs_zero]
      positivity

private theorem hessian_eq (B : Matrix (Fin 3) (Fin 3) K) : apdHessian B = Spec.apdMatrix B := by
  ext i j
  fin_cases i <;> fin_cases j <;> simp [Spec.apdMatrix, apdHessian, Fin.sum_univ_three, Matrix.trace] <;> ring

private theorem omega_descent (F : Matrix (Fin 3) (Fin 3) K) (p : Quat K) :
    inner (apdOmega F p) (Spec.skewAxis (p.toMatrix.transpose * F)) ≤ 0 := by
  change inner (apdOmega F p) (apdGradient (p.toMatrix.transpose * F)) ≤ 0
  simp only [apdOmega, inner]
  generalize apdGradient (p.toMatrix.transpose * F) = g
  generalize (if |apdDet (apdHessian (p.toMatrix.transpose * F))| < 1 / 10 ^ 9 then fun i => -g i
    else apdNewton (apdHessian (p.toMatrix.transpose * F)) g) = v
  by_cases h : 0 < v 0 * g 0 + v 1 * g 1 + v 2 * g 2
  · rw [if_pos h]
    nlinarith [mul_self_nonneg (g 0), mul_self_nonneg (g 1), mul_self_nonneg (g 2)]
  · rw [if_neg h]
    exact not_lt.mp h

private theorem skew_zero (B : Matrix (Fin 3) (Fin 3) K) : Spec.skewAxis B = 0 ↔ B.transpose = B := by
  refine ⟨fun h => ?_, fun h => gradient_zero B h⟩
  have h0 : B 1 2 - B 2 1 = 0 := congrFun h 0
  have h1 : B 2 0 - B 0 2 = 0 := congrFun h 1
  have h2 : B 0 1 - B 1 0 = 0 := congrFun h 2
  ext i j
  fin_cases i <;> fin_cases j <;> simp [Matrix.transpose_apply] <;> linarith

private theorem normSq_zero (v : Point 3 K) (h : normSq v ≤ 0) : v = 0 := by
  simp only [normSq] at h
  have h0 := mul_self_nonneg (v 0)
  have h1 := mul_self_nonneg (v 1)
  have h2 := mul_self_nonneg (v 2)
  funext i
  fin_cases i
  · exact mul_self_eq_zero.mp (by linarith : v 0 * v 0 = 0)
  · exact mul_self_eq_zero.mp (by linarith : v 1 * v 1 = 0)
  · exact mul_self_eq_zero.mp (by linarith : v 2 * v 2 = 0)

private theorem omega_zero_iff (F : Matrix (Fin 3) (Fin 3) K) (p : Quat K) (h : apdOmega F p = 0) :
    (p.toMatrix.transpose * F).transpose = p.toMatrix.transpose * F := by
  rw [← skew_zero]
  change apdGradient (p.toMatrix.transpose * F) = 0
  funext i
  rcases omega_cases F p with hc | hc | hc
  · have := hc i
    rw [h] at this
    simpa using this.symm
  · have := hc i
    rw [h] at this
    simp only [Pi.zero_apply] at this ⊢
    linarith
  · have := congrFun hc i
    rw [h, Matrix.mulVec_zero] at this
    simp only [Pi.zero_apply] at this ⊢
    linarith

/-- C85: `apd` performs at most `max_iter` rounds. If it performs fewer, its last step `omega` is at most the tolerance, and it is a step
along the gradient or the solution of a linear equation for the gradient. -/
theorem C85_apd_stops (maxValue : K) (F : Matrix (Fin 3) (Fin 3) K) (q : Quat K) (maxIter : Nat) (tol : K) (hmax : tol * tol < maxValue) :
    ∃ k ≤ maxIter, apd maxValue F q maxIter tol = (fun p => p.mul (cayley (apdOmega F p)))^[k] q ∧
      (k < maxIter → ∃ (p : Quat K) (omega : Point 3 K), inner omega omega ≤ tol * tol ∧ apd maxValue F q maxIter tol = p.mul (cayley omega) ∧
        ((∃ c : K, 1 / 8 ≤ c ∧ c ≤ 1 ∧ ∀ i, omega i = -c * Spec.skewAxis (p.toMatrix.transpose * F) i) ∨
         (Spec.apdMatrix (p.toMatrix.transpose * F)).mulVec omega = fun i => -(Spec.skewAxis (p.toMatrix.transpose * F) i / 4))) := by
  obtain ⟨k, hk, he, hc⟩ := loop_exit F (tol * tol) maxIter maxValue q hmax
  refine ⟨k, hk, he, fun h => ?_⟩
  obtain ⟨p, hp, hr⟩ := hc h
  refine ⟨p, apdOmega F p, hp, hr, ?_⟩
  rcases omega_cases F p with hc | hc | hc
  · exact Or.inl ⟨1, by norm_num, le_refl 1, fun i => by rw [hc i, neg_one_mul]; rfl⟩
  · refine Or.inl ⟨1 / 8, le_refl _, by norm_num, fun i => ?_⟩
    rw [hc i]
    change _ = -(1 / 8) * apdGradient _ i
    ring
  · refine Or.inr ?_
    rw [← hessian_eq, hc]
    rfl

private theorem cayley_one (omega : Point 3 K) (h : cayley omega = ⟨1, 0, 0, 0⟩) : omega = 0 := by
  have h0 := normSq_nonneg omega
  have hw : (1 - normSq omega) / (1 + normSq omega) = 1 := congrArg Quat.w h
  rw [div_eq_one_iff_eq (by linarith)] at hw
  exact normSq_zero _ (by linarith)

private theorem mul_cancel (q c : Quat K) (hq : Spec.IsUnit q) (h : q.mul c = q) : c = ⟨1, 0, 0, 0⟩ := by
  have h0 := congrArg Quat.w h
  have h1 := congrArg Quat.x h
  have h2 := congrArg Quat.y h
  have h3 := congrArg Quat.z h
  simp only [Quat.mul, Spec.IsUnit] at h0 h1 h2 h3 hq
  ext
  · simp only
    linear_combination (1 - c.w) * hq + q.w * h0 + q.x * h1 + q.y * h2 + q.z * h3
  · simp only
    linear_combination -c.x * hq - q.x * h0 + q.w * h1 + q.z * h2 - q.y * h3
  · simp only
    linear_combination -c.y * hq - q.y * h0 - q.z * h1 + q.w * h2 + q.x * h3
  · simp only
    linear_combination -c.z * hq - q.z * h0 + q.y * h1 - q.x * h2 + q.w * h3

private theorem loop_stationary (F : Matrix (Fin 3) (Fin 3) K) (rounds : Nat) (res : K) (q : Quat K) (hq : Spec.IsUnit q) (h : 0 < res)
    (he : apdLoop F 0 rounds res q = apdLoop F 0 (rounds + 1) res q) : apdOmega F (apdLoop F 0 rounds res q) = 0 := by
  induction rounds generalizing res q with
  | zero =>
    simp only [apdLoop, if_pos h] at he ⊢
    exact cayley_one _ (mul_cancel q _ hq he.symm)
  | succ rounds ih =>
    rw [apdLoop, if_pos h] at he ⊢
    rw [apdLoop, if_pos h] at he
    by_cases hs : 0 < normSq (apdOmega F q)
    · exact ih _ _ (mul_unit q _ hq (cayley_unit _)) hs he
    · have h0 : apdOmega F q = 0 := normSq_zero _ (not_lt.mp hs)
      have hr : apdLoop F 0 rounds (normSq (apdOmega F q)) (q.mul (cayley (apdOmega F q))) = q := by
        rw [h0, cayley_zero, mul_one', ← h0]
        cases rounds with
        | zero => rfl
        | succ rounds => rw [apdLoop, if_neg hs]
      rw [hr, h0]

/-- C85: if, without tolerance, one more round does not change the result of `apd`, the result is a polar factor: `F = R S` with a
symmetric matrix `S`. -/
theorem C85_apd_exact (maxValue : K) (F : Matrix (Fin 3) (Fin 3) K) (q : Quat K) (hq : Spec.IsUnit q) (maxIter : Nat) (hmax : 0 < maxValue)
    (hconv : apd maxValue F q maxIter 0 = apd maxValue F q (maxIter + 1) 0) :
    ∃ S : Matrix (Fin 3) (Fin 3) K, S.transpose = S ∧ F = (apd maxValue F q maxIter 0).toMatrix * S := by
  have hu := (C85_apd_is_rotation maxValue F q hq maxIter 0).2
  rw [apd, apd, mul_zero] at hconv
  have h0 := loop_stationary F maxIter maxValue q hq hmax hconv
  rw [apd, mul_zero] at hu ⊢
  refine ⟨(apdLoop F 0 maxIter maxValue q).toMatrix.transpose * F, omega_zero_iff F _ h0, ?_⟩
  rw [← Matrix.mul_assoc, mul_eq_one_comm.mp hu.1, Matrix.one_mul]

private theorem mismatch_eq (F : Matrix (Fin 3) (Fin 3) K) (q : Quat K) (hq : Spec.IsUnit q) :
    Spec.mismatch F q = 3 - 2 * (q.toMatrix.transpose * F).trace + ∑ i, ∑ j, F i j ^ 2 := by
  have ho := toMatrix_orthogonal q
  rw [hq, one_pow, one_smul] at ho
  have h3 : (q.toMatrix.transpose * q.toMatrix).trace = 3 := by
    rw [ho, Matrix.trace_one]
    simp
  simp only [Spec.mismatch, Matrix.trace, Matrix.diag, Matrix.mul_apply, Matrix.transpose_apply, Fin.sum_univ_three] at h3 ⊢
  linear_combination h3

private theorem cayley_matrix (B : Matrix (Fin 3) (Fin 3) K) (v : Point 3 K) :
    ((cayley v).toMatrix.transpose * B).trace = B.trace -
      (4 * (1 - inner v v) * inner v (Spec.skewAxis B) + 8 * Spec.secondVariation B v) / (1 + inner v v) ^ 2 := by
  have h1 : 1 + inner v v ≠ 0 := by
    have := normSq_nonneg v
    change 1 + normSq v ≠ 0
    linarith
  have hl : normSq v = inner v v := rfl
  rw [eq_sub_iff_add_eq, ← sub_eq_zero]
  have c2 : ∀ p q r : K, (![p, q, r] : Point 3 K) 2 = r := fun _ _ _ => rfl
  have hi : inner v v = v 0 * v 0 + v 1 * v 1 + v 2 * v 2 := rfl
  simp only [Matrix.trace, Matrix.diag, Matrix.mul_apply, Matrix.transpose_apply, Fin.sum_univ_three, cayley, hl, Spec.secondVariation]
  have hs : inner v (Spec.skewAxis B) = v 0 * (B 1 2 - B 2 1) + v 1 * (B 2 0 - B 0 2) + v 2 * (B 0 1 - B 1 0) := rfl
  have hm : inner v (B.mulVec v) = v 0 * (B 0 0 * v 0 + B 0 1 * v 1 + B 0 2 * v 2) + v 1 * (B 1 0 * v 0 + B 1 1 * v 1 + B 1 2 * v 2) +
      v 2 * (B 2 0 * v 0 + B 2 1 * v 1 + B 2 2 * v 2) := by
    simp only [inner, Matrix.mulVec, dotProduct, Fin.sum_univ_three]
  rw [hs, hm]
  simp only [Quat.toMatrix, Matrix.of_apply, Matrix.cons_val', Matrix.cons_val_zero, Matrix.cons_val_one, c2, Matrix.cons_val_fin_one, Matrix.cons_val]
  rw [hi] at h1 ⊢
  field_simp
  ring

/-- C85: the change of the squared distance between rotation and matrix in every round of `apd`, in terms of its step `omega`; to first
order in the step it does not increase. -/
theorem C85_apd_round (F : Matrix (Fin 3) (Fin 3) K) (q : Quat K) (hq : Spec.IsUnit q) :
    ∃ omega : Point 3 K, q.mul (cayley (apdOmega F q)) = q.mul (cayley omega) ∧ inner omega (Spec.skewAxis (q.toMatrix.transpose * F)) ≤ 0 ∧
      Spec.mismatch F (q.mul (cayley (apdOmega F q))) = Spec.mismatch F q +
        (8 * (1 - inner omega omega) * inner omega (Spec.skewAxis (q.toMatrix.transpose * F)) +
          16 * Spec.secondVariation (q.toMatrix.transpose * F) omega) / (1 + inner omega omega) ^ 2 := by
  refine ⟨apdOmega F q, rfl, omega_descent F q, ?_⟩
  rw [mismatch_eq F _ (mul_unit q _ hq (cayley_unit _)), mismatch_eq F q hq, toMatrix_mul, Matrix.transpose_mul, Matrix.mul_assoc,
    cayley_matrix]
  ring

private theorem flip_newton (w x u : K) (hw : 0 < w) (hx : u ≤ 1 / 8) (hu : w ^ 2 = 1 - 2 * u) (hxu : x ^ 2 = u)
    (H : Matrix (Fin 3) (Fin 3) K) (h00 : H 0 0 = 3 - 10 * u) (h11 : H 1 1 = 3 - 10 * u) (h22 : H 2 2 = 4 - 12 * u)
    (h01 : H 0 1 = 1 - 6 * u) (h02 : H 0 2 = -2 * (w * x)) (h12 : H 1 2 = -2 * (w * x)) :
    1 ≤ apdDet H ∧ apdNewton H ![8 * (w * x), -(8 * (w * x)), 0] = ![-(x / w), x / w, 0] := by
  have hu0 : 0 ≤ u := hxu ▸ sq_nonneg x
  have hwx : (w * x) * (w * x) = (1 - 2 * u) * u := by rw [← hu, ← hxu]; ring
  have c2 : ∀ p q r : K, (![p, q, r] : Point 3 K) 2 = r := fun _ _ _ => rfl
  have hdet : apdDet H = 2 * (1 - 2 * u) * ((4 - 12 * u) * (4 - 16 * u) - 8 * ((1 - 2 * u) * u)) := by
    rw [apdDet, h00, h11, h22, h01, h02, h12]
    linear_combination (-8 * (3 - 10 * u) + 8 * (1 - 6 * u)) * hwx
  have hD : 4 ≤ (4 - 12 * u) * (4 - 16 * u) - 8 * ((1 - 2 * u) * u) := by nlinarith
  have hpos : 1 ≤ apdDet H := by
    rw [hdet]
    nlinarith
  refine ⟨hpos, ?_⟩
  have hne : (4 - 12 * u) * (4 - 16 * u) - 8 * ((1 - 2 * u) * u) ≠ 0 := by linarith
  have hw0 : w ≠ 0 := hw.ne'
  have hinv : (apdDet H)⁻¹ * ((4 - 12 * u) * (4 - 16 * u) - 8 * ((1 - 2 * u) * u)) = 1 / (2 * w ^ 2) := by
    rw [hdet, ← hu]
    generalize hDD : (4 - 12 * u) * (4 - 16 * u) - 8 * (w ^ 2 * u) = D
    have hD0 : D ≠ 0 := by rw [← hDD, hu]; exact hne
    field_simp
  generalize hrr : (apdDet H)⁻¹ = r at hinv
  have hxw : w * x * (1 / (2 * w ^ 2)) = x / w / 2 := by field_simp
  funext i
  fin_cases i
  · simp only [apdNewton, Matrix.cons_val_zero, Matrix.cons_val_one, c2, h00, h11, h22, h01, h02, h12, Fin.zero_eta, hrr]
    linear_combination -2 * (w * x) * hinv - 2 * hxw + 16 * (w * x) * r * hwx
  · simp only [apdNewton, Matrix.cons_val_zero, Matrix.cons_val_one, c2, h00, h11, h22, h01, h02, h12, Fin.mk_one, hrr]
    linear_combination 2 * (w * x) * hinv + 2 * hxw - 16 * (w * x) * r * hwx
  · simp only [apdNewton, Matrix.cons_val_zero, Matrix.cons_val_one, c2, h00, h11, h22, h01, h02, h12, Fin.reduceFinMk, hrr]
    ring

private theorem flip_omega (w x : K) (hw : 0 < w) (hx : x ^ 2 ≤ 1 / 8) (hu : w ^ 2 + 2 * x ^ 2 = 1) :
    apdOmega !![2, 1, 0; 1, 2, 0; 0, 0, 1] ⟨w, x, -x, 0⟩ = ![-(x / w), x / w, 0] := by
  have hw0 : w ≠ 0 := hw.ne'
  have c2 : ∀ p q r : K, (![p, q, r] : Point 3 K) 2 = r := fun _ _ _ => rfl
  have hww : w * w = 1 - 2 * x ^ 2 := by linear_combination hu
  have hB : (⟨w, x, -x, 0⟩ : Quat K).toMatrix.transpose * !![2, 1, 0; 1, 2, 0; 0, 0, 1] =
      !![2 * (w * w) - 2 * x ^ 2, w * w - 4 * x ^ 2, 2 * (w * x); w * w - 4 * x ^ 2, 2 * (w * w) - 2 * x ^ 2, 2 * (w * x);
         -6 * (w * x), -6 * (w * x), w * w - 2 * x ^ 2] := by
    ext i j
    fin_cases i <;> fin_cases j <;> simp [Quat.toMatrix, Matrix.mul_apply, Fin.sum_univ_three] <;> ring
  have hg : apdGradient ((⟨w, x, -x, 0⟩ : Quat K).toMatrix.transpose * !![2, 1, 0; 1, 2, 0; 0, 0, 1]) = ![8 * (w * x), -(8 * (w * x)), 0] := by
    rw [hB]
    funext i
    fin_cases i <;> simp [apdGradient] <;> ring
  obtain ⟨hdet, hN⟩ := flip_newton w x (x ^ 2) hw hx (by linear_combination hu) rfl
    (apdHessian ((⟨w, x, -x, 0⟩ : Quat K).toMatrix.transpose * !![2, 1, 0; 1, 2, 0; 0, 0, 1]))
    (by rw [hB]; simp [apdHessian]; linear_combination 3 * hww) (by rw [hB]; simp [apdHessian]; linear_combination 3 * hww)
    (by rw [hB]; simp [apdHessian]; linear_combination 4 * hww) (by rw [hB]; simp [apdHessian]; linear_combination hww)
    (by rw [hB]; simp [apdHessian]; ring) (by rw [hB]; simp [apdHessian]; ring)
  have hd : ¬ |apdDet (apdHessian ((⟨w, x, -x, 0⟩ : Quat K).toMatrix.transpose * !![2, 1, 0; 1, 2, 0; 0, 0, 1]))| < 1 / 10 ^ 9 := by
    rw [not_lt]
    exact le_trans (by norm_num) (le_trans hdet (le_abs_self _))
  simp only [apdOmega, hg, hN, if_neg hd]
  refine if_neg (not_lt.mpr ?_)
  simp only [Matrix.cons_val_zero, Matrix.cons_val_one, c2]
  have : x / w * (8 * (w * x)) = 8 * x ^ 2 := by field_simp
  nlinarith [sq_nonneg x]

private theorem flip_round (w x : K) (hw : 0 < w) (hu : w ^ 2 + 2 * x ^ 2 = 1) :
    (⟨w, x, -x, 0⟩ : Quat K).mul (cayley ![-(x / w), x / w, 0]) = ⟨w, -x, x, 0⟩ := by
  have hw0 : w ≠ 0 := hw.ne'
  have hl : normSq ![-(x / w), x / w, 0] = (1 - w ^ 2) / w ^ 2 := by
    simp [normSq]
    field_simp
    linear_combination hu
  have h1 : 1 + (1 - w ^ 2) / w ^ 2 = 1 / w ^ 2 := by field_simp; ring
  have hc : cayley ![-(x / w), x / w, 0] = ⟨2 * w ^ 2 - 1, -(2 * (w * x)), 2 * (w * x), 0⟩ := by
    simp only [cayley, hl, h1]
    ext <;> simp <;> field_simp <;> ring
  rw [hc]
  ext <;> simp only [Quat.mul]
  · linear_combination 2 * w * hu
  · linear_combination 0 * hu
  · linear_combination 0 * hu
  · ring

/-- C85 (finding): the off-diagonal entries of the matrix in the step of `apd` have the wrong sign, and `apd` does not converge for the
symmetric positive definite matrix below, although the initial guess is as near to the polar factor, the identity, as we like: the
result is the initial guess or its conjugate, according to the number of rounds. -/
theorem C85_apd_may_not_converge (maxValue w x : K) (hw : 0 < w) (hx : x ^ 2 ≤ 1 / 8) (hu : w ^ 2 + 2 * x ^ 2 = 1) (maxIter : Nat) (tol : K)
    (htol : tol * tol < 2 * x ^ 2) (hmax : tol * tol < maxValue) :
    apd maxValue !![2, 1, 0; 1, 2, 0; 0, 0, 1] ⟨w, x, -x, 0⟩ maxIter tol = ⟨w, (-1) ^ maxIter * x, -((-1) ^ maxIter * x), 0⟩ := by
  rw [apd]
  generalize hr : maxValue = res at hmax
  clear hr
  induction maxIter generalizing res x with
  | zero => simp [apdLoop]
  | succ rounds ih =>
    rw [apdLoop, if_pos hmax, flip_omega w x hw hx hu, flip_round w x hw hu]
    have hl : tol * tol < normSq ![-(x / w), x / w, 0] := by
      have h1 : normSq ![-(x / w), x / w, 0] = 2 * (x ^ 2 / w ^ 2) := by
        simp [normSq]
        field_simp
        ring
      rw [h1]
      refine lt_of_lt_of_le htol ?_
      have : x ^ 2 ≤ x ^ 2 / w ^ 2 := by
        rw [le_div_iff₀ (by positivity)]
        nlinarith [sq_nonneg x]
      linarith
    have := ih (-x) (by rw [neg_sq]; exact hx) (by rw [neg_sq]; exact hu) (by rw [neg_sq]; exact htol) _ hl
    rw [neg_neg] at this
    rw [this]
    ext <;> simp only <;> ring

/-- C85: `diag_left_mul` is the product with the diagonal matrix. -/
theorem C85_diag_left_mul {m : Nat} (diag : Fin n → K) (A : Matrix (Fin n) (Fin m) K) : diagLeftMul diag A = Matrix.diagonal diag * A := by
  ext i j
  rw [Matrix.diagonal_mul, mul_comm]
  rfl

/-! ### The hypotheses are met -/

/-- A sign function with `copysign(1, 0) = 1`. -/
private def sgn (z : ℚ) : ℚ := if z < 0 then -1 else 1

private theorem sgn_ok : IsCopysign sgn := by
  intro z
  refine ⟨fun h => if_neg (not_lt.mpr h.le), fun h => if_pos h, ?_⟩
  by_cases h : z < 0
  · exact Or.inr (if_pos h)
  · exact Or.inl (if_neg h)

example : Frame (orthonormalVectors sgn ![2 / 3, 1 / 3, -2 / 3]).1 (orthonormalVectors sgn ![2 / 3, 1 / 3, -2 / 3]).2 ![2 / 3, 1 / 3, -2 / 3] :=
  C85_orthonormal_vectors sgn sgn_ok _ (by simp [inner]; norm_num)

example : orthonormalVectors sgn ![2 / 3, 1 / 3, -2 / 3] = (![11 / 15, -2 / 15, 2 / 3], ![2 / 15, -14 / 15, -1 / 3]) := by
  decide +kernel

/-- The index of the smaller of two entries. -/
private def imin2 (s : Fin 2 → ℚ) : Fin 2 := if s 0 ≤ s 1 then 0 else 1

private theorem imin2_ok (s : Fin 2 → ℚ) (i : Fin 2) : s (imin2 s) ≤ s i := by
  unfold imin2
  split
  · fin_cases i <;> simp_all
  · fin_cases i <;> simp_all <;> linarith

/-- A decomposition of `diag(3, -2)` with a reflection. -/
private def svd2 : Svd 2 ℚ := ⟨!![1, 0; 0, -1], ![3, 2], 1⟩

example : IsSvd !![(3 : ℚ), 0; 0, -2] svd2 :=
  ⟨by decide +kernel, by decide +kernel, fun i => by fin_cases i <;> simp [svd2], by decide +kernel⟩

example : (rotationSvd imin2 svd2).s = ![3, -2] ∧ (rotationSvd imin2 svd2).u = 1 := by decide +kernel

/-- The rotation about `(1, -1, 0)` of the example below, with cosine `17/81` and half angle cosine `7/9`. -/
example : Spec.IsUnit (⟨7 / 9, 4 / 9, -4 / 9, 0⟩ : Quat ℚ) := by norm_num [Spec.IsUnit]

/-- A round for a matrix that is not symmetric. -/
example : (apd 1000 !![2, 1, 0; 0, 1, 0; 0, 0, 1] (⟨1, 0, 0, 0⟩ : Quat ℚ) 1 (1 / 10)).z ≠ 0 := by decide +kernel

/-- The finding for a concrete rotation: with 100 rounds nothing is gained. -/
example : apd 1000 !![2, 1, 0; 1, 2, 0; 0, 0, 1] (⟨17 / 19, 6 / 19, -6 / 19, 0⟩ : Quat ℚ) 100 (1 / 1000) = ⟨17 / 19, 6 / 19, -6 / 19, 0⟩ := by
  rw [show (-6 / 19 : ℚ) = -(6 / 19) by norm_num, C85_apd_may_not_converge 1000 (17 / 19) (6 / 19) (by norm_num) (by norm_num) (by norm_num) 100 (1 / 1000) (by norm_num) (by norm_num)]
  norm_num

end Rotation
end Fenris
