import Mathlib.LinearAlgebra.Matrix.Notation
import Mathlib.Algebra.Order.Field.Basic
/-! # Specification vocabulary for eigenvalues of symmetric matrices (C86) -/
set_option autoImplicit false

namespace Fenris.EigenUtil.Spec
open Matrix
variable {K : Type} [Field K] [LinearOrder K] {n : Nat}

/-- The eigenvalues of a symmetric matrix, with multiplicity: `A = Q diag(l) Qᵀ` with an orthogonal matrix `Q`. -/
def IsSpectrum (A : Matrix (Fin n) (Fin n) K) (eigs : List K) : Prop :=
  ∃ (Q : Matrix (Fin n) (Fin n) K) (l : Fin n → K), Q * Qᵀ = 1 ∧ A = Q * diagonal l * Qᵀ ∧ eigs = List.ofFn l

/-- Positive definite matrices. -/
def PosDefinite (A : Matrix (Fin n) (Fin n) K) : Prop := ∀ x : Fin n → K, x ≠ 0 → 0 < x ⬝ᵥ A *ᵥ x

/-- The square of a number with `kappa = max |A x| / |x| · max |y| / |A y|`, the condition number with respect to the Euclidean norm. -/
def IsCondition (A : Matrix (Fin n) (Fin n) K) (kappa : K) : Prop :=
  (∀ x y : Fin n → K, (A *ᵥ x ⬝ᵥ A *ᵥ x) * (y ⬝ᵥ y) ≤ kappa ^ 2 * ((x ⬝ᵥ x) * (A *ᵥ y ⬝ᵥ A *ᵥ y))) ∧
  ∃ x y : Fin n → K, x ⬝ᵥ x = 1 ∧ y ⬝ᵥ y = 1 ∧ A *ᵥ x ⬝ᵥ A *ᵥ x = kappa ^ 2 * (A *ᵥ y ⬝ᵥ A *ᵥ y)

end Fenris.EigenUtil.Spec
