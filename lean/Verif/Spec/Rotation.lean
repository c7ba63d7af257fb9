import Verif.Model.Rotation
import Mathlib.LinearAlgebra.Matrix.Trace
/-! # Specification vocabulary for rotations and frames (C85) -/
set_option autoImplicit false

namespace Fenris.Rotation.Spec
variable {K : Type} [Field K] [LinearOrder K] {n : Nat}

/-- Rotation matrices. -/
def IsRotation (M : Matrix (Fin n) (Fin n) K) : Prop := M.transpose * M = 1 ∧ M.det = 1

/-- `copysign(1, z)`: the sign of `z`, and one of the signs at zero. -/
def IsCopysign (f : K → K) : Prop := ∀ z, (0 < z → f z = 1) ∧ (z < 0 → f z = -1) ∧ (f z = 1 ∨ f z = -1)

/-- The product of vectors. -/
def inner (u v : Point 3 K) : K := u 0 * v 0 + u 1 * v 1 + u 2 * v 2

/-- The cross product. -/
def vecCross (u v : Point 3 K) : Point 3 K := ![u 1 * v 2 - u 2 * v 1, u 2 * v 0 - u 0 * v 2, u 0 * v 1 - u 1 * v 0]

/-- A right-handed orthonormal frame. -/
structure Frame (a b c : Point 3 K) : Prop where
  unit_a : inner a a = 1
  unit_b : inner b b = 1
  unit_c : inner c c = 1
  ab : inner a b = 0
  ac : inner a c = 0
  bc : inner b c = 0
  right_handed : vecCross a b = c

/-- A singular value decomposition of `A`. -/
structure IsSvd (A : Matrix (Fin n) (Fin n) K) (d : Svd n K) : Prop where
  u_orthogonal : d.u.transpose * d.u = 1
  vt_orthogonal : d.vt.transpose * d.vt = 1
  nonneg : ∀ i, 0 ≤ d.s i
  product : d.u * Matrix.diagonal d.s * d.vt = A

/-- Unit quaternions. -/
def IsUnit (q : Quat K) : Prop := q.w ^ 2 + q.x ^ 2 + q.y ^ 2 + q.z ^ 2 = 1

/-- The squared distance of the rotation of `q` to a matrix. -/
def mismatch (F : Matrix (Fin 3) (Fin 3) K) (q : Quat K) : K := ∑ i, ∑ j, (q.toMatrix i j - F i j) ^ 2

/-- The axial vector of the skew part of a matrix; zero exactly for symmetric matrices. -/
def skewAxis (B : Matrix (Fin 3) (Fin 3) K) : Point 3 K := ![B 1 2 - B 2 1, B 2 0 - B 0 2, B 0 1 - B 1 0]

/-- The quadratic form `tr B |v|² - v · B v`, the second variation of the mismatch. -/
def secondVariation (B : Matrix (Fin 3) (Fin 3) K) (v : Point 3 K) : K := B.trace * inner v v - inner v (B.mulVec v)

/-- The matrix `tr B 1 - 2 diag B + sym B`. The matrix of the second variation is `tr B 1 - sym B`. -/
def apdMatrix (B : Matrix (Fin 3) (Fin 3) K) : Matrix (Fin 3) (Fin 3) K := fun i j => if i = j then B.trace - B i i else (B i j + B j i) / 2

end Fenris.Rotation.Spec
