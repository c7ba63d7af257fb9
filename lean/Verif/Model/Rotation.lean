import Mathlib.LinearAlgebra.Matrix.Determinant.Basic
import Mathlib.LinearAlgebra.Matrix.Notation
import Mathlib.Algebra.Order.Field.Basic
import Mathlib.Algebra.Order.AbsoluteValue.Basic
import Verif.Model.Lines
/-! # Model of rotations, frames and small linear algebra (`src/util.rs`, `fenris-geometry/src/util.rs`) -/
set_option autoImplicit false

namespace Fenris
namespace Rotation
open Geometry
variable {K : Type} [Field K] [LinearOrder K] {n : Nat}

/-! ## Frames -/

/-- fenris-geometry/src/util.rs:5-20 `compute_orthonormal_vectors_3d`; `copysign` is `T::copysign(T::one(), _)`, whose value at zero
depends on the sign bit. -/
def orthonormalVectors (copysign : K → K) (v : Point 3 K) : Point 3 K × Point 3 K :=
  let sign := copysign (v 2)
  let a := -1 / (sign + v 2)
  let b := v 0 * v 1 * a
  (![1 + sign * v 0 * v 0 * a, sign * b, -sign * v 0], ![b, sign + v 1 * v 1 * a, -v 1])

/-- fenris-geometry/src/primitives/plane.rs:5-8 `Plane`. -/
structure Plane (K : Type) where
  point : Point 3 K
  normal : Point 3 K

/-- plane.rs:26-31 `flipped`. -/
def Plane.flipped (p : Plane K) : Plane K := ⟨p.point, fun i => -p.normal i⟩

/-- plane.rs:33-35 `compute_tangent_vectors`. -/
def Plane.tangentVectors (copysign : K → K) (p : Plane K) : Point 3 K × Point 3 K := orthonormalVectors copysign p.normal

/-- fenris-geometry/src/predicates.rs:4-9 `orient2d_inexact`. -/
def orient2d (a b c : Point 2 K) : K := (!![a 0, a 1, 1; b 0, b 1, 1; c 0, c 1, 1] : Matrix (Fin 3) (Fin 3) K).det

/-- src/util.rs:323-325 `cross_product_matrix`. -/
def crossProductMatrix (x : Point 3 K) : Matrix (Fin 3) (Fin 3) K := !![0, -x 2, x 1; x 2, 0, -x 0; -x 1, x 0, 0]

/-- src/util.rs:247-261 `diag_left_mul`. -/
def diagLeftMul {m : Nat} (diag : Fin n → K) (A : Matrix (Fin n) (Fin m) K) : Matrix (Fin n) (Fin m) K := Matrix.of fun i j => A i j * diag i

/-! ## The singular value decomposition with rotations -/

/-- A singular value decomposition `(U, S, V^T)`. -/
structure Svd (n : Nat) (K : Type) where
  u : Matrix (Fin n) (Fin n) K
  s : Fin n → K
  vt : Matrix (Fin n) (Fin n) K

/-- src/util.rs:125-153 `rotation_svd`, after the call of `svd`. `imin` is the index of the smallest entry of a vector; it panics for
matrices without rows, which have no index. -/
def rotationSvd (imin : (Fin n → K) → Fin n) (svd : Svd n K) : Svd n K :=
  let k := imin svd.s
  let negU := svd.u.det < 0
  let negV := svd.vt.det < 0
  let s1 := if negU then Function.update svd.s k (svd.s k * -1) else svd.s
  ⟨Matrix.of fun i j => if negU ∧ j = k then svd.u i j * -1 else svd.u i j,
   if negV then Function.update s1 k (s1 k * -1) else s1,
   Matrix.of fun i j => if negV ∧ i = k then svd.vt i j * -1 else svd.vt i j⟩

/-! ## The analytic polar decomposition -/

/-- A quaternion with real part `w`. -/
@[ext] structure Quat (K : Type) where
  w : K
  x : K
  y : K
  z : K

/-- The product of quaternions (nalgebra). -/
def Quat.mul (p q : Quat K) : Quat K :=
  ⟨p.w * q.w - p.x * q.x - p.y * q.y - p.z * q.z, p.w * q.x + p.x * q.w + p.y * q.z - p.z * q.y,
   p.w * q.y - p.x * q.z + p.y * q.w + p.z * q.x, p.w * q.z + p.x * q.y - p.y * q.x + p.z * q.w⟩

/-- `to_rotation_matrix` of unit quaternions (nalgebra). -/
def Quat.toMatrix (q : Quat K) : Matrix (Fin 3) (Fin 3) K :=
  !![q.w * q.w + q.x * q.x - q.y * q.y - q.z * q.z, q.x * q.y * 2 - q.w * q.z * 2, q.w * q.y * 2 + q.x * q.z * 2;
     q.w * q.z * 2 + q.x * q.y * 2, q.w * q.w - q.x * q.x + q.y * q.y - q.z * q.z, q.y * q.z * 2 - q.w * q.x * 2;
     q.x * q.z * 2 - q.w * q.y * 2, q.w * q.x * 2 + q.y * q.z * 2, q.w * q.w - q.x * q.x - q.y * q.y + q.z * q.z]

/-- The gradient of src/util.rs:188-193; `B i j` is `B<j>[i]` of the code. -/
def apdGradient (B : Matrix (Fin 3) (Fin 3) K) : Point 3 K := ![B 1 2 - B 2 1, B 2 0 - B 0 2, B 0 1 - B 1 0]

/-- The Hessian of src/util.rs:195-201. -/
def apdHessian (B : Matrix (Fin 3) (Fin 3) K) : Matrix (Fin 3) (Fin 3) K :=
  let h01 := (B 0 1 + B 1 0) * (1 / 2)
  let h02 := (B 0 2 + B 2 0) * (1 / 2)
  let h12 := (B 1 2 + B 2 1) * (1 / 2)
  !![B 1 1 + B 2 2, h01, h02; h01, B 0 0 + B 2 2, h12; h02, h12, B 0 0 + B 1 1]

/-- `detH` of src/util.rs:203-204. -/
def apdDet (H : Matrix (Fin 3) (Fin 3) K) : K :=
  -(H 0 2 * H 0 2 * H 1 1) + H 0 1 * H 0 2 * H 1 2 * 2 - H 0 0 * H 1 2 * H 1 2 - H 0 1 * H 0 1 * H 2 2 + H 0 0 * H 1 1 * H 2 2

/-- `omega` of src/util.rs:205-219. The reciprocal of zero does not matter, since the result is then not used. -/
def apdNewton (H : Matrix (Fin 3) (Fin 3) K) (g : Point 3 K) : Point 3 K :=
  let factor := (apdDet H)⁻¹ * (-1 / 4)
  ![((H 1 1 * H 2 2 - H 1 2 * H 1 2) * g 0 + (H 0 2 * H 1 2 - H 0 1 * H 2 2) * g 1 + (H 0 1 * H 1 2 - H 0 2 * H 1 1) * g 2) * factor,
    ((H 0 2 * H 1 2 - H 0 1 * H 2 2) * g 0 + (H 0 0 * H 2 2 - H 0 2 * H 0 2) * g 1 + (H 0 1 * H 0 2 - H 0 0 * H 1 2) * g 2) * factor,
    ((H 0 1 * H 1 2 - H 0 2 * H 1 1) * g 0 + (H 0 1 * H 0 2 - H 0 0 * H 1 2) * g 1 + (H 0 0 * H 1 1 - H 0 1 * H 0 1) * g 2) * factor]

/-- `omega` after src/util.rs:221-230. -/
def apdOmega (F : Matrix (Fin 3) (Fin 3) K) (q : Quat K) : Point 3 K :=
  let B := q.toMatrix.transpose * F
  let g := apdGradient B
  let H := apdHessian B
  let omega := if |apdDet H| < 1 / 10 ^ 9 then fun i => -g i else apdNewton H g
  if 0 < omega 0 * g 0 + omega 1 * g 1 + omega 2 * g 2 then fun i => g i * (-1 / 8) else omega

/-- `omega.norm_squared()`. -/
def normSq (v : Point 3 K) : K := v 0 * v 0 + v 1 * v 1 + v 2 * v 2

/-- The quaternion of src/util.rs:232-238 (Cayley map). -/
def cayley (omega : Point 3 K) : Quat K :=
  let l := normSq omega
  ⟨(1 - l) / (1 + l), omega 0 * (2 / (1 + l)), omega 1 * (2 / (1 + l)), omega 2 * (2 / (1 + l))⟩

/-- The loop of src/util.rs:185-242 with `rounds` rounds left. -/
def apdLoop (F : Matrix (Fin 3) (Fin 3) K) (tolSq : K) : Nat → K → Quat K → Quat K
  | 0, _, q => q
  | rounds + 1, res, q =>
    if tolSq < res then apdLoop F tolSq rounds (normSq (apdOmega F q)) (q.mul (cayley (apdOmega F q))) else q

/-- src/util.rs:172-245 `apd`; `maxValue` is `T::max_value()`. -/
def apd (maxValue : K) (F : Matrix (Fin 3) (Fin 3) K) (initialGuess : Quat K) (maxIter : Nat) (tol : K) : Quat K :=
  apdLoop F (tol * tol) maxIter maxValue initialGuess

end Rotation
end Fenris
