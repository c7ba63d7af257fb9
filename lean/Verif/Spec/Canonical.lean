import Verif.Spec.ShippedRules
import Verif.Spec.ElementAssembly
import Verif.Model.Element
/-! # What the properties of the canonical quadratures mean -/
set_option autoImplicit false

namespace Fenris.Canonical.Spec
open Polynomial

/-- The integral over the reference element. -/
noncomputable def referenceIntegral : (e : Element.Kind) → ((Fin e.dim → ℝ) → ℝ) → ℝ
  | .segment2 => fun f => ∫ x in (-1 : ℝ)..1, f ![x]
  | .tri3 | .tri6 => Fenris.Spec.triangleIntegral
  | .quad4 | .quad9 => Fenris.Spec.squareIntegral
  | .tet4 | .tet10 | .tet20 => ShippedRules.Spec.tetrahedronIntegral
  | .hex8 | .hex20 | .hex27 => Fenris.Spec.cubeIntegral

/-- `∫_K φ_I φ_J dx`, pulled back to the reference element. -/
noncomputable def massIntegral (e : Element.Kind) (el : Local.VolElement e.dim ℝ) (I J : Nat) : ℝ :=
  referenceIntegral e fun x => (el.basis x)[I]?.getD 0 * (el.basis x)[J]?.getD 0 * |(el.jacobian x).det|

/-- `∫_K ∇φ_I · ∇φ_J dx`, pulled back to the reference element. -/
noncomputable def stiffnessIntegral (e : Element.Kind) (el : Local.VolElement e.dim ℝ) (I J : Nat) : ℝ :=
  referenceIntegral e fun x => (∑ k, Local.Spec.physGrad (el.jacobian x) ((el.gradients x)[I]?.getD 0) k *
    Local.Spec.physGrad (el.jacobian x) ((el.gradients x)[J]?.getD 0) k) * |(el.jacobian x).det|

/-- The Gauss–Legendre rule with `n` points: as many weights as points, the points are in the interval and are roots of the
Legendre polynomial, and polynomials up to degree `2 n - 1` are integrated exactly. -/
structure IsGaussRule (n : Nat) (weights : List ℝ) (points : List (Fin 1 → ℝ)) : Prop where
  length : weights.length = points.length
  inside : ∀ x ∈ points, |x 0| ≤ 1
  roots : ∀ p : ℝ[X], Fenris.Spec.IsLegendre n p → ∀ x ∈ points, p.eval (x 0) = 0
  exact : ∀ q : ℝ[X], q.natDegree ≤ 2 * n - 1 →
    (List.zipWith (fun w x => w * q.eval (x 0)) weights points).sum = ∫ x in (-1 : ℝ)..1, q.eval x

/-- The cube `[-1, 1]^d`. -/
def InReferenceCube {d : Nat} (x : Fin d → ℝ) : Prop := ∀ i, |x i| ≤ 1

end Fenris.Canonical.Spec
