import Mathlib.Analysis.Real.Sqrt
import Mathlib.LinearAlgebra.Matrix.Determinant.Basic
import Verif.Model.Element
import Verif.Model.Interpolate
import Verif.Model.QuadratureTable
/-! # Model of `src/integrate.rs` and `src/error.rs`

Scalars are real numbers (square roots). `none` is a panic, `.error` a returned error. The buffers for basis
values and gradients are overwritten completely before they are read; they are not part of the model. -/
set_option autoImplicit false

namespace Fenris
namespace Integrate

open Quadrature

variable {g r s m : Nat} {D : Type}

/-- `ReferenceFiniteElement` and `FiniteElement` (src/element.rs:27-51,146-170) with geometry dimension `g` and
reference dimension `r`. -/
structure Elem (g r : Nat) where
  numNodes : Nat
  basis : Point r ℝ → List ℝ
  gradients : Point r ℝ → List (Point r ℝ)
  jacobian : Point r ℝ → Matrix (Fin g) (Fin r) ℝ
  map : Point r ℝ → Point g ℝ

/-- The elements of the library with given vertices in a space of dimension `g` (see Model/Element.lean). -/
noncomputable def ofKind (g : Nat) (e : Element.Kind) (vertices : List (Point g ℝ)) : Elem g e.dim where
  numNodes := e.numNodes
  basis := Element.basis e
  gradients := Element.gradients e
  jacobian xi := Matrix.of (Element.referenceJacobian e vertices xi)
  map := Element.mapReferenceCoords e vertices

/-- src/integrate.rs:20-35 `volume_form`. -/
noncomputable def volumeForm (J : Matrix (Fin g) (Fin r) ℝ) : ℝ :=
  if h : g = r then |(J.submatrix id (Fin.cast h)).det| else Real.sqrt (J.transpose * J).det

/-- The implementations of `UFunction` for `FnFunction` (integrate.rs:162-203): with dependence on `u`
(`AutoDeps`), or without (`NoDeps`). The result has `m` components. -/
inductive UFn (g s m : Nat) where
  | auto (f : Point g ℝ → (Fin s → ℝ) → Fin m → ℝ)
  | noDeps (f : Point g ℝ → Fin m → ℝ)

/-- `UFunction::evaluate`. `u` is what calling the closure gives; the closure is called only if the function
depends on `u`. -/
def UFn.evaluate : UFn g s m → Point g ℝ → Option (Fin s → ℝ) → Option (Fin m → ℝ)
  | .auto f, x, u => u.map fun u => f x u
  | .noDeps f, x, _ => some (f x)

/-- The implementations of `UGradFunction` for `FnFunction` (integrate.rs:205-270). -/
inductive UGradFn (g s m : Nat) where
  | auto (f : Point g ℝ → (Fin s → ℝ) → Matrix (Fin g) (Fin s) ℝ → Fin m → ℝ)
  | onGrad (f : Point g ℝ → Matrix (Fin g) (Fin s) ℝ → Fin m → ℝ)
  | onU (f : Point g ℝ → (Fin s → ℝ) → Fin m → ℝ)

/-- `UGradFunction::evaluate`. -/
def UGradFn.evaluate : UGradFn g s m → Point g ℝ → Option (Fin s → ℝ) → Option (Matrix (Fin g) (Fin s) ℝ) →
    Option (Fin m → ℝ)
  | .auto f, x, u, du => u.bind fun u => du.map fun du => f x u du
  | .onGrad f, x, _, du => du.map fun du => f x du
  | .onU f, x, u, _ => u.map fun u => f x u

/-- The loop of `integrate_over_element` (integrate.rs:622-636). -/
noncomputable def integrateLoop (f : UFn g s m) (el : Elem g r) (u : List ℝ) :
    List (ℝ × Point r ℝ) → (Fin m → ℝ) → Option (Fin m → ℝ)
  | [], acc => some acc
  | (w, p) :: qs, acc =>
    (f.evaluate (el.map p) (Interpolate.computeInterpolation s u (el.basis p))).bind fun y =>
      integrateLoop f el u qs (fun k => acc k + y k * (w * volumeForm (el.jacobian p)))

/-- integrate.rs:596-639 `integrate_over_element`. -/
noncomputable def integrateOverElement (f : UFn g s m) (el : Elem g r) (weights : List ℝ) (points : List (Point r ℝ))
    (u : List ℝ) : Option (Fin m → ℝ) :=
  integrateLoop f el u (weights.zip points) fun _ => 0

/-- integrate.rs:641-644 `IntegrationFailure`. -/
inductive Failure where
  | singularJacobian
deriving DecidableEq

/-- The loop of `integrate_over_volume_element` (integrate.rs:667-702). The transposed inverse is the inverse
of the transpose. -/
noncomputable def integrateVolumeLoop (f : UGradFn g s m) (el : Elem g g) (u : List ℝ) :
    List (ℝ × Point g ℝ) → (Fin m → ℝ) → Option (Except Failure (Fin m → ℝ))
  | [], acc => some (.ok acc)
  | (w, p) :: qs, acc =>
    match Local.tryInverse (el.jacobian p).transpose with
    | none => some (.error .singularJacobian)
    | some jInvT =>
      (f.evaluate (el.map p) (Interpolate.computeInterpolation s u (el.basis p))
        ((Interpolate.computeInterpolationGradient s u (el.gradients p)).map fun ref => jInvT * ref)).bind fun y =>
        integrateVolumeLoop f el u qs (fun k => acc k + y k * (w * volumeForm (el.jacobian p)))

/-- integrate.rs:647-705 `integrate_over_volume_element`. -/
noncomputable def integrateOverVolumeElement (f : UGradFn g s m) (el : Elem g g) (weights : List ℝ)
    (points : List (Point g ℝ)) (u : List ℝ) : Option (Except Failure (Fin m → ℝ)) :=
  integrateVolumeLoop f el u (weights.zip points) fun _ => 0

/-- A finite element space: for each element its geometry and its nodes. -/
abbrev Space (g r : Nat) := List (Elem g r × List Nat)

/-- integrate.rs:780-810 `build_integrator` and 812-841 `build_volume_integrator`: the length check. The
`Option`s of the builder are not modelled: a missing part is a panic. -/
def buildCheck (numNodes s : Nat) (u : List ℝ) : Bool := u.length = numNodes * s

/-- `integral[0]` (integrate.rs:937,1028). -/
def first (y : Fin m → ℝ) : Option ℝ := if h : 0 < m then some (y ⟨0, h⟩) else none

/-- integrate.rs:902-939 `ElementIntegralAssembler::assemble_element_scalar`; `buf` is the quadrature buffer of
the thread's workspace (the other buffers are overwritten). The result is always `Ok`. -/
noncomputable def elementIntegral (space : Space g r) (f : UFn g s m) (table : Table (Point r ℝ) ℝ D) (u : List ℝ)
    (buf : Buffer (Point r ℝ) ℝ Unit) (e : Nat) : Option (ℝ × Buffer (Point r ℝ) ℝ Unit) :=
  space[e]?.bind fun en => (buf.populateWeightsAndPoints e table).bind fun b =>
    (Assembly.gather s u en.2).bind fun ul =>
      (integrateOverElement f en.1 b.weights b.points ul).bind fun y => (first y).map fun v => (v, b)

/-- The message of integrate.rs:1024. -/
def singularMessage : String := "Failed to compute integral due to singular Jacobian"

/-- `map_err(..)?` and `Ok(integral[0])` (integrate.rs:1017-1028). -/
noncomputable def volumeResult {B : Type} (b : B) : Except Failure (Fin m → ℝ) → Option (Except String ℝ × B)
  | .error _ => some (.error singularMessage, b)
  | .ok y => (first y).map fun v => (.ok v, b)

/-- integrate.rs:984-1029 `ElementIntegralVolumeAssembler::assemble_element_scalar`. -/
noncomputable def elementVolumeIntegral (space : Space g g) (f : UGradFn g s m) (table : Table (Point g ℝ) ℝ D)
    (u : List ℝ) (buf : Buffer (Point g ℝ) ℝ Unit) (e : Nat) :
    Option (Except String ℝ × Buffer (Point g ℝ) ℝ Unit) :=
  space[e]?.bind fun en => (buf.populateWeightsAndPoints e table).bind fun b =>
    (Assembly.gather s u en.2).bind fun ul =>
      (integrateOverVolumeElement f en.1 b.weights b.points ul).bind (volumeResult b)

/-! ### `src/error.rs` -/

/-- error.rs:249-264 `make_L2_error_squared_integrand`. -/
def l2Integrand (u : Point g ℝ → Fin s → ℝ) : UFn g s 1 :=
  .auto fun x uh _ => ∑ i, (uh i - u x i) * (uh i - u x i)

/-- error.rs:267-282 `make_H1_seminorm_error_squared_integrand`. -/
def h1Integrand (du : Point g ℝ → Matrix (Fin g) (Fin s) ℝ) : UGradFn g s 1 :=
  .onGrad fun x duh _ => ∑ k, ∑ i, (duh k i - du x k i) * (duh k i - du x k i)

/-- error.rs:117-144 `estimate_element_L2_error_squared`. -/
noncomputable def elementL2ErrorSquared (el : Elem g g) (u : Point g ℝ → Fin s → ℝ) (uh : List ℝ) (weights : List ℝ)
    (points : List (Point g ℝ)) : Option ℝ :=
  if uh.length = el.numNodes * s then
    (integrateOverElement (l2Integrand u) el weights points uh).map fun y => y 0
  else none

/-- error.rs:223-246 `estimate_element_L2_error`. -/
noncomputable def elementL2Error (el : Elem g g) (u : Point g ℝ → Fin s → ℝ) (uh : List ℝ) (weights : List ℝ)
    (points : List (Point g ℝ)) : Option ℝ :=
  (elementL2ErrorSquared el u uh weights points).map Real.sqrt

/-- `.expect(..)` and `[0]` (error.rs:176-180). -/
noncomputable def expectOk : Except Failure (Fin 1 → ℝ) → Option ℝ
  | .error _ => none
  | .ok y => some (y 0)

/-- error.rs:153-181 `estimate_element_H1_seminorm_error_squared`; a singular Jacobian panics. -/
noncomputable def elementH1ErrorSquared (el : Elem g g) (du : Point g ℝ → Matrix (Fin g) (Fin s) ℝ) (uh : List ℝ)
    (weights : List ℝ) (points : List (Point g ℝ)) : Option ℝ :=
  if uh.length = el.numNodes * s then
    (integrateOverVolumeElement (h1Integrand du) el weights points uh).bind expectOk
  else none

/-- error.rs:190-214 `estimate_element_H1_seminorm_error`. -/
noncomputable def elementH1Error (el : Elem g g) (du : Point g ℝ → Matrix (Fin g) (Fin s) ℝ) (uh : List ℝ)
    (weights : List ℝ) (points : List (Point g ℝ)) : Option ℝ :=
  (elementH1ErrorSquared el du uh weights points).map Real.sqrt

/-- The loop of `assemble_scalar` (src/assembly/global.rs:697-711) from element `k` over elements that may panic. -/
noncomputable def sumLoop (elem : Nat → Option (Except String ℝ)) : Nat → Nat → ℝ → Option (Except String ℝ)
  | 0, _, acc => some (.ok acc)
  | n + 1, k, acc =>
    (elem k).bind fun res =>
      match res with
      | .error msg => some (.error msg)
      | .ok x => sumLoop elem n (k + 1) (acc + x)

/-- `assemble_scalar` (src/assembly/global.rs:697-711). -/
noncomputable def sumElements (n : Nat) (elem : Nat → Option (Except String ℝ)) : Option (Except String ℝ) :=
  sumLoop elem n 0 0

/-- error.rs:287-308 `estimate_L2_error_squared`; `bufs e` is the quadrature buffer that element `e` finds in the
workspace. -/
noncomputable def l2ErrorSquared (space : Space g g) (numNodes : Nat) (u : Point g ℝ → Fin s → ℝ) (uh : List ℝ)
    (table : Table (Point g ℝ) ℝ D) (bufs : Nat → Buffer (Point g ℝ) ℝ Unit) : Option (Except String ℝ) :=
  if buildCheck numNodes s uh then
    sumElements space.length fun e =>
      (elementIntegral space (l2Integrand u) table uh (bufs e) e).map fun vb => .ok vb.1
  else none

/-- error.rs:313-327 `estimate_L2_error`. -/
noncomputable def l2Error (space : Space g g) (numNodes : Nat) (u : Point g ℝ → Fin s → ℝ) (uh : List ℝ)
    (table : Table (Point g ℝ) ℝ D) (bufs : Nat → Buffer (Point g ℝ) ℝ Unit) : Option (Except String ℝ) :=
  (l2ErrorSquared space numNodes u uh table bufs).map fun r => r.map Real.sqrt

/-- error.rs:332-354 `estimate_H1_seminorm_error_squared`. -/
noncomputable def h1ErrorSquared (space : Space g g) (numNodes : Nat) (du : Point g ℝ → Matrix (Fin g) (Fin s) ℝ)
    (uh : List ℝ) (table : Table (Point g ℝ) ℝ D) (bufs : Nat → Buffer (Point g ℝ) ℝ Unit) : Option (Except String ℝ) :=
  if buildCheck numNodes s uh then
    sumElements space.length fun e => (elementVolumeIntegral space (h1Integrand du) table uh (bufs e) e).map (·.1)
  else none

/-- error.rs:358-372 `estimate_H1_seminorm_error`. -/
noncomputable def h1Error (space : Space g g) (numNodes : Nat) (du : Point g ℝ → Matrix (Fin g) (Fin s) ℝ)
    (uh : List ℝ) (table : Table (Point g ℝ) ℝ D) (bufs : Nat → Buffer (Point g ℝ) ℝ Unit) : Option (Except String ℝ) :=
  (h1ErrorSquared space numNodes du uh table bufs).map fun r => r.map Real.sqrt

end Integrate
end Fenris
