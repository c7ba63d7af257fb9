import Mathlib.LinearAlgebra.Matrix.NonsingularInverse
import Mathlib.LinearAlgebra.Matrix.PosDef
import Mathlib.Analysis.Matrix.PosDef
import Mathlib.Algebra.Order.Star.Real
import Mathlib.Tactic.Ring
import Mathlib.Tactic.Linarith
import Verif.Spec.Integrate
import Verif.Lemmas.ElementAssembly
import Verif.Props.Assembly
import Verif.Props.QuadratureTable
/-! # C66: integrals over elements and meshes; C67: error norms -/
set_option autoImplicit false

namespace Fenris
namespace Integrate

open Quadrature Spec Matrix

variable {g r s m : Nat} {D : Type}

/-! ### The volume form -/

private theorem gram_det_nonneg (J : Matrix (Fin g) (Fin r) ℝ) : 0 ≤ (Jᵀ * J).det := by
  have h := (Matrix.posSemidef_conjTranspose_mul_self J).det_nonneg
  rwa [Matrix.conjTranspose_eq_transpose_of_trivial] at h

/-- C66: the volume form is the factor `√det(JᵀJ)` by which the Jacobian stretches volumes, for volumetric and
embedded elements alike; the square root is never taken of a negative number. It is zero exactly if the Jacobian
annihilates some direction. -/
theorem C66_volume_form (J : Matrix (Fin g) (Fin r) ℝ) :
    volumeForm J = stretch J ∧ 0 ≤ (Jᵀ * J).det ∧ volumeForm J ^ 2 = (Jᵀ * J).det ∧
    (volumeForm J = 0 ↔ ∃ v : Fin r → ℝ, v ≠ 0 ∧ J *ᵥ v = 0) := by
  have h1 : volumeForm J = stretch J := by
    unfold volumeForm stretch
    split_ifs with h
    · subst h
      have e : J.submatrix id (Fin.cast rfl) = J := rfl
      rw [e, Matrix.det_mul, Matrix.det_transpose, Real.sqrt_mul_self_eq_abs]
    · rfl
  refine ⟨h1, gram_det_nonneg J, ?_, ?_⟩
  · rw [h1, stretch, Real.sq_sqrt (gram_det_nonneg J)]
  · rw [h1, stretch, Real.sqrt_eq_zero (gram_det_nonneg J), ← Matrix.exists_mulVec_eq_zero_iff]
    refine exists_congr fun v => and_congr_right fun _ => ?_
    constructor
    · intro h
      have h2 : (J *ᵥ v) ⬝ᵥ (J *ᵥ v) = 0 := by
        rw [Matrix.dotProduct_mulVec, ← Matrix.mulVec_transpose, Matrix.mulVec_mulVec, h, zero_dotProduct]
      exact dotProduct_self_eq_zero.mp h2
    · intro h
      rw [← Matrix.mulVec_mulVec, h, Matrix.mulVec_zero]

/-- C66: for curves the volume form is the length of the tangent. -/
theorem C66_volume_form_curve (J : Matrix (Fin g) (Fin 1) ℝ) : volumeForm J = Real.sqrt (∑ i, J i 0 ^ 2) := by
  rw [(C66_volume_form J).1, stretch, Matrix.det_unique, Matrix.mul_apply]
  congr 1
  exact Finset.sum_congr rfl fun i _ => by rw [Matrix.transpose_apply, sq]; rfl

/-- C66: for surfaces in space the volume form is the length of the cross product of the two tangents. -/
theorem C66_volume_form_surface (J : Matrix (Fin 3) (Fin 2) ℝ) : volumeForm J =
    Real.sqrt ((J 1 0 * J 2 1 - J 2 0 * J 1 1) ^ 2 + (J 2 0 * J 0 1 - J 0 0 * J 2 1) ^ 2
      + (J 0 0 * J 1 1 - J 1 0 * J 0 1) ^ 2) := by
  rw [(C66_volume_form J).1, stretch, Matrix.det_fin_two]
  congr 1
  simp only [Matrix.mul_apply, Matrix.transpose_apply, Fin.sum_univ_three]
  ring

/-- C66: for volumes it is the absolute value of the determinant. -/
theorem C66_volume_form_volume (J : Matrix (Fin g) (Fin g) ℝ) : volumeForm J = |J.det| := by
  rw [(C66_volume_form J).1, stretch, Matrix.det_mul, Matrix.det_transpose, Real.sqrt_mul_self_eq_abs]

/-- Both branches occur. -/
example : volumeForm (!![2, 0; 0, 3] : Matrix (Fin 2) (Fin 2) ℝ) = 6 ∧
    volumeForm (!![1, 0; 0, 1; 2, 2] : Matrix (Fin 3) (Fin 2) ℝ) = 3 := by
  constructor
  · rw [C66_volume_form_volume]
    simp
    norm_num
  · rw [C66_volume_form_surface]
    change Real.sqrt ((0 * 2 - 2 * 1) ^ 2 + (2 * 0 - 1 * 2) ^ 2 + (1 * 1 - 0 * 0) ^ 2) = 3
    rw [Real.sqrt_eq_iff_eq_sq] <;> norm_num

/-! ### One element -/

private theorem computeInterpolation_eq (u : List ℝ) (phi : List ℝ) (h : u.length = s * phi.length) :
    Interpolate.computeInterpolation s u phi = some (interp s phi u) := by
  rw [Interpolate.computeInterpolation, if_pos h]
  congr 1
  have hfold : ∀ (l : List (ℝ × Nat)) (acc : Fin s → ℝ) (k : Fin s),
      l.foldl (fun acc bI => fun k => acc k + Local.column s u bI.2 k * bI.1) acc k
        = acc k + (l.map fun bI => bI.1 * u.getD (s * bI.2 + k) 0).sum := by
    intro l
    induction l with
    | nil => intro acc k; simp
    | cons a l ih =>
      intro acc k
      rw [List.foldl_cons, ih, List.map_cons, List.sum_cons, Local.column]
      ring
  funext k
  rw [hfold, zero_add, interp]
  have : ∀ (l : List ℝ) (n : Nat), ((l.zipIdx n).map fun bI => bI.1 * u.getD (s * bI.2 + k) 0).sum
      = ∑ I : Fin l.length, l[I] * u.getD (s * (n + I) + k) 0 := by
    intro l
    induction l with
    | nil => intro n; simp
    | cons a l ih =>
      intro n
      rw [List.zipIdx_cons, List.map_cons, List.sum_cons, ih]
      simp only [List.length_cons]
      rw [Fin.sum_univ_succ]
      simp [Nat.add_assoc, Nat.add_comm 1]
  rw [this]
  simp

private theorem gradient_eq (J : Matrix (Fin g) (Fin g) ℝ) (u : List ℝ) (gs : List (Point g ℝ))
    (h : u.length = s * gs.length) :
    (Interpolate.computeInterpolationGradient s u gs).map (fun ref => J⁻¹ᵀ * ref) = some (Local.Spec.gradU s J gs u) := by
  rw [Interpolate.computeInterpolationGradient, if_pos h, Option.map_some, ← Local.volumeUGrad_eq]
  rfl

private theorem ufn_evaluate (f : UFn g s m) (x : Point g ℝ) (u : Fin s → ℝ) :
    f.evaluate x (some u) = some (ufn f x u) := by
  cases f <;> rfl

private theorem ugradfn_evaluate (f : UGradFn g s m) (x : Point g ℝ) (u : Fin s → ℝ) (du : Matrix (Fin g) (Fin s) ℝ) :
    f.evaluate x (some u) (some du) = some (ugradfn f x u du) := by
  cases f <;> rfl

private theorem loop_eq (f : UFn g s m) (el : Elem g r) (hel : WellFormed el) (u : List ℝ)
    (hu : u.length = s * el.numNodes) (rule : List (ℝ × Point r ℝ)) (acc : Fin m → ℝ) :
    integrateLoop f el u rule acc = some fun k => acc k
      + quadrature el rule fun p => ufn f (el.map p) (interp s (el.basis p) u) k := by
  induction rule generalizing acc with
  | nil => simp [integrateLoop, quadrature]
  | cons q rule ih =>
    obtain ⟨w, p⟩ := q
    rw [integrateLoop, computeInterpolation_eq u _ (by rw [(hel p).1, hu]), ufn_evaluate, Option.bind_some, ih]
    congr 1
    funext k
    rw [quadrature, quadrature, List.map_cons, List.sum_cons, (C66_volume_form _).1]
    ring

/-- C66: `integrate_over_element` returns, component by component, the sum over the quadrature points of weight
times volume factor times the integrand at the mapped point and the interpolated value. It never fails for
interpolation weights of the right length. -/
theorem C66_integral_is_quadrature_sum (f : UFn g s m) (el : Elem g r) (hel : WellFormed el) (weights : List ℝ)
    (points : List (Point r ℝ)) (u : List ℝ) (hu : u.length = s * el.numNodes) :
    ∃ I, integrateOverElement f el weights points u = some I ∧
      ∀ k, I k = quadrature el (weights.zip points) fun p => ufn f (el.map p) (interp s (el.basis p) u) k := by
  refine ⟨_, loop_eq f el hel u hu _ _, fun k => ?_⟩
  rw [zero_add]

/-- C66: a function that does not depend on `u` is integrated without looking at the interpolation weights, which may
then have any length. -/
theorem C66_integral_without_solution (f : Point g ℝ → Fin m → ℝ) (el : Elem g r) (weights : List ℝ)
    (points : List (Point r ℝ)) (u : List ℝ) :
    ∃ I, integrateOverElement (s := s) (.noDeps f) el weights points u = some I ∧
      ∀ k, I k = quadrature el (weights.zip points) fun p => f (el.map p) k := by
  have h : ∀ (rule : List (ℝ × Point r ℝ)) (acc : Fin m → ℝ), integrateLoop (s := s) (.noDeps f) el u rule acc
      = some fun k => acc k + quadrature el rule fun p => f (el.map p) k := by
    intro rule
    induction rule with
    | nil => intro acc; simp [integrateLoop, quadrature]
    | cons q rule ih =>
      intro acc
      obtain ⟨w, p⟩ := q
      rw [integrateLoop, UFn.evaluate, Option.bind_some, ih]
      congr 1
      funext k
      rw [quadrature, quadrature, List.map_cons, List.sum_cons, (C66_volume_form _).1]
      ring
  exact ⟨_, h _ _, fun k => by rw [zero_add]⟩

/-- C66: with interpolation weights of a wrong length, a function of `u` makes the integration panic as soon as the rule
has a point. -/
theorem C66_wrong_length_panics (f : Point g ℝ → (Fin s → ℝ) → Fin m → ℝ) (el : Elem g r) (hel : WellFormed el)
    (w : ℝ) (weights : List ℝ) (p : Point r ℝ) (points : List (Point r ℝ)) (u : List ℝ)
    (hu : u.length ≠ s * el.numNodes) :
    integrateOverElement (.auto f) el (w :: weights) (p :: points) u = none := by
  rw [integrateOverElement, List.zip_cons_cons, integrateLoop, Interpolate.computeInterpolation, if_neg]
  · rfl
  · rwa [(hel p).1]

private theorem quadrature_add (el : Elem g r) (rule : List (ℝ × Point r ℝ)) (F G : Point r ℝ → ℝ) :
    quadrature el rule (fun p => F p + G p) = quadrature el rule F + quadrature el rule G := by
  induction rule with
  | nil => simp [quadrature]
  | cons q rule ih =>
    simp only [quadrature, List.map_cons, List.sum_cons] at ih ⊢
    rw [ih]
    ring

private theorem quadrature_smul (el : Elem g r) (rule : List (ℝ × Point r ℝ)) (c : ℝ) (F : Point r ℝ → ℝ) :
    quadrature el rule (fun p => c * F p) = c * quadrature el rule F := by
  induction rule with
  | nil => simp [quadrature]
  | cons q rule ih =>
    simp only [quadrature, List.map_cons, List.sum_cons] at ih ⊢
    rw [ih]
    ring

/-- C66: integration is linear in the integrand. -/
theorem C66_integral_linear (f₁ f₂ : Point g ℝ → (Fin s → ℝ) → Fin m → ℝ) (c : ℝ) (el : Elem g r) (hel : WellFormed el)
    (weights : List ℝ) (points : List (Point r ℝ)) (u : List ℝ) (hu : u.length = s * el.numNodes) :
    ∃ I₁ I₂, integrateOverElement (.auto f₁) el weights points u = some I₁ ∧
      integrateOverElement (.auto f₂) el weights points u = some I₂ ∧
      integrateOverElement (.auto fun x u k => f₁ x u k + c * f₂ x u k) el weights points u
        = some fun k => I₁ k + c * I₂ k := by
  refine ⟨_, _, loop_eq _ el hel u hu _ _, loop_eq _ el hel u hu _ _, ?_⟩
  rw [integrateOverElement, loop_eq _ el hel u hu]
  congr 1
  funext k
  simp only [zero_add, ufn]
  rw [quadrature_add, quadrature_smul]

/-- C66: the order of the quadrature points does not matter, and the integral over two rules in sequence is the sum. -/
theorem C66_integral_order_and_split (f : UFn g s m) (el : Elem g r) (hel : WellFormed el)
    (rule₁ rule₂ perm : List (ℝ × Point r ℝ)) (hp : perm.Perm (rule₁ ++ rule₂)) (u : List ℝ)
    (hu : u.length = s * el.numNodes) :
    ∃ I₁ I₂, integrateOverElement f el (rule₁.map (·.1)) (rule₁.map (·.2)) u = some I₁ ∧
      integrateOverElement f el (rule₂.map (·.1)) (rule₂.map (·.2)) u = some I₂ ∧
      integrateOverElement f el (perm.map (·.1)) (perm.map (·.2)) u = some fun k => I₁ k + I₂ k := by
  have hz : ∀ l : List (ℝ × Point r ℝ), (l.map (·.1)).zip (l.map (·.2)) = l := by
    intro l
    induction l with
    | nil => rfl
    | cons a l ih => simp [ih]
  refine ⟨_, _, loop_eq _ el hel u hu _ _, loop_eq _ el hel u hu _ _, ?_⟩
  rw [integrateOverElement, loop_eq _ el hel u hu]
  congr 1
  funext k
  simp only [zero_add, hz, quadrature]
  rw [(hp.map _).sum_eq, List.map_append, List.sum_append]

/-- C66: integrating the constant 1 gives the sum of the scaled weights; for an element whose volume factor is the same
everywhere (simplices), the factor times the sum of the weights. -/
theorem C66_integral_of_one (el : Elem g r) (weights : List ℝ) (points : List (Point r ℝ)) (u : List ℝ)
    (hl : weights.length = points.length) (c : ℝ) (hc : ∀ p, stretch (el.jacobian p) = c) :
    integrateOverElement (s := s) (m := 1) (.noDeps fun _ _ => 1) el weights points u = some fun _ => c * weights.sum := by
  obtain ⟨I, h, hI⟩ := C66_integral_without_solution (s := s) (m := 1) (fun _ _ => 1) el weights points u
  rw [h]
  congr 1
  funext k
  rw [hI, quadrature]
  have h1 : ((weights.zip points).map fun q => q.1 * stretch (el.jacobian q.2) * 1)
      = weights.map fun w => c * w := by
    clear hI h
    induction weights generalizing points with
    | nil => rfl
    | cons w weights ih =>
      cases points with
      | nil => simp at hl
      | cons p points =>
        rw [List.zip_cons_cons, List.map_cons, List.map_cons, ih points (by simpa using hl), hc]
        simp only [mul_one, mul_comm]
  rw [h1, List.sum_map_mul_left, List.map_id']

private theorem ofKind_wellFormed (e : Element.Kind) (vertices : List (Point g ℝ)) :
    WellFormed (ofKind g e vertices) := by
  intro p
  cases e <;> exact ⟨rfl, rfl⟩

private theorem seg_jac (a b : Point g ℝ) (p : Point 1 ℝ) (k : Fin g) :
    (ofKind g .segment2 [a, b]).jacobian p k 0 = (b k - a k) / 2 := by
  simp [ofKind, Element.referenceJacobian, Element.weightedSum, Element.geometryGradients, Element.Kind.geometry,
    Element.Kind.numNodes, Element.segment2Gradients]
  ring

private theorem tri_jac (a b c : Point g ℝ) (p : Point 2 ℝ) (k : Fin g) :
    (ofKind g .tri3 [a, b, c]).jacobian p k 0 = (b k - a k) / 2 ∧
    (ofKind g .tri3 [a, b, c]).jacobian p k 1 = (c k - a k) / 2 := by
  constructor <;>
  · simp [ofKind, Element.referenceJacobian, Element.weightedSum, Element.geometryGradients, Element.Kind.geometry,
      Element.Kind.numNodes, Element.tri3Gradients, Element.tri3G]
    ring

private theorem tet_jac (a b c d : Point g ℝ) (p : Point 3 ℝ) (k : Fin g) :
    (ofKind g .tet4 [a, b, c, d]).jacobian p k 0 = (b k - a k) / 2 ∧
    (ofKind g .tet4 [a, b, c, d]).jacobian p k 1 = (c k - a k) / 2 ∧
    (ofKind g .tet4 [a, b, c, d]).jacobian p k 2 = (d k - a k) / 2 := by
  refine ⟨?_, ?_, ?_⟩ <;>
  · simp [ofKind, Element.referenceJacobian, Element.weightedSum, Element.geometryGradients, Element.Kind.geometry,
      Element.Kind.numNodes, Element.tet4Gradients, Element.tet4G]
    ring

/-- C66: integrating 1 over a segment in a space of any dimension gives its length, for every rule whose weights sum
to 2, the length of the reference segment. -/
theorem C66_length_of_segment (a b : Point g ℝ) (weights : List ℝ) (points : List (Point 1 ℝ)) (u : List ℝ)
    (hl : weights.length = points.length) (hw : weights.sum = 2) :
    integrateOverElement (s := s) (m := 1) (.noDeps fun _ _ => 1) (ofKind g .segment2 [a, b]) weights points u
      = some fun _ => Real.sqrt (∑ k, (b k - a k) ^ 2) := by
  rw [C66_integral_of_one (s := s) _ weights points u hl (Real.sqrt (∑ k, (b k - a k) ^ 2) / 2), hw]
  · congr 1
    funext _
    ring
  · intro p
    rw [← (C66_volume_form _).1, C66_volume_form_curve]
    simp only [seg_jac, div_pow, ← Finset.sum_div]
    rw [Real.sqrt_div' _ (by norm_num), show (2 : ℝ) ^ 2 = 2 * 2 by norm_num, Real.sqrt_mul_self (by norm_num)]

/-- C66: integrating 1 over a triangle in the plane or in space gives its area, for every rule whose weights sum to 2. -/
theorem C66_area_of_triangle (weights : List ℝ) (points : List (Point 2 ℝ)) (u : List ℝ)
    (hl : weights.length = points.length) (hw : weights.sum = 2) :
    (∀ a b c : Point 2 ℝ, integrateOverElement (s := s) (m := 1) (.noDeps fun _ _ => 1) (ofKind 2 .tri3 [a, b, c])
      weights points u = some fun _ => |(b 0 - a 0) * (c 1 - a 1) - (c 0 - a 0) * (b 1 - a 1)| / 2) ∧
    (∀ a b c : Point 3 ℝ, integrateOverElement (s := s) (m := 1) (.noDeps fun _ _ => 1) (ofKind 3 .tri3 [a, b, c])
      weights points u = some fun _ => Real.sqrt (
        ((b 1 - a 1) * (c 2 - a 2) - (b 2 - a 2) * (c 1 - a 1)) ^ 2 +
        ((b 2 - a 2) * (c 0 - a 0) - (b 0 - a 0) * (c 2 - a 2)) ^ 2 +
        ((b 0 - a 0) * (c 1 - a 1) - (b 1 - a 1) * (c 0 - a 0)) ^ 2) / 2) := by
  constructor
  · intro a b c
    rw [C66_integral_of_one (s := s) _ weights points u hl
      (|(b 0 - a 0) * (c 1 - a 1) - (c 0 - a 0) * (b 1 - a 1)| / 4), hw]
    · congr 1
      funext _
      ring
    · intro p
      rw [← (C66_volume_form _).1, C66_volume_form_volume, Matrix.det_fin_two]
      simp only [tri_jac]
      rw [show (4 : ℝ) = |4| by norm_num, ← abs_div]
      congr 1
      norm_num
      ring
  · intro a b c
    generalize hA : ((b 1 - a 1) * (c 2 - a 2) - (b 2 - a 2) * (c 1 - a 1)) ^ 2 +
        ((b 2 - a 2) * (c 0 - a 0) - (b 0 - a 0) * (c 2 - a 2)) ^ 2 +
        ((b 0 - a 0) * (c 1 - a 1) - (b 1 - a 1) * (c 0 - a 0)) ^ 2 = A
    rw [C66_integral_of_one (s := s) _ weights points u hl (Real.sqrt A / 4), hw]
    · congr 1
      funext _
      ring
    · intro p
      rw [← (C66_volume_form _).1, C66_volume_form_surface]
      simp only [tri_jac]
      rw [show (4 : ℝ) = Real.sqrt (4 * 4) from (Real.sqrt_mul_self (by norm_num)).symm,
        ← Real.sqrt_div' _ (by norm_num), ← hA]
      congr 1
      ring

/-- C66: integrating 1 over a tetrahedron gives its volume, for every rule whose weights sum to 4/3, the volume of the
reference tetrahedron. -/
theorem C66_volume_of_tetrahedron (a b c d : Point 3 ℝ) (weights : List ℝ) (points : List (Point 3 ℝ)) (u : List ℝ)
    (hl : weights.length = points.length) (hw : weights.sum = 4 / 3) :
    integrateOverElement (s := s) (m := 1) (.noDeps fun _ _ => 1) (ofKind 3 .tet4 [a, b, c, d]) weights points u
      = some fun _ => |(b 0 - a 0) * ((c 1 - a 1) * (d 2 - a 2) - (c 2 - a 2) * (d 1 - a 1))
        - (b 1 - a 1) * ((c 0 - a 0) * (d 2 - a 2) - (c 2 - a 2) * (d 0 - a 0))
        + (b 2 - a 2) * ((c 0 - a 0) * (d 1 - a 1) - (c 1 - a 1) * (d 0 - a 0))| / 6 := by
  generalize hA : (b 0 - a 0) * ((c 1 - a 1) * (d 2 - a 2) - (c 2 - a 2) * (d 1 - a 1))
        - (b 1 - a 1) * ((c 0 - a 0) * (d 2 - a 2) - (c 2 - a 2) * (d 0 - a 0))
        + (b 2 - a 2) * ((c 0 - a 0) * (d 1 - a 1) - (c 1 - a 1) * (d 0 - a 0)) = A
  rw [C66_integral_of_one (s := s) _ weights points u hl (|A| / 8), hw]
  · congr 1
    funext _
    ring
  · intro p
    rw [← (C66_volume_form _).1, C66_volume_form_volume, Matrix.det_fin_three]
    simp only [tet_jac]
    rw [show (8 : ℝ) = |8| by norm_num, ← abs_div, ← hA]
    congr 1
    norm_num
    ring

/-- The three-point rule of midpoints of edges on the triangle meets the hypotheses. -/
example : ([2 / 3, 2 / 3, 2 / 3] : List ℝ).sum = 2 := by norm_num

/-! ### One volumetric element -/

private theorem vloop_eq (f : UGradFn g s m) (el : Elem g g) (hel : WellFormed el) (u : List ℝ)
    (hu : u.length = s * el.numNodes) (rule : List (ℝ × Point g ℝ)) (acc : Fin m → ℝ) :
    integrateVolumeLoop f el u rule acc =
      if ∃ q ∈ rule, (el.jacobian q.2).det = 0 then some (.error .singularJacobian)
      else some (.ok fun k => acc k + quadrature el rule fun p =>
        ugradfn f (el.map p) (interp s (el.basis p) u) (Local.Spec.gradU s (el.jacobian p) (el.gradients p) u) k) := by
  induction rule generalizing acc with
  | nil => simp [integrateVolumeLoop, quadrature]
  | cons q rule ih =>
    obtain ⟨w, p⟩ := q
    rw [integrateVolumeLoop]
    by_cases hp : (el.jacobian p).det = 0
    · rw [if_pos ⟨(w, p), List.mem_cons_self .., hp⟩, (Local.tryInverse_none _).mpr (by rwa [Matrix.det_transpose])]
    · rw [Local.tryInverse_eq _ (by rwa [Matrix.det_transpose]), ← Matrix.transpose_nonsing_inv]
      simp only
      rw [computeInterpolation_eq u _ (by rw [(hel p).1, hu]), gradient_eq _ u _ (by rw [(hel p).2, hu]),
        ugradfn_evaluate, Option.bind_some, ih]
      have e : (∃ q ∈ (w, p) :: rule, (el.jacobian q.2).det = 0) ↔ ∃ q ∈ rule, (el.jacobian q.2).det = 0 := by
        simp [hp]
      simp only [e]
      split_ifs
      · rfl
      · congr 2
        funext k
        rw [quadrature, quadrature, List.map_cons, List.sum_cons, (C66_volume_form _).1]
        ring

/-- C66: `integrate_over_volume_element` fails exactly if the Jacobian is singular at some quadrature point, and
otherwise returns the sum over the quadrature points of weight times `|det J|` times the integrand at the mapped
point, the interpolated value and the physical gradient. -/
theorem C66_volume_integral (f : UGradFn g s m) (el : Elem g g) (hel : WellFormed el) (weights : List ℝ)
    (points : List (Point g ℝ)) (u : List ℝ) (hu : u.length = s * el.numNodes) :
    (integrateOverVolumeElement f el weights points u = some (.error .singularJacobian) ↔
      ∃ q ∈ weights.zip points, (el.jacobian q.2).det = 0) ∧
    ((∀ q ∈ weights.zip points, (el.jacobian q.2).det ≠ 0) →
      ∃ I, integrateOverVolumeElement f el weights points u = some (.ok I) ∧
        ∀ k, I k = ((weights.zip points).map fun q => q.1 * |(el.jacobian q.2).det| *
          ugradfn f (el.map q.2) (interp s (el.basis q.2) u)
            (Local.Spec.gradU s (el.jacobian q.2) (el.gradients q.2) u) k).sum) := by
  rw [integrateOverVolumeElement, vloop_eq f el hel u hu]
  constructor
  · by_cases h : ∃ q ∈ weights.zip points, (el.jacobian q.2).det = 0
    · rw [if_pos h]
      exact ⟨fun _ => h, fun _ => rfl⟩
    · rw [if_neg h]
      refine ⟨fun e => ?_, fun e => absurd e h⟩
      cases Option.some.inj e
  · intro h
    rw [if_neg (by push Not; exact h)]
    refine ⟨_, rfl, fun k => ?_⟩
    rw [zero_add, quadrature]
    congr 1
    refine List.map_congr_left fun q _ => ?_
    rw [← (C66_volume_form _).1, C66_volume_form_volume]

/-- C66: for functions that do not look at the gradient, the two integration functions agree wherever the Jacobian
is regular. -/
theorem C66_volume_integral_agrees (f : Point g ℝ → (Fin s → ℝ) → Fin m → ℝ) (el : Elem g g) (hel : WellFormed el)
    (weights : List ℝ) (points : List (Point g ℝ)) (u : List ℝ) (hu : u.length = s * el.numNodes)
    (h : ∀ q ∈ weights.zip points, (el.jacobian q.2).det ≠ 0) :
    integrateOverVolumeElement (.onU f) el weights points u
      = (integrateOverElement (.auto f) el weights points u).map .ok := by
  rw [integrateOverVolumeElement, vloop_eq _ el hel u hu, integrateOverElement, loop_eq _ el hel u hu,
    if_neg (by push Not; exact h)]
  rfl

/-! ### Meshes -/

private theorem zip_unzip {α β : Type} (l : List (α × β)) : (l.map (·.1)).zip (l.map (·.2)) = l := by
  induction l with
  | nil => rfl
  | cons a l ih => simp [ih]

private theorem first_eq (hm : 0 < m) (y : Fin m → ℝ) : first y = some (y ⟨0, hm⟩) := dif_pos hm

private theorem gathered (u : List ℝ) (nodes : List Nat) (N : Nat) (hlen : u.length = s * N) (hn : ∀ n ∈ nodes, n < N) :
    ∃ ul, Assembly.gather s u nodes = some ul ∧ ul.length = s * nodes.length ∧
      (∀ phi : List ℝ, phi.length = nodes.length → interp s phi ul = interpAt s phi nodes u) ∧
      (∀ (J : Matrix (Fin g) (Fin g) ℝ) (gs : List (Point g ℝ)), gs.length = nodes.length →
        Local.Spec.gradU s J gs ul = gradAt s J gs nodes u) := by
  obtain ⟨ul, h1, h2, h3⟩ := C23_gather_reads_element_entries s u nodes N hlen hn
  have h4 : ∀ (I : Nat) (i : Fin s), I < nodes.length → ul.getD (s * I + i) 0 = u.getD (s * nodes.getD I 0 + i) 0 := by
    intro I i hI
    rw [List.getD_eq_getElem?_getD, h3 I i nodes[I] (List.getElem?_eq_getElem hI) i.2, List.getD_eq_getElem?_getD,
      List.getD_eq_getElem?_getD, List.getElem?_eq_getElem hI]
    rfl
  refine ⟨ul, h1, h2, fun phi hp => ?_, fun J gs hg => ?_⟩
  · funext i
    exact Finset.sum_congr rfl fun I _ => by rw [h4 I i (hp ▸ I.2)]
  · funext k i
    exact Finset.sum_congr rfl fun I _ => by rw [h4 I i (hg ▸ I.2)]

private theorem sumLoop_eq (elem : Nat → Option (Except String ℝ)) (x : Nat → ℝ) (n k : Nat) (acc : ℝ)
    (h : ∀ e, k ≤ e → e < k + n → elem e = some (.ok (x e))) :
    sumLoop elem n k acc = some (.ok (acc + ∑ e ∈ Finset.range n, x (k + e))) := by
  induction n generalizing k acc with
  | zero => simp [sumLoop]
  | succ n ih =>
    rw [sumLoop, h k (Nat.le_refl _) (by omega), Option.bind_some]
    simp only
    rw [ih (k + 1) _ fun e h1 h2 => h e (by omega) (by omega), Finset.sum_range_succ']
    congr 2
    rw [add_assoc, add_comm (x k), Nat.add_zero]
    congr 2
    exact Finset.sum_congr rfl fun e _ => by rw [Nat.add_assoc, Nat.add_comm 1]

/-- C66: the integral over an element of a mesh is the quadrature sum with the solution taken at the element's nodes; what
the thread's buffer held before does not matter. -/
theorem C66_mesh_element_integral (space : Space g r) (numNodes : Nat) (table : Table (Point r ℝ) ℝ D)
    (rules : Nat → List (ℝ × Point r ℝ)) (h : MeshRule space numNodes table rules) (f : UFn g s m) (hm : 0 < m)
    (u : List ℝ) (hu : u.length = s * numNodes) (buf : Buffer (Point r ℝ) ℝ Unit) (e : Nat) (el : Elem g r)
    (nodes : List Nat) (he : space[e]? = some (el, nodes)) :
    ∃ v buf', elementIntegral space f table u buf e = some (v, buf') ∧
      v = quadrature el (rules e) fun p => ufn f (el.map p) (interpAt s (el.basis p) nodes u) ⟨0, hm⟩ := by
  have hmem := List.mem_of_getElem? he
  obtain ⟨d, hb⟩ := h.rule e (List.getElem?_eq_some_iff.1 he).1 buf
  obtain ⟨ul, h1, h2, h3, -⟩ := gathered (g := g) (s := s) u nodes numNodes hu (h.inBounds _ hmem)
  have hn : nodes.length = el.numNodes := h.nodeCount _ hmem
  obtain ⟨I, hI, hI2⟩ := C66_integral_is_quadrature_sum f el (h.wellFormed _ hmem) ((rules e).map (·.1))
    ((rules e).map (·.2)) ul (by rw [h2, hn])
  refine ⟨I ⟨0, hm⟩, ⟨(rules e).map (·.2), (rules e).map (·.1), d⟩, ?_, ?_⟩
  · simp only [elementIntegral, he, Option.bind_some, hb, h1, hI, first_eq hm, Option.map_some]
  · rw [hI2, zip_unzip]
    congr 1
    funext p
    rw [h3 _ (by rw [((h.wellFormed _ hmem) p).1]; exact hn.symm)]

/-- C66: likewise for volume integrals, which fail exactly if the Jacobian at some quadrature point of the element is
singular. -/
theorem C66_mesh_element_volume_integral (space : Space g g) (numNodes : Nat) (table : Table (Point g ℝ) ℝ D)
    (rules : Nat → List (ℝ × Point g ℝ)) (h : MeshRule space numNodes table rules) (f : UGradFn g s m) (hm : 0 < m)
    (u : List ℝ) (hu : u.length = s * numNodes) (buf : Buffer (Point g ℝ) ℝ Unit) (e : Nat) (el : Elem g g)
    (nodes : List Nat) (he : space[e]? = some (el, nodes)) :
    ((∃ q ∈ rules e, (el.jacobian q.2).det = 0) →
      ∃ buf', elementVolumeIntegral space f table u buf e = some (.error singularMessage, buf')) ∧
    ((∀ q ∈ rules e, (el.jacobian q.2).det ≠ 0) →
      ∃ v buf', elementVolumeIntegral space f table u buf e = some (.ok v, buf') ∧
        v = quadrature el (rules e) fun p => ugradfn f (el.map p) (interpAt s (el.basis p) nodes u)
          (gradAt s (el.jacobian p) (el.gradients p) nodes u) ⟨0, hm⟩) := by
  have hmem := List.mem_of_getElem? he
  obtain ⟨d, hb⟩ := h.rule e (List.getElem?_eq_some_iff.1 he).1 buf
  obtain ⟨ul, h1, h2, h3, h4⟩ := gathered (g := g) (s := s) u nodes numNodes hu (h.inBounds _ hmem)
  have hn : nodes.length = el.numNodes := h.nodeCount _ hmem
  have hv := vloop_eq f el (h.wellFormed _ hmem) ul (by rw [h2, hn]) (rules e) (fun _ => 0)
  have hstep : elementVolumeIntegral space f table u buf e =
      (integrateVolumeLoop f el ul (rules e) fun _ => 0).bind
        (volumeResult ⟨(rules e).map (·.2), (rules e).map (·.1), d⟩) := by
    simp only [elementVolumeIntegral, he, Option.bind_some, hb, h1, integrateOverVolumeElement, zip_unzip]
  rw [hstep, hv]
  constructor
  · intro hs
    rw [if_pos hs]
    exact ⟨_, rfl⟩
  · intro hs
    rw [if_neg (by push Not; exact hs), Option.bind_some]
    simp only [volumeResult, first_eq hm, Option.map_some]
    refine ⟨_, _, rfl, ?_⟩
    rw [zero_add]
    congr 1
    funext p
    rw [h3 _ (by rw [((h.wellFormed _ hmem) p).1]; exact hn.symm),
      h4 _ _ (by rw [((h.wellFormed _ hmem) p).2]; exact hn.symm)]

/-- The sum of a quantity over all elements and their nodes. -/
private theorem mesh_total (n : Nat) (elem : Nat → Option (Except String ℝ)) (x : Nat → ℝ)
    (h : ∀ e < n, elem e = some (.ok (x e))) : sumElements n elem = some (.ok (∑ e ∈ Finset.range n, x e)) := by
  rw [sumElements, sumLoop_eq elem x n 0 0 fun e _ he => h e (by omega)]
  simp

/-- C66: the integral over a mesh is the sum of the quadrature sums of all its elements. -/
theorem C66_mesh_integral (space : Space g r) (numNodes : Nat) (table : Table (Point r ℝ) ℝ D)
    (rules : Nat → List (ℝ × Point r ℝ)) (h : MeshRule space numNodes table rules) (f : UFn g s m) (hm : 0 < m)
    (u : List ℝ) (hu : u.length = s * numNodes) (bufs : Nat → Buffer (Point r ℝ) ℝ Unit) :
    sumElements space.length (fun e => (elementIntegral space f table u (bufs e) e).map fun vb => .ok vb.1)
      = some (.ok (∑ e : Fin space.length, quadrature space[e].1 (rules e) fun p =>
        ufn f (space[e].1.map p) (interpAt s (space[e].1.basis p) space[e].2 u) ⟨0, hm⟩)) := by
  have hex : ∀ e : Nat, ∃ x : ℝ, ∀ he : e < space.length,
      (elementIntegral space f table u (bufs e) e).map (fun vb => (.ok vb.1 : Except String ℝ)) = some (.ok x) ∧
      x = quadrature space[e].1 (rules e) fun p =>
        ufn f (space[e].1.map p) (interpAt s (space[e].1.basis p) space[e].2 u) ⟨0, hm⟩ := by
    intro e
    by_cases he : e < space.length
    · obtain ⟨v, b, h1, h2⟩ := C66_mesh_element_integral space numNodes table rules h f hm u hu (bufs e) e space[e].1
        space[e].2 (List.getElem?_eq_getElem he)
      exact ⟨v, fun _ => ⟨by rw [h1]; rfl, h2⟩⟩
    · exact ⟨0, fun h => absurd h he⟩
  choose x hx using hex
  rw [mesh_total _ _ x fun e he => (hx e he).1, Finset.sum_range]
  congr 2
  exact Finset.sum_congr rfl fun e _ => (hx e e.2).2

/-- C66: the volume integral over a mesh likewise; it fails exactly if the Jacobian is singular at some quadrature
point of some element. -/
theorem C66_mesh_volume_integral (space : Space g g) (numNodes : Nat) (table : Table (Point g ℝ) ℝ D)
    (rules : Nat → List (ℝ × Point g ℝ)) (h : MeshRule space numNodes table rules) (f : UGradFn g s m) (hm : 0 < m)
    (u : List ℝ) (hu : u.length = s * numNodes) (bufs : Nat → Buffer (Point g ℝ) ℝ Unit) :
    ((∀ e : Fin space.length, ∀ q ∈ rules e, (space[e].1.jacobian q.2).det ≠ 0) →
      sumElements space.length (fun e => (elementVolumeIntegral space f table u (bufs e) e).map (·.1))
        = some (.ok (∑ e : Fin space.length, quadrature space[e].1 (rules e) fun p =>
          ugradfn f (space[e].1.map p) (interpAt s (space[e].1.basis p) space[e].2 u)
            (gradAt s (space[e].1.jacobian p) (space[e].1.gradients p) space[e].2 u) ⟨0, hm⟩))) ∧
    ((∃ e : Fin space.length, ∃ q ∈ rules e, (space[e].1.jacobian q.2).det = 0) →
      sumElements space.length (fun e => (elementVolumeIntegral space f table u (bufs e) e).map (·.1))
        = some (.error singularMessage)) := by
  have key := fun (e : Nat) (he : e < space.length) => C66_mesh_element_volume_integral space numNodes table rules h f hm u
    hu (bufs e) e space[e].1 space[e].2 (List.getElem?_eq_getElem he)
  constructor
  · intro hreg
    have hex : ∀ e : Nat, ∃ x : ℝ, ∀ he : e < space.length,
        (elementVolumeIntegral space f table u (bufs e) e).map (·.1) = some (.ok x) ∧
        x = quadrature space[e].1 (rules e) fun p =>
          ugradfn f (space[e].1.map p) (interpAt s (space[e].1.basis p) space[e].2 u)
            (gradAt s (space[e].1.jacobian p) (space[e].1.gradients p) space[e].2 u) ⟨0, hm⟩ := by
      intro e
      by_cases he : e < space.length
      · obtain ⟨v, b, h1, h2⟩ := (key e he).2 (hreg ⟨e, he⟩)
        exact ⟨v, fun _ => ⟨by rw [h1]; rfl, h2⟩⟩
      · exact ⟨0, fun h => absurd h he⟩
    choose x hx using hex
    rw [mesh_total _ _ x fun e he => (hx e he).1, Finset.sum_range]
    congr 2
    exact Finset.sum_congr rfl fun e _ => (hx e e.2).2
  · rintro ⟨e, hs⟩
    have hor : ∀ k < space.length, (∃ x, (elementVolumeIntegral space f table u (bufs k) k).map (·.1) = some (.ok x)) ∨
        (elementVolumeIntegral space f table u (bufs k) k).map (·.1) = some (.error singularMessage) := by
      intro k hk
      by_cases hr : ∃ q ∈ rules k, (space[k].1.jacobian q.2).det = 0
      · obtain ⟨b, hb⟩ := (key k hk).1 hr
        exact .inr (by rw [hb]; rfl)
      · push Not at hr
        obtain ⟨v, b, hb, -⟩ := (key k hk).2 hr
        exact .inl ⟨v, by rw [hb]; rfl⟩
    obtain ⟨b, hb⟩ := (key e e.2).1 hs
    have hfail : (elementVolumeIntegral space f table u (bufs e) e).map (·.1) = some (.error singularMessage) := by
      rw [hb]; rfl
    have hloop : ∀ (elem : Nat → Option (Except String ℝ)) (n k : Nat) (acc : ℝ) (msg : String),
        (∀ j, k ≤ j → j < k + n → (∃ x, elem j = some (.ok x)) ∨ elem j = some (.error msg)) →
        (∃ j, k ≤ j ∧ j < k + n ∧ elem j = some (.error msg)) → sumLoop elem n k acc = some (.error msg) := by
      intro elem n
      induction n with
      | zero => intro k acc msg _ ⟨j, h1, h2, _⟩; omega
      | succ n ih =>
        intro k acc msg h1 ⟨j, hj1, hj2, hj3⟩
        rw [sumLoop]
        rcases h1 k (Nat.le_refl _) (by omega) with ⟨x, hx⟩ | hx
        · rw [hx, Option.bind_some]
          refine ih (k + 1) _ msg (fun j a b => h1 j (by omega) (by omega)) ⟨j, ?_, by omega, hj3⟩
          rcases Nat.lt_or_ge k j with hlt | hge
          · exact hlt
          · obtain rfl : j = k := by omega
            rw [hx] at hj3
            cases hj3
        · rw [hx, Option.bind_some]
    exact hloop _ _ 0 0 _ (fun j _ hj => hor j (by omega)) ⟨e, Nat.zero_le _, by simpa using e.2, hfail⟩

end Integrate
end Fenris
