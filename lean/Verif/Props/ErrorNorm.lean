import Mathlib.Algebra.QuadraticDiscriminant
import Mathlib.Tactic.IntervalCases
import Verif.Props.Integrate
/-! # C67: error norms -/
set_option autoImplicit false

namespace Fenris
namespace Integrate

open Quadrature Spec Matrix

variable {g r s m : Nat} {D : Type}

/-! ### Quadrature sums as positive functionals -/

private theorem stretch_nonneg (J : Matrix (Fin g) (Fin r) ℝ) : 0 ≤ stretch J := Real.sqrt_nonneg _

private theorem stretch_pos (J : Matrix (Fin g) (Fin g) ℝ) (h : J.det ≠ 0) : 0 < stretch J := by
  rw [← (C66_volume_form J).1, C66_volume_form_volume]
  exact abs_pos.mpr h

private theorem quadrature_nonneg (el : Elem g r) (rule : List (ℝ × Point r ℝ)) (hw : ∀ q ∈ rule, 0 ≤ q.1)
    (F : Point r ℝ → ℝ) (hF : ∀ p, 0 ≤ F p) : 0 ≤ quadrature el rule F := by
  refine List.sum_nonneg ?_
  intro x hx
  obtain ⟨q, hq, rfl⟩ := List.mem_map.1 hx
  exact mul_nonneg (mul_nonneg (hw q hq) (stretch_nonneg _)) (hF _)

private theorem quadrature_eq_zero (el : Elem g r) (rule : List (ℝ × Point r ℝ)) (hw : ∀ q ∈ rule, 0 < q.1)
    (hs : ∀ q ∈ rule, 0 < stretch (el.jacobian q.2)) (F : Point r ℝ → ℝ) (hF : ∀ p, 0 ≤ F p) :
    quadrature el rule F = 0 ↔ ∀ q ∈ rule, F q.2 = 0 := by
  unfold quadrature
  induction rule with
  | nil => simp
  | cons q rule ih =>
    have h1 := ih (fun q hq => hw q (List.mem_cons_of_mem _ hq)) (fun q hq => hs q (List.mem_cons_of_mem _ hq))
    have h2 : 0 ≤ (rule.map fun q => q.1 * stretch (el.jacobian q.2) * F q.2).sum :=
      quadrature_nonneg el rule (fun q hq => (hw q (List.mem_cons_of_mem _ hq)).le) F hF
    have h3 : 0 < q.1 * stretch (el.jacobian q.2) :=
      mul_pos (hw q (List.mem_cons_self ..)) (hs q (List.mem_cons_self ..))
    have h4 : 0 ≤ q.1 * stretch (el.jacobian q.2) * F q.2 := mul_nonneg h3.le (hF _)
    rw [List.map_cons, List.sum_cons, List.forall_mem_cons, ← h1]
    constructor
    · intro h
      refine ⟨?_, by linarith⟩
      have h5 : q.1 * stretch (el.jacobian q.2) * F q.2 = 0 := by linarith
      exact (mul_eq_zero.1 h5).resolve_left h3.ne'
    · rintro ⟨h5, h6⟩
      rw [h5, h6]
      ring

private theorem sum_sq_eq_zero {ι : Type} [Fintype ι] (a b : ι → ℝ) :
    (∑ i, (a i - b i) * (a i - b i) = 0) ↔ a = b := by
  rw [Finset.sum_eq_zero_iff_of_nonneg fun i _ => mul_self_nonneg _]
  constructor
  · intro h
    funext i
    have := mul_self_eq_zero.1 (h i (Finset.mem_univ _))
    linarith
  · rintro rfl i _
    ring

private theorem sum2_sq_eq_zero (a b : Matrix (Fin g) (Fin s) ℝ) :
    (∑ k, ∑ i, (a k i - b k i) * (a k i - b k i) = 0) ↔ a = b := by
  rw [Finset.sum_eq_zero_iff_of_nonneg fun k _ => Finset.sum_nonneg fun i _ => mul_self_nonneg _]
  constructor
  · intro h
    funext k
    exact (sum_sq_eq_zero _ _).1 (h k (Finset.mem_univ _))
  · rintro rfl k _
    exact (sum_sq_eq_zero _ _).2 rfl

/-! ### One element -/

/-- C67: the squared L2 error of an element is `Σ_q w_q |det J_q| |u_h(x_q) - u(x_q)|²`. For non-negative weights it is
not negative; for positive weights and regular Jacobians it is zero exactly if `u_h` equals `u` at every quadrature
point. The error itself is its square root. -/
theorem C67_element_l2 (el : Elem g g) (hel : WellFormed el) (u : Point g ℝ → Fin s → ℝ) (uh : List ℝ)
    (weights : List ℝ) (points : List (Point g ℝ)) (hu : uh.length = el.numNodes * s) :
    ∃ E, elementL2ErrorSquared el u uh weights points = some E ∧
      E = quadrature el (weights.zip points) (fun p => ∑ i, (interp s (el.basis p) uh i - u (el.map p) i) ^ 2) ∧
      elementL2Error el u uh weights points = some (Real.sqrt E) ∧
      ((∀ q ∈ weights.zip points, 0 ≤ q.1) → 0 ≤ E) ∧
      ((∀ q ∈ weights.zip points, 0 < q.1 ∧ (el.jacobian q.2).det ≠ 0) →
        (E = 0 ↔ ∀ q ∈ weights.zip points, interp s (el.basis q.2) uh = u (el.map q.2))) := by
  obtain ⟨I, h1, h2⟩ := C66_integral_is_quadrature_sum (l2Integrand u) el hel weights points uh (by rw [hu, Nat.mul_comm])
  have h3 : elementL2ErrorSquared el u uh weights points = some (I 0) := by
    rw [elementL2ErrorSquared, if_pos hu, h1, Option.map_some]
  refine ⟨I 0, h3, ?_, ?_, ?_, ?_⟩
  · rw [h2]
    simp only [l2Integrand, ufn, sq]
  · rw [elementL2Error, h3, Option.map_some]
  · intro hw
    rw [h2]
    exact quadrature_nonneg el _ hw _ fun p => Finset.sum_nonneg fun i _ => mul_self_nonneg _
  · intro hw
    have h4 : I 0 = quadrature el (weights.zip points) (fun p => ∑ i,
        (interp s (el.basis p) uh i - u (el.map p) i) * (interp s (el.basis p) uh i - u (el.map p) i)) := h2 0
    rw [h4, quadrature_eq_zero el _ (fun q hq => (hw q hq).1) (fun q hq => stretch_pos _ (hw q hq).2) _
      fun p => Finset.sum_nonneg fun i _ => mul_self_nonneg _]
    exact forall₂_congr fun q _ => sum_sq_eq_zero _ _

/-- C67: the squared H1 seminorm error of an element is `Σ_q w_q |det J_q| |∇u_h(x_q) - ∇u(x_q)|²`, with the same
properties, provided that the Jacobian is regular at the quadrature points. -/
theorem C67_element_h1 (el : Elem g g) (hel : WellFormed el) (du : Point g ℝ → Matrix (Fin g) (Fin s) ℝ) (uh : List ℝ)
    (weights : List ℝ) (points : List (Point g ℝ)) (hu : uh.length = el.numNodes * s)
    (hreg : ∀ q ∈ weights.zip points, (el.jacobian q.2).det ≠ 0) :
    ∃ E, elementH1ErrorSquared el du uh weights points = some E ∧
      E = quadrature el (weights.zip points) (fun p => ∑ k, ∑ i,
        (Local.Spec.gradU s (el.jacobian p) (el.gradients p) uh k i - du (el.map p) k i) ^ 2) ∧
      elementH1Error el du uh weights points = some (Real.sqrt E) ∧
      ((∀ q ∈ weights.zip points, 0 ≤ q.1) → 0 ≤ E) ∧
      ((∀ q ∈ weights.zip points, 0 < q.1) → (E = 0 ↔ ∀ q ∈ weights.zip points,
        Local.Spec.gradU s (el.jacobian q.2) (el.gradients q.2) uh = du (el.map q.2))) := by
  obtain ⟨I, h1, h2⟩ := (C66_volume_integral (h1Integrand du) el hel weights points uh (by rw [hu, Nat.mul_comm])).2 hreg
  have h3 : elementH1ErrorSquared el du uh weights points = some (I 0) := by
    rw [elementH1ErrorSquared, if_pos hu, h1, Option.bind_some, expectOk]
  have h4 : I 0 = quadrature el (weights.zip points) (fun p => ∑ k, ∑ i,
      (Local.Spec.gradU s (el.jacobian p) (el.gradients p) uh k i - du (el.map p) k i) *
      (Local.Spec.gradU s (el.jacobian p) (el.gradients p) uh k i - du (el.map p) k i)) := by
    rw [h2, quadrature]
    congr 1
    refine List.map_congr_left fun q _ => ?_
    rw [← (C66_volume_form _).1, C66_volume_form_volume]
    rfl
  refine ⟨I 0, h3, ?_, ?_, ?_, ?_⟩
  · rw [h4]
    simp only [sq]
  · rw [elementH1Error, h3, Option.map_some]
  · intro hw
    rw [h4]
    exact quadrature_nonneg el _ hw _ fun p => Finset.sum_nonneg fun k _ => Finset.sum_nonneg fun i _ => mul_self_nonneg _
  · intro hw
    rw [h4, quadrature_eq_zero el _ hw (fun q hq => stretch_pos _ (hreg q hq)) _
      fun p => Finset.sum_nonneg fun k _ => Finset.sum_nonneg fun i _ => mul_self_nonneg _]
    exact forall₂_congr fun q _ => sum2_sq_eq_zero _ _

/-- C67: when the element functions panic. Both check the length of the weights; the H1 seminorm also panics if a Jacobian is
singular. -/
theorem C67_element_panics (el : Elem g g) (hel : WellFormed el) (u : Point g ℝ → Fin s → ℝ)
    (du : Point g ℝ → Matrix (Fin g) (Fin s) ℝ) (uh : List ℝ) (weights : List ℝ) (points : List (Point g ℝ)) :
    (elementL2ErrorSquared el u uh weights points = none ↔ uh.length ≠ el.numNodes * s) ∧
    (elementH1ErrorSquared el du uh weights points = none ↔
      uh.length ≠ el.numNodes * s ∨ ∃ q ∈ weights.zip points, (el.jacobian q.2).det = 0) := by
  by_cases hu : uh.length = el.numNodes * s
  · constructor
    · obtain ⟨E, h, -⟩ := C67_element_l2 el hel u uh weights points hu
      rw [h]
      simp [hu]
    · by_cases hs : ∃ q ∈ weights.zip points, (el.jacobian q.2).det = 0
      · have h := (C66_volume_integral (h1Integrand du) el hel weights points uh (by rw [hu, Nat.mul_comm])).1.2 hs
        rw [elementH1ErrorSquared, if_pos hu, h, Option.bind_some, expectOk]
        exact ⟨fun _ => .inr hs, fun _ => rfl⟩
      · have hreg : ∀ q ∈ weights.zip points, (el.jacobian q.2).det ≠ 0 := by push Not at hs; exact hs
        obtain ⟨E, h, -⟩ := C67_element_h1 el hel du uh weights points hu hreg
        rw [h]
        simp only [reduceCtorEq, false_iff, not_or, not_not]
        exact ⟨hu, hs⟩
  · rw [elementL2ErrorSquared, elementH1ErrorSquared, if_neg hu, if_neg hu]
    exact ⟨⟨fun _ => hu, fun _ => rfl⟩, ⟨fun _ => .inl hu, fun _ => rfl⟩⟩

/-! ### The whole mesh -/

/-- `Σ_e Σ_q w_q |det J_q| |u_h - u|²`. -/
private noncomputable def totalL2 (space : Space g g) (rules : Nat → List (ℝ × Point g ℝ)) (u : Point g ℝ → Fin s → ℝ)
    (uh : List ℝ) : ℝ :=
  ∑ e : Fin space.length, quadrature space[e].1 (rules e) fun p =>
    ∑ i, (interpAt s (space[e].1.basis p) space[e].2 uh i - u (space[e].1.map p) i) ^ 2

private noncomputable def totalH1 (space : Space g g) (rules : Nat → List (ℝ × Point g ℝ))
    (du : Point g ℝ → Matrix (Fin g) (Fin s) ℝ) (uh : List ℝ) : ℝ :=
  ∑ e : Fin space.length, quadrature space[e].1 (rules e) fun p => ∑ k, ∑ i,
    (gradAt s (space[e].1.jacobian p) (space[e].1.gradients p) space[e].2 uh k i - du (space[e].1.map p) k i) ^ 2

private theorem l2_value (space : Space g g) (numNodes : Nat) (table : Table (Point g ℝ) ℝ D)
    (rules : Nat → List (ℝ × Point g ℝ)) (h : MeshRule space numNodes table rules) (u : Point g ℝ → Fin s → ℝ)
    (uh : List ℝ) (hu : uh.length = s * numNodes) (bufs : Nat → Buffer (Point g ℝ) ℝ Unit) :
    l2ErrorSquared space numNodes u uh table bufs = some (.ok (totalL2 space rules u uh)) := by
  rw [l2ErrorSquared, if_pos (by rw [buildCheck, hu, Nat.mul_comm]; exact decide_eq_true rfl),
    C66_mesh_integral space numNodes table rules h (l2Integrand u) Nat.one_pos uh hu bufs, totalL2]
  simp only [l2Integrand, ufn, sq]

private theorem h1_value (space : Space g g) (numNodes : Nat) (table : Table (Point g ℝ) ℝ D)
    (rules : Nat → List (ℝ × Point g ℝ)) (h : MeshRule space numNodes table rules)
    (du : Point g ℝ → Matrix (Fin g) (Fin s) ℝ)
    (uh : List ℝ) (hu : uh.length = s * numNodes) (bufs : Nat → Buffer (Point g ℝ) ℝ Unit)
    (hreg : ∀ e : Fin space.length, ∀ q ∈ rules e, (space[e].1.jacobian q.2).det ≠ 0) :
    h1ErrorSquared space numNodes du uh table bufs = some (.ok (totalH1 space rules du uh)) := by
  rw [h1ErrorSquared, if_pos (by rw [buildCheck, hu, Nat.mul_comm]; exact decide_eq_true rfl),
    (C66_mesh_volume_integral space numNodes table rules h (h1Integrand du) Nat.one_pos uh hu bufs).1 hreg, totalH1]
  simp only [h1Integrand, ugradfn, sq]

private theorem total_eq_zero (space : Space g g) (rules : Nat → List (ℝ × Point g ℝ))
    (F : Fin space.length → Point g ℝ → ℝ) (hF : ∀ e p, 0 ≤ F e p)
    (hw : ∀ e : Fin space.length, ∀ q ∈ rules e, 0 < q.1 ∧ (space[e].1.jacobian q.2).det ≠ 0) :
    (∑ e : Fin space.length, quadrature space[e].1 (rules e) (F e) = 0) ↔
      ∀ e : Fin space.length, ∀ q ∈ rules e, F e q.2 = 0 := by
  rw [Finset.sum_eq_zero_iff_of_nonneg fun e _ =>
    quadrature_nonneg _ _ (fun q hq => (hw e q hq).1.le) _ (hF e)]
  constructor
  · intro h e
    exact (quadrature_eq_zero _ _ (fun q hq => (hw e q hq).1) (fun q hq => stretch_pos _ (hw e q hq).2) _ (hF e)).1
      (h e (Finset.mem_univ _))
  · intro h e _
    exact (quadrature_eq_zero _ _ (fun q hq => (hw e q hq).1) (fun q hq => stretch_pos _ (hw e q hq).2) _ (hF e)).2 (h e)

/-- C67: the L2 error over a mesh never fails for a solution of the right length: it is the square root of the sum over all
elements and their quadrature points of `w |det J| |u_h - u|²`; it is zero, for positive weights and regular Jacobians,
exactly if `u_h` and `u` agree at all quadrature points of all elements. A wrong length panics. -/
theorem C67_mesh_l2 (space : Space g g) (numNodes : Nat) (table : Table (Point g ℝ) ℝ D)
    (rules : Nat → List (ℝ × Point g ℝ)) (h : MeshRule space numNodes table rules) (u : Point g ℝ → Fin s → ℝ)
    (uh : List ℝ) (bufs : Nat → Buffer (Point g ℝ) ℝ Unit) :
    (uh.length ≠ s * numNodes → l2Error space numNodes u uh table bufs = none) ∧
    (uh.length = s * numNodes → ∃ E, l2ErrorSquared space numNodes u uh table bufs = some (.ok E) ∧
      l2Error space numNodes u uh table bufs = some (.ok (Real.sqrt E)) ∧
      E = ∑ e : Fin space.length, quadrature space[e].1 (rules e) (fun p =>
        ∑ i, (interpAt s (space[e].1.basis p) space[e].2 uh i - u (space[e].1.map p) i) ^ 2) ∧
      ((∀ e : Fin space.length, ∀ q ∈ rules e, 0 ≤ q.1) → 0 ≤ E) ∧
      ((∀ e : Fin space.length, ∀ q ∈ rules e, 0 < q.1 ∧ (space[e].1.jacobian q.2).det ≠ 0) →
        (E = 0 ↔ ∀ e : Fin space.length, ∀ q ∈ rules e,
          interpAt s (space[e].1.basis q.2) space[e].2 uh = u (space[e].1.map q.2)))) := by
  constructor
  · intro hu
    rw [l2Error, l2ErrorSquared, if_neg, Option.map_none]
    rw [buildCheck, decide_eq_true_eq, Nat.mul_comm]
    exact hu
  · intro hu
    have h1 := l2_value space numNodes table rules h u uh hu bufs
    refine ⟨_, h1, by rw [l2Error, h1]; rfl, rfl, ?_, ?_⟩
    · intro hw
      exact Finset.sum_nonneg fun e _ => quadrature_nonneg _ _ (hw e) _ fun p => Finset.sum_nonneg fun i _ => sq_nonneg _
    · intro hw
      rw [totalL2, total_eq_zero space rules _ (fun e p => Finset.sum_nonneg fun i _ => sq_nonneg _) hw]
      refine forall_congr' fun e => forall₂_congr fun q _ => ?_
      simp only [sq]
      exact sum_sq_eq_zero _ _

/-- C67: the H1 seminorm error over a mesh likewise; it returns an error exactly if the Jacobian is singular at some
quadrature point. -/
theorem C67_mesh_h1 (space : Space g g) (numNodes : Nat) (table : Table (Point g ℝ) ℝ D)
    (rules : Nat → List (ℝ × Point g ℝ)) (h : MeshRule space numNodes table rules)
    (du : Point g ℝ → Matrix (Fin g) (Fin s) ℝ) (uh : List ℝ) (bufs : Nat → Buffer (Point g ℝ) ℝ Unit) :
    (uh.length ≠ s * numNodes → h1Error space numNodes du uh table bufs = none) ∧
    (uh.length = s * numNodes → (∃ e : Fin space.length, ∃ q ∈ rules e, (space[e].1.jacobian q.2).det = 0) →
      h1Error space numNodes du uh table bufs = some (.error singularMessage)) ∧
    (uh.length = s * numNodes → (∀ e : Fin space.length, ∀ q ∈ rules e, (space[e].1.jacobian q.2).det ≠ 0) →
      ∃ E, h1ErrorSquared space numNodes du uh table bufs = some (.ok E) ∧
      h1Error space numNodes du uh table bufs = some (.ok (Real.sqrt E)) ∧
      E = ∑ e : Fin space.length, quadrature space[e].1 (rules e) (fun p => ∑ k, ∑ i,
        (gradAt s (space[e].1.jacobian p) (space[e].1.gradients p) space[e].2 uh k i
          - du (space[e].1.map p) k i) ^ 2) ∧
      ((∀ e : Fin space.length, ∀ q ∈ rules e, 0 ≤ q.1) → 0 ≤ E) ∧
      ((∀ e : Fin space.length, ∀ q ∈ rules e, 0 < q.1) →
        (E = 0 ↔ ∀ e : Fin space.length, ∀ q ∈ rules e,
          gradAt s (space[e].1.jacobian q.2) (space[e].1.gradients q.2) space[e].2 uh
            = du (space[e].1.map q.2)))) := by
  refine ⟨?_, ?_, ?_⟩
  · intro hu
    rw [h1Error, h1ErrorSquared, if_neg, Option.map_none]
    rw [buildCheck, decide_eq_true_eq, Nat.mul_comm]
    exact hu
  · intro hu hs
    rw [h1Error, h1ErrorSquared, if_pos (by rw [buildCheck, hu, Nat.mul_comm]; exact decide_eq_true rfl),
      (C66_mesh_volume_integral space numNodes table rules h (h1Integrand du) Nat.one_pos uh hu bufs).2 hs]
    rfl
  · intro hu hreg
    have h1 := h1_value space numNodes table rules h du uh hu bufs hreg
    refine ⟨_, h1, by rw [h1Error, h1]; rfl, rfl, ?_, ?_⟩
    · intro hw
      exact Finset.sum_nonneg fun e _ => quadrature_nonneg _ _ (hw e) _ fun p =>
        Finset.sum_nonneg fun k _ => Finset.sum_nonneg fun i _ => sq_nonneg _
    · intro hw
      rw [totalH1, total_eq_zero space rules _ (fun e p => Finset.sum_nonneg fun k _ =>
        Finset.sum_nonneg fun i _ => sq_nonneg _) fun e q hq => ⟨hw e q hq, hreg e q hq⟩]
      refine forall_congr' fun e => forall₂_congr fun q _ => ?_
      simp only [sq]
      exact sum2_sq_eq_zero _ _

/-! ### The errors are seminorms -/

/-- If `A t² + 2 C t + B` is never negative then `√(A + 2 C + B) ≤ √A + √B`. -/
private theorem sqrt_triangle (A B C : ℝ) (hA : 0 ≤ A) (hB : 0 ≤ B) (h : ∀ t : ℝ, 0 ≤ A * (t * t) + 2 * C * t + B) :
    Real.sqrt (A + 2 * C + B) ≤ Real.sqrt A + Real.sqrt B := by
  have hd := discrim_le_zero h
  rw [discrim] at hd
  have hC : C ≤ Real.sqrt A * Real.sqrt B := by
    rw [← Real.sqrt_mul hA]
    refine Real.le_sqrt_of_sq_le ?_
    nlinarith
  refine Real.sqrt_le_iff.2 ⟨add_nonneg (Real.sqrt_nonneg _) (Real.sqrt_nonneg _), ?_⟩
  have h1 := Real.sq_sqrt hA
  have h2 := Real.sq_sqrt hB
  nlinarith

private theorem getD_zipWith (a b : List ℝ) (h : a.length = b.length) (i : Nat) :
    (List.zipWith (· + ·) a b).getD i 0 = a.getD i 0 + b.getD i 0 := by
  simp only [List.getD_eq_getElem?_getD, List.getElem?_zipWith]
  by_cases hi : i < a.length
  · rw [List.getElem?_eq_getElem hi, List.getElem?_eq_getElem (h ▸ hi)]
    rfl
  · rw [List.getElem?_eq_none (by omega), List.getElem?_eq_none (by omega)]
    simp

private theorem getD_map_mul (a : List ℝ) (c : ℝ) (i : Nat) : (a.map (c * ·)).getD i 0 = c * a.getD i 0 := by
  simp only [List.getD_eq_getElem?_getD, List.getElem?_map]
  cases a[i]? <;> simp

private theorem interpAt_add (phi : List ℝ) (nodes : List Nat) (u v : List ℝ) (h : u.length = v.length) (i : Fin s) :
    interpAt s phi nodes (List.zipWith (· + ·) u v) i = interpAt s phi nodes u i + interpAt s phi nodes v i := by
  simp only [interpAt, getD_zipWith u v h, mul_add, Finset.sum_add_distrib]

private theorem interpAt_smul (phi : List ℝ) (nodes : List Nat) (u : List ℝ) (c : ℝ) (i : Fin s) :
    interpAt s phi nodes (u.map (c * ·)) i = c * interpAt s phi nodes u i := by
  simp only [interpAt, getD_map_mul, Finset.mul_sum]
  exact Finset.sum_congr rfl fun _ _ => by ring

private theorem gradAt_add (J : Matrix (Fin g) (Fin g) ℝ) (gs : List (Point g ℝ)) (nodes : List Nat) (u v : List ℝ)
    (h : u.length = v.length) (k : Fin g) (i : Fin s) :
    gradAt s J gs nodes (List.zipWith (· + ·) u v) k i = gradAt s J gs nodes u k i + gradAt s J gs nodes v k i := by
  simp only [gradAt, getD_zipWith u v h, mul_add, Finset.sum_add_distrib]

private theorem gradAt_smul (J : Matrix (Fin g) (Fin g) ℝ) (gs : List (Point g ℝ)) (nodes : List Nat) (u : List ℝ)
    (c : ℝ) (k : Fin g) (i : Fin s) :
    gradAt s J gs nodes (u.map (c * ·)) k i = c * gradAt s J gs nodes u k i := by
  simp only [gradAt, getD_map_mul, Finset.mul_sum]
  exact Finset.sum_congr rfl fun _ _ => by ring

/-- `Σ_e Σ_q w_q |det J_q| F_e(ξ_q)`. -/
private noncomputable def total (space : Space g g) (rules : Nat → List (ℝ × Point g ℝ))
    (F : Fin space.length → Point g ℝ → ℝ) : ℝ :=
  ∑ e : Fin space.length, quadrature space[e].1 (rules e) (F e)

private theorem total_add (space : Space g g) (rules : Nat → List (ℝ × Point g ℝ))
    (F G : Fin space.length → Point g ℝ → ℝ) :
    total space rules (fun e p => F e p + G e p) = total space rules F + total space rules G := by
  rw [total, total, total, ← Finset.sum_add_distrib]
  refine Finset.sum_congr rfl fun e _ => ?_
  simp only [quadrature, mul_add, List.sum_map_add]

private theorem total_smul (space : Space g g) (rules : Nat → List (ℝ × Point g ℝ)) (c : ℝ)
    (F : Fin space.length → Point g ℝ → ℝ) :
    total space rules (fun e p => c * F e p) = c * total space rules F := by
  rw [total, total, Finset.mul_sum]
  refine Finset.sum_congr rfl fun e _ => ?_
  rw [quadrature, quadrature, ← List.sum_map_mul_left]
  congr 1
  exact List.map_congr_left fun q _ => by ring

private theorem total_nonneg (space : Space g g) (rules : Nat → List (ℝ × Point g ℝ))
    (hw : ∀ e : Fin space.length, ∀ q ∈ rules e, 0 ≤ q.1)
    (F : Fin space.length → Point g ℝ → ℝ) (hF : ∀ e p, 0 ≤ F e p) : 0 ≤ total space rules F :=
  Finset.sum_nonneg fun e _ => quadrature_nonneg _ _ (hw e) _ (hF e)

private theorem total_triangle {ι : Type} [Fintype ι] (space : Space g g) (rules : Nat → List (ℝ × Point g ℝ))
    (hw : ∀ e : Fin space.length, ∀ q ∈ rules e, 0 ≤ q.1) (a b : Fin space.length → Point g ℝ → ι → ℝ) :
    Real.sqrt (total space rules fun e p => ∑ i, (a e p i + b e p i) ^ 2)
      ≤ Real.sqrt (total space rules fun e p => ∑ i, a e p i ^ 2)
        + Real.sqrt (total space rules fun e p => ∑ i, b e p i ^ 2) := by
  have expand : ∀ t : ℝ, total space rules (fun e p => ∑ i, (t * a e p i + b e p i) ^ 2)
      = total space rules (fun e p => ∑ i, a e p i ^ 2) * (t * t)
        + 2 * total space rules (fun e p => ∑ i, a e p i * b e p i) * t
        + total space rules (fun e p => ∑ i, b e p i ^ 2) := by
    intro t
    have h1 : (fun (e : Fin space.length) (p : Point g ℝ) => ∑ i, (t * a e p i + b e p i) ^ 2) = fun e p =>
        ((t * t) * ∑ i, a e p i ^ 2 + (2 * t) * ∑ i, a e p i * b e p i) + ∑ i, b e p i ^ 2 := by
      funext e p
      rw [Finset.mul_sum, Finset.mul_sum, ← Finset.sum_add_distrib, ← Finset.sum_add_distrib]
      exact Finset.sum_congr rfl fun _ _ => by ring
    rw [h1, total_add, total_add, total_smul, total_smul]
    ring
  have h := expand 1
  simp only [one_mul, mul_one] at h
  rw [h]
  refine sqrt_triangle _ _ _ (total_nonneg space rules hw _ fun _ _ => Finset.sum_nonneg fun i _ => sq_nonneg _)
    (total_nonneg space rules hw _ fun _ _ => Finset.sum_nonneg fun i _ => sq_nonneg _) fun t => ?_
  rw [← expand t]
  exact total_nonneg space rules hw _ fun _ _ => Finset.sum_nonneg fun i _ => sq_nonneg _

/-- C67: with non-negative weights the L2 error over a mesh is a seminorm: the error of a sum of two solutions, against
the sum of the two references, is at most the sum of the errors, and a common factor comes out as its absolute
value. -/
theorem C67_l2_seminorm (space : Space g g) (numNodes : Nat) (table : Table (Point g ℝ) ℝ D)
    (rules : Nat → List (ℝ × Point g ℝ)) (h : MeshRule space numNodes table rules)
    (hw : ∀ e : Fin space.length, ∀ q ∈ rules e, 0 ≤ q.1) (u v : Point g ℝ → Fin s → ℝ) (uh vh : List ℝ)
    (hu : uh.length = s * numNodes) (hv : vh.length = s * numNodes) (bufs : Nat → Buffer (Point g ℝ) ℝ Unit) (c : ℝ) :
    ∃ Eu Ev Es Ec, l2Error space numNodes u uh table bufs = some (.ok Eu) ∧
      l2Error space numNodes v vh table bufs = some (.ok Ev) ∧
      l2Error space numNodes (fun x i => u x i + v x i) (List.zipWith (· + ·) uh vh) table bufs = some (.ok Es) ∧
      l2Error space numNodes (fun x i => c * u x i) (uh.map (c * ·)) table bufs = some (.ok Ec) ∧
      Es ≤ Eu + Ev ∧ Ec = |c| * Eu := by
  have key : ∀ (u : Point g ℝ → Fin s → ℝ) (uh : List ℝ), uh.length = s * numNodes →
      l2Error space numNodes u uh table bufs = some (.ok (Real.sqrt (total space rules fun e p => ∑ i,
        (interpAt s (space[e].1.basis p) space[e].2 uh i - u (space[e].1.map p) i) ^ 2))) := by
    intro u uh hu
    rw [l2Error, l2_value space numNodes table rules h u uh hu bufs]
    rfl
  refine ⟨_, _, _, _, key u uh hu, key v vh hv, key _ _ (by simp [hu, hv]), key _ _ (by simpa using hu), ?_, ?_⟩
  · simp only [interpAt_add _ _ uh vh (hu.trans hv.symm)]
    refine le_trans (le_of_eq ?_) (total_triangle space rules hw
      (fun e p i => interpAt s (space[e].1.basis p) space[e].2 uh i - u (space[e].1.map p) i)
      (fun e p i => interpAt s (space[e].1.basis p) space[e].2 vh i - v (space[e].1.map p) i))
    congr 2
    funext e p
    exact Finset.sum_congr rfl fun i _ => by ring
  · simp only [interpAt_smul]
    rw [← Real.sqrt_sq_eq_abs, ← Real.sqrt_mul (sq_nonneg c), ← total_smul]
    congr 2
    funext e p
    rw [Finset.mul_sum]
    exact Finset.sum_congr rfl fun i _ => by ring

/-- C67: the H1 seminorm error likewise, on meshes with regular Jacobians. -/
theorem C67_h1_seminorm (space : Space g g) (numNodes : Nat) (table : Table (Point g ℝ) ℝ D)
    (rules : Nat → List (ℝ × Point g ℝ)) (h : MeshRule space numNodes table rules)
    (hw : ∀ e : Fin space.length, ∀ q ∈ rules e, 0 ≤ q.1 ∧ (space[e].1.jacobian q.2).det ≠ 0)
    (du dv : Point g ℝ → Matrix (Fin g) (Fin s) ℝ) (uh vh : List ℝ)
    (hu : uh.length = s * numNodes) (hv : vh.length = s * numNodes) (bufs : Nat → Buffer (Point g ℝ) ℝ Unit) (c : ℝ) :
    ∃ Eu Ev Es Ec, h1Error space numNodes du uh table bufs = some (.ok Eu) ∧
      h1Error space numNodes dv vh table bufs = some (.ok Ev) ∧
      h1Error space numNodes (fun x => du x + dv x) (List.zipWith (· + ·) uh vh) table bufs = some (.ok Es) ∧
      h1Error space numNodes (fun x => c • du x) (uh.map (c * ·)) table bufs = some (.ok Ec) ∧
      Es ≤ Eu + Ev ∧ Ec = |c| * Eu := by
  have key : ∀ (du : Point g ℝ → Matrix (Fin g) (Fin s) ℝ) (uh : List ℝ), uh.length = s * numNodes →
      h1Error space numNodes du uh table bufs = some (.ok (Real.sqrt (total space rules fun e p => ∑ ki : Fin g × Fin s,
        (gradAt s (space[e].1.jacobian p) (space[e].1.gradients p) space[e].2 uh ki.1 ki.2
          - du (space[e].1.map p) ki.1 ki.2) ^ 2))) := by
    intro du uh hu
    rw [h1Error, h1_value space numNodes table rules h du uh hu bufs fun e q hq => (hw e q hq).2]
    simp only [Fintype.sum_prod_type]
    rfl
  refine ⟨_, _, _, _, key du uh hu, key dv vh hv, key _ _ (by simp [hu, hv]), key _ _ (by simpa using hu), ?_, ?_⟩
  · simp only [gradAt_add _ _ _ uh vh (hu.trans hv.symm)]
    refine le_trans (le_of_eq ?_) (total_triangle space rules (fun e q hq => (hw e q hq).1)
      (fun e p (ki : Fin g × Fin s) => gradAt s (space[e].1.jacobian p) (space[e].1.gradients p) space[e].2 uh ki.1 ki.2
        - du (space[e].1.map p) ki.1 ki.2)
      (fun e p (ki : Fin g × Fin s) => gradAt s (space[e].1.jacobian p) (space[e].1.gradients p) space[e].2 vh ki.1 ki.2
        - dv (space[e].1.map p) ki.1 ki.2))
    congr 2
    funext e p
    exact Finset.sum_congr rfl fun i _ => by rw [Matrix.add_apply]; ring
  · simp only [gradAt_smul]
    rw [← Real.sqrt_sq_eq_abs, ← Real.sqrt_mul (sq_nonneg c), ← total_smul]
    congr 2
    funext e p
    rw [Finset.mul_sum]
    exact Finset.sum_congr rfl fun i _ => by rw [Matrix.smul_apply, smul_eq_mul]; ring

/-! ### A concrete mesh -/

private noncomputable def tri : Elem 2 2 := ofKind 2 .tri3 [![0, 0], ![2, 0], ![0, 1]]

private theorem tri_wellFormed : WellFormed tri := fun _ => ⟨rfl, rfl⟩

private theorem tri_regular (p : Point 2 ℝ) : (tri.jacobian p).det = 1 / 2 := by
  rw [Matrix.det_fin_two]
  simp [tri, ofKind, Element.referenceJacobian, Element.weightedSum,
    Element.geometryGradients, Element.Kind.numNodes, Element.tri3Gradients, Element.tri3G]

private def pairMesh : Space 2 2 → Prop := fun sp => sp = [(tri, [0, 1, 2]), (tri, [3, 2, 1])]

/-- The hypotheses of the theorems about meshes hold for two triangles and four nodes, with a rule of two points with
positive weights. -/
example : ∃ space : Space 2 2, pairMesh space ∧
    MeshRule (D := Unit) space 4 (Uniform.table ⟨[![0, 0], ![-1 / 2, -1 / 2]], [1, 1], [(), ()]⟩)
      (fun _ => [(1, ![0, 0]), (1, ![-1 / 2, -1 / 2])]) ∧
    ∀ e : Fin space.length, ∀ q ∈ ([(1, ![0, 0]), (1, ![-1 / 2, -1 / 2])] : List (ℝ × Point 2 ℝ)),
      0 < q.1 ∧ (space[e].1.jacobian q.2).det ≠ 0 := by
  refine ⟨_, rfl, ⟨?_, ?_, ?_, ?_⟩, ?_⟩
  · intro en hen
    simp only [List.mem_cons, List.not_mem_nil, or_false] at hen
    rcases hen with rfl | rfl <;> exact tri_wellFormed
  · intro en hen
    simp only [List.mem_cons, List.not_mem_nil, or_false] at hen
    rcases hen with rfl | rfl <;> rfl
  · intro en hen
    simp only [List.mem_cons, List.not_mem_nil, or_false] at hen
    rcases hen with rfl | rfl <;> decide
  · intro e _ b
    exact C27_weights_and_points _ e _ _ [(), ()] (fun b => (C27_uniform_returns_the_rule (P := Point 2 ℝ) (W := ℝ)
      (D := Unit) [![0, 0], ![-1 / 2, -1 / 2]] [1, 1] [(), ()]).2 _ rfl e b) b
  · intro e q hq
    constructor
    · simp only [List.mem_cons, List.not_mem_nil, or_false] at hq
      rcases hq with rfl | rfl <;> norm_num
    · have : ∀ en ∈ ([(tri, [0, 1, 2]), (tri, [3, 2, 1])] : Space 2 2), (en.1.jacobian q.2).det ≠ 0 := by
        intro en hen
        simp only [List.mem_cons, List.not_mem_nil, or_false] at hen
        rcases hen with rfl | rfl <;> (rw [tri_regular]; norm_num)
      exact this _ (List.getElem_mem _)

/-- The L2 error of the zero solution against the constant 1 on the triangle of area 1 is 1. -/
example : elementL2Error tri (fun _ (_ : Fin 1) => 1) [0, 0, 0] [1, 1] [![0, 0], ![-1 / 2, -1 / 2]] = some 1 := by
  obtain ⟨E, -, h2, h3, -⟩ := C67_element_l2 tri tri_wellFormed (fun _ (_ : Fin 1) => 1) [0, 0, 0] [1, 1]
    [![0, 0], ![-1 / 2, -1 / 2]] rfl
  rw [h3, h2, quadrature]
  have hs : ∀ p, stretch (tri.jacobian p) = 1 / 2 := fun p => by
    rw [← (C66_volume_form _).1, C66_volume_form_volume, tri_regular]
    norm_num
  have hi : ∀ p (i : Fin 1), interp 1 (tri.basis p) [0, 0, 0] i = 0 := by
    intro p i
    obtain rfl : i = 0 := Subsingleton.elim _ _
    rw [interp]
    refine Finset.sum_eq_zero fun I _ => ?_
    have h3 : (I : Nat) < 3 := I.2
    have : ∀ k < 3, ([0, 0, 0] : List ℝ).getD (1 * k + 0) 0 = 0 := by
      intro k hk
      interval_cases k <;> rfl
    rw [show ((0 : Fin 1) : Nat) = 0 from rfl, this _ h3, mul_zero]
  simp only [hs, hi, List.zip_cons_cons, List.zip_nil_right, List.map_cons, List.map_nil, List.sum_cons, List.sum_nil]
  norm_num

end Integrate
end Fenris
