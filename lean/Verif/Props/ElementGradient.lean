import Mathlib.Tactic.Ring
import Mathlib.Tactic.NormNum
import Mathlib.Algebra.CharZero.Defs
import Mathlib.Tactic.FinCases
import Mathlib.Data.Fintype.Basic
import Verif.Model.Element
import Verif.Spec.Element
/-! # C37: the reported gradients are the derivatives of the basis functions -/
set_option autoImplicit false
set_option linter.unusedSectionVars false

namespace Fenris
open Element
variable {K : Type} [Field K] [CharZero K]

/-! ## Closure properties of first-order expansions along a line -/

/-- `f t = a + t b + t² q(t)`. -/
private def Exp (f : K → K) (a b : K) : Prop :=
  ∃ q : Polynomial K, ∀ t : K, f t = a + t * b + t ^ 2 * q.eval t

private theorem Exp.congr {f : K → K} {a b a' b' : K} (h : Exp f a b) (ha : a = a') (hb : b = b') :
    Exp f a' b' := by subst ha hb; exact h

private theorem Exp.const (c : K) : Exp (fun _ => c) c 0 := ⟨0, fun t => by simp⟩

private theorem Exp.line (x v : K) : Exp (fun t => x + t * v) x v := ⟨0, fun t => by simp⟩

private theorem Exp.add {f g : K → K} {a b c d : K} (hf : Exp f a b) (hg : Exp g c d) :
    Exp (fun t => f t + g t) (a + c) (b + d) := by
  obtain ⟨q, hq⟩ := hf
  obtain ⟨r, hr⟩ := hg
  exact ⟨q + r, fun t => by simp only [hq, hr, Polynomial.eval_add]; ring⟩

private theorem Exp.neg {f : K → K} {a b : K} (hf : Exp f a b) :
    Exp (fun t => -f t) (-a) (-b) := by
  obtain ⟨q, hq⟩ := hf
  exact ⟨-q, fun t => by simp only [hq, Polynomial.eval_neg]; ring⟩

private theorem Exp.sub {f g : K → K} {a b c d : K} (hf : Exp f a b) (hg : Exp g c d) :
    Exp (fun t => f t - g t) (a - c) (b - d) := by
  obtain ⟨q, hq⟩ := hf
  obtain ⟨r, hr⟩ := hg
  exact ⟨q - r, fun t => by simp only [hq, hr, Polynomial.eval_sub]; ring⟩

private theorem Exp.mul {f g : K → K} {a b c d : K} (hf : Exp f a b) (hg : Exp g c d) :
    Exp (fun t => f t * g t) (a * c) (a * d + b * c) := by
  obtain ⟨q, hq⟩ := hf
  obtain ⟨r, hr⟩ := hg
  refine ⟨Polynomial.C (b * d) + Polynomial.C a * r + Polynomial.C c * q +
    Polynomial.X * (Polynomial.C b * r + Polynomial.C d * q) + Polynomial.X ^ 2 * q * r,
    fun t => ?_⟩
  simp only [hq, hr, Polynomial.eval_add, Polynomial.eval_mul, Polynomial.eval_pow, Polynomial.eval_C,
    Polynomial.eval_X]
  ring

private theorem Exp.divc {f : K → K} {a b : K} (c : K) (hf : Exp f a b) :
    Exp (fun t => f t / c) (a / c) (b / c) := by
  obtain ⟨q, hq⟩ := hf
  exact ⟨Polynomial.C (c⁻¹) * q, fun t => by
    simp only [hq, Polynomial.eval_mul, Polynomial.eval_C, div_eq_mul_inv]; ring⟩

local macro "expand" : tactic => `(tactic|
  (repeat' first
    | exact Exp.const _
    | exact Exp.line _ _
    | apply Exp.add
    | apply Exp.sub
    | apply Exp.mul
    | apply Exp.neg
    | apply Exp.divc))

private theorem hex20Edge_deriv (a b c : K) (x v : Point 3 K) :
    Spec.HasFormalDeriv (hex20Edge a b c) x v (Spec.dot (hex20EdgeGrad a b c x) v) := by
  refine Exp.congr (f := fun t => (hex20Edge a b c) (fun k => x k + t * v k))
    (by simp only [hex20Edge]; expand) ?_ ?_
  · simp only [hex20Edge]
  · simp [hex20EdgeGrad, Spec.dot, List.ofFn_succ]
    ring

private theorem hex20Corner_deriv (a b c : K) (x v : Point 3 K) :
    Spec.HasFormalDeriv (hex20Corner a b c) x v (Spec.dot (hex20CornerGrad a b c x) v) := by
  refine Exp.congr (f := fun t => (hex20Corner a b c) (fun k => x k + t * v k))
    (by simp only [hex20Corner]; expand) ?_ ?_
  · simp only [hex20Corner]
  · simp [hex20CornerGrad, Spec.dot, List.ofFn_succ]
    ring

private theorem hex8Phi_deriv (a b c : K) (x v : Point 3 K) :
    Spec.HasFormalDeriv (hex8Phi a b c) x v (Spec.dot (hex8PhiGrad a b c x) v) := by
  refine Exp.congr (f := fun t => (hex8Phi a b c) (fun k => x k + t * v k))
    (by simp only [hex8Phi, phiLinear1d]; expand) ?_ ?_
  · simp only [hex8Phi, phiLinear1d]
  · simp [hex8PhiGrad, phiLinear1d, phiLinear1dGrad, Spec.dot, List.ofFn_succ]
    ring

private theorem hex27Phi_deriv (a b c : K) (x v : Point 3 K) :
    Spec.HasFormalDeriv (hex27Phi a b c) x v (Spec.dot (hex27PhiGrad a b c x) v) := by
  refine Exp.congr (f := fun t => (hex27Phi a b c) (fun k => x k + t * v k))
    (by simp only [hex27Phi, phiQuadratic1d]; expand) ?_ ?_
  · simp only [hex27Phi, phiQuadratic1d]
  · simp [hex27PhiGrad, phiQuadratic1d, phiQuadratic1dGrad, Spec.dot, List.ofFn_succ]
    ring

private theorem quad4Phi_deriv (a b : K) (x v : Point 2 K) :
    Spec.HasFormalDeriv (quad4Phi a b) x v (Spec.dot (quad4PhiGrad a b x) v) := by
  refine Exp.congr (f := fun t => (quad4Phi a b) (fun k => x k + t * v k))
    (by simp only [quad4Phi]; expand) ?_ ?_
  · simp only [quad4Phi]
  · simp [quad4PhiGrad, Spec.dot, List.ofFn_succ]
    ring

private theorem quad9Phi_deriv (a b : K) (x v : Point 2 K) :
    Spec.HasFormalDeriv (quad9Phi a b) x v (Spec.dot (quad9PhiGrad a b x) v) := by
  refine Exp.congr (f := fun t => (quad9Phi a b) (fun k => x k + t * v k))
    (by simp only [quad9Phi, quad9Phi1d]; expand) ?_ ?_
  · simp only [quad9Phi, quad9Phi1d]
  · simp [quad9PhiGrad, quad9Phi1d, quad9PhiGrad1d, Spec.dot, List.ofFn_succ]
    ring


/-- A function of the line parameter that is affine expands exactly. -/
private theorem tri3_line (x v : Point 2 K) (i : Nat) :
    Exp (fun t => tri3Psi (fun k => x k + t * v k) i) (tri3Psi x i) (Spec.dot (tri3G i) v) := by
  simp only [tri3Psi, tri3G]
  split
  · refine Exp.congr (by expand) rfl ?_
    simp [Spec.dot, List.ofFn_succ]; ring
  · split
    · refine Exp.congr (by expand) rfl ?_
      simp [Spec.dot, List.ofFn_succ]
    · refine Exp.congr (by expand) rfl ?_
      simp [Spec.dot, List.ofFn_succ]

private theorem tet4_line (x v : Point 3 K) (i : Nat) :
    Exp (fun t => tet4Psi (fun k => x k + t * v k) i) (tet4Psi x i) (Spec.dot (tet4G i) v) := by
  simp only [tet4Psi, tet4G]
  split
  · refine Exp.congr (by expand) rfl ?_
    simp [Spec.dot, List.ofFn_succ]; ring
  · split
    · refine Exp.congr (by expand) rfl ?_
      simp [Spec.dot, List.ofFn_succ]
    · split
      · refine Exp.congr (by expand) rfl ?_
        simp [Spec.dot, List.ofFn_succ]
      · refine Exp.congr (by expand) rfl ?_
        simp [Spec.dot, List.ofFn_succ]

local macro "expandWith " h:term : tactic => `(tactic|
  (repeat' first
    | exact Exp.const _
    | exact $h _
    | apply Exp.add
    | apply Exp.sub
    | apply Exp.mul
    | apply Exp.neg
    | apply Exp.divc))

private theorem tri6_vertex_deriv (x v : Point 2 K) (i : Nat) :
    Spec.HasFormalDeriv (fun y => quadVertex (tri3Psi y) i) x v
      (Spec.dot (quadVertexGrad (tri3Psi x) tri3G i) v) := by
  have h := tri3_line x v
  refine Exp.congr (f := fun t => quadVertex (tri3Psi (fun k => x k + t * v k)) i)
    (by simp only [quadVertex]; expandWith h) ?_ ?_
  · simp only [quadVertex]
  · simp [quadVertexGrad, Spec.dot, List.ofFn_succ]; ring

private theorem tri6_edge_deriv (x v : Point 2 K) (i j : Nat) :
    Spec.HasFormalDeriv (fun y => quadEdge (tri3Psi y) i j) x v
      (Spec.dot (quadEdgeGrad (tri3Psi x) tri3G i j) v) := by
  have h := tri3_line x v
  refine Exp.congr (f := fun t => quadEdge (tri3Psi (fun k => x k + t * v k)) i j)
    (by simp only [quadEdge]; expandWith h) ?_ ?_
  · simp only [quadEdge]
  · simp [quadEdgeGrad, Spec.dot, List.ofFn_succ]; ring

private theorem tet10_vertex_deriv (x v : Point 3 K) (i : Nat) :
    Spec.HasFormalDeriv (fun y => quadVertex (tet4Psi y) i) x v
      (Spec.dot (quadVertexGrad (tet4Psi x) tet4G i) v) := by
  have h := tet4_line x v
  refine Exp.congr (f := fun t => quadVertex (tet4Psi (fun k => x k + t * v k)) i)
    (by simp only [quadVertex]; expandWith h) ?_ ?_
  · simp only [quadVertex]
  · simp [quadVertexGrad, Spec.dot, List.ofFn_succ]; ring

private theorem tet10_edge_deriv (x v : Point 3 K) (i j : Nat) :
    Spec.HasFormalDeriv (fun y => quadEdge (tet4Psi y) i j) x v
      (Spec.dot (quadEdgeGrad (tet4Psi x) tet4G i j) v) := by
  have h := tet4_line x v
  refine Exp.congr (f := fun t => quadEdge (tet4Psi (fun k => x k + t * v k)) i j)
    (by simp only [quadEdge]; expandWith h) ?_ ?_
  · simp only [quadEdge]
  · simp [quadEdgeGrad, Spec.dot, List.ofFn_succ]; ring

private theorem tet20_vertex_deriv (x v : Point 3 K) (i : Nat) :
    Spec.HasFormalDeriv (fun y => cubicVertex (tet4Psi y) i) x v
      (Spec.dot (cubicVertexGrad (tet4Psi x) tet4G i) v) := by
  have h := tet4_line x v
  refine Exp.congr (f := fun t => cubicVertex (tet4Psi (fun k => x k + t * v k)) i)
    (by simp only [cubicVertex]; expandWith h) ?_ ?_
  · simp only [cubicVertex]
  · simp [cubicVertexGrad, Spec.dot, List.ofFn_succ]; ring

private theorem tet20_edge_deriv (x v : Point 3 K) (i j : Nat) :
    Spec.HasFormalDeriv (fun y => cubicEdge (tet4Psi y) i j) x v
      (Spec.dot (cubicEdgeGrad (tet4Psi x) tet4G i j) v) := by
  have h := tet4_line x v
  refine Exp.congr (f := fun t => cubicEdge (tet4Psi (fun k => x k + t * v k)) i j)
    (by simp only [cubicEdge]; expandWith h) ?_ ?_
  · simp only [cubicEdge]
  · simp [cubicEdgeGrad, Spec.dot, List.ofFn_succ]; ring

private theorem tet20_face_deriv (x v : Point 3 K) (i j l : Nat) :
    Spec.HasFormalDeriv (fun y => cubicFace (tet4Psi y) i j l) x v
      (Spec.dot (cubicFaceGrad (tet4Psi x) tet4G i j l) v) := by
  have h := tet4_line x v
  refine Exp.congr (f := fun t => cubicFace (tet4Psi (fun k => x k + t * v k)) i j l)
    (by simp only [cubicFace]; expandWith h) ?_ ?_
  · simp only [cubicFace]
  · simp [cubicFaceGrad, Spec.dot, List.ofFn_succ]; ring

private theorem segment2_deriv0 (x v : Point 1 K) :
    Spec.HasFormalDeriv (fun y => (1 - y 0) / 2) x v (Spec.dot ![-1 / 2] v) := by
  refine Exp.congr (f := fun t => (1 - (x 0 + t * v 0)) / 2) (by expand) rfl ?_
  simp [Spec.dot, List.ofFn_succ]; ring

private theorem segment2_deriv1 (x v : Point 1 K) :
    Spec.HasFormalDeriv (fun y => (1 + y 0) / 2) x v (Spec.dot ![1 / 2] v) := by
  refine Exp.congr (f := fun t => (1 + (x 0 + t * v 0)) / 2) (by expand) rfl ?_
  simp [Spec.dot, List.ofFn_succ]; ring

private theorem forall₂_get {d : Nat} {P : (Point d K → K) → Point d K → Prop} :
    ∀ {fs : List (Point d K → K)} {gs : List (Point d K)}, List.Forall₂ P fs gs →
    ∀ (i : Nat) (G : Point d K), gs[i]? = some G → P (fun y => (fs.map (fun f => f y)).getD i 0) G := by
  intro fs gs h
  induction h with
  | nil => intro i G hG; simp at hG
  | cons h1 _ ih =>
    intro i G hG
    cases i with
    | zero => simp at hG; subst hG; simpa using h1
    | succ i => simpa using ih i G (by simpa using hG)

/-- **C37.** Column `i` of the gradient matrix is the gradient of basis function `i`: along every
line `x + t v`, the derivative of the basis function is the inner product of `v` with that
column. -/
theorem C37_gradient_is_formal_derivative (e : Kind) (i : Nat) (x v G : Point e.dim K)
    (hG : (gradients e x)[i]? = some G) :
    Spec.HasFormalDeriv (fun y => (basis e y).getD i 0) x v (Spec.dot G v) := by
  cases e
  case segment2 =>
    refine forall₂_get (P := fun f G => Spec.HasFormalDeriv f x v (Spec.dot G v))
      (fs := [fun y => (1 - y 0) / 2, fun y => (1 + y 0) / 2]) ?_ i G hG
    exact .cons (segment2_deriv0 x v) (.cons (segment2_deriv1 x v) .nil)
  case tri3 =>
    refine forall₂_get (P := fun f G => Spec.HasFormalDeriv f x v (Spec.dot G v))
      (fs := [fun y => tri3Psi y 0, fun y => tri3Psi y 1, fun y => tri3Psi y 2]) ?_ i G hG
    exact .cons (tri3_line x v 0) (.cons (tri3_line x v 1) (.cons (tri3_line x v 2) .nil))
  case tet4 =>
    refine forall₂_get (P := fun f G => Spec.HasFormalDeriv f x v (Spec.dot G v))
      (fs := [fun y => tet4Psi y 0, fun y => tet4Psi y 1, fun y => tet4Psi y 2,
        fun y => tet4Psi y 3]) ?_ i G hG
    exact .cons (tet4_line x v 0) (.cons (tet4_line x v 1) (.cons (tet4_line x v 2)
      (.cons (tet4_line x v 3) .nil)))
  case tri6 =>
    refine forall₂_get (P := fun f G => Spec.HasFormalDeriv f x v (Spec.dot G v))
      (fs := [fun y => quadVertex (tri3Psi y) 0,
        fun y => quadVertex (tri3Psi y) 1,
        fun y => quadVertex (tri3Psi y) 2,
        fun y => quadEdge (tri3Psi y) 0 1,
        fun y => quadEdge (tri3Psi y) 1 2,
        fun y => quadEdge (tri3Psi y) 0 2]) ?_ i G hG
    repeat' first
      | exact .nil
      | apply List.Forall₂.cons
      | exact tri6_vertex_deriv x v _
      | exact tri6_edge_deriv x v _ _
  case quad4 =>
    refine forall₂_get (P := fun f G => Spec.HasFormalDeriv f x v (Spec.dot G v))
      (fs := [quad4Phi (-1) (-1),
        quad4Phi 1 (-1),
        quad4Phi 1 1,
        quad4Phi (-1) 1]) ?_ i G hG
    repeat' first
      | exact .nil
      | apply List.Forall₂.cons
      | exact quad4Phi_deriv _ _ x v
  case quad9 =>
    refine forall₂_get (P := fun f G => Spec.HasFormalDeriv f x v (Spec.dot G v))
      (fs := [quad9Phi (-1) (-1),
        quad9Phi 1 (-1),
        quad9Phi 1 1,
        quad9Phi (-1) 1,
        quad9Phi 0 (-1),
        quad9Phi 1 0,
        quad9Phi 0 1,
        quad9Phi (-1) 0,
        quad9Phi 0 0]) ?_ i G hG
    repeat' first
      | exact .nil
      | apply List.Forall₂.cons
      | exact quad9Phi_deriv _ _ x v
  case tet10 =>
    refine forall₂_get (P := fun f G => Spec.HasFormalDeriv f x v (Spec.dot G v))
      (fs := [fun y => quadVertex (tet4Psi y) 0,
        fun y => quadVertex (tet4Psi y) 1,
        fun y => quadVertex (tet4Psi y) 2,
        fun y => quadVertex (tet4Psi y) 3,
        fun y => quadEdge (tet4Psi y) 0 1,
        fun y => quadEdge (tet4Psi y) 1 2,
        fun y => quadEdge (tet4Psi y) 0 2,
        fun y => quadEdge (tet4Psi y) 0 3,
        fun y => quadEdge (tet4Psi y) 2 3,
        fun y => quadEdge (tet4Psi y) 1 3]) ?_ i G hG
    repeat' first
      | exact .nil
      | apply List.Forall₂.cons
      | exact tet10_vertex_deriv x v _
      | exact tet10_edge_deriv x v _ _
  case tet20 =>
    refine forall₂_get (P := fun f G => Spec.HasFormalDeriv f x v (Spec.dot G v))
      (fs := [fun y => cubicVertex (tet4Psi y) 0,
        fun y => cubicVertex (tet4Psi y) 1,
        fun y => cubicVertex (tet4Psi y) 2,
        fun y => cubicVertex (tet4Psi y) 3,
        fun y => cubicEdge (tet4Psi y) 0 1,
        fun y => cubicEdge (tet4Psi y) 1 0,
        fun y => cubicEdge (tet4Psi y) 0 2,
        fun y => cubicEdge (tet4Psi y) 2 0,
        fun y => cubicEdge (tet4Psi y) 0 3,
        fun y => cubicEdge (tet4Psi y) 3 0,
        fun y => cubicEdge (tet4Psi y) 1 2,
        fun y => cubicEdge (tet4Psi y) 2 1,
        fun y => cubicEdge (tet4Psi y) 1 3,
        fun y => cubicEdge (tet4Psi y) 3 1,
        fun y => cubicEdge (tet4Psi y) 2 3,
        fun y => cubicEdge (tet4Psi y) 3 2,
        fun y => cubicFace (tet4Psi y) 0 1 2,
        fun y => cubicFace (tet4Psi y) 0 1 3,
        fun y => cubicFace (tet4Psi y) 0 2 3,
        fun y => cubicFace (tet4Psi y) 1 2 3]) ?_ i G hG
    repeat' first
      | exact .nil
      | apply List.Forall₂.cons
      | exact tet20_vertex_deriv x v _
      | exact tet20_edge_deriv x v _ _
      | exact tet20_face_deriv x v _ _ _
  case hex8 =>
    refine forall₂_get (P := fun f G => Spec.HasFormalDeriv f x v (Spec.dot G v))
      (fs := [hex8Phi (-1) (-1) (-1),
        hex8Phi 1 (-1) (-1),
        hex8Phi 1 1 (-1),
        hex8Phi (-1) 1 (-1),
        hex8Phi (-1) (-1) 1,
        hex8Phi 1 (-1) 1,
        hex8Phi 1 1 1,
        hex8Phi (-1) 1 1]) ?_ i G hG
    repeat' first
      | exact .nil
      | apply List.Forall₂.cons
      | exact hex8Phi_deriv _ _ _ x v
  case hex20 =>
    refine forall₂_get (P := fun f G => Spec.HasFormalDeriv f x v (Spec.dot G v))
      (fs := [hex20Corner (-1) (-1) (-1),
        hex20Corner 1 (-1) (-1),
        hex20Corner 1 1 (-1),
        hex20Corner (-1) 1 (-1),
        hex20Corner (-1) (-1) 1,
        hex20Corner 1 (-1) 1,
        hex20Corner 1 1 1,
        hex20Corner (-1) 1 1,
        hex20Edge 0 (-1) (-1),
        hex20Edge (-1) 0 (-1),
        hex20Edge (-1) (-1) 0,
        hex20Edge 1 0 (-1),
        hex20Edge 1 (-1) 0,
        hex20Edge 0 1 (-1),
        hex20Edge 1 1 0,
        hex20Edge (-1) 1 0,
        hex20Edge 0 (-1) 1,
        hex20Edge (-1) 0 1,
        hex20Edge 1 0 1,
        hex20Edge 0 1 1]) ?_ i G hG
    repeat' first
      | exact .nil
      | apply List.Forall₂.cons
      | exact hex20Corner_deriv _ _ _ x v
      | exact hex20Edge_deriv _ _ _ x v
  case hex27 =>
    refine forall₂_get (P := fun f G => Spec.HasFormalDeriv f x v (Spec.dot G v))
      (fs := [hex27Phi (-1) (-1) (-1),
        hex27Phi 1 (-1) (-1),
        hex27Phi 1 1 (-1),
        hex27Phi (-1) 1 (-1),
        hex27Phi (-1) (-1) 1,
        hex27Phi 1 (-1) 1,
        hex27Phi 1 1 1,
        hex27Phi (-1) 1 1,
        hex27Phi 0 (-1) (-1),
        hex27Phi (-1) 0 (-1),
        hex27Phi (-1) (-1) 0,
        hex27Phi 1 0 (-1),
        hex27Phi 1 (-1) 0,
        hex27Phi 0 1 (-1),
        hex27Phi 1 1 0,
        hex27Phi (-1) 1 0,
        hex27Phi 0 (-1) 1,
        hex27Phi (-1) 0 1,
        hex27Phi 1 0 1,
        hex27Phi 0 1 1,
        hex27Phi 0 0 (-1),
        hex27Phi 0 (-1) 0,
        hex27Phi (-1) 0 0,
        hex27Phi 1 0 0,
        hex27Phi 0 1 0,
        hex27Phi 0 0 1,
        hex27Phi 0 0 0]) ?_ i G hG
    repeat' first
      | exact .nil
      | apply List.Forall₂.cons
      | exact hex27Phi_deriv _ _ _ x v

end Fenris
