import Verif.Spec.PatchTest
import Verif.Model.MeshSpace
import Mathlib.Tactic.FinCases
import Mathlib.Tactic.NormNum
import Mathlib.Tactic.Ring
import Mathlib.Tactic.FieldSimp
import Mathlib.Tactic.LinearCombination
import Mathlib.LinearAlgebra.Matrix.Determinant.Basic
import Mathlib.LinearAlgebra.Matrix.NonsingularInverse
/-! # Integrals of basis gradients over single elements -/
set_option autoImplicit false
set_option linter.unusedSectionVars false

namespace Fenris.PatchTest
open Fenris.Element Fenris.Local Fenris.Local.Spec Fenris.PatchTest.Spec
variable {K : Type} [Field K] [LinearOrder K] [IsStrictOrderedRing K] {s d : Nat} {Param : Type} {ω : K}

/-- `|det J| J^{-T} g` without division. -/
theorem scaled_physGrad (J : Matrix (Fin d) (Fin d) K) (h : 0 < J.det) (g : Point d K) (k : Fin d) :
    |J.det| * physGrad J g k = ∑ m, J.adjugate m k * g m := by
  rw [abs_of_pos h, physGrad, Finset.mul_sum]
  apply Finset.sum_congr rfl
  intro m _
  rw [Matrix.inv_def, Matrix.smul_apply, Ring.inverse_eq_inv', smul_eq_mul, ← mul_assoc, ← mul_assoc, mul_inv_cancel₀ h.ne', one_mul]

/-- The quadrature sum of a basis gradient, without division. -/
theorem quadSum_physGrad (el : VolElement d K) (rule : List (QPoint d K Param)) (hdet : ∀ q ∈ rule, 0 < (el.jacobian q.2.1).det)
    (a : Nat) (k : Fin d) :
    quadSum el rule (fun p _ => physGrad (el.jacobian p) ((el.gradients p)[a]?.getD 0) k) =
      (rule.map fun q => q.1 * ∑ m, (el.jacobian q.2.1).adjugate m k * ((el.gradients q.2.1)[a]?.getD 0) m).sum := by
  unfold quadSum
  congr 1
  apply List.map_congr_left
  intro q hq
  rw [mul_assoc, scaled_physGrad _ (hdet q hq)]

theorem sum_const (rule : List (QPoint d K Param)) (c : K) : (rule.map fun q => q.1 * c).sum = (rule.map fun q => q.1).sum * c := by
  induction rule with
  | nil => simp
  | cons q rule ih => simp only [List.map_cons, List.sum_cons, ih]; ring

/-! ## Triangles -/

/-- `∫ ∇φ_a` over a triangle: half the outward normals of the two edges at the vertex. -/
def triangleIntegral (x : Fin 3 → Point 2 K) (a : Fin 3) : Point 2 K :=
  (1 / 2 : K) • (edgeNormal (x a) (x (a + 1)) + edgeNormal (x (a + 2)) (x a))

theorem triangle_gradient (x : Fin 3 → Point 2 K) (rule : List (QPoint 2 K Param)) (hr : PatchRule ω .tri3 rule)
    (hdet : ∀ q ∈ rule, 0 < ((elementOfKind .tri3 [x 0, x 1, x 2]).jacobian q.2.1).det) (a : Fin 3) (k : Fin 2) :
    quadSum (elementOfKind .tri3 [x 0, x 1, x 2]) rule
      (fun p _ => physGrad ((elementOfKind .tri3 [x 0, x 1, x 2]).jacobian p) (((elementOfKind .tri3 [x 0, x 1, x 2]).gradients p)[(a : Nat)]?.getD 0) k) =
      ω * triangleIntegral x a k := by
  refine (quadSum_physGrad (elementOfKind .tri3 [x 0, x 1, x 2]) rule hdet a k).trans ?_
  have : ∀ q : QPoint 2 K Param, ∑ m, ((elementOfKind .tri3 [x 0, x 1, x 2]).jacobian q.2.1).adjugate m k *
      (((elementOfKind .tri3 [x 0, x 1, x 2]).gradients q.2.1)[(a : Nat)]?.getD 0) m = triangleIntegral x a k / 2 := by
    intro q
    fin_cases a <;> fin_cases k <;>
      simp [Fin.sum_univ_two, Matrix.adjugate_fin_two, elementOfKind, referenceJacobian, gradients, geometryGradients, tri3Gradients, tri3G,
        weightedSum, Kind.numNodes, triangleIntegral, edgeNormal] <;> ring
  simp only [this]
  have hr' : (rule.map fun q => q.1).sum = ω * 2 := hr
  rw [sum_const, hr']
  ring

/-! ## Quadrilaterals -/

/-- `∫ ∇φ_a` over a quadrilateral: half the outward normals of the two edges at the vertex. -/
def quadrilateralIntegral (x : Fin 4 → Point 2 K) (a : Fin 4) : Point 2 K :=
  (1 / 2 : K) • (edgeNormal (x a) (x (a + 1)) + edgeNormal (x (a + 3)) (x a))

theorem bilinear_sum (rule : List (QPoint 2 K Param)) (hr : PatchRule ω .quad4 rule) (c : Fin 2 → Fin 2 → K) (F : Point 2 K → K)
    (hF : ∀ p, F p = c 0 0 + c 1 0 * p 0 + c 0 1 * p 1 + c 1 1 * (p 0 * p 1)) :
    (rule.map fun q => q.1 * F q.2.1).sum = ω * (4 * c 0 0) := by
  have h : ∀ i j : Fin 2, (rule.map fun q => q.1 * (q.2.1 0 ^ (i : Nat) * q.2.1 1 ^ (j : Nat))).sum = ω * (![2, 0] i * ![2, 0] j) := hr
  have key : (rule.map fun q => q.1 * F q.2.1).sum =
      ∑ i, ∑ j, c i j * (rule.map fun q => q.1 * (q.2.1 0 ^ (i : Nat) * q.2.1 1 ^ (j : Nat))).sum := by
    clear h hr
    induction rule with
    | nil => simp
    | cons q rule ih =>
      rw [List.map_cons, List.sum_cons, ih, hF]
      simp only [List.map_cons, List.sum_cons, Fin.sum_univ_two, Fin.val_zero, Fin.val_one, pow_zero, pow_one, mul_one, one_mul]
      ring
  rw [key]
  simp only [h, Fin.sum_univ_two]
  simp
  ring

theorem quadrilateral_gradient (x : Fin 4 → Point 2 K) (rule : List (QPoint 2 K Param)) (hr : PatchRule ω .quad4 rule)
    (hdet : ∀ q ∈ rule, 0 < ((elementOfKind .quad4 [x 0, x 1, x 2, x 3]).jacobian q.2.1).det) (a : Fin 4) (k : Fin 2) :
    quadSum (elementOfKind .quad4 [x 0, x 1, x 2, x 3]) rule
      (fun p _ => physGrad ((elementOfKind .quad4 [x 0, x 1, x 2, x 3]).jacobian p)
        (((elementOfKind .quad4 [x 0, x 1, x 2, x 3]).gradients p)[(a : Nat)]?.getD 0) k) =
      ω * quadrilateralIntegral x a k := by
  refine (quadSum_physGrad (elementOfKind .quad4 [x 0, x 1, x 2, x 3]) rule hdet a k).trans ?_
  let F : Point 2 K → K := fun p => ∑ m, ((elementOfKind .quad4 [x 0, x 1, x 2, x 3]).jacobian p).adjugate m k *
      (((elementOfKind .quad4 [x 0, x 1, x 2, x 3]).gradients p)[(a : Nat)]?.getD 0) m
  have hF : ∀ p, F p = F ![0, 0] + (F ![1, 0] - F ![0, 0]) * p 0 + (F ![0, 1] - F ![0, 0]) * p 1 +
      (F ![1, 1] - F ![1, 0] - F ![0, 1] + F ![0, 0]) * (p 0 * p 1) := by
    intro p
    simp only [F]
    fin_cases a <;> fin_cases k <;>
      simp [Fin.sum_univ_two, Matrix.adjugate_fin_two, elementOfKind, referenceJacobian, gradients, geometryGradients, quad4Gradients,
        quad4PhiGrad, weightedSum, Kind.numNodes] <;> ring
  refine (bilinear_sum rule hr (fun i j => ![![F ![0, 0], F ![0, 1] - F ![0, 0]], ![F ![1, 0] - F ![0, 0],
    F ![1, 1] - F ![1, 0] - F ![0, 1] + F ![0, 0]]] i j) F hF).trans (congrArg (ω * ·) ?_)
  simp only [F]
  fin_cases a <;> fin_cases k <;>
    simp [Fin.sum_univ_two, Matrix.adjugate_fin_two, elementOfKind, referenceJacobian, gradients, geometryGradients, quad4Gradients,
      quad4PhiGrad, weightedSum, Kind.numNodes, quadrilateralIntegral, edgeNormal] <;> ring

/-! ## Tetrahedra -/

/-- `∫ ∇φ_a` over a tetrahedron: a third of the outward normals of the three faces at the vertex. -/
def tetrahedronIntegral (x : Fin 4 → Point 3 K) (a : Fin 4) : Point 3 K :=
  (1 / 6 : K) • ((if a = 3 then 0 else triNormal (x 0) (x 2) (x 1)) + (if a = 2 then 0 else triNormal (x 0) (x 1) (x 3)) +
    (if a = 0 then 0 else triNormal (x 1) (x 2) (x 3)) + (if a = 1 then 0 else triNormal (x 0) (x 3) (x 2)))

theorem tetrahedron_gradient (x : Fin 4 → Point 3 K) (rule : List (QPoint 3 K Param)) (hr : PatchRule ω .tet4 rule)
    (hdet : ∀ q ∈ rule, 0 < ((elementOfKind .tet4 [x 0, x 1, x 2, x 3]).jacobian q.2.1).det) (a : Fin 4) (k : Fin 3) :
    quadSum (elementOfKind .tet4 [x 0, x 1, x 2, x 3]) rule
      (fun p _ => physGrad ((elementOfKind .tet4 [x 0, x 1, x 2, x 3]).jacobian p)
        (((elementOfKind .tet4 [x 0, x 1, x 2, x 3]).gradients p)[(a : Nat)]?.getD 0) k) =
      ω * tetrahedronIntegral x a k := by
  refine (quadSum_physGrad (elementOfKind .tet4 [x 0, x 1, x 2, x 3]) rule hdet a k).trans ?_
  have : ∀ q : QPoint 3 K Param, ∑ m, ((elementOfKind .tet4 [x 0, x 1, x 2, x 3]).jacobian q.2.1).adjugate m k *
      (((elementOfKind .tet4 [x 0, x 1, x 2, x 3]).gradients q.2.1)[(a : Nat)]?.getD 0) m = tetrahedronIntegral x a k * (3 / 4) := by
    intro q
    fin_cases a <;> fin_cases k <;>
      simp [Fin.sum_univ_three, Matrix.adjugate_fin_three, elementOfKind, referenceJacobian, gradients, geometryGradients, tet4Gradients,
        tet4G, weightedSum, Kind.numNodes, tetrahedronIntegral, triNormal] <;> ring
  simp only [this]
  have hr' : (rule.map fun q => q.1).sum = ω * (4 / 3) := hr
  rw [sum_const, hr']
  ring

/-! ## Hexahedra -/

theorem separable_sum (rule : List (QPoint 3 K Param)) (hr : PatchRule ω .hex8 rule) (P Q R : Fin 3 → K) :
    (rule.map fun q => q.1 * ((P 0 + P 1 * q.2.1 0 + P 2 * q.2.1 0 ^ 2) * (Q 0 + Q 1 * q.2.1 1 + Q 2 * q.2.1 1 ^ 2) *
      (R 0 + R 1 * q.2.1 2 + R 2 * q.2.1 2 ^ 2))).sum =
      ω * ((2 * P 0 + 2 / 3 * P 2) * (2 * Q 0 + 2 / 3 * Q 2) * (2 * R 0 + 2 / 3 * R 2)) := by
  have h : ∀ i j k : Fin 3, (rule.map fun q => q.1 * (q.2.1 0 ^ (i : Nat) * q.2.1 1 ^ (j : Nat) * q.2.1 2 ^ (k : Nat))).sum =
      ω * (![2, 0, 2 / 3] i * ![2, 0, 2 / 3] j * ![2, 0, 2 / 3] k) := hr
  have key : (rule.map fun q => q.1 * ((P 0 + P 1 * q.2.1 0 + P 2 * q.2.1 0 ^ 2) * (Q 0 + Q 1 * q.2.1 1 + Q 2 * q.2.1 1 ^ 2) *
      (R 0 + R 1 * q.2.1 2 + R 2 * q.2.1 2 ^ 2))).sum =
      ∑ i, ∑ j, ∑ k, P i * Q j * R k * (rule.map fun q => q.1 * (q.2.1 0 ^ (i : Nat) * q.2.1 1 ^ (j : Nat) * q.2.1 2 ^ (k : Nat))).sum := by
    clear h hr
    induction rule with
    | nil => simp
    | cons q rule ih =>
      rw [List.map_cons, List.sum_cons, ih]
      simp only [List.map_cons, List.sum_cons, Fin.sum_univ_three, Fin.val_zero, Fin.val_one, Fin.val_two, pow_zero, pow_one, mul_one, one_mul]
      ring
  rw [key]
  simp only [h, Fin.sum_univ_three]
  simp
  ring

/-- The signs of the corners of the reference hexahedron. -/
def corner : Fin 8 → Fin 3 → K :=
  ![![-1, -1, -1], ![1, -1, -1], ![1, 1, -1], ![-1, 1, -1], ![-1, -1, 1], ![1, -1, 1], ![1, 1, 1], ![-1, 1, 1]]

/-- `∫ ∂_ξ φ_a ∂_η φ_b ∂_ζ φ_c`. -/
def moment (a b c : Fin 3 → K) : K :=
  a 0 * b 1 * c 2 / 8 * ((1 / 2 + b 0 * c 0 / 6) * (1 / 2 + a 1 * c 1 / 6) * (1 / 2 + a 2 * b 2 / 6))

theorem moment_sum (rule : List (QPoint 3 K Param)) (hr : PatchRule ω .hex8 rule) (a b c : Fin 3 → K) :
    (rule.map fun q => q.1 * (hex8PhiGrad (a 0) (a 1) (a 2) q.2.1 0 * hex8PhiGrad (b 0) (b 1) (b 2) q.2.1 1 *
      hex8PhiGrad (c 0) (c 1) (c 2) q.2.1 2)).sum = ω * moment a b c := by
  have h := separable_sum rule hr ![a 0 / 8, a 0 / 8 * (b 0 + c 0), a 0 / 8 * (b 0 * c 0)]
    ![b 1 / 8, b 1 / 8 * (a 1 + c 1), b 1 / 8 * (a 1 * c 1)] ![c 2 / 8, c 2 / 8 * (a 2 + b 2), c 2 / 8 * (a 2 * b 2)]
  refine Eq.trans ?_ (h.trans (congrArg (ω * ·) ?_))
  · congr 1
    apply List.map_congr_left
    intro q _
    simp only [hex8PhiGrad, phiLinear1d, phiLinear1dGrad, Matrix.cons_val_zero, Matrix.cons_val_one, Matrix.cons_val]
    ring
  · simp [moment]
    ring

/-- The determinant of three gradients. -/
def det3 (g h l : Point 3 K) : K :=
  g 0 * (h 1 * l 2) - g 0 * (l 1 * h 2) - h 0 * (g 1 * l 2) + l 0 * (g 1 * h 2) + h 0 * (l 1 * g 2) - l 0 * (h 1 * g 2)

/-- `∫ det(∇φ_a, ∇φ_b, ∇φ_c)`. -/
def tensor (a b c : Fin 3 → K) : K :=
  moment a b c - moment a c b - moment b a c + moment c a b + moment b c a - moment c b a

theorem tensor_sum (rule : List (QPoint 3 K Param)) (hr : PatchRule ω .hex8 rule) (a b c : Fin 3 → K) :
    (rule.map fun q => q.1 * det3 (hex8PhiGrad (a 0) (a 1) (a 2) q.2.1) (hex8PhiGrad (b 0) (b 1) (b 2) q.2.1)
      (hex8PhiGrad (c 0) (c 1) (c 2) q.2.1)).sum = ω * tensor a b c := by
  unfold tensor
  simp only [mul_add, mul_sub]
  rw [← moment_sum rule hr a b c, ← moment_sum rule hr a c b, ← moment_sum rule hr b a c, ← moment_sum rule hr c a b,
    ← moment_sum rule hr b c a, ← moment_sum rule hr c b a]
  clear hr
  induction rule with
  | nil => simp
  | cons q rule ih =>
    rw [List.map_cons, List.sum_cons, ih]
    simp only [List.map_cons, List.sum_cons, det3]
    ring

/-- The gradients of the hexahedron. -/
def hexG (p : Point 3 K) (i : Fin 8) : Point 3 K := hex8PhiGrad (corner i 0) (corner i 1) (corner i 2) p

theorem hex_jacobian (x : Fin 8 → Point 3 K) (p : Point 3 K) (r c : Fin 3) :
    (elementOfKind .hex8 [x 0, x 1, x 2, x 3, x 4, x 5, x 6, x 7]).jacobian p r c = ∑ i, x i r * hexG p i c := by
  simp only [elementOfKind, referenceJacobian, geometryGradients, hex8Gradients, Kind.numNodes, weightedSum, List.take_succ_cons, List.take_zero,
    List.map_cons, List.map_nil, Matrix.of_apply, Fin.sum_univ_eight, hexG, corner]
  simp
  ring

theorem hex_gradients (x : Fin 8 → Point 3 K) (p : Point 3 K) (a : Fin 8) :
    ((elementOfKind .hex8 [x 0, x 1, x 2, x 3, x 4, x 5, x 6, x 7]).gradients p)[(a : Nat)]?.getD 0 = hexG p a := by
  fin_cases a <;> simp [elementOfKind, gradients, hex8Gradients, hexG, corner]

theorem product_sum (x G : Fin 8 → Point 3 K) (r r' c c' : Fin 3) :
    ∑ i, ∑ j, x i r * x j r' * (G i c * G j c') = (∑ i, x i r * G i c) * (∑ j, x j r' * G j c') := by
  rw [Finset.sum_mul_sum]
  exact Finset.sum_congr rfl fun i _ => Finset.sum_congr rfl fun j _ => by ring

theorem hex_integrand (x : Fin 8 → Point 3 K) (p : Point 3 K) (a : Fin 8) (k : Fin 3) :
    ∑ m, ((elementOfKind .hex8 [x 0, x 1, x 2, x 3, x 4, x 5, x 6, x 7]).jacobian p).adjugate m k *
      (((elementOfKind .hex8 [x 0, x 1, x 2, x 3, x 4, x 5, x 6, x 7]).gradients p)[(a : Nat)]?.getD 0) m =
      ∑ i, ∑ j, x i (k + 1) * x j (k + 2) * det3 (hexG p a) (hexG p i) (hexG p j) := by
  rw [hex_gradients]
  have h1 : ∑ i, ∑ j, x i (k + 1) * x j (k + 2) * det3 (hexG p a) (hexG p i) (hexG p j) =
      ∑ i, ∑ j, (hexG p a 0 * (x i (k + 1) * x j (k + 2) * (hexG p i 1 * hexG p j 2))
        - hexG p a 0 * (x i (k + 1) * x j (k + 2) * (hexG p i 2 * hexG p j 1))
        - hexG p a 1 * (x i (k + 1) * x j (k + 2) * (hexG p i 0 * hexG p j 2))
        + hexG p a 1 * (x i (k + 1) * x j (k + 2) * (hexG p i 2 * hexG p j 0))
        + hexG p a 2 * (x i (k + 1) * x j (k + 2) * (hexG p i 0 * hexG p j 1))
        - hexG p a 2 * (x i (k + 1) * x j (k + 2) * (hexG p i 1 * hexG p j 0))) :=
    Finset.sum_congr rfl fun i _ => Finset.sum_congr rfl fun j _ => by simp only [det3]; ring
  rw [h1]
  simp only [Finset.sum_add_distrib, Finset.sum_sub_distrib, ← Finset.mul_sum, product_sum, ← hex_jacobian]
  generalize (elementOfKind .hex8 [x 0, x 1, x 2, x 3, x 4, x 5, x 6, x 7]).jacobian p = J
  generalize hexG p a = g
  change Matrix (Fin 3) (Fin 3) K at J
  change ∑ m : Fin 3, J.adjugate m k * g m = _
  fin_cases k <;> simp [Fin.sum_univ_three, Matrix.adjugate_fin_three] <;> ring

/-- `∫ ∇φ_a` over a hexahedron: the parts of the outward normals of the three faces at the vertex that belong to it. -/
def hexahedronIntegral (x : Fin 8 → Point 3 K) : Fin 8 → Point 3 K :=
  let N := fun a b c e => cornerNormal (x a) (x b) (x c) (x e)
  ![N 0 3 2 1 + N 0 1 5 4 + N 0 4 7 3, N 1 0 3 2 + N 1 5 4 0 + N 1 2 6 5, N 2 1 0 3 + N 2 6 5 1 + N 2 3 7 6,
    N 3 2 1 0 + N 3 7 6 2 + N 3 0 4 7, N 4 0 1 5 + N 4 7 3 0 + N 4 5 6 7, N 5 4 0 1 + N 5 1 2 6 + N 5 6 7 4,
    N 6 5 1 2 + N 6 2 3 7 + N 6 7 4 5, N 7 6 2 3 + N 7 3 0 4 + N 7 4 5 6]

theorem weighted_double_sum (rule : List (QPoint 3 K Param)) (C : Fin 8 → Fin 8 → K) (D : Fin 8 → Fin 8 → Point 3 K → K) :
    (rule.map fun q => q.1 * ∑ i, ∑ j, C i j * D i j q.2.1).sum = ∑ i, ∑ j, C i j * (rule.map fun q => q.1 * D i j q.2.1).sum := by
  induction rule with
  | nil => simp
  | cons q rule ih =>
    rw [List.map_cons, List.sum_cons, ih, Finset.mul_sum, ← Finset.sum_add_distrib]
    refine Finset.sum_congr rfl fun i _ => ?_
    rw [Finset.mul_sum, ← Finset.sum_add_distrib]
    refine Finset.sum_congr rfl fun j _ => ?_
    rw [List.map_cons, List.sum_cons]
    ring

/-- The corners of the faces at a vertex, beginning with the vertex. -/
def cornerFaces : Fin 8 → List (Fin 8 × Fin 8 × Fin 8 × Fin 8) :=
  ![[(0, 3, 2, 1), (0, 1, 5, 4), (0, 4, 7, 3)], [(1, 0, 3, 2), (1, 5, 4, 0), (1, 2, 6, 5)], [(2, 1, 0, 3), (2, 6, 5, 1), (2, 3, 7, 6)],
    [(3, 2, 1, 0), (3, 7, 6, 2), (3, 0, 4, 7)], [(4, 0, 1, 5), (4, 7, 3, 0), (4, 5, 6, 7)], [(5, 4, 0, 1), (5, 1, 2, 6), (5, 6, 7, 4)],
    [(6, 5, 1, 2), (6, 2, 3, 7), (6, 7, 4, 5)], [(7, 6, 2, 3), (7, 3, 0, 4), (7, 4, 5, 6)]]

/-- The products in twelve times the corner normal. -/
def cornerPairs (f : Fin 8 × Fin 8 × Fin 8 × Fin 8) : List (Fin 8 × Fin 8) :=
  [(f.1, f.2.1), (f.2.1, f.2.2.1), (f.2.2.1, f.1), (f.1, f.2.2.1), (f.2.2.1, f.2.2.2), (f.2.2.2, f.1), (f.1, f.2.1), (f.2.1, f.2.2.2),
    (f.2.2.2, f.1)]

theorem tensor_table : ∀ a i j : Fin 8, tensor (K := ℚ) (corner a) (corner i) (corner j) * 12 =
    (((cornerFaces a).flatMap cornerPairs).map fun e => (if i = e.1 then (if j = e.2 then 1 else 0) else 0) -
      (if i = e.2 then (if j = e.1 then 1 else 0) else 0)).sum := by
  decide +kernel

theorem corner_cast (a : Fin 8) (k : Fin 3) : (corner a k : K) = ((corner a k : ℚ) : K) := by
  fin_cases a <;> fin_cases k <;> simp [corner]

theorem tensor_cast (a i j : Fin 8) : tensor (K := K) (corner a) (corner i) (corner j) = ((tensor (K := ℚ) (corner a) (corner i) (corner j) : ℚ) : K) := by
  simp only [tensor, moment, corner_cast (K := K)]
  push_cast
  rfl

theorem pairs_sum (y z : Fin 8 → K) (L : List (Fin 8 × Fin 8)) :
    ∑ i, ∑ j, y i * z j * (((L.map fun e => (if i = e.1 then (if j = e.2 then (1 : ℚ) else 0) else 0) -
      (if i = e.2 then (if j = e.1 then 1 else 0) else 0)).sum : ℚ) : K) = (L.map fun e => y e.1 * z e.2 - y e.2 * z e.1).sum := by
  induction L with
  | nil => simp
  | cons e L ih =>
    simp only [List.map_cons, List.sum_cons, Rat.cast_add, mul_add, Finset.sum_add_distrib, ih]
    congr 1
    simp only [Rat.cast_sub, mul_sub, Finset.sum_sub_distrib]
    congr 1 <;> simp [apply_ite (Rat.cast : ℚ → K)]

theorem corner_normal_pairs (x : Fin 8 → Point 3 K) (f : Fin 8 × Fin 8 × Fin 8 × Fin 8) (k : Fin 3) :
    cornerNormal (x f.1) (x f.2.1) (x f.2.2.1) (x f.2.2.2) k =
      1 / 12 * ((cornerPairs f).map fun e => x e.1 (k + 1) * x e.2 (k + 2) - x e.2 (k + 1) * x e.1 (k + 2)).sum := by
  fin_cases k <;> simp [cornerNormal, triNormal, cornerPairs] <;> ring

theorem hexahedron_faces (x : Fin 8 → Point 3 K) (a : Fin 8) (k : Fin 3) :
    ((cornerFaces a).map fun f => cornerNormal (x f.1) (x f.2.1) (x f.2.2.1) (x f.2.2.2) k).sum = hexahedronIntegral x a k := by
  fin_cases a <;> simp only [hexahedronIntegral, cornerFaces] <;>
    simp [-one_div, -smul_add] <;> rw [add_assoc]

theorem flat_sum {A B : Type} (L : List A) (g : A → List B) (φ : B → K) :
    ((L.flatMap g).map φ).sum = (L.map fun a => ((g a).map φ).sum).sum := by
  induction L with
  | nil => simp
  | cons a L ih => simp only [List.flatMap_cons, List.map_append, List.sum_append, ih, List.map_cons, List.sum_cons]

theorem hex_tensor (x : Fin 8 → Point 3 K) (a : Fin 8) (k : Fin 3) :
    ∑ i, ∑ j, x i (k + 1) * x j (k + 2) * tensor (corner a) (corner i) (corner j) = hexahedronIntegral x a k := by
  have h : ∑ i, ∑ j, x i (k + 1) * x j (k + 2) * tensor (corner a) (corner i) (corner j) =
      1 / 12 * (((cornerFaces a).flatMap cornerPairs).map fun e => x e.1 (k + 1) * x e.2 (k + 2) - x e.2 (k + 1) * x e.1 (k + 2)).sum := by
    rw [← pairs_sum (fun i => x i (k + 1)) (fun i => x i (k + 2)), Finset.mul_sum]
    refine Finset.sum_congr rfl fun i _ => ?_
    rw [Finset.mul_sum]
    refine Finset.sum_congr rfl fun j _ => ?_
    rw [← tensor_table a i j, tensor_cast]
    push_cast
    ring
  rw [h, flat_sum, ← hexahedron_faces]
  simp only [corner_normal_pairs]
  generalize cornerFaces a = L
  induction L with
  | nil => simp
  | cons f L ih => simp only [List.map_cons, List.sum_cons, mul_add, ih]

theorem hexahedron_gradient (x : Fin 8 → Point 3 K) (rule : List (QPoint 3 K Param)) (hr : PatchRule ω .hex8 rule)
    (hdet : ∀ q ∈ rule, 0 < ((elementOfKind .hex8 [x 0, x 1, x 2, x 3, x 4, x 5, x 6, x 7]).jacobian q.2.1).det) (a : Fin 8) (k : Fin 3) :
    quadSum (elementOfKind .hex8 [x 0, x 1, x 2, x 3, x 4, x 5, x 6, x 7]) rule
      (fun p _ => physGrad ((elementOfKind .hex8 [x 0, x 1, x 2, x 3, x 4, x 5, x 6, x 7]).jacobian p)
        (((elementOfKind .hex8 [x 0, x 1, x 2, x 3, x 4, x 5, x 6, x 7]).gradients p)[(a : Nat)]?.getD 0) k) =
      ω * hexahedronIntegral x a k := by
  refine (quadSum_physGrad (elementOfKind .hex8 [x 0, x 1, x 2, x 3, x 4, x 5, x 6, x 7]) rule hdet a k).trans ?_
  rw [← hex_tensor, Finset.mul_sum]
  have h := weighted_double_sum rule (fun i j => x i (k + 1) * x j (k + 2)) (fun i j p => det3 (hexG p a) (hexG p i) (hexG p j))
  refine Eq.trans ?_ (h.trans ?_)
  · congr 1
    apply List.map_congr_left
    intro q _
    exact congrArg (q.1 * ·) (hex_integrand x q.2.1 a k)
  · refine Finset.sum_congr rfl fun i _ => ?_
    rw [Finset.mul_sum]
    refine Finset.sum_congr rfl fun j _ => ?_
    rw [mul_left_comm]
    congr 1
    exact tensor_sum rule hr (corner a) (corner i) (corner j)

end Fenris.PatchTest
