import Verif.Spec.InverseMap
import Verif.Spec.Polygon
import Verif.Props.Newton
import Verif.Props.ElementReproduce
import Mathlib.Algebra.Polynomial.Coeff
import Mathlib.Algebra.Polynomial.Roots
import Mathlib.LinearAlgebra.Matrix.ToLinearEquiv
import Mathlib.Analysis.Convex.Combination
import Mathlib.Analysis.SpecialFunctions.Pow.Real
/-! # C84: from physical to reference coordinates -/
set_option autoImplicit false
set_option linter.unusedSectionVars false

namespace Fenris
namespace Inverse
open Fenris.Element Fenris.Newton Spec
variable {K : Type} [Field K] [LinearOrder K] [IsStrictOrderedRing K] {g : Nat}

/-! ### Affine elements -/

private theorem affine_of (e : Kind) (vs : List (Point g K))
    (h : ∀ (xi : Point e.dim K) (r : Fin g), mapReferenceCoords e vs xi r =
      ∑ c, jacobian e vs (fun _ => 0) r c * xi c + mapReferenceCoords e vs (fun _ => 0) r) : AffineElement e vs := by
  refine ⟨jacobian e vs fun _ => 0, mapReferenceCoords e vs fun _ => 0, fun xi => ?_⟩
  funext r
  rw [h xi r]
  rfl

private theorem segment_affine (vs : List (Point g K)) : AffineElement .segment2 vs := by
  apply affine_of
  intro xi r
  change Point 1 K at xi
  rcases vs with _ | ⟨a, _ | ⟨b, l⟩⟩ <;>
    simp [mapReferenceCoords, jacobian, referenceJacobian, geometryBasis, geometryGradients, Kind.numNodes, Kind.dim, weightedSum,
      segment2Basis, segment2Gradients] <;> ring

private theorem tri_affine (vs : List (Point g K)) (xi : Point 2 K) (r : Fin g) :
    weightedSum (vs.take 3) (tri3Basis xi) r = ∑ c : Fin 2, weightedSum (vs.take 3) ((tri3Gradients (K := K) fun _ => 0).map fun G => G c) r * xi c +
      weightedSum (vs.take 3) (tri3Basis fun _ => 0) r := by
  rcases vs with _ | ⟨a, _ | ⟨b, _ | ⟨c, l⟩⟩⟩ <;>
    simp [weightedSum, tri3Basis, tri3Gradients, tri3Psi, tri3G, Fin.sum_univ_two] <;> ring

private theorem tet_affine (vs : List (Point g K)) (xi : Point 3 K) (r : Fin g) :
    weightedSum (vs.take 4) (tet4Basis xi) r = ∑ c : Fin 3, weightedSum (vs.take 4) ((tet4Gradients (K := K) fun _ => 0).map fun G => G c) r * xi c +
      weightedSum (vs.take 4) (tet4Basis fun _ => 0) r := by
  rcases vs with _ | ⟨a, _ | ⟨b, _ | ⟨c, _ | ⟨d, l⟩⟩⟩⟩ <;>
    simp [weightedSum, tet4Basis, tet4Gradients, tet4Psi, tet4G, Fin.sum_univ_three] <;> ring

/-- C84: the maps of segments, triangles and tetrahedra, of linear or higher order, are affine. -/
theorem C84_simplices_are_affine (e : Kind) (he : e ∈ [Kind.segment2, .tri3, .tri6, .tet4, .tet10, .tet20]) (vs : List (Point g K)) :
    AffineElement e vs := by
  simp only [List.mem_cons, List.not_mem_nil, or_false] at he
  rcases he with rfl | rfl | rfl | rfl | rfl | rfl
  · exact segment_affine vs
  · exact affine_of _ vs fun xi r => tri_affine vs xi r
  · exact affine_of _ vs fun xi r => tri_affine vs xi r
  · exact affine_of _ vs fun xi r => tet_affine vs xi r
  · exact affine_of _ vs fun xi r => tet_affine vs xi r
  · exact affine_of _ vs fun xi r => tet_affine vs xi r

/-- C84: the maps of parallelograms are affine. -/
theorem C84_parallelograms_are_affine (e : Kind) (he : e = .quad4 ∨ e = .quad9) (a u v : Point g K) (rest : List (Point g K)) :
    AffineElement e (a :: (fun i => a i + u i) :: (fun i => a i + u i + v i) :: (fun i => a i + v i) :: rest) := by
  have key : ∀ (xi : Point 2 K) (r : Fin g),
      weightedSum [a, fun i => a i + u i, fun i => a i + u i + v i, fun i => a i + v i] (quad4Basis xi) r =
        ∑ c : Fin 2, weightedSum [a, fun i => a i + u i, fun i => a i + u i + v i, fun i => a i + v i]
          ((quad4Gradients (K := K) fun _ => 0).map fun G => G c) r * xi c +
        weightedSum [a, fun i => a i + u i, fun i => a i + u i + v i, fun i => a i + v i] (quad4Basis fun _ => 0) r := by
    intro xi r
    simp [weightedSum, quad4Basis, quad4Gradients, quad4Phi, quad4PhiGrad, phiLinear1d, phiLinear1dGrad, Fin.sum_univ_two]
    ring
  rcases he with rfl | rfl
  · exact affine_of _ _ fun xi r => key xi r
  · exact affine_of _ _ fun xi r => key xi r

/-- C84: the maps of parallelepipeds are affine. -/
theorem C84_parallelepipeds_are_affine (e : Kind) (he : e = .hex8 ∨ e = .hex20 ∨ e = .hex27) (a u v w : Point g K) (rest : List (Point g K)) :
    AffineElement e (a :: (fun i => a i + u i) :: (fun i => a i + u i + v i) :: (fun i => a i + v i) ::
      (fun i => a i + w i) :: (fun i => a i + u i + w i) :: (fun i => a i + u i + v i + w i) :: (fun i => a i + v i + w i) :: rest) := by
  have key : ∀ (xi : Point 3 K) (r : Fin g),
      weightedSum [a, fun i => a i + u i, fun i => a i + u i + v i, fun i => a i + v i, fun i => a i + w i, fun i => a i + u i + w i,
          fun i => a i + u i + v i + w i, fun i => a i + v i + w i] (hex8Basis xi) r =
        ∑ c : Fin 3, weightedSum [a, fun i => a i + u i, fun i => a i + u i + v i, fun i => a i + v i, fun i => a i + w i,
          fun i => a i + u i + w i, fun i => a i + u i + v i + w i, fun i => a i + v i + w i]
          ((hex8Gradients (K := K) fun _ => 0).map fun G => G c) r * xi c +
        weightedSum [a, fun i => a i + u i, fun i => a i + u i + v i, fun i => a i + v i, fun i => a i + w i, fun i => a i + u i + w i,
          fun i => a i + u i + v i + w i, fun i => a i + v i + w i] (hex8Basis fun _ => 0) r := by
    intro xi r
    simp [weightedSum, hex8Basis, hex8Gradients, hex8Phi, hex8PhiGrad, phiLinear1d, phiLinear1dGrad, Fin.sum_univ_three]
    ring
  rcases he with rfl | rfl | rfl
  · exact affine_of _ _ fun xi r => key xi r
  · exact affine_of _ _ fun xi r => key xi r
  · exact affine_of _ _ fun xi r => key xi r

/-- The Jacobian of an affine element is the matrix of its map. -/
private theorem jacobian_affine (e : Kind) (vs : List (Point g K)) (A : Matrix (Fin g) (Fin e.dim) K) (t : Point g K)
    (h : ∀ xi, mapReferenceCoords e vs xi = fun i => A.mulVec xi i + t i) (xi : Point e.dim K) : jacobian e vs xi = A := by
  funext r c
  have hder := C38_jacobian_is_derivative_of_map e vs xi (Pi.single c 1) r
  obtain ⟨q, hq⟩ := hder
  have hdot : Fenris.Spec.dot (fun c => referenceJacobian e vs xi r c) (Pi.single c 1) = jacobian e vs xi r c := by
    rw [Fenris.Spec.dot, List.sum_ofFn]
    simp [Pi.single_apply, jacobian]
  rw [hdot] at hq
  generalize jacobian e vs xi r c = D at hq ⊢
  have hA : ∀ t : K, t * (A r c - D) = t ^ 2 * q.eval t := by
    intro t
    have h1 := hq t
    simp only [h] at h1
    have h2 : A.mulVec (fun k => xi k + t * (Pi.single c 1 : Point e.dim K) k) r = A.mulVec xi r + t * A r c := by
      simp only [Matrix.mulVec, dotProduct, mul_add, Finset.sum_add_distrib]
      congr 1
      simp only [Pi.single_apply, mul_ite, mul_one, mul_zero, Finset.sum_ite_eq', Finset.mem_univ, if_true]
      ring
    rw [h2] at h1
    linear_combination h1
  have hp : (Polynomial.X ^ 2 * q - Polynomial.X * Polynomial.C (A r c - D) : Polynomial K) = 0 := by
    apply Polynomial.funext
    intro t
    simp only [Polynomial.eval_sub, Polynomial.eval_mul, Polynomial.eval_pow, Polynomial.eval_X, Polynomial.eval_C, Polynomial.eval_zero]
    rw [hA t, sub_self]
  have h1 := congrArg (fun p : Polynomial K => p.coeff 1) hp
  simp only [Polynomial.coeff_sub, Polynomial.coeff_X_pow_mul', Polynomial.coeff_X_mul, Polynomial.coeff_zero, Polynomial.coeff_C_zero] at h1
  norm_num at h1
  linarith

/-! ### Newton's method -/

private theorem loop_mono {n : Nat} {E : Type} (c : Problem n K E) (out : Outcome n K E) (fuel : Nat) (x f : Cg.Vec n K) (iter k : Nat)
    (h : loop c fuel x f iter = some out) : loop c (fuel + k) x f iter = some out := by
  induction fuel generalizing x f iter with
  | zero => simp [loop] at h
  | succ fuel ih =>
    rw [Nat.add_right_comm]
    simp only [loop] at h ⊢
    split at h
    · cases h
    · exact h
    · exact ih _ _ _ h

/-- The Newton problem of `map_physical_coordinates`. -/
private abbrev problem (la : LinAlg K) (e : Kind) (vs : List (Point e.dim K)) (x : Point e.dim K) : Problem e.dim K Unit :=
  ⟨fun xi k => mapReferenceCoords e vs xi k - x k, fun _ => solveJacobian la e vs, some 20, tolerance la e vs, noLineSearch, la.norm e.dim⟩

/-- C84: `map_physical_coordinates` returns for every element and point. Reference coordinates that it returns are mapped to the
point up to the tolerance; an error means that the limit of 20 rounds was reached or that the Jacobian is singular at some point. -/
theorem C84_map (la : LinAlg K) (hla : Exact la) (e : Kind) (vs : List (Point e.dim K)) (x : Point e.dim K) :
    ∃ r, mapPhysicalCoords la e vs x = some r ∧
      (∀ xi, r = .ok xi → la.norm e.dim (fun k => mapReferenceCoords e vs xi k - x k) ≤ 1 / 10 ^ 12 * diameter la e vs) ∧
      ∀ er, r = .error er → er = .maximumIterationsReached 20 ∨ er = .jacobianError () ∧ ∃ xi, (jacobian e vs xi).det = 0 := by
  obtain ⟨hf, hne⟩ := C32_plain_step_is_faithful (n := e.dim) (K := K) (E := Unit)
  obtain ⟨out, hout⟩ := C32_terminates_within_limit (problem la e vs x) hne 20 rfl fun _ => 0
  have hmap : mapPhysicalCoords la e vs x = some (out.result.map fun _ => out.x) := by
    rw [mapPhysicalCoords, newton, hout]
    rfl
  refine ⟨_, hmap, ?_, ?_⟩
  · intro xi hxi
    obtain ⟨ox, of, res⟩ := out
    cases res with
    | error er => cases hxi
    | ok k =>
      cases hxi
      exact (C32_ok_means_small_residual (problem la e vs x) hf 21 _ _ _ k hout).1
  · intro er her
    obtain ⟨ox, of, res⟩ := out
    cases res with
    | ok k => cases her
    | error er' =>
      cases her
      cases er with
      | maximumIterationsReached k =>
        left
        have := (C32_limit_means_large_residual (problem la e vs x) hf 21 _ _ _ k hout).1
        cases this
        rfl
      | jacobianError u =>
        right
        refine ⟨rfl, ?_⟩
        obtain ⟨k, y, f, hs⟩ := (C32_errors_are_passed_through (problem la e vs x) 21 _ _ hout u).1 rfl
        refine ⟨y, ?_⟩
        by_contra hdet
        obtain ⟨z, hz, -⟩ := hla.regular _ _ f hdet
        simp only [problem, solveJacobian, hz] at hs
        cases hs
      | lineSearchError u =>
        exfalso
        obtain ⟨k, f, y, d, hs⟩ := (C32_errors_are_passed_through (problem la e vs x) 21 _ _ hout u).2 rfl
        simp only [noLineSearch, Option.some.injEq, Prod.mk.injEq] at hs
        cases hs.1

/-! ### The diameter -/

private theorem foldl_max (l : List K) (a : K) : a ≤ l.foldl max a ∧ (∀ y ∈ l, y ≤ l.foldl max a) ∧ (l.foldl max a = a ∨ l.foldl max a ∈ l) := by
  induction l generalizing a with
  | nil => simp
  | cons y l ih =>
    obtain ⟨h1, h2, h3⟩ := ih (max a y)
    simp only [List.foldl_cons]
    refine ⟨(le_max_left _ _).trans h1, ?_, ?_⟩
    · intro z hz
      rcases List.mem_cons.mp hz with rfl | hz
      · exact (le_max_right _ _).trans h1
      · exact h2 z hz
    · rcases h3 with h3 | h3
      · rw [h3]
        rcases max_choice a y with h | h
        · exact .inl h
        · rw [h]
          exact .inr (by simp)
      · exact .inr (by simp [h3])

private theorem mem_pairs {α : Type} (l : List α) (p : α × α) (h : p ∈ pairs l) : p.1 ∈ l ∧ p.2 ∈ l := by
  induction l with
  | nil => simp [pairs] at h
  | cons x l ih =>
    rw [pairs, List.mem_append] at h
    rcases h with h | h
    · obtain ⟨y, hy, rfl⟩ := List.mem_map.mp h
      exact ⟨List.mem_cons_self, List.mem_cons_of_mem _ hy⟩
    · obtain ⟨h1, h2⟩ := ih h
      exact ⟨by simp [h1], by simp [h2]⟩

private theorem pairs_complete {α : Type} (l : List α) (x y : α) (hx : x ∈ l) (hy : y ∈ l) : x = y ∨ (x, y) ∈ pairs l ∨ (y, x) ∈ pairs l := by
  induction l with
  | nil => simp at hx
  | cons z l ih =>
    rw [pairs]
    simp only [List.mem_append, List.mem_map, Prod.mk.injEq]
    rcases List.mem_cons.mp hx with hx' | hx' <;> rcases List.mem_cons.mp hy with hy' | hy'
    · exact .inl (hx'.trans hy'.symm)
    · exact .inr (.inl (.inl ⟨y, hy', hx'.symm, rfl⟩))
    · exact .inr (.inr (.inl ⟨x, hx', hy'.symm, rfl⟩))
    · rcases ih hx' hy' with h | h | h
      · exact .inl h
      · exact .inr (.inl (.inr h))
      · exact .inr (.inr (.inr h))

private theorem norm_symm (la : LinAlg K) (hla : Exact la) (x y : Point g K) :
    la.norm g (fun i => x i - y i) = la.norm g fun i => y i - x i := by
  have h1 := hla.norm_sq g fun i => x i - y i
  have h2 := hla.norm_sq g fun i => y i - x i
  have h3 : ∑ i, (x i - y i) ^ 2 = ∑ i, (y i - x i) ^ 2 := Finset.sum_congr rfl fun i _ => by ring
  rw [h3, ← h2] at h1
  exact (pow_left_inj₀ (hla.nonneg _ _) (hla.nonneg _ _) (by norm_num)).mp h1

private theorem norm_self (la : LinAlg K) (hla : Exact la) (x : Point g K) : la.norm g (fun i => x i - x i) = 0 := by
  have h1 := hla.norm_sq g fun i => x i - x i
  simp only [sub_self, ne_eq, OfNat.ofNat_ne_zero, not_false_eq_true, zero_pow, Finset.sum_const_zero] at h1
  simpa using h1

/-- The vertices that carry the geometry. -/
private theorem diameter_vertices (la : LinAlg K) (hla : Exact la) (e : Kind) (vs : List (Point g K)) (hv : e.geometry.numNodes ≤ vs.length) :
    0 ≤ diameter la e vs ∧ (∀ p ∈ vs.take e.geometry.numNodes, ∀ q ∈ vs.take e.geometry.numNodes, la.norm g (fun i => p i - q i) ≤ diameter la e vs) ∧
    ∃ p ∈ vs.take e.geometry.numNodes, ∃ q ∈ vs.take e.geometry.numNodes, la.norm g (fun i => p i - q i) = diameter la e vs := by
  have hfold : ∀ l : List (Point g K), l ≠ [] → ∀ D, D = ((pairs l).map fun p => la.norm g fun i => p.1 i - p.2 i).foldl max 0 →
      0 ≤ D ∧ (∀ p ∈ l, ∀ q ∈ l, la.norm g (fun i => p i - q i) ≤ D) ∧ ∃ p ∈ l, ∃ q ∈ l, la.norm g (fun i => p i - q i) = D := by
    rintro l hl D rfl
    obtain ⟨h1, h2, h3⟩ := foldl_max ((pairs l).map fun p => la.norm g fun i => p.1 i - p.2 i) 0
    refine ⟨h1, ?_, ?_⟩
    · intro p hp q hq
      rcases pairs_complete l p q hp hq with rfl | h | h
      · rw [norm_self la hla]
        exact h1
      · exact h2 _ (List.mem_map.mpr ⟨_, h, rfl⟩)
      · rw [norm_symm la hla]
        exact h2 _ (List.mem_map.mpr ⟨_, h, rfl⟩)
    · rcases h3 with h3 | h3
      · obtain ⟨p, hp⟩ := List.exists_mem_of_ne_nil l hl
        exact ⟨p, hp, p, hp, by rw [h3, norm_self la hla]⟩
      · obtain ⟨p, hp, he⟩ := List.mem_map.mp h3
        obtain ⟨m1, m2⟩ := mem_pairs l p hp
        exact ⟨p.1, m1, p.2, m2, he⟩
  have hne : vs.take e.geometry.numNodes ≠ [] := by
    intro h0
    have := congrArg List.length h0
    rw [List.length_take, Nat.min_eq_left hv] at this
    cases e <;> simp [Kind.numNodes] at this
  cases e
  case segment2 =>
    match vs, hv with
    | a :: b :: l, _ =>
      have ht : (a :: b :: l).take (Kind.geometry .segment2).numNodes = [a, b] := rfl
      rw [ht]
      have hd : diameter la .segment2 (a :: b :: l) = la.norm g fun i => b i - a i := rfl
      rw [hd]
      refine ⟨hla.nonneg _ _, ?_, b, by simp, a, by simp, rfl⟩
      intro p hp q hq
      simp only [List.mem_cons, List.not_mem_nil, or_false] at hp hq
      rcases hp with rfl | rfl <;> rcases hq with rfl | rfl
      · rw [norm_self la hla]; exact hla.nonneg _ _
      · rw [norm_symm la hla]
      · exact le_rfl
      · rw [norm_self la hla]; exact hla.nonneg _ _
  all_goals exact hfold _ hne _ rfl

private theorem weightedSum_mem (C : Set (Point g K)) (hC : Convex K C) (ps : List (Point g K)) (ws : List K) (hl : ws.length = ps.length)
    (hp : ∀ p ∈ ps, p ∈ C) (hw : ∀ w ∈ ws, 0 ≤ w) (hs : ws.sum = 1) : weightedSum ps ws ∈ C := by
  have key : ∀ (ps : List (Point g K)) (ws : List K) (h : ws.length = ps.length),
      weightedSum ps ws = ∑ i : Fin ps.length, (ws[i.1]'(by omega)) • ps[i.1] := by
    intro ps
    induction ps with
    | nil => intro ws _; simp [weightedSum]; rfl
    | cons p ps ih =>
      intro ws h
      match ws, h with
      | w :: ws, h =>
        simp only [List.length_cons, Nat.add_right_cancel_iff] at h
        funext k
        rw [weightedSum, ih ws h]
        simp only [List.length_cons, Fin.sum_univ_succ]
        simp [mul_comm]
  rw [key ps ws hl]
  apply hC.sum_mem
  · intro i _
    exact hw _ (List.getElem_mem _)
  · rw [← hs]
    have := Fin.sum_univ_getElem ws
    rw [← this]
    exact Fintype.sum_equiv (finCongr hl.symm) _ _ fun i => rfl
  · intro i _
    exact hp _ (List.getElem_mem _)

private theorem basis_nonneg (e : Kind) (xi : Point e.dim K) (h : InReference e xi) : ∀ w ∈ geometryBasis e xi, 0 ≤ w := by
  have hquad : ∀ xi : Point 2 K, (∀ i, -1 ≤ xi i ∧ xi i ≤ 1) → ∀ w ∈ quad4Basis xi, 0 ≤ w := by
    intro xi h w hw
    simp only [quad4Basis, quad4Phi, List.mem_cons, List.not_mem_nil, or_false] at hw
    rcases hw with rfl | rfl | rfl | rfl <;>
      refine div_nonneg (mul_nonneg ?_ ?_) ?_ <;> linarith [h 0, h 1]
  have hhex : ∀ xi : Point 3 K, (∀ i, -1 ≤ xi i ∧ xi i ≤ 1) → ∀ w ∈ hex8Basis xi, 0 ≤ w := by
    intro xi h w hw
    simp only [hex8Basis, hex8Phi, phiLinear1d, List.mem_cons, List.not_mem_nil, or_false] at hw
    rcases hw with rfl | rfl | rfl | rfl | rfl | rfl | rfl | rfl <;>
      refine mul_nonneg (mul_nonneg ?_ ?_) ?_ <;> linarith [h 0, h 1, h 2]
  have htri : ∀ xi : Point 2 K, (-1 ≤ xi 0 ∧ -1 ≤ xi 1 ∧ xi 0 + xi 1 ≤ 0) → ∀ w ∈ tri3Basis xi, 0 ≤ w := by
    intro xi h w hw
    simp [tri3Basis, tri3Psi] at hw
    rcases hw with rfl | rfl | rfl <;> linarith [h.1, h.2.1, h.2.2]
  have htet : ∀ xi : Point 3 K, (-1 ≤ xi 0 ∧ -1 ≤ xi 1 ∧ -1 ≤ xi 2 ∧ xi 0 + xi 1 + xi 2 ≤ -1) → ∀ w ∈ tet4Basis xi, 0 ≤ w := by
    intro xi h w hw
    simp [tet4Basis, tet4Psi] at hw
    rcases hw with rfl | rfl | rfl | rfl <;> linarith [h.1, h.2.1, h.2.2.1, h.2.2.2]
  cases e
  case segment2 =>
    intro w hw
    change Point 1 K at xi
    change -1 ≤ xi 0 ∧ xi 0 ≤ 1 at h
    simp only [geometryBasis, segment2Basis, List.mem_cons, List.not_mem_nil, or_false] at hw
    rcases hw with rfl | rfl <;> linarith [h.1, h.2]
  case tri3 => exact htri xi h
  case tri6 => exact htri xi h
  case quad4 => exact hquad xi h
  case quad9 => exact hquad xi h
  case tet4 => exact htet xi h
  case tet10 => exact htet xi h
  case tet20 => exact htet xi h
  case hex8 => exact hhex xi h
  case hex20 => exact hhex xi h
  case hex27 => exact hhex xi h

private theorem geometryBasis_sum (e : Kind) (xi : Point e.dim K) :
    (geometryBasis e xi).length = e.geometry.numNodes ∧ (geometryBasis e xi).sum = 1 := by
  cases e
  case segment2 => exact C35_basis_sums_to_one .segment2 xi
  case tri3 => exact C35_basis_sums_to_one .tri3 xi
  case tri6 => exact C35_basis_sums_to_one .tri3 xi
  case quad4 => exact C35_basis_sums_to_one .quad4 xi
  case quad9 => exact C35_basis_sums_to_one .quad4 xi
  case tet4 => exact C35_basis_sums_to_one .tet4 xi
  case tet10 => exact C35_basis_sums_to_one .tet4 xi
  case tet20 => exact C35_basis_sums_to_one .tet4 xi
  case hex8 => exact C35_basis_sums_to_one .hex8 xi
  case hex20 => exact C35_basis_sums_to_one .hex8 xi
  case hex27 => exact C35_basis_sums_to_one .hex8 xi

/-- C84: the reference element is mapped into the convex hull of the vertices that carry the geometry. -/
theorem C84_element_in_hull (e : Kind) (vs : List (Point g K)) (hv : e.geometry.numNodes ≤ vs.length) (xi : Point e.dim K)
    (h : InReference e xi) : mapReferenceCoords e vs xi ∈ Fenris.Spec.hull (vs.take e.geometry.numNodes) := by
  obtain ⟨h1, h2⟩ := geometryBasis_sum e xi
  refine weightedSum_mem _ (convex_convexHull K _) _ _ ?_ (fun p hp => subset_convexHull K _ hp) (basis_nonneg e xi h) h2
  rw [h1, List.length_take, Nat.min_eq_left hv]

private theorem refNode_inReference (e : Kind) (j : Nat) (hj : j < e.geometry.numNodes) : ∃ x : Point e.dim K, (refNodes e)[j]? = some x ∧ InReference e x := by
  cases e <;> simp only [Kind.numNodes] at hj <;> interval_cases j <;> refine ⟨_, rfl, ?_⟩ <;>
    simp [InReference, Fin.forall_fin_succ]

private theorem convex_ball (z : Point g K) (D : K) : Convex K {y : Point g K | ∑ i, (y i - z i) ^ 2 ≤ D} := by
  intro p hp q hq a b ha hb hab
  simp only [Set.mem_setOf_eq, Pi.add_apply, Pi.smul_apply, smul_eq_mul] at hp hq ⊢
  have h : ∑ i, (a * p i + b * q i - z i) ^ 2 ≤ ∑ i, (a * (p i - z i) ^ 2 + b * (q i - z i) ^ 2) := by
    apply Finset.sum_le_sum
    intro i _
    have hb' : b = 1 - a := by linarith
    subst hb'
    nlinarith [mul_nonneg (mul_nonneg ha hb) (sq_nonneg (p i - q i))]
  rw [Finset.sum_add_distrib, ← Finset.mul_sum, ← Finset.mul_sum] at h
  have h1 := mul_le_mul_of_nonneg_left hp ha
  have h2 := mul_le_mul_of_nonneg_left hq hb
  have h3 : a * D + b * D = D := by rw [← add_mul, hab, one_mul]
  linarith

/-- C84: `diameter` is the largest distance between two points of the element. -/
theorem C84_diameter (la : LinAlg K) (hla : Exact la) (e : Kind) (vs : List (Point g K)) (hv : e.geometry.numNodes ≤ vs.length) :
    (∀ xi eta, InReference e xi → InReference e eta →
      la.norm g (fun i => mapReferenceCoords e vs xi i - mapReferenceCoords e vs eta i) ≤ diameter la e vs) ∧
    ∃ xi eta, InReference e xi ∧ InReference e eta ∧
      la.norm g (fun i => mapReferenceCoords e vs xi i - mapReferenceCoords e vs eta i) = diameter la e vs := by
  obtain ⟨h0, h1, h2⟩ := diameter_vertices la hla e vs hv
  constructor
  · intro xi eta hxi heta
    have hx := C84_element_in_hull e vs hv xi hxi
    have he := C84_element_in_hull e vs hv eta heta
    generalize mapReferenceCoords e vs xi = p at hx ⊢
    generalize mapReferenceCoords e vs eta = q at he ⊢
    have hsq : ∑ i, (p i - q i) ^ 2 ≤ diameter la e vs ^ 2 := by
      have hpq : ∀ v ∈ vs.take e.geometry.numNodes, ∑ i, (p i - v i) ^ 2 ≤ diameter la e vs ^ 2 := by
        intro v hv'
        refine convexHull_min (fun u hu => ?_) (convex_ball v (diameter la e vs ^ 2)) hx
        show ∑ i, (u i - v i) ^ 2 ≤ _
        rw [← hla.norm_sq]
        exact pow_le_pow_left₀ (hla.nonneg _ _) (h1 u hu v hv') 2
      have hq : ∑ i, (q i - p i) ^ 2 ≤ diameter la e vs ^ 2 := by
        refine convexHull_min (fun u hu => ?_) (convex_ball p (diameter la e vs ^ 2)) he
        refine le_trans (le_of_eq ?_) (hpq u hu)
        exact Finset.sum_congr rfl fun i _ => by ring
      refine le_trans (le_of_eq ?_) hq
      exact Finset.sum_congr rfl fun i _ => by ring
    rw [← hla.norm_sq] at hsq
    exact (pow_le_pow_iff_left₀ (hla.nonneg _ _) h0 (by norm_num)).mp hsq
  · obtain ⟨p, hp, q, hq, he⟩ := h2
    have hvert : ∀ p ∈ vs.take e.geometry.numNodes, ∃ xi, InReference e xi ∧ mapReferenceCoords e vs xi = p := by
      intro p hp
      obtain ⟨j, hj, hjp⟩ := List.mem_iff_getElem.mp hp
      rw [List.length_take, Nat.min_eq_left hv] at hj
      obtain ⟨x, hx, hin⟩ := refNode_inReference (K := K) e j hj
      refine ⟨x, hin, ?_⟩
      have := C38_map_sends_reference_vertices_to_vertices e vs hv j hj x hx
      rw [List.getElem_take] at hjp
      rw [List.getElem?_eq_getElem (by omega), hjp] at this
      exact (Option.some.inj this).symm
    obtain ⟨xi, hxi, rfl⟩ := hvert p hp
    obtain ⟨eta, heta, rfl⟩ := hvert q hq
    exact ⟨xi, eta, hxi, heta, he⟩

/-! ### Affine elements are inverted exactly -/

private theorem tolerance_nonneg (la : LinAlg K) (hla : Exact la) (e : Kind) (vs : List (Point g K)) : 0 ≤ tolerance la e vs := by
  refine mul_nonneg (by positivity) ?_
  cases e
  case segment2 => exact hla.nonneg _ _
  all_goals exact (foldl_max _ 0).1

private theorem norm_zero (la : LinAlg K) (hla : Exact la) (n : Nat) : la.norm n 0 = 0 := by
  have h := hla.norm_sq n 0
  simpa using h

/-- C84: on an affine element that is not degenerate, such as a triangle, a tetrahedron, a parallelogram or a parallelepiped, every
point of space is mapped to reference coordinates. They are the exact ones, unless the centre of the reference element is accepted. -/
theorem C84_affine_elements_are_inverted (la : LinAlg K) (hla : Exact la) (e : Kind) (vs : List (Point e.dim K)) (haff : AffineElement e vs)
    (hdet : (jacobian e vs fun _ => 0).det ≠ 0) (x : Point e.dim K) :
    ∃ xi, mapPhysicalCoords la e vs x = some (.ok xi) ∧
      (mapReferenceCoords e vs xi = x ∨
        (xi = fun _ => 0) ∧ la.norm e.dim (fun k => mapReferenceCoords e vs (fun _ => 0) k - x k) ≤ 1 / 10 ^ 12 * diameter la e vs) := by
  obtain ⟨r, hr, hok, -⟩ := C84_map la hla e vs x
  obtain ⟨A, t, hA⟩ := haff
  have hJ : ∀ xi, jacobian e vs xi = A := fun xi => jacobian_affine e vs A t hA xi
  rw [hJ] at hdet
  have hsolve : ∀ (i : Nat) (y f : Cg.Vec e.dim K), ∃ d, (fun _ => solveJacobian la e vs : Nat → _) i y f = .ok d ∧ A.mulVec d = f := by
    intro i y f
    obtain ⟨z, hz, hz'⟩ := hla.regular _ A f hdet
    exact ⟨z, by simp only [solveJacobian, hJ, hz], hz'⟩
  obtain ⟨y, f, k, hn, hy⟩ := C32_affine_converges_in_one_step A (fun i => x i - t i) (fun _ => solveJacobian la e vs) hsolve (some 20)
    (by simp) (tolerance la e vs) (la.norm e.dim) (by rw [norm_zero la hla]; exact tolerance_nonneg la hla e vs) fun _ => 0
  have hfun : (fun y : Point e.dim K => A.mulVec y - fun i => x i - t i) = fun xi k => mapReferenceCoords e vs xi k - x k := by
    funext y k
    rw [hA]
    simp only [Pi.sub_apply]
    ring
  rw [hfun] at hn
  have h21 := loop_mono (problem la e vs x) _ 2 _ _ 0 19 hn
  have hmap : mapPhysicalCoords la e vs x = some (.ok y) := by
    have : newton (fun xi k => mapReferenceCoords e vs xi k - x k) (fun _ => solveJacobian la e vs) (some 20) (tolerance la e vs)
        (la.norm e.dim) 21 (fun _ => 0) = some ⟨y, f, .ok k⟩ := h21
    rw [mapPhysicalCoords, this]
    rfl
  refine ⟨y, hmap, ?_⟩
  rw [hr] at hmap
  have hres := hok y (Option.some.inj hmap)
  rcases hy with ⟨-, h0⟩ | ⟨-, h1⟩
  · right
    rw [h0] at hres
    exact ⟨h0, hres⟩
  · left
    rw [hA]
    funext i
    rw [h1]
    ring

/-- C84: on an affine element that is not degenerate, points are mapped back to the reference coordinates that they come from, unless
the centre of the reference element is accepted. -/
theorem C84_round_trip (la : LinAlg K) (hla : Exact la) (e : Kind) (vs : List (Point e.dim K)) (haff : AffineElement e vs)
    (hdet : (jacobian e vs fun _ => 0).det ≠ 0) (eta : Point e.dim K) :
    mapPhysicalCoords la e vs (mapReferenceCoords e vs eta) = some (.ok eta) ∨
      mapPhysicalCoords la e vs (mapReferenceCoords e vs eta) = some (.ok fun _ => 0) ∧
        la.norm e.dim (fun k => mapReferenceCoords e vs (fun _ => 0) k - mapReferenceCoords e vs eta k) ≤ 1 / 10 ^ 12 * diameter la e vs := by
  obtain ⟨xi, h1, h2⟩ := C84_affine_elements_are_inverted la hla e vs haff hdet (mapReferenceCoords e vs eta)
  rcases h2 with h2 | ⟨rfl, h2⟩
  · left
    rw [h1]
    obtain ⟨A, t, hA⟩ := haff
    rw [jacobian_affine e vs A t hA] at hdet
    rw [hA, hA] at h2
    have hm : A.mulVec (xi - eta) = 0 := by
      rw [Matrix.mulVec_sub]
      funext i
      have := congrFun h2 i
      simp only [add_left_inj] at this
      simp [this]
    have := Matrix.eq_zero_of_mulVec_eq_zero hdet hm
    rw [sub_eq_zero.mp this]
  · exact .inr ⟨h1, h2⟩

/-- C84: on a degenerate affine element there is an error for every point, except for those close to the image of the centre. -/
theorem C84_degenerate_elements_are_rejected (la : LinAlg K) (hla : Exact la) (e : Kind) (vs : List (Point e.dim K))
    (hdet : (jacobian e vs fun _ => 0).det = 0) (x : Point e.dim K)
    (hx : 1 / 10 ^ 12 * diameter la e vs < la.norm e.dim fun k => mapReferenceCoords e vs (fun _ => 0) k - x k) :
    mapPhysicalCoords la e vs x = some (.error (.jacobianError ())) := by
  have hs := hla.singular _ _ (fun k => mapReferenceCoords e vs (fun _ => 0) k - x k) hdet
  have hx' : la.norm e.dim (fun k => mapReferenceCoords e vs (fun _ => 0) k - x k) > tolerance la e vs := hx
  rw [mapPhysicalCoords, newton, newtonLineSearch, loop, iteration]
  simp only [if_pos hx', solveJacobian, hs]
  rfl

/-! ### Projection -/

/-- C84: `project_physical_coordinates` panics exactly for elements of a dimension larger than the space. -/
theorem C84_projection_panics (la : LinAlg K) (e : Kind) (vs : List (Point g K)) (x : Point g K) (fuel : Nat) :
    projectPhysicalCoords la e vs x fuel = .panic ↔ g < e.dim := by
  rw [projectPhysicalCoords]
  split
  · rename_i h
    refine ⟨fun hp => ?_, fun h' => by omega⟩
    exfalso
    generalize (fun _ => 0 : Point e.dim K) = xi at hp
    induction fuel generalizing xi with
    | zero => cases hp
    | succ fuel ih =>
      simp only [projectLoop] at hp
      split at hp
      · split at hp
        · exact ih _ hp
        · cases hp
      · cases hp
  · rename_i h
    exact ⟨fun _ => by omega, fun _ => rfl⟩

private theorem projectLoop_spec (la : LinAlg K) (hla : Exact la) {r : Nat} (T : Point r K → Point g K) (J : Point r K → Matrix (Fin g) (Fin r) K)
    (x : Point g K) (tol : K) (fuel : Nat) (xi : Point r K) :
    (∀ y, projectLoop la T J x tol fuel xi = .done (.ok y) → la.norm r ((J y).transpose.mulVec fun k => T y k - x k) ≤ tol) ∧
    (projectLoop la T J x tol fuel xi = .done (.error ()) → ∃ y, ((J y).transpose * J y).det = 0) ∧
    (∀ res, projectLoop la T J x tol fuel xi = .done res → ∀ k, projectLoop la T J x tol (fuel + k) xi = .done res) := by
  induction fuel generalizing xi with
  | zero => simp [projectLoop]
  | succ fuel ih =>
    have hk : ∀ k, fuel + 1 + k = fuel + k + 1 := by omega
    simp only [hk, projectLoop]
    by_cases h : la.norm r ((J xi).transpose.mulVec fun k => T xi k - x k) > tol
    · simp only [if_pos h]
      cases hs : la.solve r ((J xi).transpose * J xi) fun i => -((J xi).transpose.mulVec (fun k => T xi k - x k)) i with
      | none =>
        refine ⟨fun y hy => (by cases hy), fun _ => ⟨xi, ?_⟩, fun res hr k => hr⟩
        by_contra hd
        obtain ⟨z, hz, -⟩ := hla.regular _ _ (fun i => -((J xi).transpose.mulVec (fun k => T xi k - x k)) i) hd
        rw [hs] at hz
        cases hz
      | some sol => exact ih _
    · simp only [if_neg h]
      refine ⟨fun y hy => ?_, fun hy => by simp at hy, fun res hr k => hr⟩
      cases hy
      exact not_lt.mp h

/-- C84: reference coordinates that `project_physical_coordinates` returns satisfy the condition for a closest point up to the tolerance;
an error means that the normal equations are singular somewhere. More rounds do not change a result. -/
theorem C84_projection (la : LinAlg K) (hla : Exact la) (e : Kind) (vs : List (Point g K)) (x : Point g K) (fuel : Nat) :
    (∀ xi, projectPhysicalCoords la e vs x fuel = .done (.ok xi) →
      la.norm e.dim ((jacobian e vs xi).transpose.mulVec fun k => mapReferenceCoords e vs xi k - x k) ≤ 1 / 10 ^ 12 * diameter la e vs) ∧
    (projectPhysicalCoords la e vs x fuel = .done (.error ()) → ∃ xi, ((jacobian e vs xi).transpose * jacobian e vs xi).det = 0) ∧
    (∀ res, projectPhysicalCoords la e vs x fuel = .done res → ∀ k, projectPhysicalCoords la e vs x (fuel + k) = .done res) := by
  simp only [projectPhysicalCoords]
  split
  · exact projectLoop_spec la hla _ _ x _ fuel _
  · simp

/-- C84: on an affine element of full rank, such as a triangle or a segment in space, the projection returns in at most two rounds, for
every point. The result is the closest point of the plane or line of the element, unless the centre of the reference element is accepted. -/
theorem C84_affine_projection_is_closest (la : LinAlg K) (hla : Exact la) (e : Kind) (vs : List (Point g K)) (haff : AffineElement e vs)
    (hdim : e.dim ≤ g) (hdet : ((jacobian e vs fun _ => 0).transpose * jacobian e vs fun _ => 0).det ≠ 0) (x : Point g K) :
    ∃ xi, (∀ fuel, 2 ≤ fuel → projectPhysicalCoords la e vs x fuel = .done (.ok xi)) ∧
      ((∀ eta, la.norm g (fun k => mapReferenceCoords e vs xi k - x k) ≤ la.norm g fun k => mapReferenceCoords e vs eta k - x k) ∨
        (xi = fun _ => 0) ∧ la.norm e.dim ((jacobian e vs xi).transpose.mulVec fun k => mapReferenceCoords e vs xi k - x k)
          ≤ 1 / 10 ^ 12 * diameter la e vs) := by
  obtain ⟨A, t, hA⟩ := haff
  have hJ : jacobian e vs = fun _ => A := by
    funext xi
    exact jacobian_affine e vs A t hA xi
  have hT : mapReferenceCoords e vs = fun xi i => A.mulVec xi i + t i := funext hA
  have hfuel : ∀ xi, projectPhysicalCoords la e vs x 2 = .done (.ok xi) → ∀ fuel, 2 ≤ fuel → projectPhysicalCoords la e vs x fuel = .done (.ok xi) := by
    intro xi h fuel hf
    obtain ⟨k, rfl⟩ := Nat.exists_eq_add_of_le hf
    exact (C84_projection la hla e vs x 2).2.2 _ h k
  rw [hJ] at hdet
  have htol := tolerance_nonneg la hla e vs
  have hproj : projectPhysicalCoords la e vs x 2 = projectLoop la (fun xi i => A.mulVec xi i + t i) (fun _ => A) x (tolerance la e vs) 2 fun _ => 0 := by
    rw [projectPhysicalCoords, if_pos hdim, hJ, hT]
  rw [hproj] at hfuel
  by_cases h : la.norm e.dim (A.transpose.mulVec fun k => A.mulVec (fun _ => 0) k + t k - x k) > tolerance la e vs
  · obtain ⟨sol, hs, hsol⟩ := hla.regular _ _ (fun i => -(A.transpose.mulVec (fun k => A.mulVec (fun _ => 0) k + t k - x k)) i) hdet
    have h0 : A.mulVec (fun _ => (0 : K)) = 0 := Matrix.mulVec_zero A
    have hopt : A.transpose.mulVec (fun k => A.mulVec (fun i => 0 + sol i) k + t k - x k) = 0 := by
      have h1 : (fun k => A.mulVec (fun i => 0 + sol i) k + t k - x k) = A.mulVec sol + fun k => A.mulVec (fun _ => 0) k + t k - x k := by
        funext k
        simp only [zero_add, Pi.add_apply, h0, Pi.zero_apply]
        ring
      rw [h1, Matrix.mulVec_add, Matrix.mulVec_mulVec, hsol]
      funext i
      simp
    refine ⟨fun i => 0 + sol i, hfuel _ ?_, .inl ?_⟩
    · simp only [projectLoop, if_pos h, hs, hopt, norm_zero la hla, not_lt.mpr htol, gt_iff_lt, if_false]
    · intro eta
      rw [hT]
      simp only
      generalize (fun i => 0 + sol i) = xi at hopt ⊢
      refine (pow_le_pow_iff_left₀ (hla.nonneg _ _) (hla.nonneg _ _) (n := 2) (by norm_num)).mp ?_
      rw [hla.norm_sq, hla.norm_sq]
      have hcross : ∑ k, A.mulVec (eta - xi) k * (A.mulVec xi k + t k - x k) = 0 := by
        change A.mulVec (eta - xi) ⬝ᵥ (fun k => A.mulVec xi k + t k - x k) = 0
        rw [Matrix.mulVec_transpose] at hopt
        rw [dotProduct_comm, Matrix.dotProduct_mulVec, hopt, zero_dotProduct]
      have hexp : ∑ k, (A.mulVec eta k + t k - x k) ^ 2 = ∑ k, (A.mulVec (eta - xi) k) ^ 2
          + 2 * ∑ k, A.mulVec (eta - xi) k * (A.mulVec xi k + t k - x k) + ∑ k, (A.mulVec xi k + t k - x k) ^ 2 := by
        rw [Finset.mul_sum, ← Finset.sum_add_distrib, ← Finset.sum_add_distrib]
        refine Finset.sum_congr rfl fun k _ => ?_
        rw [Matrix.mulVec_sub]
        simp only [Pi.sub_apply]
        ring
      rw [hexp, hcross]
      have := Finset.sum_nonneg fun (k : Fin g) (_ : k ∈ Finset.univ) => sq_nonneg (A.mulVec (eta - xi) k)
      linarith
  · refine ⟨fun _ => 0, hfuel _ ?_, .inr ⟨rfl, ?_⟩⟩
    · simp only [projectLoop, if_neg h]
    · rw [hJ, hT]
      exact not_lt.mp h

/-! ### The projection may run forever -/

/-- A kite with the vertices `(13, 0)`, `(15, -2)`, `(21, 0)`, `(15, 2)`. -/
def kite : List (Point 2 K) := [![13, 0], ![15, -2], ![21, 0], ![15, 2]]

private theorem kite_convex : Fenris.Spec.StrictlyConvexCcw (kite : List (Point 2 K)) := by
  intro a b c h
  have h' := List.mem_sublists.mpr h
  simp [kite, List.sublists, Fenris.Spec.orient2] at h'
  rcases h' with ⟨rfl, rfl, rfl⟩ | ⟨rfl, rfl, rfl⟩ | ⟨rfl, rfl, rfl⟩ | ⟨rfl, rfl, rfl⟩ <;> norm_num [Fenris.Spec.orient2]

private theorem kite_map (c : K) (hc : c = 0 ∨ c = -4) (k : Fin 2) : mapReferenceCoords .quad4 (kite : List (Point 2 K)) (fun _ => c) k = ![16, 0] k := by
  rcases hc with rfl | rfl <;> fin_cases k <;>
    simp [mapReferenceCoords, kite, geometryBasis, Kind.numNodes, quad4Basis, quad4Phi, weightedSum] <;> norm_num

private theorem kite_jacobian (c : K) : jacobian .quad4 (kite : List (Point 2 K)) (fun _ => c) = !![2 + c, 2 + c; -1, 1] := by
  ext i j
  fin_cases i <;> fin_cases j <;>
    simp [jacobian, referenceJacobian, kite, geometryGradients, Kind.numNodes, quad4Gradients, quad4PhiGrad, weightedSum] <;> ring

private theorem kite_tolerance (la : LinAlg K) (hla : Exact la) (v : Point 2 K) (hv : 64 ≤ ∑ i, v i ^ 2) :
    la.norm 2 v > tolerance la .quad4 (kite : List (Point 2 K)) := by
  have hd : diameter la .quad4 (kite : List (Point 2 K)) ≤ 8 := by
    obtain ⟨-, -, p, hp, q, hq, h⟩ := diameter_vertices la hla .quad4 (kite : List (Point 2 K)) (by simp [kite, Kind.numNodes])
    rw [← h]
    refine (pow_le_pow_iff_left₀ (hla.nonneg _ _) (by norm_num) (n := 2) (by norm_num)).mp ?_
    rw [hla.norm_sq]
    simp only [kite, Kind.numNodes, List.take_succ_cons, List.take_zero, List.mem_cons, List.not_mem_nil, or_false] at hp hq
    rcases hp with rfl | rfl | rfl | rfl <;> rcases hq with rfl | rfl | rfl | rfl <;> simp [Fin.sum_univ_two] <;> norm_num
  have hn : 8 ≤ la.norm 2 v := by
    refine (pow_le_pow_iff_left₀ (by norm_num) (hla.nonneg _ _) (n := 2) (by norm_num)).mp ?_
    rw [hla.norm_sq]
    linarith
  rw [tolerance]
  have : (1 : K) / 10 ^ 12 * diameter la .quad4 (kite : List (Point 2 K)) ≤ 1 / 10 ^ 12 * 8 := mul_le_mul_of_nonneg_left hd (by norm_num)
  have h2 : (1 : K) / 10 ^ 12 * 8 < 8 := by norm_num
  linarith

/-- Finding C84: `project_physical_coordinates` may not terminate, even on a strictly convex quadrilateral. For the kite and the origin
it alternates between the reference coordinates `(0, 0)` and `(-4, -4)`. -/
theorem C84_projection_may_not_terminate (la : LinAlg K) (hla : Exact la) :
    Fenris.Spec.StrictlyConvexCcw (kite : List (Point 2 K)) ∧
    ∀ fuel, projectPhysicalCoords la .quad4 (kite : List (Point 2 K)) ![0, 0] fuel = .running := by
  refine ⟨kite_convex, fun fuel => ?_⟩
  rw [projectPhysicalCoords, if_pos (le_refl 2)]
  have hz : ∀ c : K, c = 0 ∨ c = -4 → projectLoop la (mapReferenceCoords .quad4 (kite : List (Point 2 K))) (jacobian .quad4 kite) ![0, 0]
      (tolerance la .quad4 (kite : List (Point 2 K))) fuel (fun _ => c) = .running := by
    induction fuel with
    | zero => exact fun _ _ => rfl
    | succ fuel ih =>
      intro c hc
      have hres : ((jacobian .quad4 (kite : List (Point 2 K)) fun _ => c).transpose.mulVec fun k =>
          mapReferenceCoords .quad4 (kite : List (Point 2 K)) (fun _ => c) k - ![0, 0] k) = fun _ => 16 * (2 + c) := by
        funext i
        rw [kite_jacobian]
        simp only [kite_map c hc]
        fin_cases i <;> simp [Matrix.mulVec, dotProduct, Fin.sum_univ_two] <;> ring
      have hprod : (jacobian .quad4 (kite : List (Point 2 K)) fun _ => c).transpose * (jacobian .quad4 kite fun _ => c) = !![5, 3; 3, 5] := by
        rw [kite_jacobian]
        ext i j
        rcases hc with rfl | rfl <;> fin_cases i <;> fin_cases j <;> simp [Matrix.mul_apply, Fin.sum_univ_two] <;> norm_num
      have hdet : (!![5, 3; 3, 5] : Matrix (Fin 2) (Fin 2) K).det ≠ 0 := by
        rw [Matrix.det_fin_two_of]
        norm_num
      have hn := kite_tolerance la hla (fun _ => 16 * (2 + c)) (by rcases hc with rfl | rfl <;> simp [Fin.sum_univ_two] <;> norm_num)
      obtain ⟨sol, hs, hsol⟩ := hla.regular 2 _ (fun _ => -(16 * (2 + c))) hdet
      have hsol' : sol = fun _ => -(2 * (2 + c)) := by
        have h0 := congrFun hsol 0
        have h1 := congrFun hsol 1
        simp [Matrix.mulVec, dotProduct, Fin.sum_univ_two] at h0 h1
        funext i
        fin_cases i
        · show sol 0 = _
          linarith
        · show sol 1 = _
          linarith
      have hs' : la.solve (Kind.dim .quad4) ((jacobian .quad4 (kite : List (Point 2 K)) fun _ => c).transpose * (jacobian .quad4 kite fun _ => c))
          (fun i => -((jacobian .quad4 (kite : List (Point 2 K)) fun _ => c).transpose.mulVec fun k =>
          mapReferenceCoords .quad4 (kite : List (Point 2 K)) (fun _ => c) k - ![0, 0] k) i) = some sol := by
        rw [hprod, hres]
        exact hs
      have hn' : la.norm (Kind.dim .quad4) ((jacobian .quad4 (kite : List (Point 2 K)) fun _ => c).transpose.mulVec fun k =>
          mapReferenceCoords .quad4 (kite : List (Point 2 K)) (fun _ => c) k - ![0, 0] k) > tolerance la .quad4 (kite : List (Point 2 K)) := by
        rw [hres]
        exact hn
      rw [projectLoop]
      simp only [if_pos hn', hs', hsol']
      have hnext : (fun _ : Fin 2 => c + -(2 * (2 + c))) = fun _ => -4 - c := by
        funext _
        ring
      have := ih (-4 - c) (by rcases hc with rfl | rfl <;> simp)
      rw [← hnext] at this
      exact this
  exact hz 0 (.inl rfl)

/-- C84: on the same input `map_physical_coordinates` gives up after 20 rounds. -/
theorem C84_map_may_reach_limit (la : LinAlg K) (hla : Exact la) :
    mapPhysicalCoords la .quad4 (kite : List (Point 2 K)) ![0, 0] = some (.error (.maximumIterationsReached 20)) := by
  have hfun : ∀ c : K, c = 0 ∨ c = -4 → (problem la .quad4 (kite : List (Point 2 K)) ![0, 0]).function (fun _ => c) = (![16, 0] : Point 2 K) := by
    intro c hc
    funext k
    change mapReferenceCoords .quad4 (kite : List (Point 2 K)) (fun _ => c) k - (![0, 0] : Point 2 K) k = _
    rw [kite_map c hc]
    change Fin 2 at k
    fin_cases k <;> simp
  have hn := kite_tolerance la hla ![16, 0] (by simp [Fin.sum_univ_two]; norm_num)
  have hsolve : ∀ c : K, c = 0 ∨ c = -4 → solveJacobian la .quad4 (kite : List (Point 2 K)) (fun _ => c) ![16, 0] = .ok fun _ => 2 * (2 + c) := by
    intro c hc
    have hdet : (!![2 + c, 2 + c; -1, 1] : Matrix (Fin 2) (Fin 2) K).det ≠ 0 := by
      rw [Matrix.det_fin_two_of]
      rcases hc with rfl | rfl <;> norm_num
    obtain ⟨sol, hs, hsol⟩ := hla.regular 2 _ ![16, 0] hdet
    have hsol' : sol = fun _ => 2 * (2 + c) := by
      have h0 := congrFun hsol 0
      have h1 := congrFun hsol 1
      simp [Matrix.mulVec, dotProduct, Fin.sum_univ_two] at h0 h1
      funext i
      rcases hc with rfl | rfl <;> fin_cases i
      · show sol 0 = _
        linarith
      · show sol 1 = _
        linarith
      · show sol 0 = _
        linarith
      · show sol 1 = _
        linarith
    have hs' : la.solve (Kind.dim .quad4) (jacobian .quad4 (kite : List (Point 2 K)) fun _ => c) ![16, 0] = some sol := by
      rw [kite_jacobian]
      exact hs
    rw [solveJacobian]
    erw [hs']
    rw [hsol']
  have hz : ∀ (k : Nat), k ≤ 20 → ∀ c : K, c = 0 ∨ c = -4 → ∃ y f, loop (problem la .quad4 (kite : List (Point 2 K)) ![0, 0]) (k + 1) (fun _ => c)
      (![16, 0] : Point 2 K) (20 - k) = some ⟨y, f, .error (.maximumIterationsReached 20)⟩ := by
    intro k
    induction k with
    | zero =>
      intro _ c hc
      refine ⟨fun _ => c, (![16, 0] : Point 2 K), ?_⟩
      rw [loop, iteration]
      simp only [gt_iff_lt, if_pos hn]
      rfl
    | succ k ih =>
      intro hk c hc
      obtain ⟨y, f, h⟩ := ih (by omega) (-4 - c) (by rcases hc with rfl | rfl <;> simp)
      refine ⟨y, f, ?_⟩
      have h20 : ¬(some 20 = some (20 - (k + 1))) := by
        simp only [Option.some.injEq]
        omega
      have hnext : (fun i : Fin 2 => (fun _ : Fin 2 => 2 * (2 + c)) i * -1 + (fun _ : Fin 2 => c) i) = fun _ => -4 - c := by
        funext _
        ring
      have hit : iteration (problem la .quad4 (kite : List (Point 2 K)) ![0, 0]) (fun _ => c) (![16, 0] : Point 2 K) (20 - (k + 1))
          = some (.inr ((fun _ => -4 - c), (![16, 0] : Point 2 K))) := by
        rw [iteration]
        simp only [gt_iff_lt, if_pos hn, if_neg h20]
        erw [hsolve c hc]
        simp only [noLineSearch]
        erw [hnext]
        exact congrArg (fun v => some (Sum.inr ((fun _ => -4 - c), v))) (hfun (-4 - c) (by rcases hc with rfl | rfl <;> simp))
      rw [loop, hit]
      simp only
      rw [show 20 - (k + 1) + 1 = 20 - k by omega]
      exact h
  obtain ⟨y, f, h⟩ := hz 20 le_rfl 0 (.inl rfl)
  have : newton (fun xi k => mapReferenceCoords .quad4 (kite : List (Point 2 K)) xi k - ![0, 0] k) (fun _ => solveJacobian la .quad4 kite) (some 20)
      (tolerance la .quad4 (kite : List (Point 2 K))) (la.norm 2) 21 (fun _ => 0) = some ⟨y, f, .error (.maximumIterationsReached 20)⟩ := by
    rw [newton, newtonLineSearch]
    erw [hfun 0 (.inl rfl)]
    exact h
  rw [mapPhysicalCoords]
  erw [this]
  rfl

/-! ### Non-vacuity -/

/-- The Euclidean norm and Cramer's rule over the real numbers. -/
private noncomputable def realLinAlg : LinAlg ℝ where
  norm _ v := Real.sqrt (∑ i, v i ^ 2)
  solve _ A b := open Classical in if A.det = 0 then none else some (A⁻¹.mulVec b)

private theorem realLinAlg_exact : Exact realLinAlg where
  nonneg _ _ := Real.sqrt_nonneg _
  norm_sq _ _ := Real.sq_sqrt (Finset.sum_nonneg fun _ _ => sq_nonneg _)
  regular _ A b h := by
    refine ⟨A⁻¹.mulVec b, by simp only [realLinAlg, if_neg h], ?_⟩
    rw [Matrix.mulVec_mulVec, Matrix.mul_nonsing_inv _ (isUnit_iff_ne_zero.mpr h), Matrix.one_mulVec]
  singular _ A b h := by simp only [realLinAlg, if_pos h]

/-- A triangle whose reference map is `xi ↦ (2, 2) + 2 xi`. -/
private def triangle : List (Point 2 ℝ) := [![0, 0], ![4, 0], ![0, 4]]

private theorem triangle_jacobian (xi : Point 2 ℝ) : jacobian .tri3 triangle xi = !![2, 0; 0, 2] := by
  ext i j
  fin_cases i <;> fin_cases j <;>
    simp [jacobian, referenceJacobian, triangle, geometryGradients, Kind.numNodes, tri3Gradients, tri3G, weightedSum] <;> norm_num

/-- C84 example: the origin is far from the centre, so that it is mapped exactly to the reference vertex `(-1, -1)`. -/
example : mapPhysicalCoords realLinAlg .tri3 triangle ![0, 0] = some (.ok ![-1, -1]) := by
  have hdet : (jacobian .tri3 triangle fun _ => (0 : ℝ)).det ≠ 0 := by
    have := triangle_jacobian fun _ => (0 : ℝ)
    rw [this]
    erw [Matrix.det_fin_two_of]
    norm_num
  have hT : ∀ xi : Point 2 ℝ, mapReferenceCoords .tri3 triangle xi = fun i => 2 + 2 * xi i := by
    intro xi
    funext i
    fin_cases i <;> simp [mapReferenceCoords, triangle, geometryBasis, Kind.numNodes, tri3Basis, tri3Psi, weightedSum] <;> ring
  have hv : mapReferenceCoords .tri3 triangle ![-1, -1] = (![0, 0] : Point 2 ℝ) := by
    rw [hT]
    funext i
    fin_cases i <;> simp
  have h := C84_round_trip realLinAlg realLinAlg_exact .tri3 triangle (C84_simplices_are_affine .tri3 (by simp) _) hdet ![-1, -1]
  rw [hv] at h
  rcases h with h | ⟨-, h⟩
  · exact h
  · exfalso
    obtain ⟨-, -, p, hp, q, hq, hd⟩ := diameter_vertices realLinAlg realLinAlg_exact .tri3 triangle (by simp [triangle, Kind.numNodes])
    have hd6 : diameter realLinAlg .tri3 triangle ≤ 6 := by
      rw [← hd]
      refine (pow_le_pow_iff_left₀ (realLinAlg_exact.nonneg _ _) (by norm_num) (n := 2) (by norm_num)).mp ?_
      rw [realLinAlg_exact.norm_sq]
      simp only [triangle, Kind.numNodes, List.take_succ_cons, List.take_zero, List.mem_cons, List.not_mem_nil, or_false] at hp hq
      rcases hp with rfl | rfl | rfl <;> rcases hq with rfl | rfl | rfl <;> simp [Fin.sum_univ_two] <;> norm_num
    have hn : 1 ≤ realLinAlg.norm 2 fun k => mapReferenceCoords .tri3 triangle (fun _ => (0 : ℝ)) k - (![0, 0] : Point 2 ℝ) k := by
      refine (pow_le_pow_iff_left₀ (by norm_num) (realLinAlg_exact.nonneg _ _) (n := 2) (by norm_num)).mp ?_
      rw [realLinAlg_exact.norm_sq]
      have := hT fun _ => 0
      simp only [Fin.sum_univ_two]
      erw [this]
      simp
      norm_num
    have h2 : (1 : ℝ) / 10 ^ 12 * diameter realLinAlg .tri3 triangle ≤ 1 / 10 ^ 12 * 6 := mul_le_mul_of_nonneg_left hd6 (by norm_num)
    have h3 : (1 : ℝ) / 10 ^ 12 * 6 < 1 := by norm_num
    exact absurd (h.trans h2) (not_le.mpr (lt_of_lt_of_le h3 hn))

/-- C84 example: the diameter of the triangle is the distance of two of its points. -/
example : ∃ xi eta, InReference .tri3 xi ∧ InReference .tri3 eta ∧
    realLinAlg.norm 2 (fun i => mapReferenceCoords .tri3 triangle xi i - mapReferenceCoords .tri3 triangle eta i) = diameter realLinAlg .tri3 triangle :=
  (C84_diameter realLinAlg realLinAlg_exact .tri3 triangle (by simp [triangle, Kind.numNodes])).2

private theorem slope : ((jacobian .segment2 [![0, 0], (![4, 2] : Point 2 ℝ)] fun _ => 0).transpose * jacobian .segment2 [![0, 0], (![4, 2] : Point 2 ℝ)] fun _ => 0)
    = (!![5] : Matrix (Fin 1) (Fin 1) ℝ) := by
  ext i j
  fin_cases i
  fin_cases j
  simp [Matrix.mul_apply, Fin.sum_univ_two, jacobian, referenceJacobian, geometryGradients, Kind.numNodes, segment2Gradients, weightedSum]
  norm_num

/-- C84 example: a segment in the plane has full rank, and every point of the plane is projected. -/
example (x : Point 2 ℝ) : ∃ xi, ∀ fuel, 2 ≤ fuel →
    projectPhysicalCoords realLinAlg .segment2 [![0, 0], ![4, 2]] x fuel = .done (.ok xi) := by
  obtain ⟨xi, h, -⟩ := C84_affine_projection_is_closest realLinAlg realLinAlg_exact .segment2 [![0, 0], ![4, 2]]
    (C84_simplices_are_affine .segment2 (by simp) _) (by norm_num [Kind.dim]) (by rw [slope]; erw [Matrix.det_fin_one_of]; norm_num) x
  exact ⟨xi, h⟩

/-- C84 example: there is exact linear algebra, so that the projection onto the kite does not end for the real numbers. -/
example : ∀ fuel, projectPhysicalCoords realLinAlg .quad4 (kite : List (Point 2 ℝ)) ![0, 0] fuel = .running :=
  (C84_projection_may_not_terminate realLinAlg realLinAlg_exact).2

end Inverse
end Fenris
