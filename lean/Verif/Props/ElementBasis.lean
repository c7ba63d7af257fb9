import Mathlib.Tactic.Ring
import Mathlib.Tactic.NormNum
import Mathlib.Algebra.CharZero.Defs
import Mathlib.Tactic.FinCases
import Mathlib.Data.Fintype.Basic
import Mathlib.Tactic.IntervalCases
import Verif.Model.Element
/-! # C35, C36: partition of unity and nodal property of every element type -/
set_option autoImplicit false
set_option linter.unusedSectionVars false

namespace Fenris
open Element
variable {K : Type} [Field K] [CharZero K]

/-- **C35.** The basis functions of every element type add up to one at every reference point
(whether or not it lies in the reference element). -/
theorem C35_basis_sums_to_one (e : Kind) (xi : Point e.dim K) :
    (basis e xi).length = e.numNodes ∧ (basis e xi).sum = 1 := by
  cases e <;> refine ⟨rfl, ?_⟩ <;>
    simp [basis, segment2Basis, tri3Basis, tri6Basis, quad4Basis, quad9Basis, tet4Basis,
      tet10Basis, tet20Basis, hex8Basis, hex20Basis, hex27Basis, tri3Psi, tet4Psi, quadVertex,
      quadEdge, cubicVertex, cubicEdge, cubicFace, quad4Phi, quad9Phi, quad9Phi1d, hex8Phi,
      hex27Phi, phiLinear1d, phiQuadratic1d, hex20Corner, hex20Edge] <;> ring

/-- **C35.** The basis gradients of every element type add up to zero at every reference point. -/
theorem C35_gradients_sum_to_zero (e : Kind) (xi : Point e.dim K) (k : Fin e.dim) :
    (gradients e xi).length = e.numNodes ∧ ((gradients e xi).map (fun G => G k)).sum = 0 := by
  cases e <;> refine ⟨rfl, ?_⟩ <;> (simp only [Kind.dim] at k; fin_cases k) <;>
    simp [gradients, segment2Gradients, tri3Gradients, tri6Gradients, quad4Gradients,
      quad9Gradients, tet4Gradients, tet10Gradients, tet20Gradients, hex8Gradients, hex20Gradients,
      hex27Gradients, tri3Psi, tet4Psi, tri3G, tet4G, quadVertexGrad, quadEdgeGrad, cubicVertexGrad,
      cubicEdgeGrad, cubicFaceGrad, quad4PhiGrad, quad9PhiGrad, quad9Phi1d, quad9PhiGrad1d,
      hex8PhiGrad, hex27PhiGrad, phiLinear1d, phiQuadratic1d, phiLinear1dGrad, phiQuadratic1dGrad,
      hex20CornerGrad, hex20EdgeGrad] <;> ring

omit [CharZero K] in
private theorem interpolate_indicator (u : List K) (j : Nat) :
    interpolate u ((List.range u.length).map (fun i => if i = j then (1 : K) else 0))
      = u[j]?.getD 0 := by
  induction u generalizing j with
  | nil => simp [interpolate]
  | cons a u ih =>
    simp only [interpolate] at ih ⊢
    simp only [List.length_cons, List.range_succ_eq_map, List.map_cons, List.map_map,
      List.zipWith_cons_cons, List.sum_cons]
    cases j with
    | zero =>
      have h0 : ∀ n, (List.zipWith (fun x1 x2 => x1 * x2) u (List.replicate n (0 : K))).sum = 0 := by
        clear ih
        intro n
        induction u generalizing n with
        | nil => simp
        | cons b u ih => cases n <;> simp [List.replicate_succ, ih]
      simpa [Function.comp_def] using h0 u.length
    | succ j =>
      have h := ih j
      simp only [List.getElem?_cons_succ, ← h]
      simp [Function.comp_def]

omit [CharZero K] in
private theorem v3_2 (a b c : K) : (![a, b, c] : Fin 3 → K) 2 = c := rfl

private theorem lin_vals : phiLinear1d (1 : K) 1 = 1 ∧ phiLinear1d (1 : K) (-1) = 0 ∧
    phiLinear1d (-1 : K) 1 = 0 ∧ phiLinear1d (-1 : K) (-1) = 1 := by
  norm_num [phiLinear1d]

private theorem quad_vals : phiQuadratic1d (1 : K) 1 = 1 ∧ phiQuadratic1d (1 : K) 0 = 0 ∧
    phiQuadratic1d (1 : K) (-1) = 0 ∧ phiQuadratic1d (0 : K) 1 = 0 ∧
    phiQuadratic1d (0 : K) 0 = 1 ∧ phiQuadratic1d (0 : K) (-1) = 0 ∧
    phiQuadratic1d (-1 : K) 1 = 0 ∧ phiQuadratic1d (-1 : K) 0 = 0 ∧
    phiQuadratic1d (-1 : K) (-1) = 1 := by
  norm_num [phiQuadratic1d]

private theorem quad9_eq (a x : K) : quad9Phi1d a x = phiQuadratic1d a x := by
  simp only [quad9Phi1d, phiQuadratic1d]; ring

private theorem nodal_segment2 (j : Nat) (x : Point (Kind.dim .segment2) K)
    (hx : (refNodes .segment2)[j]? = some x) :
    basis .segment2 x = (List.range (Kind.numNodes .segment2)).map (fun i => if i = j then 1 else 0) := by
  have hj : j < (refNodes (K := K) .segment2).length := (List.getElem?_eq_some_iff.mp hx).1
  simp only [refNodes, segment2Nodes, List.length_cons, List.length_nil] at hj hx
  interval_cases j <;>
    (simp only [List.getElem?_cons_zero, List.getElem?_cons_succ, Option.some.injEq] at hx
     subst hx
     norm_num [basis, segment2Basis, Kind.numNodes, v3_2, List.range_succ])

private theorem nodal_tri3 (j : Nat) (x : Point (Kind.dim .tri3) K)
    (hx : (refNodes .tri3)[j]? = some x) :
    basis .tri3 x = (List.range (Kind.numNodes .tri3)).map (fun i => if i = j then 1 else 0) := by
  have hj : j < (refNodes (K := K) .tri3).length := (List.getElem?_eq_some_iff.mp hx).1
  simp only [refNodes, tri3Nodes, List.length_cons, List.length_nil] at hj hx
  interval_cases j <;>
    (simp only [List.getElem?_cons_zero, List.getElem?_cons_succ, Option.some.injEq] at hx
     subst hx
     norm_num [basis, tri3Basis, tri3Psi, Kind.numNodes, v3_2, List.range_succ])

private theorem nodal_tri6 (j : Nat) (x : Point (Kind.dim .tri6) K)
    (hx : (refNodes .tri6)[j]? = some x) :
    basis .tri6 x = (List.range (Kind.numNodes .tri6)).map (fun i => if i = j then 1 else 0) := by
  have hj : j < (refNodes (K := K) .tri6).length := (List.getElem?_eq_some_iff.mp hx).1
  simp only [refNodes, tri6Nodes, List.length_cons, List.length_nil] at hj hx
  interval_cases j <;>
    (simp only [List.getElem?_cons_zero, List.getElem?_cons_succ, Option.some.injEq] at hx
     subst hx
     norm_num [basis, tri6Basis, tri3Psi, quadVertex, quadEdge, Kind.numNodes, v3_2, List.range_succ])

private theorem nodal_quad4 (j : Nat) (x : Point (Kind.dim .quad4) K)
    (hx : (refNodes .quad4)[j]? = some x) :
    basis .quad4 x = (List.range (Kind.numNodes .quad4)).map (fun i => if i = j then 1 else 0) := by
  have hj : j < (refNodes (K := K) .quad4).length := (List.getElem?_eq_some_iff.mp hx).1
  simp only [refNodes, quad4Nodes, List.length_cons, List.length_nil] at hj hx
  interval_cases j <;>
    (simp only [List.getElem?_cons_zero, List.getElem?_cons_succ, Option.some.injEq] at hx
     subst hx
     norm_num [basis, quad4Basis, quad4Phi, Kind.numNodes, v3_2, List.range_succ])

private theorem nodal_quad9 (j : Nat) (x : Point (Kind.dim .quad9) K)
    (hx : (refNodes .quad9)[j]? = some x) :
    basis .quad9 x = (List.range (Kind.numNodes .quad9)).map (fun i => if i = j then 1 else 0) := by
  have hj : j < (refNodes (K := K) .quad9).length := (List.getElem?_eq_some_iff.mp hx).1
  obtain ⟨q1, q2, q3, q4, q5, q6, q7, q8, q9⟩ := quad_vals (K := K)
  simp only [refNodes, quad9Nodes, List.length_cons, List.length_nil] at hj hx
  interval_cases j <;>
    (simp only [List.getElem?_cons_zero, List.getElem?_cons_succ, Option.some.injEq] at hx
     subst hx
     simp [basis, quad9Basis, quad9Phi, quad9_eq, Kind.numNodes, List.range_succ,
       q1, q2, q3, q4, q5, q6, q7, q8, q9])

private theorem nodal_tet4 (j : Nat) (x : Point (Kind.dim .tet4) K)
    (hx : (refNodes .tet4)[j]? = some x) :
    basis .tet4 x = (List.range (Kind.numNodes .tet4)).map (fun i => if i = j then 1 else 0) := by
  have hj : j < (refNodes (K := K) .tet4).length := (List.getElem?_eq_some_iff.mp hx).1
  simp only [refNodes, tet4Nodes, List.length_cons, List.length_nil] at hj hx
  interval_cases j <;>
    (simp only [List.getElem?_cons_zero, List.getElem?_cons_succ, Option.some.injEq] at hx
     subst hx
     norm_num [basis, tet4Basis, tet4Psi, Kind.numNodes, v3_2, List.range_succ])

private theorem nodal_tet10 (j : Nat) (x : Point (Kind.dim .tet10) K)
    (hx : (refNodes .tet10)[j]? = some x) :
    basis .tet10 x = (List.range (Kind.numNodes .tet10)).map (fun i => if i = j then 1 else 0) := by
  have hj : j < (refNodes (K := K) .tet10).length := (List.getElem?_eq_some_iff.mp hx).1
  simp only [refNodes, tet10Nodes, List.length_cons, List.length_nil] at hj hx
  interval_cases j <;>
    (simp only [List.getElem?_cons_zero, List.getElem?_cons_succ, Option.some.injEq] at hx
     subst hx
     norm_num [basis, tet10Basis, tet4Psi, quadVertex, quadEdge, Kind.numNodes, v3_2, List.range_succ])

set_option maxHeartbeats 1000000 in
private theorem nodal_tet20 (j : Nat) (x : Point (Kind.dim .tet20) K)
    (hx : (refNodes .tet20)[j]? = some x) :
    basis .tet20 x = (List.range (Kind.numNodes .tet20)).map (fun i => if i = j then 1 else 0) := by
  have hj : j < (refNodes (K := K) .tet20).length := (List.getElem?_eq_some_iff.mp hx).1
  simp only [refNodes, tet20Nodes, List.length_cons, List.length_nil] at hj hx
  interval_cases j <;>
    (simp only [List.getElem?_cons_zero, List.getElem?_cons_succ, Option.some.injEq] at hx
     subst hx
     norm_num [basis, tet20Basis, tet4Psi, cubicVertex, cubicEdge, cubicFace, Kind.numNodes, v3_2,
       List.range_succ])

private theorem nodal_hex8 (j : Nat) (x : Point (Kind.dim .hex8) K)
    (hx : (refNodes .hex8)[j]? = some x) :
    basis .hex8 x = (List.range (Kind.numNodes .hex8)).map (fun i => if i = j then 1 else 0) := by
  have hj : j < (refNodes (K := K) .hex8).length := (List.getElem?_eq_some_iff.mp hx).1
  obtain ⟨l1, l2, l3, l4⟩ := lin_vals (K := K)
  simp only [refNodes, hex8Nodes, List.length_cons, List.length_nil] at hj hx
  interval_cases j <;>
    (simp only [List.getElem?_cons_zero, List.getElem?_cons_succ, Option.some.injEq] at hx
     subst hx
     simp [basis, hex8Basis, hex8Phi, Kind.numNodes, v3_2, List.range_succ, l1, l2, l3, l4])

set_option maxHeartbeats 1000000 in
private theorem nodal_hex20 (j : Nat) (x : Point (Kind.dim .hex20) K)
    (hx : (refNodes .hex20)[j]? = some x) :
    basis .hex20 x = (List.range (Kind.numNodes .hex20)).map (fun i => if i = j then 1 else 0) := by
  have hj : j < (refNodes (K := K) .hex20).length := (List.getElem?_eq_some_iff.mp hx).1
  simp only [refNodes, hex20Nodes, hex8Nodes, hexEdgeNodes, List.cons_append, List.nil_append,
    List.length_cons, List.length_nil] at hj hx
  interval_cases j <;>
    (simp only [List.getElem?_cons_zero, List.getElem?_cons_succ, Option.some.injEq] at hx
     subst hx
     norm_num [basis, hex20Basis, hex20Corner, hex20Edge, Kind.numNodes, v3_2, List.range_succ])

set_option maxHeartbeats 1000000 in
private theorem nodal_hex27 (j : Nat) (x : Point (Kind.dim .hex27) K)
    (hx : (refNodes .hex27)[j]? = some x) :
    basis .hex27 x = (List.range (Kind.numNodes .hex27)).map (fun i => if i = j then 1 else 0) := by
  have hj : j < (refNodes (K := K) .hex27).length := (List.getElem?_eq_some_iff.mp hx).1
  obtain ⟨q1, q2, q3, q4, q5, q6, q7, q8, q9⟩ := quad_vals (K := K)
  simp only [refNodes, hex27Nodes, hex8Nodes, hexEdgeNodes, List.cons_append, List.nil_append,
    List.length_cons, List.length_nil] at hj hx
  interval_cases j <;>
    (simp only [List.getElem?_cons_zero, List.getElem?_cons_succ, Option.some.injEq] at hx
     subst hx
     simp [basis, hex27Basis, hex27Phi, Kind.numNodes, v3_2, List.range_succ,
       q1, q2, q3, q4, q5, q6, q7, q8, q9])

/-- **C36.** Basis function `i` of every element type is one at reference node `i` and zero at all
other reference nodes. -/
theorem C36_basis_is_nodal (e : Kind) (j : Nat) (x : Point e.dim K)
    (hx : (refNodes e)[j]? = some x) :
    basis e x = (List.range e.numNodes).map (fun i => if i = j then 1 else 0) := by
  cases e
  case segment2 => exact nodal_segment2 j x hx
  case tri3 => exact nodal_tri3 j x hx
  case tri6 => exact nodal_tri6 j x hx
  case quad4 => exact nodal_quad4 j x hx
  case quad9 => exact nodal_quad9 j x hx
  case tet4 => exact nodal_tet4 j x hx
  case tet10 => exact nodal_tet10 j x hx
  case tet20 => exact nodal_tet20 j x hx
  case hex8 => exact nodal_hex8 j x hx
  case hex20 => exact nodal_hex20 j x hx
  case hex27 => exact nodal_hex27 j x hx

private theorem refNodes_length (e : Kind) : (refNodes (K := K) e).length = e.numNodes := by
  cases e <;> rfl

/-- **C36.** The interpolant of arbitrary nodal values takes the prescribed value at every
reference node. -/
theorem C36_interpolant_takes_nodal_values (e : Kind) (u : List K) (hu : u.length = e.numNodes)
    (j : Nat) (x : Point e.dim K) (hx : (refNodes e)[j]? = some x) :
    u[j]? = some (interpolate u (basis e x)) := by
  have hj : j < (refNodes (K := K) e).length := (List.getElem?_eq_some_iff.mp hx).1
  rw [refNodes_length, ← hu] at hj
  rw [C36_basis_is_nodal e j x hx, ← hu, interpolate_indicator, List.getElem?_eq_getElem hj]
  rfl

/-- Non-vacuity: the last node of the cubic tetrahedron and some values of a nodal vector. -/
example : (refNodes (K := Rat) .tet20)[19]? = some (![-1 / 3, -1 / 3, -1 / 3] : Point 3 Rat) ∧
    ((List.range 20).map (fun i => (i : Rat))).length = Kind.numNodes .tet20 := ⟨rfl, rfl⟩

end Fenris
