import Mathlib.Tactic.Ring
import Mathlib.Tactic.NormNum
import Mathlib.Algebra.CharZero.Defs
import Mathlib.Tactic.IntervalCases
import Mathlib.Algebra.MvPolynomial.Eval
import Mathlib.Algebra.BigOperators.Fin
import Verif.Model.Element
import Verif.Spec.Element
import Verif.Props.ElementBasis
import Verif.Props.ElementGradient
/-! # C38: polynomial reproduction -/
set_option autoImplicit false
set_option linter.unusedSectionVars false
set_option linter.unnecessarySeqFocus false

namespace Fenris
open Element
variable {K : Type} [Field K] [CharZero K]

private theorem interpolate_cons (a b : K) (as bs : List K) :
    interpolate (a :: as) (b :: bs) = a * b + interpolate as bs := rfl

private theorem interpolate_nil (bs : List K) : interpolate [] bs = 0 := rfl

private theorem interpolate_add {d : Nat} (F G : Point d K → K)
    (ns : List (Point d K)) (bs : List K) :
    interpolate (ns.map (fun x => F x + G x)) bs =
      interpolate (ns.map F) bs + interpolate (ns.map G) bs := by
  induction ns generalizing bs with
  | nil => simp [interpolate]
  | cons n ns ih =>
    cases bs with
    | nil => simp [interpolate]
    | cons b bs => simp only [List.map_cons, interpolate_cons, ih]; ring

private theorem interpolate_smul {d : Nat} (c : K) (F : Point d K → K)
    (ns : List (Point d K)) (bs : List K) :
    interpolate (ns.map (fun x => c * F x)) bs = c * interpolate (ns.map F) bs := by
  induction ns generalizing bs with
  | nil => simp [interpolate]
  | cons n ns ih =>
    cases bs with
    | nil => simp [interpolate]
    | cons b bs => simp only [List.map_cons, interpolate_cons, ih]; ring

/-- It is enough to reproduce the monomials. -/
private theorem reproduce_of_monomials {d : Nat} (ns : List (Point d K)) (bs : List K)
    (x : Point d K) (p : MvPolynomial (Fin d) K)
    (h : ∀ s ∈ p.support, interpolate (ns.map (fun y => ∏ k, y k ^ s k)) bs = ∏ k, x k ^ s k) :
    interpolate (ns.map (fun y => MvPolynomial.eval y p)) bs = MvPolynomial.eval x p := by
  have key : ∀ S : Finset (Fin d →₀ ℕ), S ⊆ p.support →
      interpolate (ns.map (fun y => ∑ s ∈ S, p.coeff s * ∏ k, y k ^ s k)) bs =
        ∑ s ∈ S, p.coeff s * ∏ k, x k ^ s k := by
    intro S
    classical
    induction S using Finset.induction_on with
    | empty =>
      intro _
      have := interpolate_smul (0 : K) (fun _ => 0) ns bs
      simpa using this
    | insert s S hs ih =>
      intro hsub
      simp only [Finset.sum_insert hs]
      rw [interpolate_add, ih (fun t ht => hsub (Finset.mem_insert_of_mem ht)),
        interpolate_smul, h s (hsub (Finset.mem_insert_self _ _))]
  simpa only [MvPolynomial.eval_eq'] using key p.support (fun _ h => h)

private theorem hex8_monomial (x : Point 3 K) (a b c : Nat) (ha : a ≤ 1) (hb : b ≤ 1) (hc : c ≤ 1) :
    interpolate (hex8Nodes.map (fun y => y 0 ^ a * y 1 ^ b * y 2 ^ c)) (hex8Basis x)
      = x 0 ^ a * x 1 ^ b * x 2 ^ c := by
  interval_cases a <;> interval_cases b <;> interval_cases c <;>
    simp [hex8Nodes, hex8Basis, interpolate, hex8Phi, phiLinear1d] <;> ring

private theorem quadratic1d_monomial (x : K) (a : Nat) (ha : a ≤ 2) :
    phiQuadratic1d (-1) x * (-1) ^ a + phiQuadratic1d 0 x * 0 ^ a + phiQuadratic1d 1 x * 1 ^ a
      = x ^ a := by
  interval_cases a <;> simp [phiQuadratic1d] <;> ring

private theorem hex27_monomial (x : Point 3 K) (a b c : Nat) (ha : a ≤ 2) (hb : b ≤ 2)
    (hc : c ≤ 2) :
    interpolate (hex27Nodes.map (fun y => y 0 ^ a * y 1 ^ b * y 2 ^ c)) (hex27Basis x)
      = x 0 ^ a * x 1 ^ b * x 2 ^ c := by
  rw [← quadratic1d_monomial (x 0) a ha, ← quadratic1d_monomial (x 1) b hb,
    ← quadratic1d_monomial (x 2) c hc]
  simp only [hex27Nodes, hex8Nodes, hexEdgeNodes, hex27Basis, interpolate, hex27Phi,
    List.cons_append, List.nil_append, List.map_cons, List.map_nil, List.zipWith_cons_cons,
    List.zipWith_nil_right, List.sum_cons, List.sum_nil, Matrix.cons_val]
  generalize (0 : K) ^ a = za
  generalize (0 : K) ^ b = zb
  generalize (0 : K) ^ c = zc
  generalize (-1 : K) ^ a = ma
  generalize (-1 : K) ^ b = mb
  generalize (-1 : K) ^ c = mc
  ring

private theorem quad9_monomial (x : Point 2 K) (a b : Nat) (ha : a ≤ 2) (hb : b ≤ 2) :
    interpolate (quad9Nodes.map (fun y => y 0 ^ a * y 1 ^ b)) (quad9Basis x)
      = x 0 ^ a * x 1 ^ b := by
  interval_cases a <;> interval_cases b <;>
    simp [quad9Nodes, quad9Basis, interpolate, quad9Phi, quad9Phi1d] <;> ring

private theorem quad4_monomial (x : Point 2 K) (a b : Nat) (ha : a ≤ 1) (hb : b ≤ 1) :
    interpolate (quad4Nodes.map (fun y => y 0 ^ a * y 1 ^ b)) (quad4Basis x)
      = x 0 ^ a * x 1 ^ b := by
  interval_cases a <;> interval_cases b <;>
    simp [quad4Nodes, quad4Basis, interpolate, quad4Phi] <;> ring

private theorem segment2_monomial (x : Point 1 K) (a : Nat) (ha : a ≤ 1) :
    interpolate (segment2Nodes.map (fun y => y 0 ^ a)) (segment2Basis x) = x 0 ^ a := by
  interval_cases a <;> simp [segment2Nodes, segment2Basis, interpolate] <;> ring

private theorem tri3_monomial (x : Point 2 K) (a b : Nat) (h : a + b ≤ 1) :
    interpolate (tri3Nodes.map (fun y => y 0 ^ a * y 1 ^ b)) (tri3Basis x)
      = x 0 ^ a * x 1 ^ b := by
  have ha : a ≤ 1 := by omega
  interval_cases a <;> (have hb : b ≤ 1 := by omega) <;> interval_cases b <;>
    first
      | (exfalso; omega)
      | (simp [tri3Nodes, tri3Basis, interpolate, tri3Psi] <;> ring)

private theorem tri6_monomial (x : Point 2 K) (a b : Nat) (h : a + b ≤ 2) :
    interpolate (tri6Nodes.map (fun y => y 0 ^ a * y 1 ^ b)) (tri6Basis x)
      = x 0 ^ a * x 1 ^ b := by
  have ha : a ≤ 2 := by omega
  interval_cases a <;> (have hb : b ≤ 2 := by omega) <;> interval_cases b <;>
    first
      | (exfalso; omega)
      | (simp [tri6Nodes, tri6Basis, interpolate, quadVertex, quadEdge, tri3Psi] <;> ring)

private theorem tet4_monomial (x : Point 3 K) (a b c : Nat) (h : a + b + c ≤ 1) :
    interpolate (tet4Nodes.map (fun y => y 0 ^ a * y 1 ^ b * y 2 ^ c)) (tet4Basis x)
      = x 0 ^ a * x 1 ^ b * x 2 ^ c := by
  have ha : a ≤ 1 := by omega
  interval_cases a <;> (have hb : b ≤ 1 := by omega) <;> interval_cases b <;>
    (have hc : c ≤ 1 := by omega) <;> interval_cases c <;>
    first
      | (exfalso; omega)
      | (simp [tet4Nodes, tet4Basis, interpolate, tet4Psi] <;> ring)

set_option maxHeartbeats 1000000 in
private theorem tet10_monomial (x : Point 3 K) (a b c : Nat) (h : a + b + c ≤ 2) :
    interpolate (tet10Nodes.map (fun y => y 0 ^ a * y 1 ^ b * y 2 ^ c)) (tet10Basis x)
      = x 0 ^ a * x 1 ^ b * x 2 ^ c := by
  have ha : a ≤ 2 := by omega
  interval_cases a <;> (have hb : b ≤ 2 := by omega) <;> interval_cases b <;>
    (have hc : c ≤ 2 := by omega) <;> interval_cases c <;>
    first
      | (exfalso; omega)
      | (simp [tet10Nodes, tet10Basis, interpolate, quadVertex, quadEdge, tet4Psi] <;> ring)

set_option maxHeartbeats 4000000 in
private theorem tet20_monomial (x : Point 3 K) (a b c : Nat) (h : a + b + c ≤ 3) :
    interpolate (tet20Nodes.map (fun y => y 0 ^ a * y 1 ^ b * y 2 ^ c)) (tet20Basis x)
      = x 0 ^ a * x 1 ^ b * x 2 ^ c := by
  have ha : a ≤ 3 := by omega
  interval_cases a <;> (have hb : b ≤ 3 := by omega) <;> interval_cases b <;>
    (have hc : c ≤ 3 := by omega) <;> interval_cases c <;>
    first
      | (exfalso; omega)
      | (simp [tet20Nodes, tet20Basis, interpolate, cubicVertex, cubicEdge, cubicFace, tet4Psi]
         <;> ring)

set_option maxHeartbeats 4000000 in
private theorem hex20_monomial (x : Point 3 K) (a b c : Nat) (ha : a ≤ 2) (hb : b ≤ 2) (hc : c ≤ 2)
    (h : (if 2 ≤ a then a else 0) + (if 2 ≤ b then b else 0) + (if 2 ≤ c then c else 0) ≤ 2) :
    interpolate (hex20Nodes.map (fun y => y 0 ^ a * y 1 ^ b * y 2 ^ c)) (hex20Basis x)
      = x 0 ^ a * x 1 ^ b * x 2 ^ c := by
  interval_cases a <;> interval_cases b <;> interval_cases c <;>
    first
      | (exfalso; revert h; decide)
      | (simp [hex20Nodes, hex8Nodes, hexEdgeNodes, hex20Basis, interpolate, hex20Corner, hex20Edge]
         <;> ring)

/-- **C38 (simplices).** Interpolating the nodal values of a polynomial of total degree at most the
order of a simplex element reproduces the polynomial at every point. -/
theorem C38_simplex_elements_reproduce_polynomials (e : Kind) (order : Nat)
    (he : (e, order) ∈ [(Kind.segment2, 1), (.tri3, 1), (.tri6, 2), (.tet4, 1), (.tet10, 2),
      (.tet20, 3)])
    (p : MvPolynomial (Fin e.dim) K) (hp : p.totalDegree ≤ order) (x : Point e.dim K) :
    interpolate ((refNodes e).map (fun y => MvPolynomial.eval y p)) (basis e x)
      = MvPolynomial.eval x p := by
  apply reproduce_of_monomials
  intro s hs
  have hd := (MvPolynomial.le_totalDegree hs).trans hp
  rw [Finsupp.sum_fintype _ _ (fun _ => rfl)] at hd
  simp only [List.mem_cons, Prod.mk.injEq, List.not_mem_nil, or_false] at he
  rcases he with ⟨rfl, rfl⟩ | ⟨rfl, rfl⟩ | ⟨rfl, rfl⟩ | ⟨rfl, rfl⟩ | ⟨rfl, rfl⟩ | ⟨rfl, rfl⟩
  · simp only [Kind.dim, Fin.sum_univ_succ, Fin.prod_univ_succ, Finset.univ_eq_empty, Finset.sum_empty, Finset.prod_empty, mul_one, add_zero] at hd ⊢
    exact segment2_monomial x (s 0) hd
  · simp only [Kind.dim, Fin.sum_univ_two, Fin.prod_univ_two] at hd ⊢
    exact tri3_monomial x (s 0) (s 1) hd
  · simp only [Kind.dim, Fin.sum_univ_two, Fin.prod_univ_two] at hd ⊢
    exact tri6_monomial x (s 0) (s 1) hd
  · simp only [Kind.dim, Fin.sum_univ_three, Fin.prod_univ_three] at hd ⊢
    exact tet4_monomial x (s 0) (s 1) (s 2) hd
  · simp only [Kind.dim, Fin.sum_univ_three, Fin.prod_univ_three] at hd ⊢
    exact tet10_monomial x (s 0) (s 1) (s 2) hd
  · simp only [Kind.dim, Fin.sum_univ_three, Fin.prod_univ_three] at hd ⊢
    exact tet20_monomial x (s 0) (s 1) (s 2) hd

/-- **C38 (tensor-product elements).** Interpolating the nodal values of a polynomial whose degree in
each variable is at most the order of a quadrilateral or hexahedral element reproduces the
polynomial at every point. -/
theorem C38_tensor_elements_reproduce_polynomials (e : Kind) (order : Nat)
    (he : (e, order) ∈ [(Kind.segment2, 1), (.quad4, 1), (.quad9, 2), (.hex8, 1), (.hex27, 2)])
    (p : MvPolynomial (Fin e.dim) K) (hp : ∀ i, p.degreeOf i ≤ order) (x : Point e.dim K) :
    interpolate ((refNodes e).map (fun y => MvPolynomial.eval y p)) (basis e x)
      = MvPolynomial.eval x p := by
  apply reproduce_of_monomials
  intro s hs
  have hd : ∀ i, s i ≤ order := fun i => (MvPolynomial.monomial_le_degreeOf i hs).trans (hp i)
  simp only [List.mem_cons, Prod.mk.injEq, List.not_mem_nil, or_false] at he
  rcases he with ⟨rfl, rfl⟩ | ⟨rfl, rfl⟩ | ⟨rfl, rfl⟩ | ⟨rfl, rfl⟩ | ⟨rfl, rfl⟩
  · simp only [Kind.dim, Fin.prod_univ_succ, Finset.univ_eq_empty, Finset.prod_empty, mul_one]
    exact segment2_monomial x (s 0) (hd 0)
  · simp only [Kind.dim, Fin.prod_univ_two]
    exact quad4_monomial x (s 0) (s 1) (hd 0) (hd 1)
  · simp only [Kind.dim, Fin.prod_univ_two]
    exact quad9_monomial x (s 0) (s 1) (hd 0) (hd 1)
  · simp only [Kind.dim, Fin.prod_univ_three]
    exact hex8_monomial x (s 0) (s 1) (s 2) (hd 0) (hd 1) (hd 2)
  · simp only [Kind.dim, Fin.prod_univ_three]
    exact hex27_monomial x (s 0) (s 1) (s 2) (hd 0) (hd 1) (hd 2)

/-- **C38 (serendipity element).** The 20-node hexahedron reproduces every polynomial all of whose
monomials have superlinear degree at most two (the sum of the exponents that are at least two),
in particular every polynomial of total degree at most two. -/
theorem C38_serendipity_element_reproduces_polynomials (p : MvPolynomial (Fin 3) K)
    (hp : ∀ s ∈ p.support, ∑ i, (if 2 ≤ s i then s i else 0) ≤ 2) (x : Point 3 K) :
    interpolate ((refNodes .hex20).map (fun y => MvPolynomial.eval y p)) (basis .hex20 x)
      = MvPolynomial.eval x p := by
  apply reproduce_of_monomials
  intro s hs
  have h := hp s hs
  simp only [Fin.prod_univ_three, Fin.sum_univ_three] at h ⊢
  refine hex20_monomial x (s 0) (s 1) (s 2) ?_ ?_ ?_ h <;> (split_ifs at h <;> omega)

/-- In particular every polynomial of total degree at most two is covered by the hypothesis of
`C38_serendipity_element_reproduces_polynomials`. -/
theorem C38_serendipity_covers_total_degree_two (p : MvPolynomial (Fin 3) K)
    (hp : p.totalDegree ≤ 2) (x : Point 3 K) :
    interpolate ((refNodes .hex20).map (fun y => MvPolynomial.eval y p)) (basis .hex20 x)
      = MvPolynomial.eval x p := by
  refine C38_serendipity_element_reproduces_polynomials p (fun s hs => ?_) x
  have hd := (MvPolynomial.le_totalDegree hs).trans hp
  rw [Finsupp.sum_fintype _ _ (fun _ => rfl)] at hd
  refine le_trans (Finset.sum_le_sum (fun i _ => ?_)) hd
  split <;> omega

/-! ## The geometry map -/

private theorem weightedSum_eq_interpolate {g : Nat} (ps : List (Point g K)) (bs : List K)
    (r : Fin g) : weightedSum ps bs r = interpolate (ps.map (fun p => p r)) bs := by
  induction ps generalizing bs with
  | nil => simp [weightedSum, interpolate]
  | cons p ps ih =>
    cases bs with
    | nil => simp [weightedSum, interpolate]
    | cons b bs => simp only [weightedSum, List.map_cons, interpolate_cons, ih]

private theorem weightedSum_deriv {g d : Nat} (ps : List (Point g K)) (r : Fin g)
    (x v : Point d K) : ∀ (bs : Point d K → List K) (Gs : List (Point d K)),
    (∀ y, (bs y).length = Gs.length) →
    (∀ (i : Nat) (G : Point d K), Gs[i]? = some G →
      Spec.HasFormalDeriv (fun y => (bs y).getD i 0) x v (Spec.dot G v)) →
    Spec.HasFormalDeriv (fun y => weightedSum ps (bs y) r) x v
      (Spec.dot (fun c => weightedSum ps (Gs.map (fun G => G c)) r) v) := by
  induction ps with
  | nil =>
    intro bs Gs _ _
    refine ⟨0, fun t => ?_⟩
    have : Spec.dot (fun _ : Fin d => (0 : K)) v = 0 := by simp [Spec.dot]
    simp [weightedSum, this]
  | cons p ps ih =>
    intro bs Gs hl h
    cases Gs with
    | nil =>
      have hb : ∀ y, bs y = [] := fun y => List.length_eq_zero_iff.mp (by simpa using hl y)
      refine ⟨0, fun t => ?_⟩
      have : Spec.dot (fun _ : Fin d => (0 : K)) v = 0 := by simp [Spec.dot]
      simp [weightedSum, this, hb]
    | cons G Gs =>
      obtain ⟨q, hq⟩ := ih (fun y => (bs y).tail) Gs (fun y => by simp [hl y]) (fun i G' hG' => by
        have := h (i + 1) G' (by simpa using hG')
        refine this.imp (fun q hq t => ?_)
        have hq := hq t
        simpa [List.getD_eq_getElem?_getD] using hq)
      obtain ⟨q0, hq0⟩ := h 0 G (by simp)
      refine ⟨Polynomial.C (p r) * q0 + q, fun t => ?_⟩
      have hw : ∀ y, weightedSum (p :: ps) (bs y) r =
          p r * (bs y).getD 0 0 + weightedSum ps (bs y).tail r := by
        intro y
        cases hb : bs y with
        | nil => have := hl y; simp [hb] at this
        | cons b bs' => simp [weightedSum]
      have hdot : Spec.dot (fun c => weightedSum (p :: ps) ((G :: Gs).map (fun G => G c)) r) v
          = p r * Spec.dot G v + Spec.dot (fun c => weightedSum ps (Gs.map (fun G => G c)) r) v := by
        simp only [Spec.dot, List.sum_ofFn, List.map_cons, weightedSum, Finset.mul_sum,
          ← Finset.sum_add_distrib]
        exact Finset.sum_congr rfl (fun c _ => by ring)
      simp only [hw, hdot, Polynomial.eval_add, Polynomial.eval_mul, Polynomial.eval_C]
      have e1 := hq t
      have e2 := hq0 t
      simp only at e1 e2
      rw [e1, e2]
      ring

/-- **C38.** The reference Jacobian is the derivative of the geometry map: along every line, each
coordinate of the mapped point has the corresponding row of the Jacobian as its gradient. -/
theorem C38_jacobian_is_derivative_of_map {g : Nat} (e : Kind) (vertices : List (Point g K))
    (x v : Point e.dim K) (r : Fin g) :
    Spec.HasFormalDeriv (fun y => mapReferenceCoords e vertices y r) x v
      (Spec.dot (fun c => referenceJacobian e vertices x r c) v) := by
  unfold mapReferenceCoords referenceJacobian
  cases e
  case segment2 => exact weightedSum_deriv _ r x v _ _ (fun _ => rfl) (fun i G => C37_gradient_is_formal_derivative .segment2 i x v G)
  case tri3 => exact weightedSum_deriv _ r x v _ _ (fun _ => rfl) (fun i G => C37_gradient_is_formal_derivative .tri3 i x v G)
  case tri6 => exact weightedSum_deriv _ r x v _ _ (fun _ => rfl) (fun i G => C37_gradient_is_formal_derivative .tri3 i x v G)
  case quad4 => exact weightedSum_deriv _ r x v _ _ (fun _ => rfl) (fun i G => C37_gradient_is_formal_derivative .quad4 i x v G)
  case quad9 => exact weightedSum_deriv _ r x v _ _ (fun _ => rfl) (fun i G => C37_gradient_is_formal_derivative .quad4 i x v G)
  case tet4 => exact weightedSum_deriv _ r x v _ _ (fun _ => rfl) (fun i G => C37_gradient_is_formal_derivative .tet4 i x v G)
  case tet10 => exact weightedSum_deriv _ r x v _ _ (fun _ => rfl) (fun i G => C37_gradient_is_formal_derivative .tet4 i x v G)
  case tet20 => exact weightedSum_deriv _ r x v _ _ (fun _ => rfl) (fun i G => C37_gradient_is_formal_derivative .tet4 i x v G)
  case hex8 => exact weightedSum_deriv _ r x v _ _ (fun _ => rfl) (fun i G => C37_gradient_is_formal_derivative .hex8 i x v G)
  case hex20 => exact weightedSum_deriv _ r x v _ _ (fun _ => rfl) (fun i G => C37_gradient_is_formal_derivative .hex8 i x v G)
  case hex27 => exact weightedSum_deriv _ r x v _ _ (fun _ => rfl) (fun i G => C37_gradient_is_formal_derivative .hex8 i x v G)

/-- **C38.** The segment's closed-form Jacobian is the generic product. -/
theorem C38_segment_jacobian {g : Nat} (a b : Point g K) (x : Point 1 K) (r : Fin g) :
    segmentJacobian a b r = referenceJacobian .segment2 [a, b] x r 0 := by
  simp [segmentJacobian, referenceJacobian, Kind.numNodes, geometryGradients,
    segment2Gradients, weightedSum]
  ring

private theorem take_get {d n j : Nat} {ns ms : List (Point d K)} {x : Point d K}
    (h : ms = ns.take n) (hj : j < n) (hx : ns[j]? = some x) : ms[j]? = some x := by
  rw [h, List.getElem?_take, if_pos hj, hx]

private theorem map_vertex_aux {g : Nat} (e : Kind) (vertices : List (Point g K))
    (hv : e.numNodes ≤ vertices.length) (j : Nat) (hj : j < e.numNodes) (x : Point e.dim K)
    (hx : (refNodes e)[j]? = some x) :
    vertices[j]? = some (weightedSum (vertices.take e.numNodes) (basis e x)) := by
  have hjv : j < vertices.length := by omega
  rw [List.getElem?_eq_getElem hjv, Option.some.injEq]
  funext r
  rw [weightedSum_eq_interpolate]
  have := C36_interpolant_takes_nodal_values e
    ((vertices.take e.numNodes).map (fun p => p r)) (by simp [hv]) j x hx
  rw [List.getElem?_map, List.getElem?_take, if_pos hj, List.getElem?_eq_getElem hjv] at this
  simpa using this

/-- **C38.** The geometry map sends the reference vertex `j` of the linear element to the physical
vertex `j`. -/
theorem C38_map_sends_reference_vertices_to_vertices {g : Nat} (e : Kind)
    (vertices : List (Point g K)) (hv : e.geometry.numNodes ≤ vertices.length) (j : Nat)
    (hj : j < e.geometry.numNodes) (x : Point e.dim K) (hx : (refNodes e)[j]? = some x) :
    vertices[j]? = some (mapReferenceCoords e vertices x) := by
  cases e
  case segment2 => exact map_vertex_aux .segment2 vertices hv j hj x (take_get rfl hj hx)
  case tri3 => exact map_vertex_aux .tri3 vertices hv j hj x (take_get rfl hj hx)
  case tri6 => exact map_vertex_aux .tri3 vertices hv j hj x (take_get rfl hj hx)
  case quad4 => exact map_vertex_aux .quad4 vertices hv j hj x (take_get rfl hj hx)
  case quad9 => exact map_vertex_aux .quad4 vertices hv j hj x (take_get rfl hj hx)
  case tet4 => exact map_vertex_aux .tet4 vertices hv j hj x (take_get rfl hj hx)
  case tet10 => exact map_vertex_aux .tet4 vertices hv j hj x (take_get rfl hj hx)
  case tet20 => exact map_vertex_aux .tet4 vertices hv j hj x (take_get rfl hj hx)
  case hex8 => exact map_vertex_aux .hex8 vertices hv j hj x (take_get rfl hj hx)
  case hex20 => exact map_vertex_aux .hex8 vertices hv j hj x (take_get rfl hj hx)
  case hex27 => exact map_vertex_aux .hex8 vertices hv j hj x (take_get rfl hj hx)

private theorem reproduce_combination {d : Nat} (ns : List (Point d K)) (bs : List K)
    (x : Point d K) (fs : List (Point d K → K))
    (h : ∀ f ∈ fs, interpolate (ns.map f) bs = f x) (u : List K) :
    interpolate (ns.map (fun y => interpolate u (fs.map (fun f => f y)))) bs =
      interpolate u (fs.map (fun f => f x)) := by
  induction fs generalizing u with
  | nil =>
    have := interpolate_smul (0 : K) (fun _ => 0) ns bs
    simpa [interpolate] using this
  | cons f fs ih =>
    cases u with
    | nil =>
      have := interpolate_smul (0 : K) (fun _ => 0) ns bs
      simpa [interpolate] using this
    | cons a u =>
      simp only [List.map_cons, interpolate_cons]
      rw [interpolate_add, interpolate_smul, h f (by simp), ih (fun g hg => h g (by simp [hg]))]

private theorem weightedSum_reproduce {g d : Nat} (ns : List (Point d K)) (bs : List K)
    (x : Point d K) (fs : List (Point d K → K))
    (h : ∀ f ∈ fs, interpolate (ns.map f) bs = f x) (ps : List (Point g K)) :
    weightedSum (ns.map (fun y => weightedSum ps (fs.map (fun f => f y)))) bs =
      weightedSum ps (fs.map (fun f => f x)) := by
  funext r
  simp only [weightedSum_eq_interpolate, List.map_map, Function.comp_def]
  exact reproduce_combination ns bs x fs h _

private theorem hex27_trilinear (a b c : K) (x : Point 3 K) :
    interpolate (hex27Nodes.map (hex8Phi a b c)) (hex27Basis x) = hex8Phi a b c x := by
  simp [hex27Nodes, hex8Nodes, hexEdgeNodes, hex27Basis, interpolate, hex8Phi, phiLinear1d,
    hex27Phi, phiQuadratic1d]
  ring

private theorem hex20_trilinear (a b c : K) (x : Point 3 K) :
    interpolate (hex20Nodes.map (hex8Phi a b c)) (hex20Basis x) = hex8Phi a b c x := by
  simp [hex20Nodes, hex8Nodes, hexEdgeNodes, hex20Basis, interpolate, hex8Phi, phiLinear1d,
    hex20Corner, hex20Edge]
  ring

private theorem hex8_trilinear (a b c : K) (x : Point 3 K) :
    interpolate (hex8Nodes.map (hex8Phi a b c)) (hex8Basis x) = hex8Phi a b c x := by
  simp [hex8Nodes, hex8Basis, interpolate, hex8Phi, phiLinear1d]
  ring

private theorem quad9_bilinear (a b : K) (x : Point 2 K) :
    interpolate (quad9Nodes.map (quad4Phi a b)) (quad9Basis x) = quad4Phi a b x := by
  simp [quad9Nodes, quad9Basis, interpolate, quad4Phi, quad9Phi, quad9Phi1d]
  ring

private theorem quad4_bilinear (a b : K) (x : Point 2 K) :
    interpolate (quad4Nodes.map (quad4Phi a b)) (quad4Basis x) = quad4Phi a b x := by
  simp [quad4Nodes, quad4Basis, interpolate, quad4Phi]
  ring

/-- **C38.** Interpolating the geometry with the element's own (higher-order) basis, the extra nodes
being placed where the linear map sends the reference nodes, gives back the linear map: the
higher-order elements may use the linear element's map. -/
theorem C38_higher_order_geometry_is_linear_geometry {g : Nat} (e : Kind)
    (vertices : List (Point g K)) (x : Point e.dim K) :
    weightedSum ((refNodes e).map (mapReferenceCoords e vertices)) (basis e x)
      = mapReferenceCoords e vertices x := by
  unfold mapReferenceCoords
  cases e
  case segment2 =>
    refine weightedSum_reproduce (d := 1) segment2Nodes (segment2Basis x) x
      [fun y => (1 - y 0) / 2, fun y => (1 + y 0) / 2] ?_ _
    intro f hf
    simp only [List.mem_cons, List.not_mem_nil, or_false] at hf
    rcases hf with rfl | rfl <;> simp [segment2Nodes, segment2Basis, interpolate]
  case tri3 =>
    refine weightedSum_reproduce (d := 2) tri3Nodes (tri3Basis x) x
      [fun y => tri3Psi y 0, fun y => tri3Psi y 1, fun y => tri3Psi y 2] ?_ _
    intro f hf
    simp only [List.mem_cons, List.not_mem_nil, or_false] at hf
    rcases hf with rfl | rfl | rfl <;> simp [tri3Nodes, tri3Basis, interpolate, tri3Psi] <;> ring
  case tri6 =>
    refine weightedSum_reproduce (d := 2) tri6Nodes (tri6Basis x) x
      [fun y => tri3Psi y 0, fun y => tri3Psi y 1, fun y => tri3Psi y 2] ?_ _
    intro f hf
    simp only [List.mem_cons, List.not_mem_nil, or_false] at hf
    rcases hf with rfl | rfl | rfl <;>
      simp [tri6Nodes, tri6Basis, interpolate, tri3Psi, quadVertex, quadEdge] <;> ring
  case tet4 =>
    refine weightedSum_reproduce (d := 3) tet4Nodes (tet4Basis x) x
      [fun y => tet4Psi y 0, fun y => tet4Psi y 1, fun y => tet4Psi y 2, fun y => tet4Psi y 3] ?_ _
    intro f hf
    simp only [List.mem_cons, List.not_mem_nil, or_false] at hf
    rcases hf with rfl | rfl | rfl | rfl <;>
      simp [tet4Nodes, tet4Basis, interpolate, tet4Psi] <;> ring
  case tet10 =>
    refine weightedSum_reproduce (d := 3) tet10Nodes (tet10Basis x) x
      [fun y => tet4Psi y 0, fun y => tet4Psi y 1, fun y => tet4Psi y 2, fun y => tet4Psi y 3] ?_ _
    intro f hf
    simp only [List.mem_cons, List.not_mem_nil, or_false] at hf
    rcases hf with rfl | rfl | rfl | rfl <;>
      simp [tet10Nodes, tet10Basis, interpolate, tet4Psi, quadVertex, quadEdge] <;> ring
  case tet20 =>
    refine weightedSum_reproduce (d := 3) tet20Nodes (tet20Basis x) x
      [fun y => tet4Psi y 0, fun y => tet4Psi y 1, fun y => tet4Psi y 2, fun y => tet4Psi y 3] ?_ _
    intro f hf
    simp only [List.mem_cons, List.not_mem_nil, or_false] at hf
    rcases hf with rfl | rfl | rfl | rfl <;>
      simp [tet20Nodes, tet20Basis, interpolate, tet4Psi, cubicVertex, cubicEdge, cubicFace] <;> ring
  case quad4 =>
    refine weightedSum_reproduce (d := 2) quad4Nodes (quad4Basis x) x
      [quad4Phi (-1) (-1), quad4Phi 1 (-1), quad4Phi 1 1, quad4Phi (-1) 1] ?_ _
    intro f hf
    simp only [List.mem_cons, List.not_mem_nil, or_false] at hf
    rcases hf with rfl | rfl | rfl | rfl <;> exact quad4_bilinear _ _ x
  case quad9 =>
    refine weightedSum_reproduce (d := 2) quad9Nodes (quad9Basis x) x
      [quad4Phi (-1) (-1), quad4Phi 1 (-1), quad4Phi 1 1, quad4Phi (-1) 1] ?_ _
    intro f hf
    simp only [List.mem_cons, List.not_mem_nil, or_false] at hf
    rcases hf with rfl | rfl | rfl | rfl <;> exact quad9_bilinear _ _ x
  case hex8 =>
    refine weightedSum_reproduce (d := 3) hex8Nodes (hex8Basis x) x
      [hex8Phi (-1) (-1) (-1), hex8Phi 1 (-1) (-1), hex8Phi 1 1 (-1), hex8Phi (-1) 1 (-1),
       hex8Phi (-1) (-1) 1, hex8Phi 1 (-1) 1, hex8Phi 1 1 1, hex8Phi (-1) 1 1] ?_ _
    intro f hf
    simp only [List.mem_cons, List.not_mem_nil, or_false] at hf
    rcases hf with rfl | rfl | rfl | rfl | rfl | rfl | rfl | rfl <;> exact hex8_trilinear _ _ _ x
  case hex20 =>
    refine weightedSum_reproduce (d := 3) hex20Nodes (hex20Basis x) x
      [hex8Phi (-1) (-1) (-1), hex8Phi 1 (-1) (-1), hex8Phi 1 1 (-1), hex8Phi (-1) 1 (-1),
       hex8Phi (-1) (-1) 1, hex8Phi 1 (-1) 1, hex8Phi 1 1 1, hex8Phi (-1) 1 1] ?_ _
    intro f hf
    simp only [List.mem_cons, List.not_mem_nil, or_false] at hf
    rcases hf with rfl | rfl | rfl | rfl | rfl | rfl | rfl | rfl <;> exact hex20_trilinear _ _ _ x
  case hex27 =>
    refine weightedSum_reproduce (d := 3) hex27Nodes (hex27Basis x) x
      [hex8Phi (-1) (-1) (-1), hex8Phi 1 (-1) (-1), hex8Phi 1 1 (-1), hex8Phi (-1) 1 (-1),
       hex8Phi (-1) (-1) 1, hex8Phi 1 (-1) 1, hex8Phi 1 1 1, hex8Phi (-1) 1 1] ?_ _
    intro f hf
    simp only [List.mem_cons, List.not_mem_nil, or_false] at hf
    rcases hf with rfl | rfl | rfl | rfl | rfl | rfl | rfl | rfl <;> exact hex27_trilinear _ _ _ x

/-- Non-vacuity: a cubic polynomial on the cubic tetrahedron, and `x² y z` on the serendipity
hexahedron. -/
example : ((MvPolynomial.X 0 : MvPolynomial (Fin 3) Rat) * MvPolynomial.X 1
    * MvPolynomial.X 2).totalDegree ≤ 3 := by
  refine (MvPolynomial.totalDegree_mul _ _).trans ?_
  refine (Nat.add_le_add_right (MvPolynomial.totalDegree_mul _ _) _).trans ?_
  simp [MvPolynomial.totalDegree_X]

end Fenris
