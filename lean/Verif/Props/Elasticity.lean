import Verif.Props.PoissonRules
import Verif.Props.PatchTestRules
import Verif.Props.ElementReproduce
import Verif.Lemmas.RigidMotion
import Mathlib.Algebra.Order.Chebyshev
/-! # C99: problems of linear elasticity have one solution exactly if rigid motions are prevented -/
set_option autoImplicit false
set_option linter.unusedSectionVars false

namespace Fenris.Elasticity
open Fenris.Element Fenris.Local Fenris.Local.Spec Fenris.PatchTest Fenris.PatchTest.Spec Fenris.LinearProblem Fenris.LinearProblem.Spec Quadrature
open Fenris.Surface Fenris.Surface.Spec Fenris.Canonical Fenris.Canonical.Spec Fenris.Elasticity.Spec Fenris.Solid
open Fenris.Spec (Constrained)

/-! ## The energy density -/

theorem le_density {d : Nat} (G : Matrix (Fin d) (Fin d) ℝ) (p : Lame ℝ) :
    density (leOperator d) p G = p.mu / 2 * ∑ k, ∑ i, (G i k + G k i) ^ 2 + p.lambda * (∑ m, G m m) ^ 2 := by
  have e1 : density (leOperator d) p G = ∑ k, ∑ i, p.mu * ((G i k + G k i) * G k i) + p.lambda * (∑ m, G m m) ^ 2 := by
    unfold density
    have : ∀ k i, (leOperator d).op G p k i * G k i = p.mu * ((G i k + G k i) * G k i) + if k = i then p.lambda * (∑ m, G m m) * G k i else 0 := by
      intro k i
      rw [leOp_apply]
      split_ifs <;> ring
    simp only [this, Finset.sum_add_distrib, Finset.sum_ite_eq, Finset.mem_univ, if_true, ← Finset.mul_sum]
    ring
  have e2 : ∑ k, ∑ i, p.mu * ((G i k + G k i) * G k i) = ∑ k, ∑ i, p.mu * ((G i k + G k i) * G i k) := by
    rw [Finset.sum_comm]
    exact Finset.sum_congr rfl fun k _ => Finset.sum_congr rfl fun i _ => by ring
  have e3 : 2 * ∑ k, ∑ i, p.mu * ((G i k + G k i) * G k i) = p.mu * ∑ k, ∑ i, (G i k + G k i) ^ 2 := by
    rw [two_mul]
    nth_rewrite 2 [e2]
    rw [← Finset.sum_add_distrib, Finset.mul_sum]
    refine Finset.sum_congr rfl fun k _ => ?_
    rw [← Finset.sum_add_distrib, Finset.mul_sum]
    exact Finset.sum_congr rfl fun i _ => by ring
  rw [e1]
  linarith

/-- **C99.** The energy density of the linear elastic material is half of what the operator computes: Dirichlet's principle (C97) and the rest of
C97 apply to it. -/
theorem C99_energy {d : Nat} (G : Matrix (Fin d) (Fin d) ℝ) (p : Lame ℝ) : 2 * (leOperator d).energy G p = density (leOperator d) p G := by
  have hE : ∀ k i, infinitesimalStrain (deformationGradient G) k i = (G i k + G k i) / 2 := by
    intro k i
    simp only [infinitesimalStrain, symmetricPart, deformationGradient, Matrix.smul_apply, Matrix.sub_apply, Matrix.add_apply, Matrix.transpose_apply,
      Matrix.one_apply, smul_eq_mul]
    split_ifs with h1 h2 h2
    · ring
    · exact absurd h1.symm h2
    · exact absurd h2.symm h1
    · ring
  rw [le_density]
  have e1 : Solid.dot (infinitesimalStrain (deformationGradient G)) (infinitesimalStrain (deformationGradient G)) =
      (∑ k, ∑ i, (G i k + G k i) ^ 2) / 4 := by
    unfold Solid.dot
    simp only [hE, Finset.sum_div]
    exact Finset.sum_congr rfl fun k _ => Finset.sum_congr rfl fun i _ => by ring
  have e2 : (infinitesimalStrain (deformationGradient G)).trace = ∑ m, G m m := by
    rw [Matrix.trace]
    refine Finset.sum_congr rfl fun m _ => ?_
    rw [Matrix.diag_apply, hE]
    ring
  change 2 * leEnergy (deformationGradient G) p = _
  unfold leEnergy
  simp only [e1, e2]
  ring

/-- C99: if the shear modulus and the bulk modulus are positive, then no displacement gradient has a negative energy density, and exactly the
skew ones, those of rigid motions, have none. -/
theorem C99_energy_density {d : Nat} (p : Lame ℝ) (hmu : 0 < p.mu) (hbulk : 0 < 2 * p.mu + d * p.lambda) (G : Matrix (Fin d) (Fin d) ℝ) :
    0 ≤ density (leOperator d) p G ∧ (density (leOperator d) p G = 0 ↔ G.transpose = -G) := by
  rw [le_density]
  set T := ∑ k, ∑ i, (G i k + G k i) ^ 2 with hT
  have hT0 : 0 ≤ T := Finset.sum_nonneg fun k _ => Finset.sum_nonneg fun i _ => sq_nonneg _
  have hdiag : 4 * ∑ m, G m m ^ 2 ≤ T := by
    rw [Finset.mul_sum, hT]
    refine Finset.sum_le_sum fun k _ => ?_
    refine le_trans (le_of_eq ?_) (Finset.single_le_sum (fun i _ => sq_nonneg (G i k + G k i)) (Finset.mem_univ k))
    ring
  have htr : (∑ m, G m m) ^ 2 ≤ d * ∑ m, G m m ^ 2 := by
    have := sq_sum_le_card_mul_sum_sq (s := (Finset.univ : Finset (Fin d))) (f := fun m => G m m)
    simpa using this
  have hlow : ∃ c : ℝ, 0 < c ∧ c * T ≤ p.mu / 2 * T + p.lambda * (∑ m, G m m) ^ 2 := by
    rcases le_or_gt 0 p.lambda with hl | hl
    · exact ⟨p.mu / 2, by positivity, le_add_of_nonneg_right (mul_nonneg hl (sq_nonneg _))⟩
    · refine ⟨(2 * p.mu + d * p.lambda) / 4, by positivity, ?_⟩
      have hd : (0 : ℝ) ≤ d := Nat.cast_nonneg d
      have h1 : p.lambda * (d * (T / 4)) ≤ p.lambda * (∑ m, G m m) ^ 2 :=
        mul_le_mul_of_nonpos_left (htr.trans (mul_le_mul_of_nonneg_left (by linarith) hd)) hl.le
      linarith
  obtain ⟨c, hc, hle⟩ := hlow
  refine ⟨(mul_nonneg hc.le hT0).trans hle, fun h => ?_, fun h => ?_⟩
  · rw [h] at hle
    have hT' : T = 0 := le_antisymm (by nlinarith) hT0
    have h1 := (Finset.sum_eq_zero_iff_of_nonneg fun k (_ : k ∈ Finset.univ) => Finset.sum_nonneg fun i _ => sq_nonneg (G i k + G k i)).1 hT'
    ext i k
    have h2 := (Finset.sum_eq_zero_iff_of_nonneg fun i (_ : i ∈ Finset.univ) => sq_nonneg (G i k + G k i)).1 (h1 k (Finset.mem_univ _)) i
      (Finset.mem_univ _)
    have h3 : G i k + G k i = 0 := pow_eq_zero_iff (two_ne_zero) |>.1 h2
    rw [Matrix.transpose_apply, Matrix.neg_apply]
    linarith
  · have hs : ∀ i k, G i k + G k i = 0 := fun i k => by
      have := congrFun (congrFun h i) k
      rw [Matrix.transpose_apply, Matrix.neg_apply] at this
      linarith
    have hm : ∀ m, G m m = 0 := fun m => by have := hs m m; linarith
    have : T = 0 := Finset.sum_eq_zero fun k _ => Finset.sum_eq_zero fun i _ => by rw [hs]; simp
    rw [this]
    simp [hm]

/-- C99: Young's modulus and Poisson's ratio of any stable material meet the hypotheses, in the plane and in space. -/
theorem C99_parameters {d : Nat} (hd : d ≤ 3) (q : YoungPoisson ℝ) (hE : 0 < q.young) (h1 : -1 < q.poisson) (h2 : q.poisson < 1 / 2) :
    0 < (Lame.fromYoungPoisson q).mu ∧ 0 < 2 * (Lame.fromYoungPoisson q).mu + d * (Lame.fromYoungPoisson q).lambda := by
  have e1 : 0 < 1 + q.poisson := by linarith
  have e2 : 0 < 1 - 2 * q.poisson := by linarith
  have hmu : 0 < 1 / 2 * q.young / (1 + q.poisson) := by positivity
  refine ⟨hmu, ?_⟩
  simp only [Lame.fromYoungPoisson]
  have e : 2 * (1 / 2 * q.young / (1 + q.poisson)) + d * (2 * (1 / 2 * q.young / (1 + q.poisson)) * q.poisson / (1 - 2 * q.poisson)) =
      2 * (1 / 2 * q.young / (1 + q.poisson)) * ((1 + (d - 2) * q.poisson) / (1 - 2 * q.poisson)) := by
    field_simp
    ring
  rw [e]
  have h3 : 0 < 1 + ((d : ℝ) - 2) * q.poisson := by
    have : d = 0 ∨ d = 1 ∨ d = 2 ∨ d = 3 := by omega
    rcases this with rfl | rfl | rfl | rfl <;> push_cast <;> linarith
  positivity

/-! ## The basis functions reproduce affine functions -/

private theorem interpolate_X (kind : Kind) (x : Point kind.dim ℝ) (l : Fin kind.dim) :
    interpolate ((refNodes kind).map fun y => MvPolynomial.eval y (MvPolynomial.X l)) (basis kind x) = x l := by
  have hx : MvPolynomial.eval x (MvPolynomial.X l : MvPolynomial (Fin kind.dim) ℝ) = x l := MvPolynomial.eval_X l
  have ht : (MvPolynomial.X l : MvPolynomial (Fin kind.dim) ℝ).totalDegree ≤ 1 := le_of_eq (MvPolynomial.totalDegree_X l)
  have hdeg : ∀ i, (MvPolynomial.X l : MvPolynomial (Fin kind.dim) ℝ).degreeOf i ≤ 1 := fun i => (MvPolynomial.degreeOf_le_totalDegree _ i).trans ht
  rw [← hx]
  cases kind with
  | segment2 => exact C38_simplex_elements_reproduce_polynomials .segment2 1 (by simp) _ ht x
  | tri3 => exact C38_simplex_elements_reproduce_polynomials .tri3 1 (by simp) _ ht x
  | tri6 => exact C38_simplex_elements_reproduce_polynomials .tri6 2 (by simp) _ (ht.trans (by norm_num)) x
  | tet4 => exact C38_simplex_elements_reproduce_polynomials .tet4 1 (by simp) _ ht x
  | tet10 => exact C38_simplex_elements_reproduce_polynomials .tet10 2 (by simp) _ (ht.trans (by norm_num)) x
  | tet20 => exact C38_simplex_elements_reproduce_polynomials .tet20 3 (by simp) _ (ht.trans (by norm_num)) x
  | quad4 => exact C38_tensor_elements_reproduce_polynomials .quad4 1 (by simp) _ hdeg x
  | quad9 => exact C38_tensor_elements_reproduce_polynomials .quad9 2 (by simp) _ (fun i => (hdeg i).trans (by norm_num)) x
  | hex8 => exact C38_tensor_elements_reproduce_polynomials .hex8 1 (by simp) _ hdeg x
  | hex20 => exact C38_serendipity_covers_total_degree_two _ (ht.trans (by norm_num)) x
  | hex27 => exact C38_tensor_elements_reproduce_polynomials .hex27 2 (by simp) _ (fun i => (hdeg i).trans (by norm_num)) x

private theorem zipWith_range (as bs : List ℝ) (n : Nat) (ha : as.length = n) (hb : bs.length = n) :
    (List.zipWith (· * ·) as bs).sum = ∑ I ∈ Finset.range n, as.getD I 0 * bs.getD I 0 := by
  rw [Finset.sum_range, ← Fin.sum_univ_getElem]
  apply Fintype.sum_equiv (finCongr (by simp [ha, hb]))
  intro I
  have h1 : (I : Nat) < as.length := lt_of_lt_of_le I.2 (by simp)
  have h2 : (I : Nat) < bs.length := lt_of_lt_of_le I.2 (by simp)
  rw [List.getElem_zipWith]
  simp [h1, h2]

theorem refNodes_length (kind : Kind) : (refNodes (K := ℝ) kind).length = kind.numNodes := by
  cases kind <;> rfl

/-- `Σ_I φ_I(x) ξ_I = x`. -/
private theorem basis_reproduces (kind : Kind) (x : Point kind.dim ℝ) (l : Fin kind.dim) :
    ∑ I ∈ Finset.range kind.numNodes, (basis kind x).getD I 0 * ((refNodes kind)[I]?.getD 0) l = x l := by
  refine Eq.trans ?_ (interpolate_X kind x l)
  rw [interpolate, zipWith_range _ _ kind.numNodes (by rw [List.length_map, refNodes_length]) (C35_basis_sums_to_one kind x).1]
  refine Finset.sum_congr rfl fun I hI => ?_
  have hI : I < (refNodes (K := ℝ) kind).length := refNodes_length kind ▸ Finset.mem_range.1 hI
  rw [mul_comm]
  congr 1
  rw [List.getElem?_eq_getElem hI, Option.getD_some, List.getD_eq_getElem?_getD, List.getElem?_map, List.getElem?_eq_getElem hI, Option.map_some,
    Option.getD_some, MvPolynomial.eval_X]

/-- The derivative of a function of the element. -/
private theorem derivative (kind : Kind) (v : Nat → ℝ) (x : Point kind.dim ℝ) :
    ∃ L : Point kind.dim ℝ →L[ℝ] ℝ, HasFDerivAt (fun y => ∑ I ∈ Finset.range kind.numNodes, (basis kind y).getD I 0 * v I) L x ∧
      ∀ w, L w = ∑ m, (∑ I ∈ Finset.range kind.numNodes, (gradients kind x)[I]?.getD 0 m * v I) * w m := by
  have hex : ∀ I, ∃ L : Point kind.dim ℝ →L[ℝ] ℝ, I ∈ Finset.range kind.numNodes →
      HasFDerivAt (fun y => (basis kind y).getD I 0) L x ∧ ∀ w, L w = Fenris.Spec.dot ((gradients kind x)[I]?.getD 0) w := by
    intro I
    by_cases hI : I < kind.numNodes
    · have hg := List.getElem?_eq_getElem (gradients_length kind x ▸ hI)
      obtain ⟨L, h1, h2⟩ := C37_gradient_is_real_derivative kind I x _ hg
      exact ⟨L, fun _ => ⟨h1, by rw [hg]; exact h2⟩⟩
    · exact ⟨0, fun h => absurd (Finset.mem_range.1 h) hI⟩
  choose L hL using hex
  refine ⟨_, HasFDerivAt.fun_sum fun I hI => ((hL I hI).1).mul_const (v I), fun w => ?_⟩
  rw [sum_apply]
  simp only [smul_apply, smul_eq_mul]
  rw [Finset.sum_congr rfl fun I hI => by rw [(hL I hI).2 w]]
  simp only [Fenris.Spec.dot, List.sum_ofFn, Finset.mul_sum, Finset.sum_mul]
  rw [Finset.sum_comm]
  exact Finset.sum_congr rfl fun k _ => Finset.sum_congr rfl fun I _ => by ring

/-- `Σ_I ∂_m φ_I ξ_I = e_m`. -/
theorem gradients_reproduce (kind : Kind) (x : Point kind.dim ℝ) (m l : Fin kind.dim) :
    ∑ I ∈ Finset.range kind.numNodes, (gradients kind x)[I]?.getD 0 m * ((refNodes kind)[I]?.getD 0) l = if m = l then 1 else 0 := by
  obtain ⟨L, h1, h2⟩ := derivative kind (fun I => ((refNodes kind)[I]?.getD 0) l) x
  simp only [basis_reproduces] at h1
  have h3 : L = ContinuousLinearMap.proj l := h1.unique (hasFDerivAt_apply l x)
  have := h2 (Pi.single m 1)
  rw [h3] at this
  simp only [ContinuousLinearMap.proj_apply, Pi.single_apply, mul_ite, mul_one, mul_zero, Finset.sum_ite_eq', Finset.mem_univ, if_true] at this
  rw [← this]
  exact if_congr eq_comm rfl rfl

theorem gradients_sum_range (kind : Kind) (x : Point kind.dim ℝ) (m : Fin kind.dim) :
    ∑ I ∈ Finset.range kind.numNodes, (gradients kind x)[I]?.getD 0 m = 0 := by
  rw [← gradients_sum_zero kind x m, Finset.sum_range]
  apply Fintype.sum_equiv (finCongr (gradients_length kind x).symm)
  intro I
  have hI : (I : Nat) < (gradients kind x).length := (gradients_length kind x).symm ▸ I.2
  rw [List.getElem?_eq_getElem hI, Option.getD_some]
  rfl

private theorem weightedSum_range {d g : Nat} (xs : List (Point d ℝ)) (gs : List (Point g ℝ)) (n : Nat) (hx : n ≤ xs.length) (hg : gs.length = n)
    (r : Fin d) (c : Fin g) :
    weightedSum (xs.take n) (gs.map fun G => G c) r = ∑ I ∈ Finset.range n, gs[I]?.getD 0 c * (xs[I]?.getD 0) r := by
  rw [weightedSum_eq _ _ (by simp [hx, hg]) r, Finset.sum_range]
  apply Fintype.sum_equiv (finCongr (by simp [hg]))
  intro I
  have h1 : (I : Nat) < gs.length := lt_of_lt_of_le I.2 (by simp)
  have h2 : (I : Nat) < n := hg ▸ h1
  have h3 : (I : Nat) < xs.length := lt_of_lt_of_le h2 hx
  simp [h1, h2, h3, mul_comm]

/-- The values of an affine function at the nodes, weighted by the gradients, add up to its gradient. -/
theorem affine_gradient (kind : Kind) (B : Matrix (Fin kind.dim) (Fin kind.dim) ℝ) (b : Point kind.dim ℝ) (p : Point kind.dim ℝ)
    (m r : Fin kind.dim) (f : Nat → ℝ) (hf : ∀ I x, (refNodes kind)[I]? = some x → f I = (B.mulVec x + b) r) :
    ∑ I ∈ Finset.range kind.numNodes, (gradients kind p)[I]?.getD 0 m * f I = B r m := by
  have hval : ∀ I ∈ Finset.range kind.numNodes, (gradients kind p)[I]?.getD 0 m * f I =
      ∑ l, B r l * ((gradients kind p)[I]?.getD 0 m * ((refNodes kind)[I]?.getD 0) l) + (gradients kind p)[I]?.getD 0 m * b r := by
    intro I hI
    have hI : I < (refNodes (K := ℝ) kind).length := refNodes_length kind ▸ Finset.mem_range.1 hI
    rw [hf I _ (List.getElem?_eq_getElem hI), List.getElem?_eq_getElem hI, Option.getD_some, Pi.add_apply, mul_add, Matrix.mulVec, dotProduct,
      Finset.mul_sum]
    congr 1
    exact Finset.sum_congr rfl fun l _ => by ring
  rw [Finset.sum_congr rfl hval, Finset.sum_add_distrib, ← Finset.sum_mul, gradients_sum_range, zero_mul, add_zero, Finset.sum_comm]
  simp only [← Finset.mul_sum, gradients_reproduce]
  simp

private theorem jacobian_first (kind : Kind) (xs : List (Point kind.dim ℝ)) (A : Matrix (Fin kind.dim) (Fin kind.dim) ℝ) (t : Point kind.dim ℝ)
    (hxs : ∀ (I : Nat) (x : Point kind.dim ℝ), (refNodes kind)[I]? = some x → xs[I]? = some (A.mulVec x + t)) (p : Point kind.dim ℝ) :
    Matrix.of (fun r c => weightedSum (xs.take kind.numNodes) ((gradients kind p).map fun G => G c) r) = A := by
  ext r c
  have hlen : kind.numNodes ≤ xs.length := by
    by_contra hlt
    push Not at hlt
    have := hxs xs.length _ (List.getElem?_eq_getElem (refNodes_length kind ▸ hlt))
    simp at this
  rw [Matrix.of_apply, weightedSum_range xs _ _ hlen (gradients_length kind p)]
  refine affine_gradient kind A t p c r _ fun I x hx => ?_
  rw [hxs I x hx]
  rfl

private theorem take_get {d n j : Nat} {ns ms : List (Point d ℝ)} {x : Point d ℝ} (h : ms = ns.take n) (hx : ms[j]? = some x) :
    ns[j]? = some x := by
  rw [h, List.getElem?_take] at hx
  split at hx
  · exact hx
  · simp at hx

/-- The Jacobian of an element that is the affine image of the reference element. -/
theorem affine_jacobian (kind : Kind) (xs : List (Point kind.dim ℝ)) (A : Matrix (Fin kind.dim) (Fin kind.dim) ℝ) (t : Point kind.dim ℝ)
    (hxs : ∀ (I : Nat) (x : Point kind.dim ℝ), (refNodes kind)[I]? = some x → xs[I]? = some (A.mulVec x + t)) (p : Point kind.dim ℝ) :
    (elementOfKind kind xs).jacobian p = A := by
  cases kind with
  | segment2 => exact jacobian_first .segment2 xs A t hxs p
  | tri3 => exact jacobian_first .tri3 xs A t hxs p
  | tri6 => exact jacobian_first .tri3 xs A t (fun I x hx => hxs I x (take_get (n := 3) rfl hx)) p
  | tet4 => exact jacobian_first .tet4 xs A t hxs p
  | tet10 => exact jacobian_first .tet4 xs A t (fun I x hx => hxs I x (take_get (n := 4) rfl hx)) p
  | tet20 => exact jacobian_first .tet4 xs A t (fun I x hx => hxs I x (take_get (n := 4) rfl hx)) p
  | quad4 => exact jacobian_first .quad4 xs A t hxs p
  | quad9 => exact jacobian_first .quad4 xs A t (fun I x hx => hxs I x (take_get (n := 4) rfl hx)) p
  | hex8 => exact jacobian_first .hex8 xs A t hxs p
  | hex20 => exact jacobian_first .hex8 xs A t (fun I x hx => hxs I x (take_get (n := 8) rfl hx)) p
  | hex27 => exact jacobian_first .hex8 xs A t (fun I x hx => hxs I x (take_get (n := 8) rfl hx)) p

/-! ## Elements without energy -/

/-- The gradient in the coordinates of the reference element. -/
theorem gradU_reference (kind : Kind) (A : Matrix (Fin kind.dim) (Fin kind.dim) ℝ) (hA : A.det ≠ 0) (p : Point kind.dim ℝ) (s : Nat)
    (v : List ℝ) : A.transpose * gradU s A (gradients kind p) v =
      Matrix.of fun m (i : Fin s) => ∑ I ∈ Finset.range kind.numNodes, (gradients kind p)[I]?.getD 0 m * v.getD (s * I + i) 0 := by
  have hG : gradU s A (gradients kind p) v = (A⁻¹).transpose *
      Matrix.of fun m (i : Fin s) => ∑ I ∈ Finset.range kind.numNodes, (gradients kind p)[I]?.getD 0 m * v.getD (s * I + i) 0 := by
    ext k i
    rw [gradU, Matrix.mul_apply]
    simp only [physGrad, Finset.sum_mul, Matrix.transpose_apply, Matrix.of_apply, Finset.mul_sum]
    rw [Finset.sum_comm]
    refine Finset.sum_congr rfl fun m _ => ?_
    rw [Finset.sum_range]
    apply Fintype.sum_equiv (finCongr (gradients_length kind p))
    intro I
    have hI : (I : Nat) < (gradients kind p).length := I.2
    simp [mul_assoc]
  rw [hG, ← Matrix.mul_assoc, ← Matrix.transpose_mul, Matrix.nonsing_inv_mul A (isUnit_iff_ne_zero.2 hA), Matrix.transpose_one, Matrix.one_mul]

/-- **C99.** An affine element of any kind with the canonical stiffness quadrature: the strain of a displacement vanishes at the quadrature
points exactly if the displacement is a rigid motion. -/
theorem C99_element_rigid (gauss : Nat → Rule 1 ℝ) (h2 : IsGaussRule 2 (gauss 2).1 (gauss 2).2) (hl2 : (gauss 2).1.length = 2)
    (h3 : IsGaussRule 3 (gauss 3).1 (gauss 3).2) (hl3 : (gauss 3).1.length = 3) (kind : Kind) (hk : kind ≠ .segment2) :
    ∃ rule, stiffnessRule gauss kind = some rule ∧ rule.1.length = rule.2.length ∧ (∀ w ∈ rule.1, 0 < w) ∧
      ∀ xs : List (Point kind.dim ℝ), AffineCell kind xs → ∀ v : List ℝ,
        ((∀ p ∈ rule.2, (gradU kind.dim ((elementOfKind kind xs).jacobian p) ((elementOfKind kind xs).gradients p) v).transpose =
            -gradU kind.dim ((elementOfKind kind xs).jacobian p) ((elementOfKind kind xs).gradients p) v) ↔
          ∃ (W : Matrix (Fin kind.dim) (Fin kind.dim) ℝ) (b : Point kind.dim ℝ), W.transpose = -W ∧
            ∀ I, I < kind.numNodes → ∀ x, xs[I]? = some x → ∀ i : Fin kind.dim, v.getD (kind.dim * I + i) 0 = (W.mulVec x + b) i) := by
  obtain ⟨rule, h1, hlen, hpos, hsep⟩ := stiffnessRule_separates gauss h2 hl2 h3 hl3 kind hk
  refine ⟨rule, h1, hlen, hpos, ?_⟩
  rintro xs ⟨A, t, hA, hxs⟩ v
  have hu : IsUnit A.det := isUnit_iff_ne_zero.2 hA
  have hJ := affine_jacobian kind xs A t hxs
  have hI : ∀ I, I < kind.numNodes → ∃ x, (refNodes (K := ℝ) kind)[I]? = some x ∧ xs[I]? = some (A.mulVec x + t) := fun I hI =>
    have h := List.getElem?_eq_getElem (l := refNodes (K := ℝ) kind) (refNodes_length kind ▸ hI)
    ⟨_, h, hxs I _ h⟩
  constructor
  · intro hz
    -- the pulled back displacement
    set w : Nat → Fin kind.dim → ℝ := fun I l => ∑ i : Fin kind.dim, v.getD (kind.dim * I + i) 0 * A i l with hw
    set D : Point kind.dim ℝ → Matrix (Fin kind.dim) (Fin kind.dim) ℝ := fun x => Matrix.of fun m l =>
      ∑ I ∈ Finset.range kind.numNodes, (gradients kind x)[I]?.getD 0 m * w I l with hD
    have hDG : ∀ x, D x = A.transpose * gradU kind.dim A (gradients kind x) v * A := by
      intro x
      rw [gradU_reference kind A hA x]
      ext m l
      rw [Matrix.mul_apply, hD]
      simp only [Matrix.of_apply, hw, Finset.mul_sum, Finset.sum_mul]
      rw [Finset.sum_comm]
      exact Finset.sum_congr rfl fun i _ => Finset.sum_congr rfl fun I _ => by ring
    have hsum : ∀ x m l, D x m l + D x l m = ∑ I ∈ Finset.range kind.numNodes ×ˢ Finset.univ, (gradients kind x)[I.1]?.getD 0 I.2 *
        ((if I.2 = m then w I.1 l else 0) + if I.2 = l then w I.1 m else 0) := by
      intro x m l
      rw [Finset.sum_product, hD]
      simp only [Matrix.of_apply, mul_add, Finset.sum_add_distrib, mul_ite, mul_zero, Finset.sum_ite_eq', Finset.mem_univ, if_true]
    have hstrain : ∀ x m l, D x m l + D x l m = 0 := by
      intro x m l
      rw [hsum]
      refine hsep (fun I => (if I.2 = m then w I.1 l else 0) + if I.2 = l then w I.1 m else 0) _ (fun y hy => ?_) x
      rw [← hsum]
      have hy := hz y hy
      rw [hJ] at hy
      have : (D y).transpose = -D y := by
        rw [hDG, Matrix.transpose_mul, Matrix.transpose_mul, Matrix.transpose_transpose]
        rw [show (gradU kind.dim A (gradients kind y) v).transpose = -gradU kind.dim A (gradients kind y) v from hy]
        rw [Matrix.neg_mul, Matrix.mul_neg, Matrix.mul_assoc]
      have := congrFun (congrFun this m) l
      rw [Matrix.transpose_apply, Matrix.neg_apply] at this
      linarith
    obtain ⟨S, hS, hf⟩ := rigid_of_strain_zero (fun x l => ∑ I ∈ Finset.range kind.numNodes, (basis kind x).getD I 0 * w I l) D
      (fun x l => derivative kind (fun I => w I l) x) hstrain
    set c : Point kind.dim ℝ := fun l => ∑ I ∈ Finset.range kind.numNodes, (basis kind 0).getD I 0 * w I l with hc
    refine ⟨(A⁻¹).transpose * S * A⁻¹, (A⁻¹).transpose.mulVec c - ((A⁻¹).transpose * S * A⁻¹).mulVec t, ?_, fun I hIlt x hx i => ?_⟩
    · rw [Matrix.transpose_mul, Matrix.transpose_mul, Matrix.transpose_transpose, hS, Matrix.neg_mul, Matrix.mul_neg, Matrix.mul_assoc]
    · obtain ⟨ξ, hξ, hx'⟩ := hI I hIlt
      rw [hx] at hx'
      obtain rfl := Option.some.inj hx'
      have hwI : w I = S.mulVec ξ + c := by
        have := hf ξ
        rw [← this]
        funext l
        rw [C36_basis_is_nodal kind I ξ hξ, Finset.sum_eq_single I]
        · simp [hIlt]
        · intro J hJ hne
          have := Finset.mem_range.1 hJ
          simp [this, hne]
        · intro hn
          exact absurd (Finset.mem_range.2 hIlt) hn
      have hv : (fun i : Fin kind.dim => v.getD (kind.dim * I + i) 0) = (A⁻¹).transpose.mulVec (w I) := by
        have : w I = A.transpose.mulVec fun i : Fin kind.dim => v.getD (kind.dim * I + i) 0 := by
          funext l
          rw [Matrix.mulVec, dotProduct]
          refine Finset.sum_congr rfl fun i _ => ?_
          rw [Matrix.transpose_apply, mul_comm]
        rw [this, Matrix.mulVec_mulVec, ← Matrix.transpose_mul, Matrix.mul_nonsing_inv A hu, Matrix.transpose_one, Matrix.one_mulVec]
      have := congrFun hv i
      beta_reduce at this
      rw [this, hwI]
      rw [Matrix.mulVec_add, Matrix.mulVec_add, ← Matrix.mulVec_mulVec (A.mulVec ξ), Matrix.mulVec_mulVec ξ A⁻¹, Matrix.nonsing_inv_mul A hu,
        Matrix.one_mulVec, ← Matrix.mulVec_mulVec ξ]
      simp only [Pi.add_apply, Pi.sub_apply]
      ring
  · rintro ⟨W, b, hW, hv⟩ p hp
    have hG : gradU kind.dim ((elementOfKind kind xs).jacobian p) ((elementOfKind kind xs).gradients p) v = W.transpose := by
      rw [hJ]
      have hR := gradU_reference kind A hA p kind.dim v
      have hR' : A.transpose * gradU kind.dim A (gradients kind p) v = A.transpose * W.transpose := by
        rw [hR]
        ext m i
        rw [Matrix.of_apply, affine_gradient kind (W * A) (W.mulVec t + b) p m i, ← Matrix.transpose_mul, Matrix.transpose_apply]
        intro I x hx
        have hIlt : I < kind.numNodes := refNodes_length kind ▸ (List.getElem?_eq_some_iff.1 hx).1
        rw [hv I hIlt _ (hxs I x hx) i, Matrix.mulVec_add, ← Matrix.mulVec_mulVec, add_assoc]
      have := congrArg (fun M => (A⁻¹).transpose * M) hR'
      simp only [← Matrix.mul_assoc, ← Matrix.transpose_mul, Matrix.mul_nonsing_inv A hu, Matrix.transpose_one, Matrix.one_mul] at this
      rw [Matrix.mul_assoc, Matrix.mul_nonsing_inv A hu, Matrix.mul_one] at this
      exact this
    rw [hG, hW, Matrix.transpose_neg, hW]

-- A material with a negative first parameter whose moduli are positive all the same.
example : (0 : ℝ) < (⟨1, -1 / 2⟩ : Lame ℝ).mu ∧ (0 : ℝ) < 2 * (⟨1, -1 / 2⟩ : Lame ℝ).mu + (3 : Nat) * (⟨1, -1 / 2⟩ : Lame ℝ).lambda := by
  constructor <;> norm_num

end Fenris.Elasticity
