import Verif.Props.LinearProblem
import Verif.Props.GridFaces
/-! # C96: Poisson problems on meshes -/
set_option autoImplicit false
set_option linter.unusedSectionVars false

namespace Fenris.LinearProblem
open Fenris.Element Fenris.Local Fenris.Local.Spec Fenris.PatchTest Fenris.PatchTest.Spec Fenris.LinearProblem.Spec Quadrature
open Fenris.Procedural Fenris.Surface Fenris.Surface.Spec Fenris.Canonical Fenris.Canonical.Spec
open Fenris.Spec (matrixContribution entry SortsNodes Constrained Solves SolvesConstrained Stored)

section Laplace
variable {K : Type} [Field K] [LinearOrder K] [IsStrictOrderedRing K] {d : Nat}

attribute [local instance] zeroFill

private theorem laplace_density (G : Matrix (Fin d) (Fin 1) K) (param : Unit) :
    density (laplace d K) param G = ∑ k, G k 0 * G k 0 := by
  unfold density
  refine Finset.sum_congr rfl fun k _ => ?_
  rw [Fin.sum_univ_one]
  rfl

private theorem laplace_density_zero {G : Matrix (Fin d) (Fin 1) K} {param : Unit} (h : density (laplace d K) param G = 0) : G = 0 := by
  rw [laplace_density] at h
  have h0 := (Finset.sum_eq_zero_iff_of_nonneg fun k (_ : k ∈ Finset.univ) => mul_self_nonneg (G k 0)).1 h
  ext k i
  rw [Subsingleton.elim i 0]
  exact mul_self_eq_zero.1 (h0 k (Finset.mem_univ _))

private theorem localPart_one_getD (v : List K) (nodes : List Nat) (a : Nat) (ha : a < nodes.length) :
    (localPart 1 v nodes).getD a 0 = v.getD nodes[a] 0 := by
  have e : localPart 1 v nodes = nodes.map fun n => v.getD n 0 := by
    unfold localPart
    clear ha
    induction nodes with
    | nil => rfl
    | cons n nodes ih => rw [List.flatMap_cons, List.map_cons, ih]; simp
  rw [e, List.getD_eq_getElem?_getD, List.getElem?_map, List.getElem?_eq_getElem ha]
  rfl

private theorem localPart_one_length (v : List K) (nodes : List Nat) : (localPart 1 v nodes).length = nodes.length := by
  unfold localPart
  induction nodes with
  | nil => rfl
  | cons n nodes ih => rw [List.flatMap_cons, List.length_append, ih]; simp [Nat.add_comm]

/-- C96: the setting of a Poisson problem. -/
theorem C96_poisson_setting (space : Space d K) (N : Nat) (table : Table (Point d K) K Unit) (rules : Nat → List (QPoint d K Unit))
    (u : List K) (hd : Discretisation space N table rules u 1) (hnd : ∀ en ∈ space, en.2.Nodup)
    (hw : ∀ e, e < space.length → ∀ q ∈ rules e, 0 < q.1)
    (nodes : List Nat) (hn : ∀ n ∈ nodes, ∃ en ∈ space, n ∈ en.2) :
    Setting space N table rules u (laplace d K) nodes where
  dim := one_pos
  disc := hd
  nodup := hnd
  weights := hw
  linear := (C89_linear_operators d).1
  symmetric := rfl
  law := by
    intro _ G a b param
    ext i j
    simp only [laplace, Matrix.transpose_apply, Matrix.of_apply]
    exact Finset.sum_congr rfl fun k _ => mul_comm _ _
  nonneg := by
    intro _ _ _ _ G
    rw [laplace_density]
    exact Finset.sum_nonneg fun k _ => mul_self_nonneg _
  constrained := hn

/-- **C96.** When does a Poisson problem have one solution?  If the rule of every element determines its functions up to constants, and
constants have no gradient, it does exactly if one can walk through the elements from every node to a node with a prescribed value. -/
theorem C96_poisson_definite (space : Space d K) (N : Nat) (table : Table (Point d K) K Unit) (rules : Nat → List (QPoint d K Unit))
    (u : List K) (hd : Discretisation space N table rules u 1)
    (hdet : ∀ (e : Nat) (en : VolElement d K × List Nat), space[e]? = some en → Determines en.1 (rules e))
    (hconst : ∀ en ∈ space, ∀ p m, ∑ I : Fin (en.1.gradients p).length, (en.1.gradients p)[I] m = 0) (nodes : List Nat) :
    Definite space N rules (laplace d K) nodes ↔ Anchored (space.map Prod.snd) N nodes := by
  classical
  constructor
  · intro hdef n hn
    by_contra hnot
    push Not at hnot
    set v : List K := List.ofFn fun i : Fin N => if Relation.ReflTransGen (Neighbours (space.map Prod.snd)) n i then 1 else 0 with hv
    have hget : ∀ r, r < N → v.getD r 0 = if Relation.ReflTransGen (Neighbours (space.map Prod.snd)) n r then 1 else 0 := by
      intro r hr
      rw [List.getD_eq_getElem?_getD, List.getElem?_eq_getElem (by simpa [hv] using hr)]
      simp [hv]
    have h0 := hdef v (by simp [hv]) (by
      rintro r ⟨m, hm, i, hi, rfl⟩
      have e : 1 * m + i = m := by omega
      rw [e]
      by_cases hlt : m < N
      · rw [hget m hlt, if_neg (hnot m hm)]
      · rw [List.getD_eq_getElem?_getD, List.getElem?_eq_none (by simp [hv]; omega)]
        rfl) (by
      intro e en he q hq
      have hen := List.mem_of_getElem? he
      have hcell : en.2 ∈ space.map Prod.snd := List.mem_map_of_mem hen
      have hc : ∃ c : K, ∀ I, (hI : I < en.2.length) → (localPart 1 v en.2).getD I 0 = c := by
        by_cases hreach : ∃ a ∈ en.2, Relation.ReflTransGen (Neighbours (space.map Prod.snd)) n a
        · obtain ⟨a, ha, hna⟩ := hreach
          refine ⟨1, fun I hI => ?_⟩
          have hmem := List.getElem_mem hI
          rw [localPart_one_getD v en.2 I hI, hget _ (hd.inBounds en hen _ hmem), if_pos (hna.tail ⟨en.2, hcell, ha, hmem⟩)]
        · push Not at hreach
          refine ⟨0, fun I hI => ?_⟩
          have hmem := List.getElem_mem hI
          rw [localPart_one_getD v en.2 I hI, hget _ (hd.inBounds en hen _ hmem), if_neg (hreach _ hmem)]
      obtain ⟨c, hc⟩ := hc
      have hlen : (en.1.gradients q.2.1).length = en.2.length := (hd.wellFormed en hen q.2.1).2.trans (hd.nodeCount en hen).symm
      have hg : gradU 1 (en.1.jacobian q.2.1) (en.1.gradients q.2.1) (localPart 1 v en.2) = 0 := by
        ext k i
        rw [gradU]
        have hi : (i : Nat) = 0 := by omega
        simp only [hi, Nat.one_mul, Nat.add_zero]
        rw [Finset.sum_congr rfl fun I _ => by rw [hc I (hlen ▸ I.2)]]
        rw [← Finset.sum_mul]
        simp only [physGrad]
        rw [Finset.sum_comm]
        simp only [← Finset.mul_sum]
        rw [Finset.sum_eq_zero fun m _ => mul_eq_zero_of_right _ (hconst en hen q.2.1 m), zero_mul]
        rfl
      rw [hg, laplace_density]
      simp) n
    rw [hget n hn, if_pos Relation.ReflTransGen.refl] at h0
    exact one_ne_zero h0
  · intro ha v hv hcon hzero
    have hstep : ∀ a b, Neighbours (space.map Prod.snd) a b → v.getD a 0 = v.getD b 0 := by
      rintro a b ⟨c, hcell, ha, hb⟩
      obtain ⟨en, hen, rfl⟩ := List.mem_map.1 hcell
      obtain ⟨e, he⟩ := List.getElem?_of_mem hen
      have hc := hd.nodeCount en hen
      obtain ⟨I, hI, rfl⟩ := List.getElem_of_mem ha
      obtain ⟨J, hJ, rfl⟩ := List.getElem_of_mem hb
      have := hdet e en he (localPart 1 v en.2) ((localPart_one_length v en.2).trans hc)
        (fun q hq => laplace_density_zero (hzero e en he q hq)) I J (hc ▸ hI) (hc ▸ hJ)
      rwa [localPart_one_getD v en.2 I hI, localPart_one_getD v en.2 J hJ] at this
    intro r
    by_cases hr : r < N
    · obtain ⟨m, hm, hpath⟩ := ha r hr
      have hall : v.getD r 0 = v.getD m 0 := by
        clear hr hm
        induction hpath with
        | refl => rfl
        | tail _ hs ih => exact ih.trans (hstep _ _ hs)
      rw [hall]
      exact hcon m ⟨m, hm, 0, one_pos, by omega⟩
    · rw [List.getD_eq_getElem?_getD, List.getElem?_eq_none (by rw [hv]; omega)]
      rfl

/-! ## Rules that determine the functions of an element -/

/-- A vanishing gradient vanishes in reference coordinates. -/
theorem reference_gradient_zero {J : Matrix (Fin d) (Fin d) K} (hJ : J.det ≠ 0) {grads : List (Point d K)} {v : List K}
    (h : gradU 1 J grads v = 0) (m : Fin d) : ∑ I : Fin grads.length, grads[I] m * v.getD I 0 = 0 := by
  set S : Fin d → K := fun m => ∑ I : Fin grads.length, grads[I] m * v.getD I 0 with hS
  have h1 : (J⁻¹).transpose.mulVec S = 0 := by
    funext k
    have := congrFun (congrFun h k) 0
    rw [gradU] at this
    simp only [physGrad, Fin.val_zero, Nat.one_mul, Nat.add_zero, Finset.sum_mul] at this
    rw [Finset.sum_comm] at this
    simp only [Matrix.mulVec, dotProduct, Matrix.transpose_apply, hS, Finset.mul_sum]
    rw [← show (0 : Matrix (Fin d) (Fin 1) K) k 0 = (0 : Fin d → K) k from rfl, ← this]
    exact Finset.sum_congr rfl fun m _ => Finset.sum_congr rfl fun I _ => by ring
  have h2 : S = 0 := by
    have hu : IsUnit J.det := isUnit_iff_ne_zero.2 hJ
    have : J.transpose.mulVec ((J⁻¹).transpose.mulVec S) = S := by
      rw [Matrix.mulVec_mulVec, ← Matrix.transpose_mul, Matrix.nonsing_inv_mul J hu, Matrix.transpose_one, Matrix.one_mulVec]
    rw [← this, h1, Matrix.mulVec_zero]
  exact congrFun h2 m

private theorem affine_zero {A B a b : K} (hab : a ≠ b) (h1 : A + B * a = 0) (h2 : A + B * b = 0) : A = 0 ∧ B = 0 := by
  have hB : B * (a - b) = 0 := by linear_combination h1 - h2
  have hB0 : B = 0 := (mul_eq_zero.1 hB).resolve_right (sub_ne_zero.2 hab)
  refine ⟨?_, hB0⟩
  rw [hB0] at h1
  simpa using h1

private theorem bilinear_zero {A B C D a b : K} (hab : a ≠ b) (h : ∀ x ∈ [a, b], ∀ y ∈ [a, b], A + B * x + C * y + D * x * y = 0) :
    A = 0 ∧ B = 0 ∧ C = 0 ∧ D = 0 := by
  have h1 : ∀ y ∈ [a, b], A + C * y = 0 ∧ B + D * y = 0 := fun y hy => affine_zero hab
    (by linear_combination h a (by simp) y hy) (by linear_combination h b (by simp) y hy)
  obtain ⟨hA, hC⟩ := affine_zero hab (h1 a (by simp)).1 (h1 b (by simp)).1
  obtain ⟨hB, hD⟩ := affine_zero hab (h1 a (by simp)).2 (h1 b (by simp)).2
  exact ⟨hA, hB, hC, hD⟩

private theorem three_sum {a b c : Point d K} {v0 v1 v2 : K} {m : Fin d}
    (h : ∑ I : Fin [a, b, c].length, [a, b, c][I] m * [v0, v1, v2].getD I 0 = 0) : a m * v0 + b m * v1 + c m * v2 = 0 := by
  rw [← h]
  exact (Fin.sum_univ_three (fun I : Fin 3 => [a, b, c][I] m * [v0, v1, v2].getD I 0)).symm

private theorem four_sum {a b c e : Point d K} {v0 v1 v2 v3 : K} {m : Fin d}
    (h : ∑ I : Fin [a, b, c, e].length, [a, b, c, e][I] m * [v0, v1, v2, v3].getD I 0 = 0) :
    a m * v0 + b m * v1 + c m * v2 + e m * v3 = 0 := by
  rw [← h]
  exact (Fin.sum_univ_four (fun I : Fin 4 => [a, b, c, e][I] m * [v0, v1, v2, v3].getD I 0)).symm

private theorem eight_sum {a0 a1 a2 a3 a4 a5 a6 a7 : Point d K} {v0 v1 v2 v3 v4 v5 v6 v7 : K} {m : Fin d}
    (h : ∑ I : Fin [a0, a1, a2, a3, a4, a5, a6, a7].length,
      [a0, a1, a2, a3, a4, a5, a6, a7][I] m * [v0, v1, v2, v3, v4, v5, v6, v7].getD I 0 = 0) :
    a0 m * v0 + a1 m * v1 + a2 m * v2 + a3 m * v3 + a4 m * v4 + a5 m * v5 + a6 m * v6 + a7 m * v7 = 0 := by
  rw [← h]
  exact (Fin.sum_univ_eight (fun I : Fin 8 => [a0, a1, a2, a3, a4, a5, a6, a7][I] m * [v0, v1, v2, v3, v4, v5, v6, v7].getD I 0)).symm

private theorem length_eq_four {α : Type} {l : List α} (h : l.length = 4) : ∃ a0 a1 a2 a3, l = [a0, a1, a2, a3] := by
  match l, h with
  | [a0, a1, a2, a3], _ => exact ⟨a0, a1, a2, a3, rfl⟩

private theorem length_eq_eight {α : Type} {l : List α} (h : l.length = 8) :
    ∃ a0 a1 a2 a3 a4 a5 a6 a7, l = [a0, a1, a2, a3, a4, a5, a6, a7] := by
  match l, h with
  | [a0, a1, a2, a3, a4, a5, a6, a7], _ => exact ⟨a0, a1, a2, a3, a4, a5, a6, a7, rfl⟩

private theorem const_getD {l : List K} {c : K} (h : ∀ x ∈ l, x = c) {I J : Nat} (hI : I < l.length) (hJ : J < l.length) :
    l.getD I 0 = l.getD J 0 := by
  rw [List.getD_eq_getElem _ _ hI, List.getD_eq_getElem _ _ hJ, h _ (List.getElem_mem hI), h _ (List.getElem_mem hJ)]

set_option maxHeartbeats 1000000 in
/-- C96: rules with enough points determine the functions of every element whose Jacobian is regular at the points. -/
theorem C96_determines (kind : Kind) (xs : List (Point kind.dim K)) (rule : List (QPoint kind.dim K Unit))
    (hrich : Rich kind (rule.map fun q => q.2.1)) (hdet : ∀ q ∈ rule, ((elementOfKind kind xs).jacobian q.2.1).det ≠ 0) :
    Determines (elementOfKind kind xs) rule := by
  intro v hv hzero
  have hS : ∀ p ∈ rule.map (fun q => q.2.1), ∀ m, ∑ I : Fin (gradients kind p).length, (gradients kind p)[I] m * v.getD I 0 = 0 := by
    intro p hp m
    obtain ⟨q, hq, rfl⟩ := List.mem_map.1 hp
    exact reference_gradient_zero (hdet q hq) (hzero q hq) m
  generalize rule.map (fun q => q.2.1) = points at hrich hS
  cases kind with
  | tri3 =>
    obtain ⟨p, hp⟩ := List.exists_mem_of_ne_nil _ hrich
    obtain ⟨v0, v1, v2, rfl⟩ := List.length_eq_three.1 hv
    have h0 := three_sum (hS p hp 0)
    have h1 := three_sum (hS p hp 1)
    simp [tri3G] at h0 h1
    have e1 : v1 = v0 := by linear_combination 2 * h0
    have e2 : v2 = v0 := by linear_combination 2 * h1
    rw [e1, e2]
    intro I J hI hJ
    exact const_getD (c := v0) (l := [v0, v0, v0]) (by simp) hI hJ
  | quad4 =>
    obtain ⟨a, b, hab, hp⟩ := hrich
    obtain ⟨v0, v1, v2, v3, rfl⟩ := length_eq_four hv
    have h0 : ∀ y ∈ [a, b], (-v0 + v1 + v2 - v3) + (v0 - v1 + v2 - v3) * y = 0 := fun y hy => by
      have := four_sum (hS _ (hp a (by simp) y hy) 0)
      simp [quad4PhiGrad] at this
      linear_combination 4 * this
    have h1 : ∀ x ∈ [a, b], (-v0 - v1 + v2 + v3) + (v0 - v1 + v2 - v3) * x = 0 := fun x hx => by
      have := four_sum (hS _ (hp x hx a (by simp)) 1)
      simp [quad4PhiGrad] at this
      linear_combination 4 * this
    obtain ⟨c0, c1⟩ := affine_zero hab (h0 a (by simp)) (h0 b (by simp))
    obtain ⟨c2, -⟩ := affine_zero hab (h1 a (by simp)) (h1 b (by simp))
    have e1 : v1 = v0 := by linarith
    have e2 : v2 = v0 := by linarith
    have e3 : v3 = v0 := by linarith
    rw [e1, e2, e3]
    intro I J hI hJ
    exact const_getD (c := v0) (l := [v0, v0, v0, v0]) (by simp) hI hJ
  | tet4 =>
    obtain ⟨p, hp⟩ := List.exists_mem_of_ne_nil _ hrich
    obtain ⟨v0, v1, v2, v3, rfl⟩ := length_eq_four hv
    have h0 := four_sum (hS p hp 0)
    have h1 := four_sum (hS p hp 1)
    have h2 := four_sum (hS p hp 2)
    simp [tet4G] at h0 h1 h2
    have e1 : v1 = v0 := by linear_combination 2 * h0
    have e2 : v2 = v0 := by linear_combination 2 * h1
    have e3 : v3 = v0 := by linear_combination 2 * h2
    rw [e1, e2, e3]
    intro I J hI hJ
    exact const_getD (c := v0) (l := [v0, v0, v0, v0]) (by simp) hI hJ
  | hex8 =>
    obtain ⟨a, b, hab, hp⟩ := hrich
    obtain ⟨v0, v1, v2, v3, v4, v5, v6, v7, rfl⟩ := length_eq_eight hv
    have h0 : ∀ y ∈ [a, b], ∀ z ∈ [a, b], (-v0 + v1 + v2 - v3 - v4 + v5 + v6 - v7) + (v0 - v1 + v2 - v3 + v4 - v5 + v6 - v7) * y
        + (v0 - v1 - v2 + v3 - v4 + v5 + v6 - v7) * z + (-v0 + v1 - v2 + v3 + v4 - v5 + v6 - v7) * y * z = 0 := fun y hy z hz => by
      have := eight_sum (hS _ (hp a (by simp) y hy z hz) 0)
      simp [hex8PhiGrad, phiLinear1d, phiLinear1dGrad] at this
      linear_combination 8 * this
    have h1 : ∀ x ∈ [a, b], ∀ z ∈ [a, b], (-v0 - v1 + v2 + v3 - v4 - v5 + v6 + v7) + (v0 - v1 + v2 - v3 + v4 - v5 + v6 - v7) * x
        + (v0 + v1 - v2 - v3 - v4 - v5 + v6 + v7) * z + (-v0 + v1 - v2 + v3 + v4 - v5 + v6 - v7) * x * z = 0 := fun x hx z hz => by
      have := eight_sum (hS _ (hp x hx a (by simp) z hz) 1)
      simp [hex8PhiGrad, phiLinear1d, phiLinear1dGrad] at this
      linear_combination 8 * this
    have h2 : ∀ x ∈ [a, b], ∀ y ∈ [a, b], (-v0 - v1 - v2 - v3 + v4 + v5 + v6 + v7) + (v0 - v1 - v2 + v3 - v4 + v5 + v6 - v7) * x
        + (v0 + v1 - v2 - v3 - v4 - v5 + v6 + v7) * y + (-v0 + v1 - v2 + v3 + v4 - v5 + v6 - v7) * x * y = 0 := fun x hx y hy => by
      have := eight_sum (hS _ (hp x hx y hy a (by simp)) 2)
      simp [hex8PhiGrad, phiLinear1d, phiLinear1dGrad] at this
      linear_combination 8 * this
    obtain ⟨c0, c1, c2, c3⟩ := bilinear_zero hab h0
    obtain ⟨c4, -, c5, -⟩ := bilinear_zero hab h1
    obtain ⟨c6, -, -, -⟩ := bilinear_zero hab h2
    have e1 : v1 = v0 := by linarith
    have e2 : v2 = v0 := by linarith
    have e3 : v3 = v0 := by linarith
    have e4 : v4 = v0 := by linarith
    have e5 : v5 = v0 := by linarith
    have e6 : v6 = v0 := by linarith
    have e7 : v7 = v0 := by linarith
    rw [e1, e2, e3, e4, e5, e6, e7]
    intro I J hI hJ
    exact const_getD (c := v0) (l := [v0, v0, v0, v0, v0, v0, v0, v0]) (by simp) hI hJ
  | _ => exact hrich.elim

end Laplace

theorem gradients_sum_zero (kind : Kind) (p : Point kind.dim ℝ) (m : Fin kind.dim) :
    ∑ I : Fin (gradients kind p).length, (gradients kind p)[I] m = 0 := by
  rw [← (C35_gradients_sum_to_zero kind p m).2, ← List.sum_ofFn]
  congr 1
  apply List.ext_getElem (by simp)
  intro n h1 h2
  simp

/-! ## Meshes with the canonical quadrature -/

/-- The Gauss rule with two points. -/
theorem gauss_pair {rule : Rule 1 ℝ} (h : IsGaussRule 2 rule.1 rule.2) (hl : rule.1.length = 2) :
    ∃ x : ℝ, x ≠ 0 ∧ x * x = 1 / 3 ∧ rule = ([1, 1], [![x], ![-x]]) := by
  obtain ⟨ws, ps⟩ := rule
  obtain ⟨w1, w2, rfl⟩ := List.length_eq_two.1 hl
  obtain ⟨p1, p2, rfl⟩ := List.length_eq_two.1 (h.length.symm.trans hl)
  have hleg : ∀ x : ℝ, (legPoly 2 : Polynomial ℝ).eval x = (3 * (x * x) - 1) / 2 := fun x => by
    simp [legPoly]
    ring
  have hsq : ∀ p ∈ [p1, p2], p 0 * p 0 = 1 / 3 := fun p hp => by
    have := h.roots _ (legPoly_isLegendre 2) p hp
    rw [hleg] at this
    linarith
  have q1 := hsq p1 (by simp)
  have q2 := hsq p2 (by simp)
  have m0 : w1 + w2 = 2 := by
    have := h.exact 1 (by simp)
    simpa [integral_one] using this.trans (by norm_num)
  have m1 : w1 * p1 0 + w2 * p2 0 = 0 := by
    have := h.exact Polynomial.X (by simp)
    simpa using this
  have hfac : (p1 0 - p2 0) * (p1 0 + p2 0) = 0 := by linear_combination q1 - q2
  have h0 : p1 0 ≠ 0 := fun h0 => by rw [h0] at q1; norm_num at q1
  have hneg : p2 0 = -p1 0 := by
    rcases mul_eq_zero.1 hfac with h3 | h3
    · have : p2 0 = p1 0 := by linarith
      rw [this, ← add_mul, m0] at m1
      exact absurd m1 (mul_ne_zero two_ne_zero h0)
    · linarith
  have hw : w1 = w2 := by
    rw [hneg] at m1
    have : (w1 - w2) * p1 0 = 0 := by linear_combination m1
    exact sub_eq_zero.1 ((mul_eq_zero.1 this).resolve_right h0)
  refine ⟨p1 0, h0, q1, ?_⟩
  have e1 : w1 = 1 := by linarith
  have e2 : w2 = 1 := by linarith
  have e3 : p1 = ![p1 0] := by funext i; rw [Subsingleton.elim i 0]; rfl
  have e4 : p2 = ![-p1 0] := by funext i; rw [Subsingleton.elim i 0, hneg]; rfl
  rw [e1, e2, e4, ← e3]

/-- C96: the canonical stiffness quadratures have positive weights and enough points. -/
theorem C96_canonical_rules (gauss : Nat → Rule 1 ℝ) (h2 : IsGaussRule 2 (gauss 2).1 (gauss 2).2) (hl : (gauss 2).1.length = 2)
    (kind : Kind) (hk : kind ∈ [Kind.tri3, .quad4, .tet4, .hex8]) :
    ∃ rule, stiffnessRule gauss kind = some rule ∧ rule.1.length = rule.2.length ∧ (∀ w ∈ rule.1, 0 < w) ∧ Rich kind rule.2 := by
  simp only [List.mem_cons, List.not_mem_nil, or_false] at hk
  obtain ⟨x, hx, -, hg⟩ := gauss_pair h2 hl
  have hne : ∀ {d : Nat} {rule : Rule d ℝ} {v : ℝ}, rule.1.length = rule.2.length → |rule.1.sum - v| ≤ 1 / 10 ^ 36 → 1 ≤ v → rule.2 ≠ [] := by
    intro d rule v h1 h2 h3 h4
    rw [h4] at h1
    rw [List.length_eq_zero_iff.1 h1] at h2
    have := (abs_le.1 h2).1
    simp at this
    have : (1 : ℝ) ≤ (10 ^ 36)⁻¹ := by linarith
    norm_num at this
  rcases hk with rfl | rfl | rfl | rfl
  · obtain ⟨rule, h1, hr, -⟩ := (ShippedRules.C87_triangle 1).1 (by norm_num)
    obtain ⟨rule', h1', ha⟩ := ShippedRules.C87_triangle_area 1 (by norm_num)
    rw [h1] at h1'
    obtain rfl := Option.some.inj h1'
    exact ⟨rule, h1, hr.length, hr.positive, hne hr.length ha (by norm_num)⟩
  · refine ⟨quadrilateralGauss gauss 2, rfl, by simp [quadrilateralGauss, quadrilateral], ?_, x, -x, ?_, ?_⟩
    · simp [quadrilateralGauss, quadrilateral, hg]
    · intro h
      exact hx (by linarith)
    · simp [quadrilateralGauss, quadrilateral, hg]
  · obtain ⟨rule, h1, hr, -⟩ := (ShippedRules.C87_tetrahedron 1).1 (by norm_num)
    obtain ⟨rule', h1', ha⟩ := ShippedRules.C87_tetrahedron_volume 1 (by norm_num)
    rw [h1] at h1'
    obtain rfl := Option.some.inj h1'
    exact ⟨rule, h1, hr.length, hr.positive, hne hr.length ha (by norm_num)⟩
  · refine ⟨hexahedronGauss gauss 2, rfl, by simp [hexahedronGauss, hexahedron], ?_, x, -x, ?_, ?_⟩
    · simp [hexahedronGauss, hexahedron, hg]
    · intro h
      exact hx (by linarith)
    · simp [hexahedronGauss, hexahedron, hg]

/-- A Poisson problem on a mesh with one rule for all elements that has positive weights and determines the functions of regular elements. -/
theorem mesh_problem_of_rule (kind : Kind) (rule : Rule kind.dim ℝ) (hlen : rule.1.length = rule.2.length) (hpos : ∀ w ∈ rule.1, 0 < w)
    (hdet : ∀ xs : List (Point kind.dim ℝ), (∀ p ∈ rule.2, ((elementOfKind kind xs).jacobian p).det ≠ 0) →
      Determines (elementOfKind kind xs) ((rule.1.zip rule.2).map fun q => ((q.1, q.2, ()) : QPoint kind.dim ℝ Unit)))
    (mesh : Mesh (Point kind.dim ℝ))
    (hsize : ∀ c ∈ mesh.cells, c.length = kind.numNodes) (hb : ∀ c ∈ mesh.cells, ∀ v ∈ c, v < mesh.vertices.length)
    (hnd : ∀ c ∈ mesh.cells, c.Nodup)
    (hreg : ∀ space, meshSpace kind mesh = some space → ∀ en ∈ space, ∀ p ∈ rule.2, (en.1.jacobian p).det ≠ 0)
    (nodes : List Nat) (hn : ∀ n ∈ nodes, ∃ c ∈ mesh.cells, n ∈ c) (u : List ℝ) (hu : u.length = mesh.vertices.length) :
    ∃ space t, meshSpace kind mesh = some space ∧ Uniform.fromQuadratureAndData rule () = some t ∧
      Setting space mesh.vertices.length t.table (fun _ => (rule.1.zip rule.2).map fun q => (q.1, q.2, ())) u
        (laplace kind.dim ℝ) nodes ∧
      (Definite space mesh.vertices.length (fun _ => (rule.1.zip rule.2).map fun q => (q.1, q.2, ())) (laplace kind.dim ℝ) nodes ↔
        Anchored mesh.cells mesh.vertices.length nodes) := by
  have hsp := C89_mesh_space kind mesh hb
  have hpts : ((rule.1.zip rule.2).map fun q => ((q.1, q.2, ()) : QPoint kind.dim ℝ Unit)).map (fun q => q.2.1) = rule.2 := by
    rw [List.map_map]
    exact List.map_snd_zip (by omega)
  have hws : ((rule.1.zip rule.2).map fun q => ((q.1, q.2, ()) : QPoint kind.dim ℝ Unit)).map (fun q => q.1) = rule.1 := by
    rw [List.map_map]
    exact List.map_fst_zip (by omega)
  have hdisc : Discretisation (mesh.cells.map fun c => (elementOfKind kind (c.map (coords mesh.vertices)), c)) mesh.vertices.length
      (⟨rule.2, rule.1, List.replicate rule.1.length ()⟩ : Uniform (Point kind.dim ℝ) ℝ Unit).table
      (fun _ => (rule.1.zip rule.2).map fun q => (q.1, q.2, ())) u 1 := by
    refine ⟨?_, ?_, ?_, ?_, ?_, ?_⟩
    · intro en hen
      obtain ⟨c, -, rfl⟩ := List.mem_map.1 hen
      exact elementOfKind_wellFormed kind _
    · intro en hen
      obtain ⟨c, hc, rfl⟩ := List.mem_map.1 hen
      exact hsize c hc
    · intro en hen
      obtain ⟨c, hc, rfl⟩ := List.mem_map.1 hen
      exact hb c hc
    · rw [hu, Nat.one_mul]
    · intro e _ b
      rw [(C27_uniform_returns_the_rule rule.2 rule.1 (List.replicate rule.1.length ())).2 _ (by simp [Uniform.new, hlen]) e b]
      have e3 : ((rule.1.zip rule.2).map fun q => ((q.1, q.2, ()) : QPoint kind.dim ℝ Unit)).map (·.2.2) = List.replicate rule.1.length () := by
        rw [List.map_map]
        change (rule.1.zip rule.2).map (fun _ => ()) = _
        rw [List.map_const', List.length_zip, hlen, Nat.min_self]
      rw [hpts, hws, e3]
    · intro e en he q hq
      exact hreg _ hsp en (List.mem_of_getElem? he) _ (hpts ▸ List.mem_map_of_mem hq)
  have hcells : (mesh.cells.map fun c => (elementOfKind kind (c.map (coords mesh.vertices)), c)).map Prod.snd = mesh.cells := by
    rw [List.map_map]
    exact List.map_id' mesh.cells
  refine ⟨_, ⟨rule.2, rule.1, List.replicate rule.1.length ()⟩, hsp,
    by simp [Uniform.fromQuadratureAndData, Uniform.new, hlen], C96_poisson_setting _ _ _ _ _ hdisc ?_ ?_ _ ?_, ?_⟩
  · intro en hen
    obtain ⟨c, hc, rfl⟩ := List.mem_map.1 hen
    exact hnd c hc
  · intro e _ q hq
    exact hpos _ (hws ▸ List.mem_map_of_mem hq)
  · intro n hnn
    obtain ⟨c, hc, hnc⟩ := hn n hnn
    exact ⟨_, List.mem_map_of_mem hc, hnc⟩
  · refine (C96_poisson_definite _ _ _ _ u hdisc ?_ ?_ nodes).trans (by rw [hcells])
    · intro e en he
      have hen := List.mem_of_getElem? he
      have hreg' := hreg _ hsp en hen
      obtain ⟨c, hc, rfl⟩ := List.mem_map.1 hen
      exact hdet _ hreg'
    · intro en hen p m
      obtain ⟨c, hc, rfl⟩ := List.mem_map.1 hen
      exact gradients_sum_zero kind p m

/-- **C96.** The Poisson problem on a mesh with the canonical quadrature, for every mesh of triangles, quadrilaterals, tetrahedra or
hexahedra with regular elements: it is a linear problem with one solution exactly if from every vertex one can walk through the cells to a
vertex with a prescribed value. -/
theorem C96_mesh_problem (gauss : Nat → Rule 1 ℝ) (h2 : IsGaussRule 2 (gauss 2).1 (gauss 2).2) (hl : (gauss 2).1.length = 2)
    (kind : Kind) (hk : kind ∈ [Kind.tri3, .quad4, .tet4, .hex8]) (mesh : Mesh (Point kind.dim ℝ))
    (hsize : ∀ c ∈ mesh.cells, c.length = kind.numNodes) (hb : ∀ c ∈ mesh.cells, ∀ v ∈ c, v < mesh.vertices.length)
    (hnd : ∀ c ∈ mesh.cells, c.Nodup)
    (hreg : ∀ space rule, meshSpace kind mesh = some space → stiffnessRule gauss kind = some rule → ∀ en ∈ space, ∀ p ∈ rule.2,
      (en.1.jacobian p).det ≠ 0)
    (nodes : List Nat) (hn : ∀ n ∈ nodes, ∃ c ∈ mesh.cells, n ∈ c) (u : List ℝ) (hu : u.length = mesh.vertices.length) :
    ∃ space rule t, meshSpace kind mesh = some space ∧ stiffnessRule gauss kind = some rule ∧
      Uniform.fromQuadratureAndData rule () = some t ∧
      Setting space mesh.vertices.length t.table (fun _ => (rule.1.zip rule.2).map fun q => (q.1, q.2, ())) u
        (laplace kind.dim ℝ) nodes ∧
      (Definite space mesh.vertices.length (fun _ => (rule.1.zip rule.2).map fun q => (q.1, q.2, ())) (laplace kind.dim ℝ) nodes ↔
        Anchored mesh.cells mesh.vertices.length nodes) := by
  obtain ⟨rule, h1, hlen, hpos, hrich⟩ := C96_canonical_rules gauss h2 hl kind hk
  have hpts : ((rule.1.zip rule.2).map fun q => ((q.1, q.2, ()) : QPoint kind.dim ℝ Unit)).map (fun q => q.2.1) = rule.2 := by
    rw [List.map_map]
    exact List.map_snd_zip (by omega)
  obtain ⟨space, t, g1, g2, g3, g4⟩ := mesh_problem_of_rule kind rule hlen hpos (fun xs hxs =>
    C96_determines kind xs _ (by rw [hpts]; exact hrich) fun q hq => hxs _ (hpts ▸ List.mem_map_of_mem hq)) mesh hsize hb hnd
    (fun space hspace => hreg space rule hspace h1) nodes hn u hu
  exact ⟨space, rule, t, g1, h1, g2, g3, g4⟩

/-! ## Uniform meshes -/

theorem path_symm {cells : List (List Nat)} {a b : Nat} (h : Relation.ReflTransGen (Neighbours cells) a b) :
    Relation.ReflTransGen (Neighbours cells) b a := by
  induction h with
  | refl => exact .refl
  | tail _ hs ih =>
    obtain ⟨c, hc, ha, hb⟩ := hs
    exact .head ⟨c, hc, hb, ha⟩ ih

private theorem coords_of_get {d : Nat} {vs : List (Point d ℝ)} {i : Nat} {p : Point d ℝ} (h : vs[i]? = some p) : coords vs i = p := by
  rw [coords, List.getD_eq_getElem?_getD, h, Option.getD_some]

theorem grid_index {a b t : Nat} (h : t < a * b) : ∃ i j, i < a ∧ j < b ∧ t = a * j + i := by
  have ha : 0 < a := Nat.pos_of_ne_zero (fun h0 => by simp [h0] at h)
  exact ⟨t % a, t / a, Nat.mod_lt _ ha, Nat.div_lt_of_lt_mul h, (Nat.div_add_mod t a).symm⟩

private theorem quad_det (x y h : ℝ) (p : Point 2 ℝ) :
    ((elementOfKind .quad4 [![x, y - h], ![x + h, y - h], ![x + h, y], ![x, y]]).jacobian p).det = h ^ 2 / 4 := by
  have e : (elementOfKind .quad4 [![x, y - h], ![x + h, y - h], ![x + h, y], ![x, y]]).jacobian p = Matrix.diagonal fun _ => h / 2 := by
    ext r c
    simp only [elementOfKind, Matrix.of_apply, referenceJacobian, geometryGradients, quad4Gradients, Kind.geometry, Kind.numNodes, List.take,
      List.map, weightedSum, quad4PhiGrad]
    match r, c with
    | 0, 0 => simp [Matrix.diagonal]; ring
    | 0, 1 => simp [Matrix.diagonal]; ring
    | 1, 0 => simp [Matrix.diagonal]; ring
    | 1, 1 => simp [Matrix.diagonal]; ring
  rw [e, Matrix.det_diagonal, Finset.prod_const, Finset.card_univ, Fintype.card_fin]
  simp only [Kind.dim]
  ring

/-- **C96.** The Poisson problem on the uniform quadrilateral mesh of a rectangle, of every resolution, with the canonical quadrature: it has
one solution, and the solver finds it (`C96_solve`), as soon as the value of at least one vertex is prescribed. -/
theorem C96_quad_mesh (gauss : Nat → Rule 1 ℝ) (h2 : IsGaussRule 2 (gauss 2).1 (gauss 2).2) (hl : (gauss 2).1.length = 2)
    (L : ℝ) (hL : 0 < L) (ux uy n : Nat) (x0 y0 : ℝ) (hn : n ≠ 0) (hux : ux ≠ 0) (huy : uy ≠ 0)
    (mesh : Mesh (Point 2 ℝ)) (hmesh : mesh = quadMesh L ux uy n x0 y0)
    (nodes : List Nat) (hne : nodes ≠ []) (hin : ∀ v ∈ nodes, v < mesh.vertices.length) (u : List ℝ) (hu : u.length = mesh.vertices.length) :
    ∃ space rule t, meshSpace .quad4 mesh = some space ∧ stiffnessRule gauss .quad4 = some rule ∧
      Uniform.fromQuadratureAndData rule () = some t ∧
      Problem space mesh.vertices.length t.table (fun _ => (rule.1.zip rule.2).map fun q => (q.1, q.2, ())) u (laplace 2 ℝ) nodes := by
  subst hmesh
  obtain ⟨vid, -, hlen, hv, hinj, hsurj, hcells⟩ := C17_quad_mesh_is_the_grid L ux uy n x0 y0 hn hux huy
  have hx0 : 0 < ux * n := Nat.pos_of_ne_zero (Nat.mul_ne_zero hux hn)
  have hy0 : 0 < uy * n := Nat.pos_of_ne_zero (Nat.mul_ne_zero huy hn)
  have hcell : ∀ c ∈ (quadMesh L ux uy n x0 y0).cells, ∃ i j, i < ux * n ∧ j < uy * n ∧
      c = [vid i (j + 1), vid (i + 1) (j + 1), vid (i + 1) j, vid i j] := by
    intro c hc
    obtain ⟨t, ht⟩ := List.getElem?_of_mem hc
    have hlt := (List.getElem?_eq_some_iff.1 ht).1
    rw [hlen] at hlt
    obtain ⟨i, j, hi, hj, rfl⟩ := grid_index hlt
    rw [hcells i j hi hj] at ht
    exact ⟨i, j, hi, hj, (Option.some.inj ht).symm⟩
  have hmem : ∀ i j, i < ux * n → j < uy * n →
      [vid i (j + 1), vid (i + 1) (j + 1), vid (i + 1) j, vid i j] ∈ (quadMesh L ux uy n x0 y0).cells :=
    fun i j hi hj => List.mem_of_getElem? (hcells i j hi hj)
  have hlt : ∀ i j, i ≤ ux * n → j ≤ uy * n → vid i j < (quadMesh L ux uy n x0 y0).vertices.length :=
    fun i j hi hj => (List.getElem?_eq_some_iff.1 (hv i j hi hj)).1
  -- every vertex is a corner of a cell
  have hcorner : ∀ i j, i ≤ ux * n → j ≤ uy * n → ∃ c ∈ (quadMesh L ux uy n x0 y0).cells, vid i j ∈ c := by
    intro i j hi hj
    rcases Nat.lt_or_ge i (ux * n) with hi' | hi' <;> rcases Nat.lt_or_ge j (uy * n) with hj' | hj'
    · exact ⟨_, hmem i j hi' hj', by simp⟩
    · obtain ⟨j, rfl⟩ : ∃ k, j = k + 1 := ⟨j - 1, by omega⟩
      exact ⟨_, hmem i j hi' (by omega), by simp⟩
    · obtain ⟨i, rfl⟩ : ∃ k, i = k + 1 := ⟨i - 1, by omega⟩
      exact ⟨_, hmem i j (by omega) hj', by simp⟩
    · obtain ⟨i, rfl⟩ : ∃ k, i = k + 1 := ⟨i - 1, by omega⟩
      obtain ⟨j, rfl⟩ : ∃ k, j = k + 1 := ⟨j - 1, by omega⟩
      exact ⟨_, hmem i j (by omega) (by omega), by simp⟩
  -- all vertices are linked to the first one
  have hrow : ∀ i j, i < ux * n → j ≤ uy * n → Neighbours (quadMesh L ux uy n x0 y0).cells (vid (i + 1) j) (vid i j) := by
    intro i j hi hj
    rcases Nat.lt_or_ge j (uy * n) with hj' | hj'
    · exact ⟨_, hmem i j hi hj', by simp, by simp⟩
    · obtain ⟨j, rfl⟩ : ∃ k, j = k + 1 := ⟨j - 1, by omega⟩
      exact ⟨_, hmem i j hi (by omega), by simp, by simp⟩
  have hcol : ∀ j, j < uy * n → Neighbours (quadMesh L ux uy n x0 y0).cells (vid 0 (j + 1)) (vid 0 j) :=
    fun j hj => ⟨_, hmem 0 j hx0 hj, by simp, by simp⟩
  have hpath : ∀ i j, i ≤ ux * n → j ≤ uy * n → Relation.ReflTransGen (Neighbours (quadMesh L ux uy n x0 y0).cells) (vid i j) (vid 0 0) := by
    intro i j hi hj
    induction i with
    | zero =>
      induction j with
      | zero => exact .refl
      | succ j ih => exact .head (hcol j (by omega)) (ih (by omega))
    | succ i ih => exact .head (hrow i j (by omega) hj) (ih (by omega))
  obtain ⟨space, rule, t, h3, h4, h5, h6, h7⟩ := C96_mesh_problem gauss h2 hl .quad4 (by simp) (quadMesh L ux uy n x0 y0)
    (fun c hc => by obtain ⟨i, j, -, -, rfl⟩ := hcell c hc; rfl)
    (fun c hc v hvc => by
      obtain ⟨i, j, hi, hj, rfl⟩ := hcell c hc
      simp only [List.mem_cons, List.not_mem_nil, or_false] at hvc
      rcases hvc with rfl | rfl | rfl | rfl <;> exact hlt _ _ (by omega) (by omega))
    (fun c hc => by
      obtain ⟨i, j, hi, hj, rfl⟩ := hcell c hc
      have hd : ∀ a b a' b', a ≤ ux * n → a' ≤ ux * n → (a ≠ a' ∨ b ≠ b') → vid a b ≠ vid a' b' := fun a b a' b' ha ha' hor h =>
        hor.elim (fun h' => h' (hinj a b a' b' ha ha' h).1) fun h' => h' (hinj a b a' b' ha ha' h).2
      simp only [List.nodup_cons, List.mem_cons, List.not_mem_nil, or_false, not_or, not_false_eq_true, List.nodup_nil, and_true]
      refine ⟨⟨hd _ _ _ _ ?_ ?_ ?_, hd _ _ _ _ ?_ ?_ ?_, hd _ _ _ _ ?_ ?_ ?_⟩, ⟨hd _ _ _ _ ?_ ?_ ?_, hd _ _ _ _ ?_ ?_ ?_⟩,
        hd _ _ _ _ ?_ ?_ ?_⟩ <;> omega)
    (fun space rule hs _ en hen p _ => by
      rw [C89_mesh_space .quad4 _ (fun c hc v hvc => by
        obtain ⟨i, j, hi, hj, rfl⟩ := hcell c hc
        simp only [List.mem_cons, List.not_mem_nil, or_false] at hvc
        rcases hvc with rfl | rfl | rfl | rfl <;> exact hlt _ _ (by omega) (by omega))] at hs
      obtain rfl := Option.some.inj hs
      obtain ⟨c, hc, rfl⟩ := List.mem_map.1 hen
      obtain ⟨i, j, hi, hj, rfl⟩ := hcell c hc
      have e := quad_det (x0 + i * (L / n)) (y0 - j * (L / n)) (L / n) p
      have e1 : y0 - ((j + 1 : Nat) : ℝ) * (L / n) = y0 - j * (L / n) - L / n := by push_cast; ring
      have e2 : x0 + ((i + 1 : Nat) : ℝ) * (L / n) = x0 + i * (L / n) + L / n := by push_cast; ring
      simp only [List.map_cons, List.map_nil]
      rw [coords_of_get (hv i (j + 1) (by omega) (by omega)),
        coords_of_get (hv (i + 1) (j + 1) (by omega) (by omega)), coords_of_get (hv (i + 1) j (by omega) (by omega)),
        coords_of_get (hv i j (by omega) (by omega)), e1, e2]
      have : (0 : ℝ) < n := by exact_mod_cast Nat.pos_of_ne_zero hn
      rw [show ((elementOfKind .quad4 _).jacobian p).det = _ from e]
      positivity)
    nodes (fun v hvn => by
      obtain ⟨i, j, hi, hj, rfl⟩ := hsurj v (hin v hvn)
      exact hcorner i j hi hj) u hu
  refine ⟨space, rule, t, h3, h4, h5, { h6 with definite := h7.2 fun v hvl => ?_ }⟩
  obtain ⟨m, hm⟩ := List.exists_mem_of_ne_nil _ hne
  obtain ⟨i, j, hi, hj, rfl⟩ := hsurj v hvl
  obtain ⟨i', j', hi', hj', rfl⟩ := hsurj m (hin m hm)
  exact ⟨_, hm, (hpath i j hi hj).trans (path_symm (hpath i' j' hi' hj'))⟩

private theorem hex_det (x y z h : ℝ) (p : Point 3 ℝ) :
    ((elementOfKind .hex8 [![x, y, z], ![x + h, y, z], ![x + h, y + h, z], ![x, y + h, z], ![x, y, z + h], ![x + h, y, z + h],
      ![x + h, y + h, z + h], ![x, y + h, z + h]]).jacobian p).det = h ^ 3 / 8 := by
  have e : (elementOfKind .hex8 [![x, y, z], ![x + h, y, z], ![x + h, y + h, z], ![x, y + h, z], ![x, y, z + h], ![x + h, y, z + h],
      ![x + h, y + h, z + h], ![x, y + h, z + h]]).jacobian p = Matrix.diagonal fun _ => h / 2 := by
    ext r c
    simp only [elementOfKind, Matrix.of_apply, referenceJacobian, geometryGradients, hex8Gradients, Kind.numNodes, List.take,
      List.map, weightedSum, hex8PhiGrad, phiLinear1d, phiLinear1dGrad]
    match r, c with
    | 0, 0 => simp [Matrix.diagonal]; ring
    | 0, 1 => simp [Matrix.diagonal]; ring
    | 0, 2 => simp [Matrix.diagonal]; ring
    | 1, 0 => simp [Matrix.diagonal]; ring
    | 1, 1 => simp [Matrix.diagonal]; ring
    | 1, 2 => simp [Matrix.diagonal]; ring
    | 2, 0 => simp [Matrix.diagonal]; ring
    | 2, 1 => simp [Matrix.diagonal]; ring
    | 2, 2 => simp [Matrix.diagonal]; ring
  rw [e, Matrix.det_diagonal, Finset.prod_const, Finset.card_univ, Fintype.card_fin]
  simp only [Kind.dim]
  ring

theorem corner_of {n i : Nat} (hn : 0 < n) (hi : i ≤ n) : ∃ a, a < n ∧ (i = a ∨ i = a + 1) :=
  if h : i < n then ⟨i, h, .inl rfl⟩ else ⟨i - 1, by omega, .inr (by omega)⟩

set_option maxHeartbeats 1000000 in
/-- **C96.** The Poisson problem on the uniform hexahedral mesh of a box, of every resolution, with the canonical quadrature: it has one
solution, and the solver finds it (`C96_solve`), as soon as the value of at least one vertex is prescribed. -/
theorem C96_hex_mesh (gauss : Nat → Rule 1 ℝ) (h2 : IsGaussRule 2 (gauss 2).1 (gauss 2).2) (hl : (gauss 2).1.length = 2)
    (L : ℝ) (hL : 0 < L) (ux uy uz n : Nat) (hn : n ≠ 0) (hux : ux ≠ 0) (huy : uy ≠ 0) (huz : uz ≠ 0)
    (mesh : Mesh (Point 3 ℝ)) (hmesh : mesh = hexMesh L ux uy uz n)
    (nodes : List Nat) (hne : nodes ≠ []) (hin : ∀ v ∈ nodes, v < mesh.vertices.length) (u : List ℝ) (hu : u.length = mesh.vertices.length) :
    ∃ space rule t, meshSpace .hex8 mesh = some space ∧ stiffnessRule gauss .hex8 = some rule ∧
      Uniform.fromQuadratureAndData rule () = some t ∧
      Problem space mesh.vertices.length t.table (fun _ => (rule.1.zip rule.2).map fun q => (q.1, q.2, ())) u (laplace 3 ℝ) nodes := by
  subst hmesh
  obtain ⟨vid, -, hlen, hv, hinj, hsurj, hcells⟩ := C18_hex_mesh_is_the_grid L ux uy uz n hn hux huy
  have hx0 : 0 < ux * n := Nat.pos_of_ne_zero (Nat.mul_ne_zero hux hn)
  have hy0 : 0 < uy * n := Nat.pos_of_ne_zero (Nat.mul_ne_zero huy hn)
  have hz0 : 0 < uz * n := Nat.pos_of_ne_zero (Nat.mul_ne_zero huz hn)
  have hcell : ∀ c ∈ (hexMesh L ux uy uz n).cells, ∃ i j k, i < ux * n ∧ j < uy * n ∧ k < uz * n ∧
      c = [vid i j k, vid (i + 1) j k, vid (i + 1) (j + 1) k, vid i (j + 1) k, vid i j (k + 1), vid (i + 1) j (k + 1),
      vid (i + 1) (j + 1) (k + 1), vid i (j + 1) (k + 1)] := by
    intro c hc
    obtain ⟨t, ht⟩ := List.getElem?_of_mem hc
    have hlt := (List.getElem?_eq_some_iff.1 ht).1
    rw [hlen] at hlt
    obtain ⟨q, k, hq, hk, rfl⟩ := grid_index hlt
    obtain ⟨i, j, hi, hj, rfl⟩ := grid_index hq
    rw [hcells i j k hi hj hk] at ht
    exact ⟨i, j, k, hi, hj, hk, (Option.some.inj ht).symm⟩
  have hlt : ∀ i j k, i ≤ ux * n → j ≤ uy * n → k ≤ uz * n → vid i j k < (hexMesh L ux uy uz n).vertices.length :=
    fun i j k hi hj hk => (List.getElem?_eq_some_iff.1 (hv i j k hi hj hk)).1
  have hbound : ∀ c ∈ (hexMesh L ux uy uz n).cells, ∀ v ∈ c, v < (hexMesh L ux uy uz n).vertices.length := by
    intro c hc v hvc
    obtain ⟨i, j, k, hi, hj, hk, rfl⟩ := hcell c hc
    simp only [List.mem_cons, List.not_mem_nil, or_false] at hvc
    rcases hvc with rfl | rfl | rfl | rfl | rfl | rfl | rfl | rfl <;> exact hlt _ _ _ (by omega) (by omega) (by omega)
  -- all corners of a cell
  have hall : ∀ a b c, a < ux * n → b < uy * n → c < uz * n → ∃ cell ∈ (hexMesh L ux uy uz n).cells,
      ∀ i j k, (i = a ∨ i = a + 1) → (j = b ∨ j = b + 1) → (k = c ∨ k = c + 1) → vid i j k ∈ cell := by
    intro a b c ha hb hc
    refine ⟨_, List.mem_of_getElem? (hcells a b c ha hb hc), ?_⟩
    rintro i j k (rfl | rfl) (rfl | rfl) (rfl | rfl) <;> simp
  -- all vertices are linked to the first one
  have hpath : ∀ i j k, i ≤ ux * n → j ≤ uy * n → k ≤ uz * n →
      Relation.ReflTransGen (Neighbours (hexMesh L ux uy uz n).cells) (vid i j k) (vid 0 0 0) := by
    intro i j k hi hj hk
    induction i with
    | zero =>
      induction j with
      | zero =>
        induction k with
        | zero => exact .refl
        | succ k ih =>
          obtain ⟨cell, hc, hm⟩ := hall 0 0 k hx0 hy0 (by omega)
          exact .head ⟨cell, hc, hm 0 0 (k + 1) (.inl rfl) (.inl rfl) (.inr rfl), hm 0 0 k (.inl rfl) (.inl rfl) (.inl rfl)⟩ (ih (by omega))
      | succ j ih =>
        obtain ⟨c, hc', hkc⟩ := corner_of hz0 hk
        obtain ⟨cell, hc, hm⟩ := hall 0 j c hx0 (by omega) hc'
        exact .head ⟨cell, hc, hm 0 (j + 1) k (.inl rfl) (.inr rfl) hkc, hm 0 j k (.inl rfl) (.inl rfl) hkc⟩ (ih (by omega))
    | succ i ih =>
      obtain ⟨c, hc', hkc⟩ := corner_of hz0 hk
      obtain ⟨b, hb', hjb⟩ := corner_of hy0 hj
      obtain ⟨cell, hc, hm⟩ := hall i b c (by omega) hb' hc'
      exact .head ⟨cell, hc, hm (i + 1) j k (.inr rfl) hjb hkc, hm i j k (.inl rfl) hjb hkc⟩ (ih (by omega))
  obtain ⟨space, rule, t, h3, h4, h5, h6, h7⟩ := C96_mesh_problem gauss h2 hl .hex8 (by simp) (hexMesh L ux uy uz n)
    (fun c hc => by obtain ⟨i, j, k, -, -, -, rfl⟩ := hcell c hc; rfl) hbound
    (fun c hc => by
      obtain ⟨i, j, k, hi, hj, hk, rfl⟩ := hcell c hc
      have hd : ∀ a b c a' b' c', a ≤ ux * n → a' ≤ ux * n → b ≤ uy * n → b' ≤ uy * n → (a ≠ a' ∨ b ≠ b' ∨ c ≠ c') →
          vid a b c ≠ vid a' b' c' := fun a b c a' b' c' ha ha' hb hb' hor h => by
        obtain ⟨h1, h2, h3⟩ := hinj a b c a' b' c' ha ha' hb hb' h
        omega
      simp only [List.nodup_cons, List.mem_cons, List.not_mem_nil, or_false, not_or, not_false_eq_true, List.nodup_nil, and_true]
      refine ⟨⟨?_, ?_, ?_, ?_, ?_, ?_, ?_⟩, ⟨?_, ?_, ?_, ?_, ?_, ?_⟩, ⟨?_, ?_, ?_, ?_, ?_⟩, ⟨?_, ?_, ?_, ?_⟩, ⟨?_, ?_, ?_⟩, ⟨?_, ?_⟩, ?_⟩ <;>
        exact hd _ _ _ _ _ _ (by omega) (by omega) (by omega) (by omega) (by omega))
    (fun space rule hs _ en hen p _ => by
      rw [C89_mesh_space .hex8 _ hbound] at hs
      obtain rfl := Option.some.inj hs
      obtain ⟨c, hc, rfl⟩ := List.mem_map.1 hen
      obtain ⟨i, j, k, hi, hj, hk, rfl⟩ := hcell c hc
      have e := hex_det (i * (L / n)) (j * (L / n)) (k * (L / n)) (L / n) p
      have e1 : ∀ m : Nat, ((m + 1 : Nat) : ℝ) * (L / n) = m * (L / n) + L / n := fun m => by push_cast; ring
      simp only [List.map_cons, List.map_nil]
      rw [coords_of_get (hv i j k (by omega) (by omega) (by omega)), coords_of_get (hv (i + 1) j k (by omega) (by omega) (by omega)),
        coords_of_get (hv (i + 1) (j + 1) k (by omega) (by omega) (by omega)), coords_of_get (hv i (j + 1) k (by omega) (by omega) (by omega)),
        coords_of_get (hv i j (k + 1) (by omega) (by omega) (by omega)), coords_of_get (hv (i + 1) j (k + 1) (by omega) (by omega) (by omega)),
        coords_of_get (hv (i + 1) (j + 1) (k + 1) (by omega) (by omega) (by omega)),
        coords_of_get (hv i (j + 1) (k + 1) (by omega) (by omega) (by omega))]
      simp only [e1]
      have : (0 : ℝ) < n := by exact_mod_cast Nat.pos_of_ne_zero hn
      rw [show ((elementOfKind .hex8 _).jacobian p).det = _ from e]
      positivity)
    nodes (fun v hvn => by
      obtain ⟨i, j, k, hi, hj, hk, rfl⟩ := hsurj v (hin v hvn)
      obtain ⟨a, ha, hia⟩ := corner_of hx0 hi
      obtain ⟨b, hb, hjb⟩ := corner_of hy0 hj
      obtain ⟨c, hc, hkc⟩ := corner_of hz0 hk
      obtain ⟨cell, hcell', hm⟩ := hall a b c ha hb hc
      exact ⟨cell, hcell', hm i j k hia hjb hkc⟩) u hu
  refine ⟨space, rule, t, h3, h4, h5, { h6 with definite := h7.2 fun v hvl => ?_ }⟩
  obtain ⟨m, hm⟩ := List.exists_mem_of_ne_nil _ hne
  obtain ⟨i, j, k, hi, hj, hk, rfl⟩ := hsurj v hvl
  obtain ⟨i', j', k', hi', hj', hk', rfl⟩ := hsurj m (hin m hm)
  exact ⟨_, hm, (hpath i j k hi hj hk).trans (path_symm (hpath i' j' k' hi' hj' hk'))⟩

/-! ## Examples -/

-- The Gauss rule with two points meets the hypotheses.
example : IsGaussRule 2 (gaussExample 2).1 (gaussExample 2).2 ∧ (gaussExample 2).1.length = 2 := ⟨gaussExample_two, rfl⟩

-- Three of the nine vertices of the 2 × 2 mesh of the unit square prescribed: a linear problem.
example : ∃ space rule t, meshSpace .quad4 (unitSquareQuadMesh (K := ℝ) 2) = some space ∧
    stiffnessRule gaussExample .quad4 = some rule ∧ Uniform.fromQuadratureAndData rule () = some t ∧
    Problem space 9 t.table (fun _ => (rule.1.zip rule.2).map fun q => (q.1, q.2, ())) (List.replicate 9 0) (laplace 2 ℝ) [0, 1, 2] := by
  obtain ⟨-, hlen, -⟩ := C17_quad_mesh_is_the_grid (1 : ℝ) 1 1 2 0 1 (by decide) (by decide) (by decide)
  have h9 : (unitSquareQuadMesh (K := ℝ) 2).vertices.length = 9 := hlen
  have := C96_quad_mesh gaussExample gaussExample_two rfl 1 one_pos 1 1 2 0 1 (by decide) (by decide) (by decide)
    (unitSquareQuadMesh (K := ℝ) 2) rfl [0, 1, 2] (by simp) (by rw [h9]; decide) (List.replicate 9 0) (by rw [h9]; rfl)
  rw [h9] at this
  exact this

-- Two triangles without a common vertex: prescribing values in one of them is not enough.
example : ¬ Anchored [[0, 1, 2], [3, 4, 5]] 6 [0, 1] := by
  intro h
  obtain ⟨m, hm, hp⟩ := h 3 (by decide)
  have : ∀ a, Relation.ReflTransGen (Neighbours [[0, 1, 2], [3, 4, 5]]) 3 a → 3 ≤ a := by
    intro a ha
    induction ha with
    | refl => exact le_refl _
    | tail _ hs ih =>
      obtain ⟨c, hc, h1, h2⟩ := hs
      simp only [List.mem_cons, List.not_mem_nil, or_false] at hc
      rcases hc with rfl | rfl <;> simp only [List.mem_cons, List.not_mem_nil, or_false] at h1 h2 <;> omega
  have := this m hp
  simp only [List.mem_cons, List.not_mem_nil, or_false] at hm
  omega
example : Anchored [[0, 1, 2], [2, 3, 4]] 5 [0] := by
  have h2 : ∀ a ∈ [0, 1, 2], Relation.ReflTransGen (Neighbours [[0, 1, 2], [2, 3, 4]]) a 0 :=
    fun a ha => .single ⟨[0, 1, 2], by simp, ha, by simp⟩
  intro n hn
  refine ⟨0, by simp, ?_⟩
  by_cases h : n ≤ 2
  · exact h2 n (by simp; omega)
  · exact .head ⟨[2, 3, 4], by simp, by simp; omega, by simp⟩ (h2 2 (by simp))

end Fenris.LinearProblem
