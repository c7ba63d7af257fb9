import Verif.Props.DirichletPrinciple
import Verif.Props.MeshUtil
import Verif.Spec.MaximumPrinciple
/-! # C104: the discrete maximum principle -/
set_option autoImplicit false
set_option linter.unusedSectionVars false

namespace Fenris.MaximumPrinciple
open Fenris.Element Fenris.Local Fenris.Local.Spec Fenris.PatchTest Fenris.PatchTest.Spec Fenris.LinearProblem Fenris.LinearProblem.Spec
open Fenris.MaximumPrinciple.Spec
open Fenris.Canonical Fenris.Canonical.Spec Quadrature
open Fenris.Spec (matrixContribution entry SortsNodes Constrained)

section General
variable {K : Type} [Field K] [LinearOrder K] [IsStrictOrderedRing K] {d : Nat}
  {space : Space d K} {N : Nat} {table : Table (Point d K) K Unit} {rules : Nat → List (QPoint d K Unit)} {u : List K} {nodes : List Nat}

attribute [local instance] zeroFill

/-- The maximum principle for a matrix whose rows sum to zero and whose entries off the diagonal are not positive. -/
private theorem m_matrix {n : Nat} (A : Matrix (Fin n) (Fin n) K) (P : Fin n → Prop)
    (hdef : ∀ y : Fin n → K, (∀ i, P i → y i = 0) → ∑ i, ∑ j, y i * A i j * y j ≤ 0 → y = 0) (hoff : ∀ i j, i ≠ j → A i j ≤ 0)
    (hrow : ∀ i, ∑ j, A i j = 0) (x : Fin n → K) (M : K) (hx : ∀ i, P i → x i ≤ M) (hax : ∀ i, ¬ P i → ∑ j, A i j * x j ≤ 0) (i : Fin n) :
    x i ≤ M := by
  have hy0 : ∀ i, 0 ≤ max (x i - M) 0 := fun i => le_max_right _ _
  have h1 : ∑ i, max (x i - M) 0 * ∑ j, A i j * x j ≤ 0 := by
    refine Finset.sum_nonpos fun i _ => ?_
    by_cases hi : P i
    · rw [max_eq_right (by linarith [hx i hi]), zero_mul]
    · exact mul_nonpos_of_nonneg_of_nonpos (hy0 i) (hax i hi)
  have h2 : ∑ i, max (x i - M) 0 * ∑ j, A i j * x j = ∑ i, ∑ j, max (x i - M) 0 * A i j * (x j - M) := by
    refine Finset.sum_congr rfl fun i _ => ?_
    have : ∑ j, max (x i - M) 0 * A i j * (x j - M) = max (x i - M) 0 * (∑ j, A i j * x j) - max (x i - M) 0 * M * ∑ j, A i j := by
      rw [Finset.mul_sum, Finset.mul_sum, ← Finset.sum_sub_distrib]
      exact Finset.sum_congr rfl fun j _ => by ring
    rw [this, hrow, mul_zero, sub_zero]
  have h3 : ∑ i, ∑ j, max (x i - M) 0 * A i j * max (x j - M) 0 ≤ ∑ i, ∑ j, max (x i - M) 0 * A i j * (x j - M) := by
    refine Finset.sum_le_sum fun i _ => Finset.sum_le_sum fun j _ => ?_
    by_cases hij : i = j
    · subst hij
      rcases le_total (x i - M) 0 with h | h
      · rw [max_eq_right h]; simp
      · rw [max_eq_left h]
    · exact mul_le_mul_of_nonpos_left (le_max_left _ _) (mul_nonpos_of_nonneg_of_nonpos (hy0 i) (hoff i j hij))
  have h4 := congrFun (hdef (fun i => max (x i - M) 0) (fun i hi => max_eq_right (by linarith [hx i hi])) (by linarith)) i
  have h5 : max (x i - M) 0 = 0 := h4
  have := le_max_left (x i - M) 0
  linarith

private theorem energy_zero (h : Setting space N table rules u (laplace d K) nodes) (v : List K) {e : Nat} {en : VolElement d K × List Nat}
    (he : space[e]? = some en) (h0 : (quadSum en.1 (rules e) fun p param =>
      density (laplace d K) param (gradU 1 (en.1.jacobian p) (en.1.gradients p) (localPart 1 v en.2))) = 0) :
    ∀ q ∈ rules e, density (laplace d K) q.2.2 (gradU 1 (en.1.jacobian q.2.1) (en.1.gradients q.2.1) (localPart 1 v en.2)) = 0 := by
  intro q hq
  have hlt := (List.getElem?_eq_some_iff.1 he).1
  have h00 := List.all_zero_of_le_zero_le_of_sum_eq_zero (l := (rules e).map fun q : QPoint d K Unit => q.1 * |(en.1.jacobian q.2.1).det| *
    density (laplace d K) q.2.2 (gradU 1 (en.1.jacobian q.2.1) (en.1.gradients q.2.1) (localPart 1 v en.2)))
    (fun x hx => by
      obtain ⟨q, hq, rfl⟩ := List.mem_map.1 hx
      exact mul_nonneg (mul_nonneg (h.weights e hlt q hq).le (abs_nonneg _)) (h.nonneg e hlt q hq _)) h0
    (List.mem_map.2 ⟨q, hq, rfl⟩)
  exact (mul_eq_zero.1 h00).resolve_left (mul_pos (h.weights e hlt q hq) (abs_pos.2 (h.disc.regular e en he q hq))).ne'

/-- The inner product of the gradients of two basis functions, integrated over the element. -/
private noncomputable def stiff (space : Space d K) (rules : Nat → List (QPoint d K Unit)) (e : Nat) : Mat K := fun I J =>
  match space[e]? with
  | some en => quadSum en.1 (rules e) fun p _ => ∑ k, physGrad (en.1.jacobian p) ((en.1.gradients p)[I]?.getD 0) k *
      physGrad (en.1.jacobian p) ((en.1.gradients p)[J]?.getD 0) k
  | none => 0

/-- The entries of the assembled matrix. -/
private theorem entries (h : Setting space N table rules u (laplace d K) nodes)
    (ord : List Nat → List Nat) (hord : ∀ l, (ord l).Perm l)
    (sortNodes : List (Nat × Nat) → List (Nat × Nat)) (hsort : SortsNodes sortNodes)
    (bufs : Nat → Buffer (Point d K) K Unit) (outs : Nat → Mat K) (elemMat : Nat → Except String (Mat K))
    (hem : ∀ e, e < space.length → ∃ buf', elementMatrix space (laplace d K) table u (bufs e) (outs e) e = some (elemMat e, buf')) :
    ∃ m, Assembly.assemble ord sortNodes (conn 1 space N) elemMat = some (.ok m) ∧
      ∀ r c, entry m r c = ∑ e : Fin space.length, matrixContribution 1 (space[e]).2 (stiff space rules e) r c :=
  C69_global_matrix space N table rules u h.dim h.disc h.nodup (laplace d K) h.law ord hord sortNodes hsort bufs
    outs elemMat hem (stiff space rules) (by
      intro e el nds he I J i j hI hJ
      have hi : (i : Nat) = 0 := by omega
      have hj : (j : Nat) = 0 := by omega
      simp only [hi, hj, Nat.one_mul, Nat.add_zero, stiff, he, laplace, Matrix.of_apply])

/-- **C104.** The discrete maximum principle: let the gradients of any two different basis functions of an element have an inner product whose
quadrature is not positive. If the residual of `x` is not positive (not negative) at the nodes without a prescribed value, then each bound
from above (from below) for the values of `x` at the nodes with a prescribed value is one for all values of `x`. -/
theorem C104_maximum_principle (h : Problem space N table rules u (laplace d K) nodes)
    (hacute : Acute space rules)
    (ord : List Nat → List Nat) (hord : ∀ l, (ord l).Perm l)
    (sortNodes : List (Nat × Nat) → List (Nat × Nat)) (hsort : SortsNodes sortNodes)
    (bufs : Nat → Buffer (Point d K) K Unit) (outs : Nat → Mat K) (elemMat : Nat → Except String (Mat K))
    (hem : ∀ e, e < space.length → ∃ buf', elementMatrix space (laplace d K) table u (bufs e) (outs e) e = some (elemMat e, buf')) :
    ∃ m, Assembly.assemble ord sortNodes (conn 1 space N) elemMat = some (.ok m) ∧ ∀ (x : Nat → K) (M : K),
      ((∀ r, r < N → r ∉ nodes → ∑ c ∈ Finset.range N, entry m r c * x c ≤ 0) → (∀ n ∈ nodes, x n ≤ M) → ∀ n, n < N → x n ≤ M) ∧
      ((∀ r, r < N → r ∉ nodes → 0 ≤ ∑ c ∈ Finset.range N, entry m r c * x c) → (∀ n ∈ nodes, M ≤ x n) → ∀ n, n < N → M ≤ x n) := by
  obtain ⟨m, h1, -, -, -, -, -, -, h8⟩ := assembled h.toSetting ord hord sortNodes hsort bufs outs elemMat hem
  obtain ⟨m', h1', hentry⟩ := entries h.toSetting ord hord sortNodes hsort bufs outs elemMat hem
  obtain rfl : m = m' := by
    have := h1.symm.trans h1'
    simpa using this
  simp only [Nat.one_mul] at h8
  have hcon : ∀ r, Constrained 1 nodes r ↔ r ∈ nodes := by
    intro r
    constructor
    · rintro ⟨n, hn, i, hi, rfl⟩
      obtain rfl : i = 0 := by omega
      simpa using hn
    · intro hr
      exact ⟨r, hr, 0, by omega, by simp⟩
  have hoff : ∀ r c, r ≠ c → entry m r c ≤ 0 := by
    intro r c hrc
    rw [hentry]
    refine Finset.sum_nonpos fun e _ => Finset.sum_nonpos fun a _ => Finset.sum_nonpos fun i _ => Finset.sum_nonpos fun b _ =>
      Finset.sum_nonpos fun j _ => ?_
    split_ifs with hab
    · have hi : (i : Nat) = 0 := by omega
      have hj : (j : Nat) = 0 := by omega
      have hne : (a : Nat) ≠ b := by
        intro hab'
        have : a = b := Fin.ext hab'
        subst this
        omega
      have hen : space[(e : Nat)]? = some (space[e]) := List.getElem?_eq_getElem e.2
      have := hacute.angle e _ hen a b a.2 b.2 hne
      simp only [hi, hj, Nat.one_mul, Nat.add_zero, stiff, hen]
      exact this
    · exact le_refl _
  have hlocal : ∀ (e : Fin space.length) (I : Nat), ∑ J : Fin (space[e]).2.length, stiff space rules e I J = 0 := by
    intro e I
    have hen : space[(e : Nat)]? = some (space[e]) := List.getElem?_eq_getElem e.2
    have hmem : space[e] ∈ space := List.getElem_mem e.2
    simp only [stiff, hen]
    rw [quadSum_finsetSum]
    have hz : ∀ (p : Point d K) (param : Unit), ∑ J : Fin (space[e]).2.length, ∑ k, physGrad ((space[e]).1.jacobian p)
        ((((space[e]).1.gradients p))[I]?.getD 0) k * physGrad ((space[e]).1.jacobian p) ((((space[e]).1.gradients p))[(J : Nat)]?.getD 0) k = 0 := by
      intro p _
      rw [Finset.sum_comm]
      refine Finset.sum_eq_zero fun k _ => ?_
      rw [← Finset.mul_sum]
      have hsum : ∑ J : Fin (space[e]).2.length, physGrad ((space[e]).1.jacobian p) ((((space[e]).1.gradients p))[(J : Nat)]?.getD 0) k = 0 := by
        unfold physGrad
        rw [Finset.sum_comm]
        refine Finset.sum_eq_zero fun m _ => ?_
        rw [← Finset.mul_sum]
        have hlen : (space[e]).2.length = ((space[e]).1.gradients p).length := by
          rw [h.disc.nodeCount _ hmem, (h.disc.wellFormed _ hmem p).2]
        have h0 := hacute.sumZero _ hmem p m
        have : ∑ J : Fin (space[e]).2.length, (((space[e]).1.gradients p)[(J : Nat)]?.getD 0) m =
            ∑ I : Fin ((space[e]).1.gradients p).length, ((space[e]).1.gradients p)[I] m := by
          rw [← Fin.sum_congr' _ hlen]
          refine Finset.sum_congr rfl fun J _ => ?_
          have hJ : (J : Nat) < ((space[e]).1.gradients p).length := by
            have := J.2
            omega
          rw [List.getElem?_eq_getElem hJ]
          simp
        rw [this, h0, mul_zero]
      rw [hsum, mul_zero]
    refine (quadSum_congr _ _ _ (fun _ _ => 0) hz).trans ?_
    simp [quadSum]
  have hrow : ∀ r, r < N → ∑ c ∈ Finset.range N, entry m r c = 0 := by
    intro r hr
    simp only [hentry]
    rw [Finset.sum_comm]
    refine Finset.sum_eq_zero fun e _ => ?_
    have hmem : space[e] ∈ space := List.getElem_mem e.2
    have hf := contribution_form (s := 1) (space[e]).2 (h.disc.inBounds _ hmem) (stiff space rules e) (fun r' => if r' = r then (1 : K) else 0)
      (fun _ => 1)
    rw [Nat.one_mul] at hf
    have hl : ∑ r' ∈ Finset.range N, ∑ c ∈ Finset.range N, (if r' = r then (1 : K) else 0) *
        matrixContribution 1 (space[e]).2 (stiff space rules e) r' c * 1 =
        ∑ c ∈ Finset.range N, matrixContribution 1 (space[e]).2 (stiff space rules e) r c := by
      rw [Finset.sum_eq_single r (fun b _ hb => by simp [hb]) (fun hb => absurd (Finset.mem_range.2 hr) hb)]
      simp
    rw [← hl, hf]
    refine Finset.sum_eq_zero fun I _ => Finset.sum_eq_zero fun i _ => ?_
    have := hlocal e (1 * I + i)
    simp only [mul_one, Fin.sum_univ_one, Fin.val_zero, Nat.add_zero, Nat.one_mul] at this ⊢
    rw [← Finset.mul_sum, this, mul_zero]
  have hmax : ∀ (x : Nat → K) (M : K), (∀ r, r < N → r ∉ nodes → ∑ c ∈ Finset.range N, entry m r c * x c ≤ 0) → (∀ n ∈ nodes, x n ≤ M) →
      ∀ n, n < N → x n ≤ M := by
    intro x M hres hbd n hn
    refine m_matrix (Matrix.of fun i j : Fin N => entry m i j) (fun i => (i : Nat) ∈ nodes) ?_ ?_ ?_ (fun i => x i) M (fun i hi => hbd i hi)
      ?_ ⟨n, hn⟩
    · intro y hy hE
      set v := List.ofFn y with hv
      have hget : ∀ i : Fin N, v.getD i 0 = y i := by intro i; simp [hv]
      have hform := h8 v
      have hsum : ∑ r ∈ Finset.range N, ∑ c ∈ Finset.range N, v.getD r 0 * entry m r c * v.getD c 0 = ∑ i : Fin N, ∑ j : Fin N,
          y i * entry m i j * y j := by
        rw [Finset.sum_range]
        refine Finset.sum_congr rfl fun i _ => ?_
        rw [Finset.sum_range]
        refine Finset.sum_congr rfl fun j _ => ?_
        rw [hget, hget]
      have hnn := energy_nonneg h.toSetting v
      have hz : ∑ e : Fin space.length, quadSum (space[e]).1 (rules e) (fun p param => density (laplace d K) param
          (gradU 1 ((space[e]).1.jacobian p) ((space[e]).1.gradients p) (localPart 1 v (space[e]).2))) = 0 := by
        refine le_antisymm ?_ (Finset.sum_nonneg fun e _ => hnn e)
        rw [← hform, hsum]
        exact hE
      have hdef := h.definite v (by simp [hv]) (by
        intro r hr
        have hr' := (hcon r).1 hr
        by_cases hrN : r < N
        · exact (hget ⟨r, hrN⟩).trans (hy ⟨r, hrN⟩ hr')
        · simp [hv, hrN]) (by
        intro e en hen
        obtain ⟨he, rfl⟩ := List.getElem?_eq_some_iff.1 hen
        exact energy_zero h.toSetting _ hen
          ((Finset.sum_eq_zero_iff_of_nonneg fun e (_ : e ∈ Finset.univ) => hnn e).1 hz ⟨e, he⟩ (Finset.mem_univ _)))
      funext i
      rw [← hget]
      exact hdef i
    · intro i j hij
      exact hoff _ _ fun hc => hij (Fin.ext hc)
    · intro i
      have := hrow i i.2
      rw [Finset.sum_range] at this
      exact this
    · intro i hi
      have := hres i i.2 hi
      rw [Finset.sum_range] at this
      exact this
  refine ⟨m, h1, fun x M => ⟨hmax x M, fun hres hbd n hn => ?_⟩⟩
  have := hmax (fun c => -x c) (-M) (fun r hr hrn => by
    have := hres r hr hrn
    simp only [mul_neg, Finset.sum_neg_distrib]
    linarith) (fun n hn => neg_le_neg (hbd n hn)) n hn
  exact neg_le_neg_iff.1 this

/-- **C104.** So the solution with prescribed values, which the solver finds, obeys the maximum principle: without a load its values lie
between the smallest and the largest of the prescribed values. -/
theorem C104_solution_bounds {E : Type} (h : Problem space N table rules u (laplace d K) nodes) (hacute : Acute space rules)
    (ord : List Nat → List Nat) (hord : ∀ l, (ord l).Perm l)
    (sortNodes : List (Nat × Nat) → List (Nat × Nat)) (hsort : SortsNodes sortNodes)
    (bufs : Nat → Buffer (Point d K) K Unit) (outs : Nat → Mat K) (elemMat : Nat → Except String (Mat K))
    (hem : ∀ e, e < space.length → ∃ buf', elementMatrix space (laplace d K) table u (bufs e) (outs e) e = some (elemMat e, buf'))
    (b g : List K) (hb : b.length = N) (hg : g.length = N) :
    ∃ m m' rhs' x, Assembly.assemble ord sortNodes (conn 1 space N) elemMat = some (.ok m) ∧ Assembly.dirichletCsr m nodes 1 = some m' ∧
      Assembly.dirichletRhs ((List.range N).map fun r => b.getD r 0 - ∑ c ∈ Finset.range N, entry m r c * g.getD c 0) nodes 1 = some rhs' ∧
      x.length = N ∧
      (∀ y : List K, y.length = N → (((∀ n, n < N → n ∈ nodes → y.getD n 0 = g.getD n 0) ∧
        ∀ r, r < N → r ∉ nodes → ∑ c ∈ Finset.range N, entry m r c * y.getD c 0 = b.getD r 0) ↔ y = x)) ∧
      (∀ (norm : List K → K), (∀ v, 0 ≤ norm v) → (∀ v, norm v = 0 ↔ ∀ a ∈ v, a = 0) →
        ∀ (w : CgBuffers.Workspace K) (guess : List K), guess.length = N →
          ∃ δ k, (CgBuffers.solveWithGuess (E := E) ⟨CgBuffers.csrOperator 0 1 (fullRows N m'), CgBuffers.identityOperator,
              CgBuffers.relativeResidual norm 0, none, norm⟩ (N + 1) w rhs' guess).map Prod.fst = .done ⟨δ, k, .ok ()⟩ ∧
            List.zipWith (· + ·) g δ = x) ∧
      ObeysMaximumPrinciple N nodes (fun r => b.getD r 0) (fun r => g.getD r 0) (fun r => x.getD r 0) := by
  obtain ⟨m, h1, hp⟩ := C104_maximum_principle h hacute ord hord sortNodes hsort bufs outs elemMat hem
  obtain ⟨m₁, m', rhs', x, h1', h2, h3, h4, h5, h6⟩ := C97_prescribed_values (E := E) h ord hord sortNodes hsort bufs outs elemMat hem b g
    (by rw [hb, Nat.one_mul]) (by rw [hg, Nat.one_mul])
  obtain rfl : m = m₁ := by
    have := h1.symm.trans h1'
    simpa using this
  have hcon : ∀ r, Constrained 1 nodes r ↔ r ∈ nodes := by
    intro r
    constructor
    · rintro ⟨n, hn, i, hi, rfl⟩
      obtain rfl : i = 0 := by omega
      simpa using hn
    · intro hr
      exact ⟨r, hr, 0, by omega, by simp⟩
  simp only [Nat.one_mul, hcon] at h3 h4 h5 h6
  have hlt : ∀ n ∈ nodes, n < N := by
    intro n hn
    obtain ⟨en, hen, hne⟩ := h.constrained n hn
    exact h.disc.inBounds en hen n hne
  obtain ⟨k1, k2⟩ := (h5 x h4).2 rfl
  refine ⟨m, m', rhs', x, h1, h2, h3, h4, h5, h6, ?_, ?_⟩
  · intro hload M hM
    refine (hp (fun r => x.getD r 0) M).1 (fun r hr hrn => (k2 r hr hrn).trans_le (hload r hr hrn)) fun n hn => ?_
    rw [k1 n (hlt n hn) hn]
    exact hM n hn
  · intro hload M hM
    refine (hp (fun r => x.getD r 0) M).2 (fun r hr hrn => (hload r hr hrn).trans_eq (k2 r hr hrn).symm) fun n hn => ?_
    rw [k1 n (hlt n hn) hn]
    exact hM n hn

end General

section Meshes

private theorem quadSum_nonpos {d : Nat} (el : VolElement d ℝ) (rule : List (QPoint d ℝ Unit)) (hw : ∀ q ∈ rule, 0 ≤ q.1)
    (f : Point d ℝ → Unit → ℝ) (hf : ∀ q ∈ rule, f q.2.1 q.2.2 ≤ 0) : quadSum el rule f ≤ 0 := by
  unfold quadSum
  induction rule with
  | nil => simp
  | cons q rule ih =>
    rw [List.map_cons, List.sum_cons]
    exact add_nonpos (mul_nonpos_of_nonneg_of_nonpos (mul_nonneg (hw q (by simp)) (abs_nonneg _)) (hf q (by simp)))
      (ih (fun q hq => hw q (by simp [hq])) fun q hq => hf q (by simp [hq]))

private theorem tri_jacobian (a b c p : Point 2 ℝ) :
    (elementOfKind .tri3 [a, b, c]).jacobian p = !![(b 0 - a 0) / 2, (c 0 - a 0) / 2; (b 1 - a 1) / 2, (c 1 - a 1) / 2] := by
  ext r c
  simp only [elementOfKind, Matrix.of_apply, referenceJacobian, geometryGradients, tri3Gradients, Kind.numNodes, List.take,
    List.map, weightedSum, tri3G]
  match r, c with
  | 0, 0 => simp; ring
  | 0, 1 => simp; ring
  | 1, 0 => simp; ring
  | 1, 1 => simp; ring

private theorem tri_gradients (a b c : Point 2 ℝ) (hn : NonObtuse a b c) (p : Point 2 ℝ) (I J : Nat) (hI : I < 3) (hJ : J < 3) (hIJ : I ≠ J) :
    ∑ k, physGrad ((elementOfKind .tri3 [a, b, c]).jacobian p) (((elementOfKind .tri3 [a, b, c]).gradients p)[I]?.getD 0) k *
      physGrad ((elementOfKind .tri3 [a, b, c]).jacobian p) (((elementOfKind .tri3 [a, b, c]).gradients p)[J]?.getD 0) k ≤ 0 := by
  rw [tri_jacobian]
  obtain ⟨n1, n2, n3⟩ := hn
  simp only [Fin.sum_univ_two] at n1 n2 n3
  have hD := Matrix.inv_def !![(b 0 - a 0) / 2, (c 0 - a 0) / 2; (b 1 - a 1) / 2, (c 1 - a 1) / 2]
  generalize hDD : Ring.inverse (Matrix.det !![(b 0 - a 0) / 2, (c 0 - a 0) / 2; (b 1 - a 1) / 2, (c 1 - a 1) / 2]) = D at hD
  have hD2 : 0 ≤ D * D := mul_self_nonneg D
  unfold physGrad
  rw [hD, Matrix.adjugate_fin_two_of]
  have m1 := mul_nonneg hD2 n1
  have m2 := mul_nonneg hD2 n2
  have m3 := mul_nonneg hD2 n3
  have : ∀ X : ℝ, 0 ≤ X → ∀ Y : ℝ, Y = -X / 16 → Y ≤ 0 := by intro X h1 Y h2; rw [h2]; linarith
  interval_cases I <;> interval_cases J <;> first | exact absurd rfl hIJ | skip
  · refine this _ m3 _ ?_
    simp [elementOfKind, gradients, tri3Gradients, tri3G, Fin.sum_univ_two]
    ring
  · refine this _ m2 _ ?_
    simp [elementOfKind, gradients, tri3Gradients, tri3G, Fin.sum_univ_two]
    ring
  · refine this _ m3 _ ?_
    simp [elementOfKind, gradients, tri3Gradients, tri3G, Fin.sum_univ_two]
    ring
  · refine this _ m1 _ ?_
    simp [elementOfKind, gradients, tri3Gradients, tri3G, Fin.sum_univ_two]
    ring
  · refine this _ m2 _ ?_
    simp [elementOfKind, gradients, tri3Gradients, tri3G, Fin.sum_univ_two]
    ring
  · refine this _ m1 _ ?_
    simp [elementOfKind, gradients, tri3Gradients, tri3G, Fin.sum_univ_two]
    ring

private theorem tri_det (a b c : Point 2 ℝ) (p : Point 2 ℝ) :
    ((elementOfKind .tri3 [a, b, c]).jacobian p).det = Fenris.Spec.signedArea a b c / 2 := by
  have e : (elementOfKind .tri3 [a, b, c]).jacobian p = !![(b 0 - a 0) / 2, (c 0 - a 0) / 2; (b 1 - a 1) / 2, (c 1 - a 1) / 2] := tri_jacobian a b c p
  rw [e]
  erw [Matrix.det_fin_two_of]
  unfold Fenris.Spec.signedArea
  ring

private theorem coords_three {vs : List (Point 2 ℝ)} {cell : List Nat} {a b c : Point 2 ℝ} (h : Fenris.Spec.coords vs cell = some [a, b, c]) :
    ∃ i j k, cell = [i, j, k] ∧ vs[i]? = some a ∧ vs[j]? = some b ∧ vs[k]? = some c := by
  unfold Fenris.Spec.coords at h
  match cell with
  | [] => simp at h
  | [i] => simp [List.mapM_cons, Option.bind_eq_some_iff] at h
  | [i, j] => simp [List.mapM_cons, Option.bind_eq_some_iff] at h
  | [i, j, k] =>
    refine ⟨i, j, k, rfl, ?_⟩
    simp only [List.mapM_cons, List.mapM_nil, Option.bind_eq_bind, Option.pure_def, Option.bind_eq_some_iff, Option.some.injEq,
      List.cons.injEq] at h
    obtain ⟨_, h1, _, ⟨_, h2, _, ⟨_, h3, _, rfl, rfl⟩, rfl⟩, rfl, rfl, rfl, -⟩ := h
    exact ⟨h1, h2, h3⟩
  | i :: j :: k :: l :: r =>
    simp only [List.mapM_cons, Option.bind_eq_bind, Option.pure_def, Option.bind_eq_some_iff, Option.some.injEq, List.cons.injEq] at h
    obtain ⟨_, _, _, ⟨_, _, _, ⟨_, _, _, ⟨_, _, _, _, rfl⟩, rfl⟩, rfl⟩, _, _, _, h⟩ := h

/-- **C104.** Meshes of triangles without obtuse angles, with the canonical quadrature and from each of whose vertices one can walk through
the cells to a vertex with a prescribed value: the assumptions of the maximum principle hold. -/
theorem C104_triangle_mesh (gauss : Nat → Rule 1 ℝ) (h2 : IsGaussRule 2 (gauss 2).1 (gauss 2).2) (hl : (gauss 2).1.length = 2)
    (mesh : Mesh (Point 2 ℝ)) (hcell : ∀ cell ∈ mesh.cells, ∃ a b c, Fenris.Spec.coords mesh.vertices cell = some [a, b, c] ∧
      Fenris.Spec.signedArea a b c ≠ 0 ∧ NonObtuse a b c)
    (nodes : List Nat) (hn : ∀ n ∈ nodes, ∃ c ∈ mesh.cells, n ∈ c) (hanch : Anchored mesh.cells mesh.vertices.length nodes)
    (u : List ℝ) (hu : u.length = mesh.vertices.length) :
    ∃ space rule t, meshSpace .tri3 mesh = some space ∧ stiffnessRule gauss .tri3 = some rule ∧
      Uniform.fromQuadratureAndData rule () = some t ∧
      Problem space mesh.vertices.length t.table (fun _ => (rule.1.zip rule.2).map fun q => (q.1, q.2, ())) u (laplace 2 ℝ) nodes ∧
      Acute space (fun _ => (rule.1.zip rule.2).map fun q => (q.1, q.2, ())) := by
  have hthree : ∀ cell ∈ mesh.cells, ∃ i j k a b c, cell = [i, j, k] ∧ mesh.vertices[i]? = some a ∧ mesh.vertices[j]? = some b ∧
      mesh.vertices[k]? = some c ∧ Fenris.Spec.signedArea a b c ≠ 0 ∧ NonObtuse a b c := by
    intro cell hc
    obtain ⟨a, b, c, h1, h2, h3⟩ := hcell cell hc
    obtain ⟨i, j, k, h4, h5, h6, h7⟩ := coords_three h1
    exact ⟨i, j, k, a, b, c, h4, h5, h6, h7, h2, h3⟩
  have hb : ∀ c ∈ mesh.cells, ∀ v ∈ c, v < mesh.vertices.length := by
    intro cell hc v hv
    obtain ⟨i, j, k, a, b, c, rfl, h5, h6, h7, -⟩ := hthree cell hc
    simp only [List.mem_cons, List.not_mem_nil, or_false] at hv
    rcases hv with rfl | rfl | rfl
    · exact (List.getElem?_eq_some_iff.1 h5).1
    · exact (List.getElem?_eq_some_iff.1 h6).1
    · exact (List.getElem?_eq_some_iff.1 h7).1
  have hpts : ∀ cell ∈ mesh.cells, ∃ a b c, cell.map (Surface.Spec.coords mesh.vertices) = [a, b, c] ∧ Fenris.Spec.signedArea a b c ≠ 0 ∧
      NonObtuse a b c := by
    intro cell hc
    obtain ⟨i, j, k, a, b, c, rfl, h5, h6, h7, h8, h9⟩ := hthree cell hc
    refine ⟨a, b, c, ?_, h8, h9⟩
    simp [Surface.Spec.coords, List.getD_eq_getElem?_getD, h5, h6, h7]
  obtain ⟨space, rule, t, g1, g2, g3, g4, g5⟩ := C96_mesh_problem gauss h2 hl .tri3 (by simp) mesh
    (fun cell hc => by obtain ⟨i, j, k, a, b, c, rfl, -⟩ := hthree cell hc; rfl) hb
    (fun cell hc => by
      obtain ⟨i, j, k, a, b, c, rfl, h5, h6, h7, h8, -⟩ := hthree cell hc
      have e1 : i ≠ j := by
        rintro rfl
        obtain rfl := Option.some.inj (h5.symm.trans h6)
        exact h8 (by unfold Fenris.Spec.signedArea; ring)
      have e2 : i ≠ k := by
        rintro rfl
        obtain rfl := Option.some.inj (h5.symm.trans h7)
        exact h8 (by unfold Fenris.Spec.signedArea; ring)
      have e3 : j ≠ k := by
        rintro rfl
        obtain rfl := Option.some.inj (h6.symm.trans h7)
        exact h8 (by unfold Fenris.Spec.signedArea; ring)
      simp [e1, e2, e3])
    (fun space rule hs _ en hen p _ => by
      rw [C89_mesh_space .tri3 _ hb] at hs
      obtain rfl := Option.some.inj hs
      obtain ⟨cell, hc, rfl⟩ := List.mem_map.1 hen
      obtain ⟨a, b, c, e, h8, -⟩ := hpts cell hc
      rw [e, tri_det]
      exact div_ne_zero h8 two_ne_zero) nodes hn u hu
  refine ⟨space, rule, t, g1, g2, g3, { g4 with definite := g5.2 hanch }, ?_, ?_⟩
  · intro en hen p m
    rw [C89_mesh_space .tri3 _ hb] at g1
    obtain rfl := Option.some.inj g1
    obtain ⟨cell, hc, rfl⟩ := List.mem_map.1 hen
    exact gradients_sum_zero .tri3 p m
  · intro e en he I J hI hJ hIJ
    have hlt := (List.getElem?_eq_some_iff.1 he).1
    have hw := g4.weights e hlt
    have hen := List.mem_of_getElem? he
    rw [C89_mesh_space .tri3 _ hb] at g1
    obtain rfl := Option.some.inj g1
    obtain ⟨cell, hc, rfl⟩ := List.mem_map.1 hen
    have hlen : cell.length = 3 := by obtain ⟨i, j, k, a, b, c, rfl, -⟩ := hthree cell hc; rfl
    obtain ⟨a, b, c, e, h8, h9⟩ := hpts cell hc
    rw [hlen] at hI hJ
    refine quadSum_nonpos _ _ (fun q hq => (hw q hq).le) _ fun q hq => ?_
    rw [e]
    exact tri_gradients a b c h9 q.2.1 I J hI hJ hIJ

private theorem coords_of_three {vs : List (Point 2 ℝ)} {i j k : Nat} {a b c : Point 2 ℝ} (h1 : vs[i]? = some a) (h2 : vs[j]? = some b)
    (h3 : vs[k]? = some c) : Fenris.Spec.coords vs [i, j, k] = some [a, b, c] := by
  simp [Fenris.Spec.coords, List.mapM_cons, h1, h2, h3]

private theorem right_angles (x y h : ℝ) (hh : 0 < h) :
    Fenris.Spec.signedArea (![x, y - h] : Point 2 ℝ) ![x + h, y - h] ![x + h, y] ≠ 0 ∧
      NonObtuse (![x, y - h] : Point 2 ℝ) ![x + h, y - h] ![x + h, y] ∧
      Fenris.Spec.signedArea (![x, y - h] : Point 2 ℝ) ![x + h, y] ![x, y] ≠ 0 ∧ NonObtuse (![x, y - h] : Point 2 ℝ) ![x + h, y] ![x, y] := by
  have := mul_pos hh hh
  refine ⟨?_, ?_, ?_, ?_⟩
  · simp [Fenris.Spec.signedArea, hh.ne']
  · simp [NonObtuse, Fin.sum_univ_two, this.le]
  · simp [Fenris.Spec.signedArea, hh.ne']
  · simp [NonObtuse, Fin.sum_univ_two, this.le]

/-- **C104.** The uniform triangle mesh of a rectangle, of every resolution: the assumptions of the maximum principle hold as soon as the value
of at least one vertex is prescribed. -/
theorem C104_uniform_triangles (gauss : Nat → Rule 1 ℝ) (h2 : IsGaussRule 2 (gauss 2).1 (gauss 2).2) (hl : (gauss 2).1.length = 2)
    (L : ℝ) (hL : 0 < L) (ux uy n : Nat) (x0 y0 : ℝ) (hn : n ≠ 0) (hux : ux ≠ 0) (huy : uy ≠ 0)
    (nodes : List Nat) (hne : nodes ≠ []) (hin : ∀ v ∈ nodes, v < (ux * n + 1) * (uy * n + 1))
    (u : List ℝ) (hu : u.length = (ux * n + 1) * (uy * n + 1)) :
    ∃ mesh space rule t, MeshUtil.splitIntoTriangles (Procedural.quadMesh L ux uy n x0 y0) = some mesh ∧
      mesh.vertices.length = (ux * n + 1) * (uy * n + 1) ∧ meshSpace .tri3 mesh = some space ∧ stiffnessRule gauss .tri3 = some rule ∧
      Uniform.fromQuadratureAndData rule () = some t ∧
      Problem space mesh.vertices.length t.table (fun _ => (rule.1.zip rule.2).map fun q => (q.1, q.2, ())) u (laplace 2 ℝ) nodes ∧
      Acute space (fun _ => (rule.1.zip rule.2).map fun q => (q.1, q.2, ())) := by
  obtain ⟨vid, hvlen, hlen, hv, hinj, hsurj, hcells⟩ := C17_quad_mesh_is_the_grid L ux uy n x0 y0 hn hux huy
  have hx0 : 0 < ux * n := Nat.pos_of_ne_zero (Nat.mul_ne_zero hux hn)
  have hy0 : 0 < uy * n := Nat.pos_of_ne_zero (Nat.mul_ne_zero huy hn)
  have hh : 0 < L / (n : ℝ) := div_pos hL (by exact_mod_cast Nat.pos_of_ne_zero hn)
  have hcell : ∀ c ∈ (Procedural.quadMesh L ux uy n x0 y0).cells, ∃ i j, i < ux * n ∧ j < uy * n ∧
      c = [vid i (j + 1), vid (i + 1) (j + 1), vid (i + 1) j, vid i j] := by
    intro c hc
    obtain ⟨t, ht⟩ := List.getElem?_of_mem hc
    have hlt := (List.getElem?_eq_some_iff.1 ht).1
    rw [hlen] at hlt
    obtain ⟨i, j, hi, hj, rfl⟩ := grid_index hlt
    rw [hcells i j hi hj] at ht
    exact ⟨i, j, hi, hj, (Option.some.inj ht).symm⟩
  have hlt : ∀ i j, i ≤ ux * n → j ≤ uy * n → vid i j < (Procedural.quadMesh L ux uy n x0 y0).vertices.length :=
    fun i j hi hj => (List.getElem?_eq_some_iff.1 (hv i j hi hj)).1
  obtain ⟨mesh, k1, k2, k3, -⟩ := MeshUtil.C81_split_into_triangles (Procedural.quadMesh L ux uy n x0 y0)
    (fun c hc => by obtain ⟨i, j, -, -, rfl⟩ := hcell c hc; rfl)
    (fun c hc v hvc => by
      obtain ⟨i, j, hi, hj, rfl⟩ := hcell c hc
      simp only [List.mem_cons, List.not_mem_nil, or_false] at hvc
      rcases hvc with rfl | rfl | rfl | rfl <;> exact hlt _ _ (by omega) (by omega))
  have htri : ∀ c ∈ mesh.cells, ∃ i j, i < ux * n ∧ j < uy * n ∧
      (c = [vid i (j + 1), vid (i + 1) (j + 1), vid (i + 1) j] ∨ c = [vid i (j + 1), vid (i + 1) j, vid i j]) := by
    intro c hc
    rw [k3, List.mem_flatMap] at hc
    obtain ⟨q, hq, hc⟩ := hc
    obtain ⟨i, j, hi, hj, rfl⟩ := hcell q hq
    refine ⟨i, j, hi, hj, ?_⟩
    simpa using hc
  have hmem : ∀ i j, i < ux * n → j < uy * n → [vid i (j + 1), vid (i + 1) (j + 1), vid (i + 1) j] ∈ mesh.cells ∧
      [vid i (j + 1), vid (i + 1) j, vid i j] ∈ mesh.cells := by
    intro i j hi hj
    rw [k3]
    constructor <;> exact List.mem_flatMap.2 ⟨_, List.mem_of_getElem? (hcells i j hi hj), by simp⟩
  have hrow : ∀ i j, i < ux * n → j ≤ uy * n → Neighbours mesh.cells (vid (i + 1) j) (vid i j) := by
    intro i j hi hj
    rcases Nat.lt_or_ge j (uy * n) with hj' | hj'
    · exact ⟨_, (hmem i j hi hj').2, by simp, by simp⟩
    · obtain ⟨j, rfl⟩ : ∃ k, j = k + 1 := ⟨j - 1, by omega⟩
      exact ⟨_, (hmem i j hi (by omega)).1, by simp, by simp⟩
  have hcol : ∀ j, j < uy * n → Neighbours mesh.cells (vid 0 (j + 1)) (vid 0 j) :=
    fun j hj => ⟨_, (hmem 0 j hx0 hj).2, by simp, by simp⟩
  have hpath : ∀ i j, i ≤ ux * n → j ≤ uy * n → Relation.ReflTransGen (Neighbours mesh.cells) (vid i j) (vid 0 0) := by
    intro i j hi hj
    induction i with
    | zero =>
      induction j with
      | zero => exact .refl
      | succ j ih => exact .head (hcol j (by omega)) (ih (by omega))
    | succ i ih => exact .head (hrow i j (by omega) hj) (ih (by omega))
  have hcorner : ∀ i j, i ≤ ux * n → j ≤ uy * n → ∃ c ∈ mesh.cells, vid i j ∈ c := by
    intro i j hi hj
    rcases Nat.lt_or_ge i (ux * n) with hi' | hi'
    · obtain ⟨c, hc, -, h⟩ := hrow i j hi' hj
      exact ⟨c, hc, h⟩
    · obtain ⟨i, rfl⟩ : ∃ k, i = k + 1 := ⟨i - 1, by omega⟩
      obtain ⟨c, hc, h, -⟩ := hrow i j (by omega) hj
      exact ⟨c, hc, h⟩
  have hsurj' : ∀ v, v < (ux * n + 1) * (uy * n + 1) → ∃ i j, i ≤ ux * n ∧ j ≤ uy * n ∧ vid i j = v := by
    intro v hv'
    obtain ⟨i, j, hi, hj, h⟩ := hsurj v (by rw [hvlen]; exact hv')
    exact ⟨i, j, hi, hj, h⟩
  obtain ⟨space, rule, t, g1, g2, g3, g4, g5⟩ := C104_triangle_mesh gauss h2 hl mesh (fun c hc => by
      obtain ⟨i, j, hi, hj, hc⟩ := htri c hc
      have e1 := hv i (j + 1) (by omega) (by omega)
      have e2 := hv (i + 1) (j + 1) (by omega) (by omega)
      have e3 := hv (i + 1) j (by omega) (by omega)
      have e4 := hv i j (by omega) (by omega)
      have f1 : y0 - ((j + 1 : Nat) : ℝ) * (L / n) = y0 - j * (L / n) - L / n := by push_cast; ring
      have f2 : x0 + ((i + 1 : Nat) : ℝ) * (L / n) = x0 + i * (L / n) + L / n := by push_cast; ring
      rw [← k2, f1] at e1
      rw [← k2, f1, f2] at e2
      rw [← k2, f2] at e3
      rw [← k2] at e4
      obtain ⟨r1, r2, r3, r4⟩ := right_angles (x0 + i * (L / n)) (y0 - j * (L / n)) (L / n) hh
      rcases hc with rfl | rfl
      · exact ⟨_, _, _, coords_of_three e1 e2 e3, r1, r2⟩
      · exact ⟨_, _, _, coords_of_three e1 e3 e4, r3, r4⟩)
    nodes (fun v hvn => by
      obtain ⟨i, j, hi, hj, rfl⟩ := hsurj' v (hin v hvn)
      exact hcorner i j hi hj) (fun v hvl => by
      obtain ⟨w, hw⟩ := List.exists_mem_of_ne_nil _ hne
      rw [k2, hvlen] at hvl
      obtain ⟨i, j, hi, hj, rfl⟩ := hsurj' v hvl
      obtain ⟨i', j', hi', hj', rfl⟩ := hsurj' w (hin w hw)
      exact ⟨_, hw, (hpath i j hi hj).trans (path_symm (hpath i' j' hi' hj'))⟩) u (by rw [hu, k2, hvlen])
  exact ⟨mesh, space, rule, t, k1, by rw [k2, hvlen], g1, g2, g3, g4, g5⟩

private theorem physGrad_diagonal {d : Nat} (h : ℝ) (hh : 0 < h) (g : Point d ℝ) (k : Fin d) :
    physGrad (Matrix.diagonal fun _ => h / 2) g k = 2 / h * g k := by
  have e : (Matrix.diagonal fun _ : Fin d => h / 2)⁻¹ = Matrix.diagonal fun _ => 2 / h := by
    apply Matrix.inv_eq_right_inv
    rw [Matrix.diagonal_mul_diagonal]
    convert Matrix.diagonal_one using 2
    funext i
    field_simp
  rw [physGrad, e]
  simp [Matrix.diagonal, Finset.sum_ite_eq']

private theorem quad_jacobian (x y h : ℝ) (p : Point 2 ℝ) :
    (elementOfKind .quad4 [![x, y - h], ![x + h, y - h], ![x + h, y], ![x, y]]).jacobian p = Matrix.diagonal fun _ => h / 2 := by
  ext r c
  simp only [elementOfKind, Matrix.of_apply, referenceJacobian, geometryGradients, quad4Gradients, Kind.geometry, Kind.numNodes, List.take,
    List.map, weightedSum, quad4PhiGrad]
  match r, c with
  | 0, 0 => simp [Matrix.diagonal]; ring
  | 0, 1 => simp [Matrix.diagonal]; ring
  | 1, 0 => simp [Matrix.diagonal]; ring
  | 1, 1 => simp [Matrix.diagonal]; ring

private theorem quad_signs (I : Nat) (hI : I < 4) : ∃ α β : ℝ, (α = 1 ∨ α = -1) ∧ (β = 1 ∨ β = -1) ∧
    (∀ p : Point 2 ℝ, (quad4Gradients p)[I]?.getD 0 = quad4PhiGrad α β p) ∧ (α, β) = ([(-1, -1), (1, -1), (1, 1), (-1, 1)] : List (ℝ × ℝ)).getD I 0 := by
  interval_cases I
  · exact ⟨-1, -1, by simp, by simp, fun _ => rfl, rfl⟩
  · exact ⟨1, -1, by simp, by simp, fun _ => rfl, rfl⟩
  · exact ⟨1, 1, by simp, by simp, fun _ => rfl, rfl⟩
  · exact ⟨-1, 1, by simp, by simp, fun _ => rfl, rfl⟩

private theorem quad_angle (gauss : Nat → Rule 1 ℝ) (h2 : IsGaussRule 2 (gauss 2).1 (gauss 2).2) (hl : (gauss 2).1.length = 2)
    (x y h : ℝ) (hh : 0 < h) (rule : Rule 2 ℝ) (hr : stiffnessRule gauss .quad4 = some rule) (el : VolElement 2 ℝ)
    (hel : el = elementOfKind .quad4 [![x, y - h], ![x + h, y - h], ![x + h, y], ![x, y]]) (I J : Nat) (hI : I < 4) (hJ : J < 4) (hIJ : I ≠ J) :
    (quadSum el ((rule.1.zip rule.2).map fun q => ((q.1, q.2, ()) : QPoint 2 ℝ Unit)) fun p _ =>
      ∑ k, physGrad (el.jacobian p) ((el.gradients p)[I]?.getD 0) k * physGrad (el.jacobian p) ((el.gradients p)[J]?.getD 0) k) ≤ 0 := by
  obtain ⟨t, ht, hsq, hg⟩ := gauss_pair h2 hl
  have hjac : ∀ p, el.jacobian p = Matrix.diagonal fun _ => h / 2 := by
    intro p
    rw [hel]
    exact quad_jacobian x y h p
  obtain ⟨a, b, ha, hb, hgI, hIe⟩ := quad_signs I hI
  obtain ⟨a', b', ha', hb', hgJ, hJe⟩ := quad_signs J hJ
  have hgrad : ∀ p, el.gradients p = quad4Gradients p := by
    intro p
    rw [hel]
    rfl
  have hrule : rule = ([1, 1, 1, 1], [![t, t], ![t, -t], ![-t, t], ![-t, -t]]) := by
    have : rule = quadrilateralGauss gauss 2 := (Option.some.inj hr).symm
    rw [this, quadrilateralGauss, hg]
    simp [quadrilateral]
  subst hrule
  have hdet : (Matrix.diagonal fun _ : Fin 2 => h / 2).det = h * h / 4 := by
    rw [Matrix.det_diagonal]
    simp
    ring
  simp only [hjac, physGrad_diagonal h hh, hgrad, hgI, hgJ, quadSum, hdet]
  have hne : ¬ (a * a' = 1 ∧ b * b' = 1) := by
    rintro ⟨h1, h2⟩
    have e1 : a = a' := by rcases ha with rfl | rfl <;> rcases ha' with rfl | rfl <;> first | rfl | norm_num at h1
    have e2 : b = b' := by rcases hb with rfl | rfl <;> rcases hb' with rfl | rfl <;> first | rfl | norm_num at h2
    subst e1 e2
    rw [hIe] at hJe
    interval_cases I <;> interval_cases J <;> first | exact hIJ rfl | norm_num at hJe
  have hform : ∀ X : ℝ, X = (a * a' * (1 + b * b' * (t * t)) + b * b' * (1 + a * a' * (t * t))) / 4 → X ≤ 0 := by
    intro X hX
    rw [hX, hsq]
    rcases ha with rfl | rfl <;> rcases ha' with rfl | rfl <;> rcases hb with rfl | rfl <;> rcases hb' with rfl | rfl <;>
      first | (exfalso; norm_num at hne; done) | norm_num
  refine hform _ ?_
  rw [abs_of_nonneg (by positivity)]
  simp [quad4PhiGrad, Fin.sum_univ_two]
  field_simp
  ring

/-- **C104.** The uniform quadrilateral mesh of a rectangle, of every resolution, with the canonical quadrature: the assumptions of the maximum
principle hold as soon as the value of at least one vertex is prescribed. -/
theorem C104_quad_mesh (gauss : Nat → Rule 1 ℝ) (h2 : IsGaussRule 2 (gauss 2).1 (gauss 2).2) (hl : (gauss 2).1.length = 2)
    (L : ℝ) (hL : 0 < L) (ux uy n : Nat) (x0 y0 : ℝ) (hn : n ≠ 0) (hux : ux ≠ 0) (huy : uy ≠ 0)
    (mesh : Mesh (Point 2 ℝ)) (hmesh : mesh = Procedural.quadMesh L ux uy n x0 y0)
    (nodes : List Nat) (hne : nodes ≠ []) (hin : ∀ v ∈ nodes, v < mesh.vertices.length) (u : List ℝ) (hu : u.length = mesh.vertices.length) :
    ∃ space rule t, meshSpace .quad4 mesh = some space ∧ stiffnessRule gauss .quad4 = some rule ∧
      Uniform.fromQuadratureAndData rule () = some t ∧
      Problem space mesh.vertices.length t.table (fun _ => (rule.1.zip rule.2).map fun q => (q.1, q.2, ())) u (laplace 2 ℝ) nodes ∧
      Acute space (fun _ => (rule.1.zip rule.2).map fun q => (q.1, q.2, ())) := by
  obtain ⟨space, rule, t, g1, g2, g3, g4⟩ := C96_quad_mesh gauss h2 hl L hL ux uy n x0 y0 hn hux huy mesh hmesh nodes hne hin u hu
  subst hmesh
  refine ⟨space, rule, t, g1, g2, g3, g4, ?_⟩
  obtain ⟨vid, hvlen, hlen, hv, hinj, hsurj, hcells⟩ := C17_quad_mesh_is_the_grid L ux uy n x0 y0 hn hux huy
  have hh : 0 < L / (n : ℝ) := div_pos hL (by exact_mod_cast Nat.pos_of_ne_zero hn)
  have hcell : ∀ c ∈ (Procedural.quadMesh L ux uy n x0 y0).cells, ∃ i j, i < ux * n ∧ j < uy * n ∧
      c = [vid i (j + 1), vid (i + 1) (j + 1), vid (i + 1) j, vid i j] := by
    intro c hc
    obtain ⟨t, ht⟩ := List.getElem?_of_mem hc
    have hlt := (List.getElem?_eq_some_iff.1 ht).1
    rw [hlen] at hlt
    obtain ⟨i, j, hi, hj, rfl⟩ := grid_index hlt
    rw [hcells i j hi hj] at ht
    exact ⟨i, j, hi, hj, (Option.some.inj ht).symm⟩
  have hlt : ∀ i j, i ≤ ux * n → j ≤ uy * n → vid i j < (Procedural.quadMesh L ux uy n x0 y0).vertices.length :=
    fun i j hi hj => (List.getElem?_eq_some_iff.1 (hv i j hi hj)).1
  have hb : ∀ c ∈ (Procedural.quadMesh L ux uy n x0 y0).cells, ∀ v ∈ c, v < (Procedural.quadMesh L ux uy n x0 y0).vertices.length := by
    intro c hc v hvc
    obtain ⟨i, j, hi, hj, rfl⟩ := hcell c hc
    simp only [List.mem_cons, List.not_mem_nil, or_false] at hvc
    rcases hvc with rfl | rfl | rfl | rfl <;> exact hlt _ _ (by omega) (by omega)
  rw [C89_mesh_space .quad4 _ hb] at g1
  obtain rfl := Option.some.inj g1
  refine ⟨fun en hen p m => ?_, fun e en he I J hI hJ hIJ => ?_⟩
  · obtain ⟨cell, hc, rfl⟩ := List.mem_map.1 hen
    exact gradients_sum_zero .quad4 p m
  · obtain ⟨cell, hc, rfl⟩ := List.mem_map.1 (List.mem_of_getElem? he)
    obtain ⟨i, j, hi, hj, rfl⟩ := hcell cell hc
    refine quad_angle gauss h2 hl (x0 + i * (L / n)) (y0 - j * (L / n)) (L / n) hh rule g2 _ ?_ I J hI hJ hIJ
    have e1 : y0 - ((j + 1 : Nat) : ℝ) * (L / n) = y0 - j * (L / n) - L / n := by push_cast; ring
    have e2 : x0 + ((i + 1 : Nat) : ℝ) * (L / n) = x0 + i * (L / n) + L / n := by push_cast; ring
    have hc : ∀ {v : Nat} {p : Point 2 ℝ}, (Procedural.quadMesh L ux uy n x0 y0).vertices[v]? = some p →
        Surface.Spec.coords (Procedural.quadMesh L ux uy n x0 y0).vertices v = p := by
      intro v p h
      rw [Surface.Spec.coords, List.getD_eq_getElem?_getD, h, Option.getD_some]
    simp only [List.map_cons, List.map_nil]
    rw [hc (hv i (j + 1) (by omega) (by omega)), hc (hv (i + 1) (j + 1) (by omega) (by omega)), hc (hv (i + 1) j (by omega) (by omega)),
      hc (hv i j (by omega) (by omega)), e1, e2]

private theorem hex_jacobian (x y z h : ℝ) (p : Point 3 ℝ) :
    (elementOfKind .hex8 [![x, y, z], ![x + h, y, z], ![x + h, y + h, z], ![x, y + h, z], ![x, y, z + h], ![x + h, y, z + h],
      ![x + h, y + h, z + h], ![x, y + h, z + h]]).jacobian p = Matrix.diagonal fun _ => h / 2 := by
  ext r c
  simp only [elementOfKind, Matrix.of_apply, referenceJacobian, geometryGradients, hex8Gradients, Kind.numNodes, List.take,
    List.map, weightedSum, hex8PhiGrad, phiLinear1d, phiLinear1dGrad]
  match r, c with
  | 0, 0 => simp [Matrix.diagonal]; ring
  | 0, 1 => simp [Matrix.diagonal]; ring
  | 0, 2 => simp [Matrix.diagonal]; ring
  | 1, 0 => simp [Matrix.diagonal]; ring
  | 1, 1 => simp [Matrix.diagonal]; ring
  | 1, 2 => simp [Matrix.diagonal]; ring
  | 2, 0 => simp [Matrix.diagonal]; ring
  | 2, 1 => simp [Matrix.diagonal]; ring
  | 2, 2 => simp [Matrix.diagonal]; ring

private theorem hex_signs (I : Nat) (hI : I < 8) : ∃ α β γ : ℝ, (α = 1 ∨ α = -1) ∧ (β = 1 ∨ β = -1) ∧ (γ = 1 ∨ γ = -1) ∧
    (∀ p : Point 3 ℝ, (hex8Gradients p)[I]?.getD 0 = hex8PhiGrad α β γ p) ∧
    (α, β, γ) = ([(-1, -1, -1), (1, -1, -1), (1, 1, -1), (-1, 1, -1), (-1, -1, 1), (1, -1, 1), (1, 1, 1), (-1, 1, 1)] : List (ℝ × ℝ × ℝ)).getD I 0 := by
  interval_cases I
  · exact ⟨-1, -1, -1, by simp, by simp, by simp, fun _ => rfl, rfl⟩
  · exact ⟨1, -1, -1, by simp, by simp, by simp, fun _ => rfl, rfl⟩
  · exact ⟨1, 1, -1, by simp, by simp, by simp, fun _ => rfl, rfl⟩
  · exact ⟨-1, 1, -1, by simp, by simp, by simp, fun _ => rfl, rfl⟩
  · exact ⟨-1, -1, 1, by simp, by simp, by simp, fun _ => rfl, rfl⟩
  · exact ⟨1, -1, 1, by simp, by simp, by simp, fun _ => rfl, rfl⟩
  · exact ⟨1, 1, 1, by simp, by simp, by simp, fun _ => rfl, rfl⟩
  · exact ⟨-1, 1, 1, by simp, by simp, by simp, fun _ => rfl, rfl⟩

private theorem sign_mul {a b : ℝ} (ha : a = 1 ∨ a = -1) (hb : b = 1 ∨ b = -1) : (a * b = 1 ∧ a = b) ∨ a * b = -1 := by
  rcases ha with rfl | rfl <;> rcases hb with rfl | rfl <;> norm_num

private theorem hex_angle (gauss : Nat → Rule 1 ℝ) (h2 : IsGaussRule 2 (gauss 2).1 (gauss 2).2) (hl : (gauss 2).1.length = 2)
    (x y z h : ℝ) (hh : 0 < h) (rule : Rule 3 ℝ) (hr : stiffnessRule gauss .hex8 = some rule) (el : VolElement 3 ℝ)
    (hel : el = elementOfKind .hex8 [![x, y, z], ![x + h, y, z], ![x + h, y + h, z], ![x, y + h, z], ![x, y, z + h], ![x + h, y, z + h],
      ![x + h, y + h, z + h], ![x, y + h, z + h]]) (I J : Nat) (hI : I < 8) (hJ : J < 8) (hIJ : I ≠ J) :
    (quadSum el ((rule.1.zip rule.2).map fun q => ((q.1, q.2, ()) : QPoint 3 ℝ Unit)) fun p _ =>
      ∑ k, physGrad (el.jacobian p) ((el.gradients p)[I]?.getD 0) k * physGrad (el.jacobian p) ((el.gradients p)[J]?.getD 0) k) ≤ 0 := by
  obtain ⟨t, ht, hsq, hg⟩ := gauss_pair h2 hl
  have hjac : ∀ p, el.jacobian p = Matrix.diagonal fun _ => h / 2 := by
    intro p
    rw [hel]
    exact hex_jacobian x y z h p
  obtain ⟨a, b, c, ha, hb, hc, hgI, hIe⟩ := hex_signs I hI
  obtain ⟨a', b', c', ha', hb', hc', hgJ, hJe⟩ := hex_signs J hJ
  have hgrad : ∀ p, el.gradients p = hex8Gradients p := by
    intro p
    rw [hel]
    rfl
  have hrule : rule = ([1, 1, 1, 1, 1, 1, 1, 1], [![t, t, t], ![t, t, -t], ![t, -t, t], ![t, -t, -t], ![-t, t, t], ![-t, t, -t], ![-t, -t, t],
      ![-t, -t, -t]]) := by
    have : rule = hexahedronGauss gauss 2 := (Option.some.inj hr).symm
    rw [this, hexahedronGauss, hg]
    simp [hexahedron]
  subst hrule
  have hdet : (Matrix.diagonal fun _ : Fin 3 => h / 2).det = h * h * h / 8 := by
    rw [Matrix.det_diagonal]
    simp
    ring
  simp only [hjac, physGrad_diagonal h hh, hgrad, hgI, hgJ, quadSum, hdet]
  have hne : ¬ (a = a' ∧ b = b' ∧ c = c') := by
    rintro ⟨rfl, rfl, rfl⟩
    rw [hIe] at hJe
    interval_cases I <;> interval_cases J <;> first | exact hIJ rfl | norm_num at hJe
  have hform : ∀ X : ℝ, X = h / 16 * (a * a' * ((1 + b * b' * (t * t)) * (1 + c * c' * (t * t))) +
      b * b' * ((1 + a * a' * (t * t)) * (1 + c * c' * (t * t))) + c * c' * ((1 + a * a' * (t * t)) * (1 + b * b' * (t * t)))) → X ≤ 0 := by
    intro X hX
    rw [hX, hsq]
    refine mul_nonpos_of_nonneg_of_nonpos (by positivity) ?_
    rcases sign_mul ha ha' with ⟨h1, e1⟩ | h1 <;> rcases sign_mul hb hb' with ⟨h2, e2⟩ | h2 <;> rcases sign_mul hc hc' with ⟨h3, e3⟩ | h3 <;>
      rw [h1, h2, h3] <;> first | (norm_num; done) | exact absurd ⟨e1, e2, e3⟩ hne
  refine hform _ ?_
  rw [abs_of_nonneg (by positivity)]
  simp [hex8PhiGrad, phiLinear1d, phiLinear1dGrad, Fin.sum_univ_three]
  field_simp
  ring

/-- **C104.** The uniform hexahedral mesh of a box, of every resolution, with the canonical quadrature: the assumptions of the maximum
principle hold as soon as the value of at least one vertex is prescribed. -/
theorem C104_hex_mesh (gauss : Nat → Rule 1 ℝ) (h2 : IsGaussRule 2 (gauss 2).1 (gauss 2).2) (hl : (gauss 2).1.length = 2)
    (L : ℝ) (hL : 0 < L) (ux uy uz n : Nat) (hn : n ≠ 0) (hux : ux ≠ 0) (huy : uy ≠ 0) (huz : uz ≠ 0)
    (mesh : Mesh (Point 3 ℝ)) (hmesh : mesh = Procedural.hexMesh L ux uy uz n)
    (nodes : List Nat) (hne : nodes ≠ []) (hin : ∀ v ∈ nodes, v < mesh.vertices.length) (u : List ℝ) (hu : u.length = mesh.vertices.length) :
    ∃ space rule t, meshSpace .hex8 mesh = some space ∧ stiffnessRule gauss .hex8 = some rule ∧
      Uniform.fromQuadratureAndData rule () = some t ∧
      Problem space mesh.vertices.length t.table (fun _ => (rule.1.zip rule.2).map fun q => (q.1, q.2, ())) u (laplace 3 ℝ) nodes ∧
      Acute space (fun _ => (rule.1.zip rule.2).map fun q => (q.1, q.2, ())) := by
  obtain ⟨space, rule, t, g1, g2, g3, g4⟩ := C96_hex_mesh gauss h2 hl L hL ux uy uz n hn hux huy huz mesh hmesh nodes hne hin u hu
  subst hmesh
  refine ⟨space, rule, t, g1, g2, g3, g4, ?_⟩
  obtain ⟨vid, hvlen, hlen, hv, hinj, hsurj, hcells⟩ := C18_hex_mesh_is_the_grid L ux uy uz n hn hux huy
  have hh : 0 < L / (n : ℝ) := div_pos hL (by exact_mod_cast Nat.pos_of_ne_zero hn)
  have hcell : ∀ c ∈ (Procedural.hexMesh L ux uy uz n).cells, ∃ i j k, i < ux * n ∧ j < uy * n ∧ k < uz * n ∧
      c = [vid i j k, vid (i + 1) j k, vid (i + 1) (j + 1) k, vid i (j + 1) k, vid i j (k + 1), vid (i + 1) j (k + 1),
      vid (i + 1) (j + 1) (k + 1), vid i (j + 1) (k + 1)] := by
    intro c hc
    obtain ⟨t, ht⟩ := List.getElem?_of_mem hc
    have hlt := (List.getElem?_eq_some_iff.1 ht).1
    rw [hlen] at hlt
    obtain ⟨q, k, hq, hk, rfl⟩ := grid_index hlt
    obtain ⟨i, j, hi, hj, rfl⟩ := grid_index hq
    rw [hcells i j k hi hj hk] at ht
    exact ⟨i, j, k, hi, hj, hk, (Option.some.inj ht).symm⟩
  have hlt : ∀ i j k, i ≤ ux * n → j ≤ uy * n → k ≤ uz * n → vid i j k < (Procedural.hexMesh L ux uy uz n).vertices.length :=
    fun i j k hi hj hk => (List.getElem?_eq_some_iff.1 (hv i j k hi hj hk)).1
  have hb : ∀ c ∈ (Procedural.hexMesh L ux uy uz n).cells, ∀ v ∈ c, v < (Procedural.hexMesh L ux uy uz n).vertices.length := by
    intro c hc v hvc
    obtain ⟨i, j, k, hi, hj, hk, rfl⟩ := hcell c hc
    simp only [List.mem_cons, List.not_mem_nil, or_false] at hvc
    rcases hvc with rfl | rfl | rfl | rfl | rfl | rfl | rfl | rfl <;> exact hlt _ _ _ (by omega) (by omega) (by omega)
  rw [C89_mesh_space .hex8 _ hb] at g1
  obtain rfl := Option.some.inj g1
  refine ⟨fun en hen p m => ?_, fun e en he I J hI hJ hIJ => ?_⟩
  · obtain ⟨cell, hc, rfl⟩ := List.mem_map.1 hen
    exact gradients_sum_zero .hex8 p m
  · obtain ⟨cell, hc, rfl⟩ := List.mem_map.1 (List.mem_of_getElem? he)
    obtain ⟨i, j, k, hi, hj, hk, rfl⟩ := hcell cell hc
    refine hex_angle gauss h2 hl (i * (L / n)) (j * (L / n)) (k * (L / n)) (L / n) hh rule g2 _ ?_ I J hI hJ hIJ
    have e : ∀ i : Nat, ((i + 1 : Nat) : ℝ) * (L / n) = i * (L / n) + L / n := by intro i; push_cast; ring
    have hc : ∀ {v : Nat} {p : Point 3 ℝ}, (Procedural.hexMesh L ux uy uz n).vertices[v]? = some p →
        Surface.Spec.coords (Procedural.hexMesh L ux uy uz n).vertices v = p := by
      intro v p h
      rw [Surface.Spec.coords, List.getD_eq_getElem?_getD, h, Option.getD_some]
    simp only [List.map_cons, List.map_nil]
    rw [hc (hv i j k (by omega) (by omega) (by omega)), hc (hv (i + 1) j k (by omega) (by omega) (by omega)),
      hc (hv (i + 1) (j + 1) k (by omega) (by omega) (by omega)), hc (hv i (j + 1) k (by omega) (by omega) (by omega)),
      hc (hv i j (k + 1) (by omega) (by omega) (by omega)), hc (hv (i + 1) j (k + 1) (by omega) (by omega) (by omega)),
      hc (hv (i + 1) (j + 1) (k + 1) (by omega) (by omega) (by omega)), hc (hv i (j + 1) (k + 1) (by omega) (by omega) (by omega)), e i, e j, e k]

/-- Without the assumption on the angles the principle fails: a triangle with an obtuse angle. -/
def obtuse : Mesh (Point 2 ℝ) := ⟨[![-1, 1], ![0, 0], ![1, 0]], [[0, 1, 2]]⟩

private theorem obtuse_stiff (κ : List (QPoint 2 ℝ Unit)) (I : Nat) (hI : I < 3) :
    (quadSum (elementOfKind .tri3 [![-1, 1], ![0, 0], ![1, 0]]) κ fun p _ =>
      ∑ k, physGrad ((elementOfKind .tri3 [![-1, 1], ![0, 0], ![1, 0]]).jacobian p)
          (((elementOfKind .tri3 [![-1, 1], ![0, 0], ![1, 0]]).gradients p)[2]?.getD 0) k *
        physGrad ((elementOfKind .tri3 [![-1, 1], ![0, 0], ![1, 0]]).jacobian p)
          (((elementOfKind .tri3 [![-1, 1], ![0, 0], ![1, 0]]).gradients p)[I]?.getD 0) k) =
      (κ.map fun q => q.1).sum / 4 * ([1, -3, 2] : List ℝ).getD I 0 := by
  have hinv : (!![(1 : ℝ) / 2, 1; -1 / 2, -1 / 2] : Matrix (Fin 2) (Fin 2) ℝ)⁻¹ = !![-2, -4; 2, 2] := by
    apply Matrix.inv_eq_right_inv
    ext i j
    fin_cases i <;> fin_cases j <;> norm_num [Matrix.mul_apply, Fin.sum_univ_two]
  have hjac : ∀ p, (elementOfKind .tri3 ([![-1, 1], ![0, 0], ![1, 0]] : List (Point 2 ℝ))).jacobian p = !![(1 : ℝ) / 2, 1; -1 / 2, -1 / 2] := by
    intro p
    rw [tri_jacobian]
    norm_num
  have hdet : (!![(1 : ℝ) / 2, 1; -1 / 2, -1 / 2] : Matrix (Fin 2) (Fin 2) ℝ).det = 1 / 4 := by
    rw [Matrix.det_fin_two_of]
    norm_num
  unfold quadSum
  have : ∀ p : Point 2 ℝ, ∑ k, physGrad ((elementOfKind .tri3 [![-1, 1], ![0, 0], ![1, 0]]).jacobian p)
          (((elementOfKind .tri3 [![-1, 1], ![0, 0], ![1, 0]]).gradients p)[2]?.getD 0) k *
        physGrad ((elementOfKind .tri3 [![-1, 1], ![0, 0], ![1, 0]]).jacobian p)
          (((elementOfKind .tri3 [![-1, 1], ![0, 0], ![1, 0]]).gradients p)[I]?.getD 0) k = ([1, -3, 2] : List ℝ).getD I 0 := by
    intro p
    rw [hjac]
    unfold physGrad
    rw [hinv]
    interval_cases I <;> simp [elementOfKind, gradients, tri3Gradients, tri3G, Fin.sum_univ_two] <;> norm_num
  have hq : ∀ q ∈ κ, (q.1 * |((elementOfKind .tri3 [![-1, 1], ![0, 0], ![1, 0]]).jacobian q.2.1).det| *
      ∑ k, physGrad ((elementOfKind .tri3 [![-1, 1], ![0, 0], ![1, 0]]).jacobian q.2.1)
          (((elementOfKind .tri3 [![-1, 1], ![0, 0], ![1, 0]]).gradients q.2.1)[2]?.getD 0) k *
        physGrad ((elementOfKind .tri3 [![-1, 1], ![0, 0], ![1, 0]]).jacobian q.2.1)
          (((elementOfKind .tri3 [![-1, 1], ![0, 0], ![1, 0]]).gradients q.2.1)[I]?.getD 0) k) = q.1 * (1 / 4 * ([1, -3, 2] : List ℝ).getD I 0) := by
    intro q _
    have e : |((elementOfKind .tri3 [![-1, 1], ![0, 0], ![1, 0]]).jacobian q.2.1).det| = (1 : ℝ) / 4 := by
      rw [hjac, hdet]
      norm_num
    rw [this, mul_assoc]
    exact congrArg (fun z => q.1 * (z * _)) e
  rw [List.map_congr_left hq, List.sum_map_mul_right]
  ring

private theorem single_contribution (A : Mat ℝ) (c : Nat) (hc : c < 3) : matrixContribution 1 [0, 1, 2] A 2 c = A 2 c := by
  unfold matrixContribution
  change ∑ a : Fin 3, ∑ i : Fin 1, ∑ b : Fin 3, ∑ j : Fin 1, _ = _
  interval_cases c <;> simp [Fin.sum_univ_three]

/-- **C104.** The angles matter: on a mesh of one obtuse triangle, with the values one and zero prescribed at two of its vertices and without
load, the value at the third vertex is `-1/2`. -/
theorem C104_obtuse_triangle (gauss : Nat → Rule 1 ℝ) (h2 : IsGaussRule 2 (gauss 2).1 (gauss 2).2) (hl : (gauss 2).1.length = 2)
    (ord : List Nat → List Nat) (hord : ∀ l, (ord l).Perm l)
    (sortNodes : List (Nat × Nat) → List (Nat × Nat)) (hsort : SortsNodes sortNodes)
    (bufs : Nat → Buffer (Point 2 ℝ) ℝ Unit) (outs : Nat → Mat ℝ) (u : List ℝ) (hu : u.length = 3) :
    ∃ space rule t, meshSpace .tri3 obtuse = some space ∧ stiffnessRule gauss .tri3 = some rule ∧
      Uniform.fromQuadratureAndData rule () = some t ∧
      Problem space 3 t.table (fun _ => (rule.1.zip rule.2).map fun q => (q.1, q.2, ())) u (laplace 2 ℝ) [0, 1] ∧
      ∀ elemMat : Nat → Except String (Mat ℝ),
        (∀ e, e < space.length → ∃ buf', elementMatrix space (laplace 2 ℝ) t.table u (bufs e) (outs e) e = some (elemMat e, buf')) →
        ∃ m, Assembly.assemble ord sortNodes (conn 1 space 3) elemMat = some (.ok m) ∧
          ∀ x : Nat → ℝ, x 0 = 1 → x 1 = 0 → ∑ c ∈ Finset.range 3, entry m 2 c * x c = 0 → x 2 = -1 / 2 := by
  have hb : ∀ c ∈ obtuse.cells, ∀ v ∈ c, v < obtuse.vertices.length := by simp [obtuse]
  obtain ⟨rule', r1, rlen, rpos, rrich⟩ := C96_canonical_rules gauss h2 hl .tri3 (by simp)
  have hspace := C89_mesh_space .tri3 obtuse hb
  have hpts : [0, 1, 2].map (Surface.Spec.coords obtuse.vertices) = ([![-1, 1], ![0, 0], ![1, 0]] : List (Point 2 ℝ)) := rfl
  simp only [show obtuse.cells = [[0, 1, 2]] from rfl, List.map_cons, List.map_nil] at hspace hpts
  rw [hpts] at hspace
  obtain ⟨space, rule, t, g1, g2, g3, g4, g5⟩ := C96_mesh_problem gauss h2 hl .tri3 (by simp) obtuse (by simp [obtuse, Kind.numNodes]) hb
    (by simp [obtuse]) (fun space rule hs _ en hen p _ => by
      rw [hspace] at hs
      obtain rfl := Option.some.inj hs
      obtain rfl := List.mem_singleton.1 hen
      change ((elementOfKind .tri3 _).jacobian p).det ≠ 0
      rw [tri_det]
      norm_num [Fenris.Spec.signedArea]) [0, 1] (by simp [obtuse]) u hu
  rw [hspace] at g1
  obtain rfl := Option.some.inj g1
  rw [r1] at g2
  obtain rfl := Option.some.inj g2
  have hprob : Problem [(elementOfKind .tri3 ([![-1, 1], ![0, 0], ![1, 0]] : List (Point 2 ℝ)), [0, 1, 2])] 3 t.table
      (fun _ => (rule'.1.zip rule'.2).map fun q => (q.1, q.2, ())) u (laplace 2 ℝ) [0, 1] :=
    { g4 with definite := g5.2 fun n hn => ⟨0, by simp, .single ⟨[0, 1, 2], by simp [obtuse], by
        have : n < 3 := hn
        simp only [List.mem_cons, List.not_mem_nil, or_false]
        omega, by simp⟩⟩ }
  refine ⟨_, rule', t, hspace, r1, g3, hprob, fun elemMat hem => ?_⟩
  obtain ⟨m, k1, k2⟩ := entries hprob.toSetting ord hord sortNodes hsort bufs outs elemMat hem
  refine ⟨m, k1, fun x hx0 hx1 hres => ?_⟩
  have hw : 0 < (((rule'.1.zip rule'.2).map fun q => ((q.1, q.2, ()) : QPoint 2 ℝ Unit)).map fun q => q.1).sum := by
    rw [List.map_map]
    change 0 < ((rule'.1.zip rule'.2).map Prod.fst).sum
    rw [List.map_fst_zip (by omega)]
    refine List.sum_pos _ rpos ?_
    intro h0
    rw [h0] at rlen
    exact rrich (List.length_eq_zero_iff.1 rlen.symm)
  have hrow : ∀ c, c < 3 → entry m 2 c = (((rule'.1.zip rule'.2).map fun q => ((q.1, q.2, ()) : QPoint 2 ℝ Unit)).map fun q => q.1).sum / 4 *
      ([1, -3, 2] : List ℝ).getD c 0 := by
    intro c hc
    rw [k2]
    refine Eq.trans (Fin.sum_univ_one _) ((single_contribution _ c hc).trans ?_)
    exact obtuse_stiff ((rule'.1.zip rule'.2).map fun q => ((q.1, q.2, ()) : QPoint 2 ℝ Unit)) c hc
  simp only [Finset.sum_range_succ, Finset.sum_range_zero, hrow 0 (by decide), hrow 1 (by decide), hrow 2 (by decide), hx0, hx1] at hres
  generalize (((rule'.1.zip rule'.2).map fun q => ((q.1, q.2, ()) : QPoint 2 ℝ Unit)).map fun q => q.1).sum = w at hw hres
  have h3 : w * (1 + 2 * x 2) = 0 := by
    simp only [List.getD_cons_zero, List.getD_cons_succ] at hres
    linear_combination 4 * hres
  have := (mul_eq_zero.1 h3).resolve_left hw.ne'
  linarith

-- Concrete instances: three of the nine vertices of the 2 × 2 meshes of the unit square prescribed.
example : ∃ mesh space rule t, MeshUtil.unitSquareTriMesh (K := ℝ) 2 = some mesh ∧
    mesh.vertices.length = 9 ∧ meshSpace .tri3 mesh = some space ∧ stiffnessRule gaussExample .tri3 = some rule ∧
    Uniform.fromQuadratureAndData rule () = some t ∧
    Problem space mesh.vertices.length t.table (fun _ => (rule.1.zip rule.2).map fun q => (q.1, q.2, ())) (List.replicate 9 0) (laplace 2 ℝ)
      [0, 1, 2] ∧ Acute space (fun _ => (rule.1.zip rule.2).map fun q => (q.1, q.2, ())) :=
  C104_uniform_triangles gaussExample gaussExample_two rfl 1 one_pos 1 1 2 0 1 (by decide) (by decide) (by decide) [0, 1, 2] (by simp)
    (by decide) (List.replicate 9 0) rfl
example : ∃ space rule t, meshSpace .hex8 (Procedural.hexMesh (1 : ℝ) 1 1 1 1) = some space ∧ stiffnessRule gaussExample .hex8 = some rule ∧
    Uniform.fromQuadratureAndData rule () = some t ∧
    Problem space 8 t.table (fun _ => (rule.1.zip rule.2).map fun q => (q.1, q.2, ())) (List.replicate 8 0) (laplace 3 ℝ) [0] ∧
    Acute space (fun _ => (rule.1.zip rule.2).map fun q => (q.1, q.2, ())) := by
  obtain ⟨-, hlen, -⟩ := C18_hex_mesh_is_the_grid (1 : ℝ) 1 1 1 1 (by decide) (by decide) (by decide)
  have h8 : (Procedural.hexMesh (1 : ℝ) 1 1 1 1).vertices.length = 8 := hlen
  have := C104_hex_mesh gaussExample gaussExample_two rfl 1 one_pos 1 1 1 1 (by decide) (by decide) (by decide) (by decide)
    (Procedural.hexMesh (1 : ℝ) 1 1 1 1) rfl [0] (by simp) (by rw [h8]; decide) (List.replicate 8 0) (by rw [h8]; rfl)
  rw [h8] at this
  exact this
example : NonObtuse (![0, 0] : Point 2 ℝ) ![2, 0] ![1, 2] := by norm_num [NonObtuse, Fin.sum_univ_two]
example : ¬ NonObtuse (![-1, 1] : Point 2 ℝ) ![0, 0] ![1, 0] := by norm_num [NonObtuse, Fin.sum_univ_two]

end Meshes
end Fenris.MaximumPrinciple
