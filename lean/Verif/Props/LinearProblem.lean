import Verif.Spec.LinearProblem
import Verif.Props.EllipticAssembler
import Verif.Props.Dirichlet
import Verif.Props.CgWorkspace
/-! # C96: linear problems with prescribed values have one solution, and the solver finds it -/
set_option autoImplicit false
set_option linter.unusedSectionVars false

namespace Fenris.LinearProblem
open Fenris.Local Fenris.Local.Spec Fenris.PatchTest.Spec Fenris.LinearProblem.Spec Quadrature
open Fenris.Spec (matrixContribution entry SortsNodes Constrained Solves SolvesConstrained Stored)

variable {K : Type} [Field K] [LinearOrder K] [IsStrictOrderedRing K] {d s : Nat} {Param : Type} [Inhabited Param]

attribute [local instance] zeroFill

/-- The setting of a linear problem: a discretisation with positive weights; a linear, symmetric operator whose energy is not negative; and
nodes with prescribed values, all of them nodes of elements. -/
structure Setting (space : Space d K) (N : Nat) (table : Table (Point d K) K Param) (rules : Nat → List (QPoint d K Param)) (u : List K)
    (o : Operator d s K Param) (nodes : List Nat) : Prop where
  dim : 0 < s
  disc : Discretisation space N table rules u s
  nodup : ∀ en ∈ space, en.2.Nodup
  weights : ∀ e, e < space.length → ∀ q ∈ rules e, 0 < q.1
  linear : IsLinear o
  symmetric : o.symmetric = true
  law : SymmetryLaw o
  nonneg : ∀ e, e < space.length → ∀ q ∈ rules e, ∀ G, 0 ≤ density o q.2.2 G
  constrained : ∀ n ∈ nodes, ∃ en ∈ space, n ∈ en.2

/-- The data of a linear problem: moreover only the zero function has the prescribed values zero and no energy. -/
structure Problem (space : Space d K) (N : Nat) (table : Table (Point d K) K Param) (rules : Nat → List (QPoint d K Param)) (u : List K)
    (o : Operator d s K Param) (nodes : List Nat) : Prop extends Setting space N table rules u o nodes where
  definite : Definite space N rules o nodes

/-! ## The quadratic form of the assembled matrix -/

private theorem op_sum {o : Operator d s K Param} (h : IsLinear o) {ι : Type} (t : Finset ι) (c : ι → K)
    (G : ι → Matrix (Fin d) (Fin s) K) (param : Param) : o.op (∑ x ∈ t, c x • G x) param = ∑ x ∈ t, c x • o.op (G x) param := by
  let L : Matrix (Fin d) (Fin s) K →ₗ[K] Matrix (Fin d) (Fin s) K :=
    { toFun := fun G => o.op G param, map_add' := fun A B => h.add A B param, map_smul' := fun c A => h.smul c A param }
  change L _ = ∑ x ∈ t, c x • L (G x)
  rw [map_sum]
  exact Finset.sum_congr rfl fun x _ => L.map_smul _ _

/-- The contraction, summed over all pairs of basis functions, is the density of the gradient. -/
private theorem contract_sum {o : Operator d s K Param} (h : IsLinear o) {n : Nat} (g : Fin n → Point d K) (v : Fin n → Fin s → K)
    (G₀ : Matrix (Fin d) (Fin s) K) (param : Param) :
    ∑ I, ∑ i, ∑ J, ∑ j, v I i * o.contract G₀ (g I) (g J) param i j * v J j =
      density o param (Matrix.of fun k i => ∑ I, g I k * v I i) := by
  have hG : (Matrix.of fun k i => ∑ I, g I k * v I i : Matrix (Fin d) (Fin s) K) =
      ∑ x : Fin n × Fin s, v x.1 x.2 • (Matrix.of fun k' j' => if j' = x.2 then g x.1 k' else 0) := by
    ext k i
    rw [Matrix.sum_apply, Fintype.sum_prod_type]
    simp only [Matrix.of_apply, Matrix.smul_apply, smul_eq_mul]
    refine Finset.sum_congr rfl fun I _ => ?_
    simp only [mul_ite, mul_zero]
    rw [Finset.sum_ite_eq Finset.univ i, if_pos (Finset.mem_univ _), mul_comm]
  have hop : ∀ k i, o.op (Matrix.of fun k i => ∑ I, g I k * v I i) param k i =
      ∑ J, ∑ j, v J j * o.op (Matrix.of fun k' j' => if j' = j then g J k' else 0) param k i := by
    intro k i
    rw [hG, op_sum h, Matrix.sum_apply, Fintype.sum_prod_type]
    rfl
  unfold density
  simp only [hop, h.contract, Matrix.of_apply, Finset.sum_mul, Finset.mul_sum]
  -- both sides are sums over `k`, `i`, `I`, `J`, `j`
  have e1 : ∀ f : Fin n → Fin s → Fin n → Fin s → Fin d → K, (∑ I, ∑ i, ∑ J, ∑ j, ∑ k, f I i J j k) = ∑ k, ∑ i, ∑ I, ∑ J, ∑ j, f I i J j k := by
    intro f
    rw [Finset.sum_comm]
    conv_rhs => rw [Finset.sum_comm]
    refine Finset.sum_congr rfl fun i _ => ?_
    conv_rhs => rw [Finset.sum_comm]
    refine Finset.sum_congr rfl fun I _ => ?_
    conv_rhs => rw [Finset.sum_comm]
    refine Finset.sum_congr rfl fun J _ => ?_
    rw [Finset.sum_comm]
  rw [e1]
  refine Finset.sum_congr rfl fun k _ => Finset.sum_congr rfl fun i _ => Finset.sum_congr rfl fun I _ => Finset.sum_congr rfl fun J _ =>
    Finset.sum_congr rfl fun j _ => ?_
  ring

theorem localPart_getD (s : Nat) (u : List K) (nodes : List Nat) (a : Nat) (ha : a < nodes.length) (i : Fin s) :
    (localPart s u nodes).getD (s * a + i) 0 = u.getD (s * nodes[a] + i) 0 := by
  unfold localPart
  induction nodes generalizing a with
  | nil => simp at ha
  | cons n nodes ih =>
    rw [List.flatMap_cons]
    cases a with
    | zero =>
      rw [List.getD_eq_getElem?_getD, List.getElem?_append_left (by simp)]
      simp
    | succ a =>
      rw [List.getD_eq_getElem?_getD, List.getElem?_append_right (by simp [Nat.mul_succ]; omega),
        ← List.getD_eq_getElem?_getD]
      have e : s * (a + 1) + (i : Nat) - ((List.range s).map fun i => u.getD (s * n + i) 0).length = s * a + i := by
        simp [Nat.mul_succ]
        omega
      rw [e, ih a (by simpa using ha)]
      rfl

/-- The quadratic form of an element matrix given by its formula. -/
private theorem element_form {o : Operator d s K Param} (h : IsLinear o) (el : VolElement d K) (hel : WellFormed el)
    (nodes : List Nat) (hn : nodes.length = el.numNodes) (rule : List (QPoint d K Param)) (G₀ : Point d K → Matrix (Fin d) (Fin s) K)
    (A : Mat K) (hA : ∀ (I J : Nat) (i j : Fin s), I < nodes.length → J < nodes.length →
      A (s * I + i) (s * J + j) = quadSum el rule (fun p param => o.contract (G₀ p)
            (physGrad (el.jacobian p) ((el.gradients p)[I]?.getD 0)) (physGrad (el.jacobian p) ((el.gradients p)[J]?.getD 0)) param i j))
    (v : List K) :
    ∑ I : Fin nodes.length, ∑ i : Fin s, ∑ J : Fin nodes.length, ∑ j : Fin s,
      v.getD (s * nodes[I] + i) 0 * A (s * I + i) (s * J + j) * v.getD (s * nodes[J] + j) 0 =
    quadSum el rule fun p param => density o param (gradU s (el.jacobian p) (el.gradients p) (localPart s v nodes)) := by
  have hg : ∀ p, gradU s (el.jacobian p) (el.gradients p) (localPart s v nodes) =
      Matrix.of fun k (i : Fin s) => ∑ I : Fin nodes.length, physGrad (el.jacobian p) ((el.gradients p)[(I : Nat)]?.getD 0) k *
        v.getD (s * nodes[I] + i) 0 := by
    intro p
    have hlen : (el.gradients p).length = nodes.length := (hel p).2.trans hn.symm
    funext k i
    rw [gradU, Matrix.of_apply]
    apply Fintype.sum_equiv (finCongr hlen)
    intro I
    have hI : (I : Nat) < nodes.length := hlen ▸ I.2
    rw [localPart_getD s v nodes I hI]
    simp
  have hq : ∀ f : Point d K → Param → K, quadSum el rule f = (rule.map fun q => q.1 * |(el.jacobian q.2.1).det| * f q.2.1 q.2.2).sum := fun _ => rfl
  calc _ = ∑ I : Fin nodes.length, ∑ i : Fin s, ∑ J : Fin nodes.length, ∑ j : Fin s, quadSum el rule (fun p param =>
        v.getD (s * nodes[I] + i) 0 * o.contract (G₀ p) (physGrad (el.jacobian p) ((el.gradients p)[(I : Nat)]?.getD 0))
          (physGrad (el.jacobian p) ((el.gradients p)[(J : Nat)]?.getD 0)) param i j * v.getD (s * nodes[J] + j) 0) := by
        refine Finset.sum_congr rfl fun I _ => Finset.sum_congr rfl fun i _ => Finset.sum_congr rfl fun J _ => Finset.sum_congr rfl fun j _ => ?_
        rw [hA I J i j I.2 J.2, hq, hq, ← List.sum_map_mul_left, ← List.sum_map_mul_right]
        congr 1
        refine List.map_congr_left fun q _ => ?_
        ring
    _ = quadSum el rule (fun p param => ∑ I : Fin nodes.length, ∑ i : Fin s, ∑ J : Fin nodes.length, ∑ j : Fin s,
        v.getD (s * nodes[I] + i) 0 * o.contract (G₀ p) (physGrad (el.jacobian p) ((el.gradients p)[(I : Nat)]?.getD 0))
          (physGrad (el.jacobian p) ((el.gradients p)[(J : Nat)]?.getD 0)) param i j * v.getD (s * nodes[J] + j) 0) := by
        simp only [quadSum_finsetSum]
    _ = _ := by
        apply quadSum_congr
        intro p param
        rw [hg p]
        exact contract_sum h (fun I : Fin nodes.length => physGrad (el.jacobian p) ((el.gradients p)[(I : Nat)]?.getD 0))
          (fun I i => v.getD (s * nodes[I] + i) 0) (G₀ p) param

theorem contribution_form {N : Nat} (nodes : List Nat) (hb : ∀ n ∈ nodes, n < N) (A : Mat K) (v w : Nat → K) :
    ∑ r ∈ Finset.range (s * N), ∑ c ∈ Finset.range (s * N), v r * matrixContribution s nodes A r c * w c =
      ∑ I : Fin nodes.length, ∑ i : Fin s, ∑ J : Fin nodes.length, ∑ j : Fin s,
        v (s * nodes[I] + i) * A (s * I + i) (s * J + j) * w (s * nodes[J] + j) := by
  have hlt : ∀ (I : Fin nodes.length) (i : Fin s), s * nodes[I] + (i : Nat) ∈ Finset.range (s * N) := by
    intro I i
    have := hb _ (List.getElem_mem I.2)
    have h2 := Nat.mul_le_mul_left s (Nat.succ_le_of_lt this)
    rw [Nat.mul_succ] at h2
    have := i.2
    rw [Finset.mem_range]
    simp only [Fin.getElem_fin]
    omega
  unfold matrixContribution
  simp only [Finset.mul_sum, Finset.sum_mul]
  have e1 : ∀ f : Nat → Nat → Fin nodes.length → Fin s → Fin nodes.length → Fin s → K,
      (∑ r ∈ Finset.range (s * N), ∑ c ∈ Finset.range (s * N), ∑ I, ∑ i, ∑ J, ∑ j, f r c I i J j) =
        ∑ I, ∑ i, ∑ J, ∑ j, ∑ r ∈ Finset.range (s * N), ∑ c ∈ Finset.range (s * N), f r c I i J j := by
    intro f
    have h1 : ∀ {ι : Type} [Fintype ι] (g : Nat → Nat → ι → K), (∑ r ∈ Finset.range (s * N), ∑ c ∈ Finset.range (s * N), ∑ x, g r c x) =
        ∑ x, ∑ r ∈ Finset.range (s * N), ∑ c ∈ Finset.range (s * N), g r c x := by
      intro ι _ g
      calc _ = ∑ r ∈ Finset.range (s * N), ∑ x, ∑ c ∈ Finset.range (s * N), g r c x := Finset.sum_congr rfl fun r _ => Finset.sum_comm
        _ = _ := Finset.sum_comm
    rw [h1]
    refine Finset.sum_congr rfl fun I _ => ?_
    rw [h1]
    refine Finset.sum_congr rfl fun i _ => ?_
    rw [h1]
    refine Finset.sum_congr rfl fun J _ => ?_
    rw [h1]
  rw [e1]
  refine Finset.sum_congr rfl fun I _ => Finset.sum_congr rfl fun i _ => Finset.sum_congr rfl fun J _ => Finset.sum_congr rfl fun j _ => ?_
  rw [Finset.sum_eq_single_of_mem _ (hlt I i), Finset.sum_eq_single_of_mem _ (hlt J j)]
  · rw [if_pos ⟨rfl, rfl⟩]
  · intro c _ hc
    rw [if_neg (fun h => hc h.2.symm)]
    ring
  · intro r _ hr
    refine Finset.sum_eq_zero fun c _ => ?_
    rw [if_neg (fun h => hr h.1.symm)]
    ring

theorem contribution_symm (nodes : List Nat) (A : Mat K) (hA : ∀ (I J : Nat) (i j : Fin s), I < nodes.length → J < nodes.length →
      A (s * I + i) (s * J + j) = A (s * J + j) (s * I + i)) (r c : Nat) :
    matrixContribution s nodes A r c = matrixContribution s nodes A c r := by
  unfold matrixContribution
  have e1 : ∀ f : Fin nodes.length → Fin s → Fin nodes.length → Fin s → K, (∑ I, ∑ i, ∑ J, ∑ j, f I i J j) = ∑ J, ∑ j, ∑ I, ∑ i, f I i J j := by
    intro f
    rw [← Fintype.sum_prod_type' (f := fun I i => ∑ J, ∑ j, f I i J j), ← Fintype.sum_prod_type' (f := fun J j => ∑ I, ∑ i, f I i J j)]
    have h1 : ∀ x : Fin nodes.length × Fin s, (∑ J, ∑ j, f x.1 x.2 J j) = ∑ y : Fin nodes.length × Fin s, f x.1 x.2 y.1 y.2 :=
      fun x => (Fintype.sum_prod_type' (f := fun J j => f x.1 x.2 J j)).symm
    have h2 : ∀ y : Fin nodes.length × Fin s, (∑ I, ∑ i, f I i y.1 y.2) = ∑ x : Fin nodes.length × Fin s, f x.1 x.2 y.1 y.2 :=
      fun y => (Fintype.sum_prod_type' (f := fun I i => f I i y.1 y.2)).symm
    simp only [h1, h2]
    exact Finset.sum_comm
  rw [e1]
  refine Finset.sum_congr rfl fun J _ => Finset.sum_congr rfl fun j _ => Finset.sum_congr rfl fun I _ => Finset.sum_congr rfl fun i _ => ?_
  rw [hA I J i j I.2 J.2]
  exact if_congr and_comm rfl rfl

variable {space : Space d K} {N : Nat} {table : Table (Point d K) K Param} {rules : Nat → List (QPoint d K Param)} {u : List K}
  {o : Operator d s K Param} {nodes : List Nat}

/-- What the assembled matrix is like. -/
theorem assembled (h : Setting space N table rules u o nodes)
    (ord : List Nat → List Nat) (hord : ∀ l, (ord l).Perm l)
    (sortNodes : List (Nat × Nat) → List (Nat × Nat)) (hsort : SortsNodes sortNodes)
    (bufs : Nat → Buffer (Point d K) K Param) (outs : Nat → Mat K) (elemMat : Nat → Except String (Mat K))
    (hem : ∀ e, e < space.length → ∃ buf', elementMatrix space o table u (bufs e) (outs e) e = some (elemMat e, buf')) :
    ∃ m, Assembly.assemble ord sortNodes (conn s space N) elemMat = some (.ok m) ∧ Fenris.Spec.WellFormed m ∧ Fenris.Spec.Square m ∧
      Fenris.Spec.SymmetricPattern m ∧ m.rows.length = s * N ∧ (∀ r, Constrained s nodes r → Stored m r r) ∧
      (∀ r c, entry m r c = entry m c r) ∧
      ∀ v : List K, ∑ r ∈ Finset.range (s * N), ∑ c ∈ Finset.range (s * N), v.getD r 0 * entry m r c * v.getD c 0 =
        ∑ e : Fin space.length, quadSum (space[e]).1 (rules e) fun p param =>
          density o param (gradU s ((space[e]).1.jacobian p) ((space[e]).1.gradients p) (localPart s v (space[e]).2)) := by
  have hex : ∀ e, ∃ A : Mat K, ∀ he : e < space.length, elemMat e = .ok A ∧
      ∀ (I J : Nat) (i j : Fin s), I < (space[e]).2.length → J < (space[e]).2.length →
        A (s * I + i) (s * J + j) = quadSum (space[e]).1 (rules e) (fun p param =>
          o.contract (gradU s ((space[e]).1.jacobian p) ((space[e]).1.gradients p) (localPart s u (space[e]).2))
            (physGrad ((space[e]).1.jacobian p) (((space[e]).1.gradients p)[I]?.getD 0))
            (physGrad ((space[e]).1.jacobian p) (((space[e]).1.gradients p)[J]?.getD 0)) param i j) := by
    intro e
    by_cases he : e < space.length
    · have hg : space[e]? = some ((space[e]).1, (space[e]).2) := List.getElem?_eq_getElem he
      obtain ⟨A, b, h1, h2⟩ := C69_element_matrix space N table rules u h.disc o h.law (bufs e) (outs e) e _ _ hg
      obtain ⟨b', h3⟩ := hem e he
      rw [h1] at h3
      refine ⟨A, fun _ => ⟨?_, h2⟩⟩
      cases h4 : elemMat e with
      | error x => rw [h4] at h3; cases h3
      | ok B => rw [h4] at h3; cases h3; rfl
    · exact ⟨fun _ _ => 0, fun h => absurd h he⟩
  choose A hA using hex
  have hbn : Fenris.Spec.NodesInBounds (conn s space N) := by
    intro e he n hn
    obtain ⟨en, hen, rfl⟩ := List.mem_map.1 he
    exact h.disc.inBounds en hen n hn
  obtain ⟨m, h1, h2, h3, h4, h5, h6⟩ := C21_assemble_is_sum_of_contributions ord hord sortNodes hsort
    (conn s space N) h.dim hbn (by
      intro e he
      obtain ⟨en, hen, rfl⟩ := List.mem_map.1 he
      exact h.nodup en hen) elemMat A (fun e he => (hA e (by simpa [conn] using he)).1)
  have hbound : ∀ e ∈ (conn s space N).elements, ∀ j, j / s ∈ e → j < s * N := by
    intro e he j hj
    have := hbn e he _ hj
    rw [Nat.div_lt_iff_lt_mul h.dim] at this
    rwa [Nat.mul_comm] at this
  have hstored : ∀ r j, Stored m r j ↔ ∃ e ∈ (conn s space N).elements, r / s ∈ e ∧ j / s ∈ e := by
    intro r j
    constructor
    · rintro ⟨row, hr, hj⟩
      exact (h5 r row hr j).1 hj
    · rintro ⟨e, he, hr, hj⟩
      have hlt : r < m.rows.length := by rw [h3]; exact hbound e he r hr
      exact ⟨_, List.getElem?_eq_getElem hlt, (h5 r _ (List.getElem?_eq_getElem hlt) j).2 ⟨e, he, hr, hj⟩⟩
  have h6' : ∀ r c, entry m r c = ∑ e : Fin space.length, matrixContribution s (space[e]).2 (A e) r c := by
    intro r c
    rw [h6 r c]
    apply Fintype.sum_equiv (finCongr (by simp [conn]))
    intro e
    have hn : (conn s space N).elements[e] = (space[(e : Nat)]'(by simpa [conn] using e.2)).2 := List.getElem_map ..
    rw [hn]
    rfl
  refine ⟨m, h1, h2, ⟨h4.trans h3.symm, fun r j hs => ?_⟩, fun r j hs => ?_, h3, ?_, fun r c => ?_, fun v => ?_⟩
  · obtain ⟨e, he, _, hj⟩ := (hstored r j).1 hs
    rw [h4]
    exact hbound e he j hj
  · obtain ⟨e, he, hr, hj⟩ := (hstored r j).1 hs
    exact (hstored j r).2 ⟨e, he, hj, hr⟩
  · rintro r ⟨n, hn, i, hi, rfl⟩
    obtain ⟨en, hen, hne⟩ := h.constrained n hn
    have hdiv : (s * n + i) / s = n := by rw [Nat.mul_add_div h.dim, Nat.div_eq_of_lt hi, Nat.add_zero]
    exact (hstored _ _).2 ⟨en.2, List.mem_map.2 ⟨en, hen, rfl⟩, by rw [hdiv]; exact hne, by rw [hdiv]; exact hne⟩
  · rw [h6', h6']
    refine Finset.sum_congr rfl fun e _ => contribution_symm _ _ (fun I J i j hI hJ => ?_) r c
    have hf := (hA e e.2).2
    rw [hf I J i j hI hJ, hf J I j i hJ hI]
    apply quadSum_congr
    intro p param
    rw [h.law h.symmetric]
    rfl
  · simp only [h6', Finset.mul_sum, Finset.sum_mul]
    have hc : ∀ f : Nat → Nat → Fin space.length → K, (∑ r ∈ Finset.range (s * N), ∑ c ∈ Finset.range (s * N), ∑ e, f r c e) =
        ∑ e, ∑ r ∈ Finset.range (s * N), ∑ c ∈ Finset.range (s * N), f r c e := by
      intro f
      calc _ = ∑ r ∈ Finset.range (s * N), ∑ x, ∑ c ∈ Finset.range (s * N), f r c x := Finset.sum_congr rfl fun r _ => Finset.sum_comm
        _ = _ := Finset.sum_comm
    rw [hc]
    refine Finset.sum_congr rfl fun e _ => ?_
    have hmem : space[(e : Nat)] ∈ space := List.getElem_mem _
    rw [contribution_form (N := N) (space[e]).2 (fun n hn => h.disc.inBounds _ hmem n hn) (A e) (fun r => v.getD r 0) (fun r => v.getD r 0)]
    exact element_form h.linear (space[e]).1 (h.disc.wellFormed _ hmem) (space[e]).2 (h.disc.nodeCount _ hmem) (rules e) _ (A e)
      (hA e e.2).2 v

/-! ## The system with prescribed values -/

open Classical in
/-- The matrix after the boundary conditions, with the number on the diagonal. -/
private theorem conditioned (h : Setting space N table rules u o nodes) {m : Assembly.Csr K} (hwf : Fenris.Spec.WellFormed m)
    (hsq : Fenris.Spec.Square m) (hsym : Fenris.Spec.SymmetricPattern m) (hlen : m.rows.length = s * N)
    (hst : ∀ r, Constrained s nodes r → Stored m r r) :
    ∃ m' t, Assembly.dirichletCsr m nodes s = some m' ∧ 0 < t ∧ ∀ r c, entry m' r c =
      if Constrained s nodes r ∨ Constrained s nodes c then (if r = c then t else 0) else entry m r c := by
  obtain ⟨m', t, h1, -, h2, -, h3⟩ := Assembly.C25_csr_entries m nodes s hwf hsq hsym (fun r hr => by
    rw [hlen, ← hlen, ← hsq.1]
    exact hsq.2 r r (hst r hr))
  refine ⟨m', t, h1, h2, fun r c => ?_⟩
  rw [h3]
  by_cases hc : Constrained s nodes r ∨ Constrained s nodes c
  · rw [if_pos hc, if_pos hc]
    by_cases hrc : r = c
    · subst hrc
      rw [if_pos ⟨rfl, hst r (by tauto)⟩, if_pos rfl]
    · rw [if_neg (fun h => hrc h.1), if_neg hrc]
  · rw [if_neg hc, if_neg hc]

open Classical in
/-- The part of a vector that is not prescribed. -/
private noncomputable def free (s N : Nat) (nodes : List Nat) (w : Fin (s * N) → K) : List K :=
  List.ofFn fun i : Fin (s * N) => if Constrained s nodes i then 0 else w i

open Classical in
private theorem free_get (w : Fin (s * N) → K) (i : Fin (s * N)) :
    (free s N nodes w).getD i 0 = if Constrained s nodes i then 0 else w i := by
  rw [List.getD_eq_getElem?_getD, List.getElem?_eq_getElem (by simp [free])]
  simp [free]

private theorem free_constrained (w : Fin (s * N) → K) (r : Nat) (hr : Constrained s nodes r) : (free s N nodes w).getD r 0 = 0 := by
  classical
  by_cases hlt : r < s * N
  · have := free_get (nodes := nodes) w ⟨r, hlt⟩
    rw [if_pos hr] at this
    exact this
  · rw [List.getD_eq_getElem?_getD, List.getElem?_eq_none (by simp [free]; omega)]
    rfl

open Classical in
/-- The quadratic form of the matrix after the boundary conditions. -/
private theorem conditioned_form {m m' : Assembly.Csr K} {t : K} (g3 : ∀ r c, entry m' r c =
      if Constrained s nodes r ∨ Constrained s nodes c then (if r = c then t else 0) else entry m r c) (w : Fin (s * N) → K) :
    w ⬝ᵥ (Matrix.of fun i j : Fin (s * N) => entry m' i j).mulVec w =
        ∑ i : Fin (s * N), (if Constrained s nodes i then t * (w i * w i) else 0) +
          ∑ r ∈ Finset.range (s * N), ∑ c ∈ Finset.range (s * N), (free s N nodes w).getD r 0 * entry m r c * (free s N nodes w).getD c 0 := by
  rw [Finset.sum_range fun r => ∑ c ∈ Finset.range (s * N), (free s N nodes w).getD r 0 * entry m r c * (free s N nodes w).getD c 0,
    ← Finset.sum_add_distrib]
  simp only [dotProduct, Matrix.mulVec, Matrix.of_apply, Finset.sum_range, free_get, Finset.mul_sum]
  refine Finset.sum_congr rfl fun i _ => ?_
  by_cases hi : Constrained s nodes i
  · simp only [if_pos hi, zero_mul, Finset.sum_const_zero, add_zero]
    rw [Finset.sum_eq_single i]
    · rw [g3, if_pos (Or.inl hi), if_pos rfl]
      ring
    · intro j _ hj
      rw [g3, if_pos (Or.inl hi), if_neg (fun hc => hj (Fin.ext hc.symm))]
      ring
    · intro hi
      exact absurd (Finset.mem_univ _) hi
  · simp only [if_neg hi, zero_add]
    refine Finset.sum_congr rfl fun j _ => ?_
    rw [g3]
    by_cases hj : Constrained s nodes j
    · rw [if_pos (Or.inr hj), if_pos hj, if_neg (fun hc : (i : Nat) = j => hi (hc ▸ hj))]
      ring
    · rw [if_neg (by tauto), if_neg hj]
      ring

theorem energy_nonneg (h : Setting space N table rules u o nodes) (v : List K) (e : Fin space.length) :
    0 ≤ quadSum (space[e]).1 (rules e) fun p param =>
      density o param (gradU s ((space[e]).1.jacobian p) ((space[e]).1.gradients p) (localPart s v (space[e]).2)) := by
  apply List.sum_nonneg
  intro x hx
  obtain ⟨q, hq, rfl⟩ := List.mem_map.1 hx
  exact mul_nonneg (mul_nonneg (h.weights e e.2 q hq).le (abs_nonneg _)) (h.nonneg e e.2 q hq _)

private theorem energy_zero (h : Setting space N table rules u o nodes) (v : List K) {e : Nat} {en : VolElement d K × List Nat}
    (he : space[e]? = some en) (h0 : (quadSum en.1 (rules e) fun p param =>
      density o param (gradU s (en.1.jacobian p) (en.1.gradients p) (localPart s v en.2))) = 0) :
    ∀ q ∈ rules e, density o q.2.2 (gradU s (en.1.jacobian q.2.1) (en.1.gradients q.2.1) (localPart s v en.2)) = 0 := by
  intro q hq
  have hlt := (List.getElem?_eq_some_iff.1 he).1
  have h00 := List.all_zero_of_le_zero_le_of_sum_eq_zero (l := (rules e).map fun q : QPoint d K Param => q.1 * |(en.1.jacobian q.2.1).det| *
    density o q.2.2 (gradU s (en.1.jacobian q.2.1) (en.1.gradients q.2.1) (localPart s v en.2)))
    (fun x hx => by
      obtain ⟨q, hq, rfl⟩ := List.mem_map.1 hx
      exact mul_nonneg (mul_nonneg (h.weights e hlt q hq).le (abs_nonneg _)) (h.nonneg e hlt q hq _)) h0
    (List.mem_map.2 ⟨q, hq, rfl⟩)
  exact (mul_eq_zero.1 h00).resolve_left (mul_pos (h.weights e hlt q hq) (abs_pos.2 (h.disc.regular e en he q hq))).ne'

/-- **C96.** The matrix of a linear problem, assembled and with the prescribed values applied to it, is symmetric and positive definite. -/
theorem C96_system_is_spd (h : Problem space N table rules u o nodes)
    (ord : List Nat → List Nat) (hord : ∀ l, (ord l).Perm l)
    (sortNodes : List (Nat × Nat) → List (Nat × Nat)) (hsort : SortsNodes sortNodes)
    (bufs : Nat → Buffer (Point d K) K Param) (outs : Nat → Mat K) (elemMat : Nat → Except String (Mat K))
    (hem : ∀ e, e < space.length → ∃ buf', elementMatrix space o table u (bufs e) (outs e) e = some (elemMat e, buf')) :
    ∃ m m', Assembly.assemble ord sortNodes (conn s space N) elemMat = some (.ok m) ∧ Assembly.dirichletCsr m nodes s = some m' ∧
      Cg.Spd (Matrix.of fun i j : Fin (s * N) => entry m' i j) := by
  classical
  obtain ⟨m, h1, h2, h3, h4, h5, h6, h7, h8⟩ := assembled h.toSetting ord hord sortNodes hsort bufs outs elemMat hem
  obtain ⟨m', t, g1, g2, g3⟩ := conditioned h.toSetting h2 h3 h4 h5 h6
  refine ⟨m, m', h1, g1, ?_, fun w hw => ?_⟩
  · ext i j
    simp only [Matrix.transpose_apply, Matrix.of_apply, g3]
    rw [h7 j i]
    exact if_congr or_comm (if_congr eq_comm rfl rfl) rfl
  · have hn1 : ∀ i : Fin (s * N), 0 ≤ if Constrained s nodes i then t * (w i * w i) else 0 := by
      intro i
      split
      · exact mul_nonneg g2.le (mul_self_nonneg _)
      · exact le_refl _
    have hn2 := energy_nonneg h.toSetting (free s N nodes w)
    rw [conditioned_form g3, h8]
    have hA := Finset.sum_nonneg fun i (_ : i ∈ Finset.univ) => hn1 i
    have hB := Finset.sum_nonneg fun e (_ : e ∈ Finset.univ) => hn2 e
    by_contra hneg
    have hA0 := le_antisymm (by linarith) hA
    have hB0 := le_antisymm (by linarith) hB
    apply hw
    have hcon : ∀ i : Fin (s * N), Constrained s nodes i → w i = 0 := by
      intro i hi
      have := (Finset.sum_eq_zero_iff_of_nonneg fun i (_ : i ∈ Finset.univ) => hn1 i).1 hA0 i (Finset.mem_univ _)
      rw [if_pos hi] at this
      exact mul_self_eq_zero.1 ((mul_eq_zero.1 this).resolve_left g2.ne')
    have hz := h.definite (free s N nodes w) (by simp [free]) (free_constrained w) (by
      intro e en hen
      obtain ⟨he, rfl⟩ := List.getElem?_eq_some_iff.1 hen
      exact energy_zero h.toSetting _ hen
        ((Finset.sum_eq_zero_iff_of_nonneg fun e (_ : e ∈ Finset.univ) => hn2 e).1 hB0 ⟨e, he⟩ (Finset.mem_univ _)))
    funext i
    by_cases hi : Constrained s nodes i
    · exact hcon i hi
    · have := hz i
      rw [free_get w i, if_neg hi] at this
      exact this

/-- A form that is not negative vanishes only at vectors that the matrix annihilates. -/
private theorem psd_annihilates {n : Nat} {A : Matrix (Fin n) (Fin n) K} (hs : A.transpose = A) (hp : ∀ w, 0 ≤ w ⬝ᵥ A.mulVec w)
    {v : Fin n → K} (hv : v ⬝ᵥ A.mulVec v = 0) : A.mulVec v = 0 := by
  by_contra hne
  set w := A.mulVec v with hw
  have hsym : v ⬝ᵥ A.mulVec w = w ⬝ᵥ w := by
    rw [Matrix.dotProduct_mulVec, ← Matrix.mulVec_transpose, hs]
  have hb : 0 < w ⬝ᵥ w := by
    obtain ⟨i, hi⟩ := Function.ne_iff.1 hne
    exact Finset.sum_pos' (fun j _ => mul_self_nonneg _) ⟨i, Finset.mem_univ _, mul_self_pos.2 hi⟩
  have hc := hp w
  set b := w ⬝ᵥ w
  set c := w ⬝ᵥ A.mulVec w
  have key : ∀ t : K, 0 ≤ 2 * t * b + t * t * c := by
    intro t
    have := hp (v + t • w)
    rw [Matrix.mulVec_add, Matrix.mulVec_smul, add_dotProduct, dotProduct_add, dotProduct_add, hv, smul_dotProduct, smul_dotProduct,
      dotProduct_smul, dotProduct_smul, hsym, ← hw] at this
    simp only [smul_eq_mul] at this
    linarith
  have h1 : 0 < c + 1 := by linarith
  have h2 := key (-b / (c + 1))
  have h3 : 2 * (-b / (c + 1)) * b + -b / (c + 1) * (-b / (c + 1)) * c = -(b * b * (c + 2)) / ((c + 1) * (c + 1)) := by
    field_simp
    ring
  rw [h3] at h2
  have h4 : 0 < b * b * (c + 2) / ((c + 1) * (c + 1)) := by positivity
  rw [neg_div] at h2
  linarith

/-- **C96.** And this is necessary: if another function is zero at the nodes and has no energy, then no solution is the only one. -/
theorem C96_definite_is_necessary (h : Setting space N table rules u o nodes) (hnot : ¬ Definite space N rules o nodes)
    (ord : List Nat → List Nat) (hord : ∀ l, (ord l).Perm l)
    (sortNodes : List (Nat × Nat) → List (Nat × Nat)) (hsort : SortsNodes sortNodes)
    (bufs : Nat → Buffer (Point d K) K Param) (outs : Nat → Mat K) (elemMat : Nat → Except String (Mat K))
    (hem : ∀ e, e < space.length → ∃ buf', elementMatrix space o table u (bufs e) (outs e) e = some (elemMat e, buf')) :
    ∃ m, Assembly.assemble ord sortNodes (conn s space N) elemMat = some (.ok m) ∧
      ∀ rhs x : List K, x.length = s * N → SolvesConstrained (s * N) s nodes (entry m) (fun r => rhs.getD r 0) (fun r => x.getD r 0) →
        ∃ y : List K, y.length = s * N ∧ y ≠ x ∧
          SolvesConstrained (s * N) s nodes (entry m) (fun r => rhs.getD r 0) (fun r => y.getD r 0) := by
  obtain ⟨m, h1, h2, h3, h4, h5, h6, h7, h8⟩ := assembled h ord hord sortNodes hsort bufs outs elemMat hem
  refine ⟨m, h1, fun rhs x hx hsol => ?_⟩
  unfold Definite at hnot
  push Not at hnot
  obtain ⟨v, hv, hcon, hen, r, hr⟩ := hnot
  have hform : ∀ w : Fin (s * N) → K, w ⬝ᵥ (Matrix.of fun i j : Fin (s * N) => entry m i j).mulVec w =
      ∑ e : Fin space.length, quadSum (space[e]).1 (rules e) fun p param =>
        density o param (gradU s ((space[e]).1.jacobian p) ((space[e]).1.gradients p) (localPart s (List.ofFn w) (space[e]).2)) := by
    intro w
    rw [← h8, Finset.sum_range]
    have hg : ∀ i : Fin (s * N), (List.ofFn w).getD i 0 = w i := fun i => by
      rw [List.getD_eq_getElem?_getD, List.getElem?_eq_getElem (by simp)]
      simp
    simp only [Finset.sum_range, hg, dotProduct, Matrix.mulVec, Matrix.of_apply, Finset.mul_sum]
    exact Finset.sum_congr rfl fun i _ => Finset.sum_congr rfl fun j _ => by ring
  have hvv : List.ofFn (fun i : Fin (s * N) => v.getD i 0) = v := by
    apply List.ext_getElem (by simp [hv])
    intro i hi hi'
    simp [List.getD_eq_getElem?_getD, List.getElem?_eq_getElem hi']
  have hAv := psd_annihilates (A := Matrix.of fun i j : Fin (s * N) => entry m i j) (v := fun i => v.getD i 0)
    (by ext i j; exact h7 j i) (fun w => by rw [hform]; exact Finset.sum_nonneg fun e _ => energy_nonneg h _ e) (by
      rw [hform, hvv]
      refine Finset.sum_eq_zero fun e _ => List.sum_eq_zero fun x hx => ?_
      obtain ⟨q, hq, rfl⟩ := List.mem_map.1 hx
      exact mul_eq_zero_of_right _ (hen e _ (List.getElem?_eq_getElem e.2) q hq))
  have hrow : ∀ r, r < s * N → ∑ c ∈ Finset.range (s * N), entry m r c * v.getD c 0 = 0 := by
    intro r hr
    have := congrFun hAv ⟨r, hr⟩
    rw [Finset.sum_range]
    exact this
  have hlt : r < s * N := by
    by_contra hge
    rw [List.getD_eq_getElem?_getD, List.getElem?_eq_none (by omega)] at hr
    exact hr rfl
  have hget : ∀ c, (List.ofFn fun i : Fin (s * N) => x.getD i 0 + v.getD i 0).getD c 0 = x.getD c 0 + v.getD c 0 := by
    intro c
    by_cases hc : c < s * N
    · rw [List.getD_eq_getElem?_getD, List.getElem?_eq_getElem (by simpa using hc)]
      simp
    · rw [List.getD_eq_getElem?_getD, List.getElem?_eq_none (by simp; omega), List.getD_eq_getElem?_getD,
        List.getElem?_eq_none (by omega), List.getD_eq_getElem?_getD, List.getElem?_eq_none (by omega)]
      simp
  refine ⟨List.ofFn fun i : Fin (s * N) => x.getD i 0 + v.getD i 0, by simp, fun hxy => ?_, fun r hr hc => ?_, fun r hr hc => ?_⟩
  · have := hget r
    rw [hxy] at this
    exact hr (by linarith)
  · simp only [hget]
    rw [hcon r hc, add_zero]
    exact hsol.1 r hr hc
  · simp only [hget, mul_add, Finset.sum_add_distrib]
    rw [hrow r hr, add_zero]
    exact hsol.2 r hr hc

theorem solves_iff_mulVec {n : Nat} (A : Nat → Nat → K) (b : Nat → K) (x : Nat → K) :
    Solves n A b x ↔ (Matrix.of fun i j : Fin n => A i j).mulVec (fun i : Fin n => x i) = fun i : Fin n => b i := by
  constructor
  · intro h
    funext i
    have := h i i.2
    rw [Finset.sum_range] at this
    exact this
  · intro h r hr
    rw [Finset.sum_range]
    exact congrFun h ⟨r, hr⟩

theorem spd_injective {n : Nat} {A : Matrix (Fin n) (Fin n) K} (hA : Cg.Spd A) {x y : Fin n → K} (h : A.mulVec x = A.mulVec y) : x = y := by
  by_contra hne
  have := hA.2 (x - y) (sub_ne_zero.2 hne)
  rw [Matrix.mulVec_sub, h, sub_self, dotProduct_zero] at this
  exact lt_irrefl _ this

private theorem spd_one {n : Nat} : Cg.Spd (1 : Matrix (Fin n) (Fin n) K) := by
  refine ⟨Matrix.transpose_one, fun v hv => ?_⟩
  rw [Matrix.one_mulVec]
  obtain ⟨i, hi⟩ := Function.ne_iff.1 hv
  exact Finset.sum_pos' (fun j _ => mul_self_nonneg _) ⟨i, Finset.mem_univ _, mul_self_pos.2 hi⟩

/-- The conjugate gradient solver on a symmetric positive definite sparse matrix, without preconditioner. -/
theorem cg_solves_spd {E : Type} {n : Nat} (m' : Assembly.Csr K) (hspd : Cg.Spd (Matrix.of fun i j : Fin n => entry m' i j)) (b : Fin n → K)
    (norm : List K → K) (hpos : ∀ v, 0 ≤ norm v) (hnorm : ∀ v, norm v = 0 ↔ ∀ a ∈ v, a = 0) (tol : K) (htol : 0 ≤ tol)
    (w : CgBuffers.Workspace K) (x₀ : Fin n → K) :
    ∃ (x : Fin n → K) (k : Nat), (CgBuffers.solveWithGuess (E := E) ⟨CgBuffers.csrOperator 0 1 (fullRows n m'), CgBuffers.identityOperator,
        CgBuffers.relativeResidual norm tol, none, norm⟩ (n + 1) w (List.ofFn b) (List.ofFn x₀)).map Prod.fst =
        .done ⟨List.ofFn x, k, .ok ()⟩ ∧ k ≤ n ∧
      norm (List.ofFn (b - (Matrix.of fun i j : Fin n => entry m' i j).mulVec x)) ≤ tol * norm (List.ofFn b) := by
  set A := (Matrix.of fun i j : Fin n => entry m' i j) with hA
  have hn : ∀ v : Cg.Vec n K, norm (List.ofFn v) = 0 ↔ v = 0 := by
    intro v
    rw [hnorm]
    constructor
    · intro hv
      funext i
      exact hv _ (List.mem_ofFn.2 ⟨i, rfl⟩)
    · rintro rfl a ha
      obtain ⟨i, rfl⟩ := List.mem_ofFn.1 ha
      rfl
  obtain ⟨x, k, hx, hk⟩ := Cg.C31_spd_converges_within_dimension (E := E) A 1 hspd spd_one (fun v => norm (List.ofFn v)) hn (fun v => hpos _)
    tol htol none (by simp) b x₀
  refine ⟨x, k, ?_, hk, ?_⟩
  · have hsame : CgBuffers.Spec.SameSolver n (E := E) ⟨CgBuffers.csrOperator 0 1 (fullRows n m'),
          CgBuffers.identityOperator, CgBuffers.relativeResidual norm tol, none, norm⟩
        ⟨Cg.matrixOperator A, Cg.matrixOperator 1, Cg.relativeResidual (fun v => norm (List.ofFn v)) tol, none,
          fun v => norm (List.ofFn v)⟩ := by
      refine ⟨(CgBuffers.C95_shipped_operators A).2.1, ?_, fun _ _ _ _ _ => rfl, rfl, fun _ => rfl⟩
      have hid : (Cg.matrixOperator 1 : Nat → Cg.Vec n K → Except E (Cg.Vec n K)) = Cg.identityOperator := by
        funext _ v
        simp [Cg.matrixOperator, Cg.identityOperator]
      rw [hid]
      exact (CgBuffers.C95_shipped_operators A).2.2
    exact (CgBuffers.C95_refines hsame (n + 1) w b x₀).1 _ hx
  · rcases Cg.C30_ok_means_criterion_held _ _ _ _ _ _ hx with ⟨h0, rfl, -⟩ | ⟨xs, r, z, p, hit, rfl, hconv⟩
    · rw [Matrix.mulVec_zero, sub_zero]
      change norm (List.ofFn b) = 0 at h0
      rw [h0, mul_zero]
    · simp only [Cg.relativeResidual, Except.ok.injEq, decide_eq_true_eq] at hconv
      rw [← Cg.C31_maintained_residual_is_true_residual A _ b x₀ k xs r z p hit k (le_refl _)]
      exact hconv

/-- **C96.** Assembly, boundary conditions and solver together: for every right-hand side the system has exactly one solution, and it is
the only function that has the prescribed values zero and satisfies the other equations. The conjugate gradient solver, with the CSR
matrix as it is, without preconditioner, with any workspace and any guess, returns `Ok` after at most as many iterations as there are
degrees of freedom, with a residual within the tolerance. With tolerance zero it returns the solution. -/
theorem C96_solve {E : Type} (h : Problem space N table rules u o nodes)
    (ord : List Nat → List Nat) (hord : ∀ l, (ord l).Perm l)
    (sortNodes : List (Nat × Nat) → List (Nat × Nat)) (hsort : SortsNodes sortNodes)
    (bufs : Nat → Buffer (Point d K) K Param) (outs : Nat → Mat K) (elemMat : Nat → Except String (Mat K))
    (hem : ∀ e, e < space.length → ∃ buf', elementMatrix space o table u (bufs e) (outs e) e = some (elemMat e, buf'))
    (rhs : List K) (hrhs : rhs.length = s * N) :
    ∃ m m' rhs', Assembly.assemble ord sortNodes (conn s space N) elemMat = some (.ok m) ∧ Assembly.dirichletCsr m nodes s = some m' ∧
      Assembly.dirichletRhs rhs nodes s = some rhs' ∧ rhs'.length = s * N ∧
      (∃ x : List K, x.length = s * N ∧ ∀ y : List K, y.length = s * N →
        (SolvesConstrained (s * N) s nodes (entry m) (fun r => rhs.getD r 0) (fun r => y.getD r 0) ↔ y = x)) ∧
      ∀ (norm : List K → K), (∀ v, 0 ≤ norm v) → (∀ v, norm v = 0 ↔ ∀ a ∈ v, a = 0) →
      ∀ (tol : K), 0 ≤ tol → ∀ (w : CgBuffers.Workspace K) (guess : List K), guess.length = s * N →
        ∃ x k, (CgBuffers.solveWithGuess (E := E) ⟨CgBuffers.csrOperator 0 1 (fullRows (s * N) m'), CgBuffers.identityOperator,
            CgBuffers.relativeResidual norm tol, none, norm⟩ (s * N + 1) w rhs' guess).map Prod.fst = .done ⟨x, k, .ok ()⟩ ∧
          k ≤ s * N ∧ x.length = s * N ∧
          norm ((List.range (s * N)).map fun r => rhs'.getD r 0 - ∑ c ∈ Finset.range (s * N), entry m' r c * x.getD c 0) ≤
            tol * norm rhs' ∧
          (tol = 0 → SolvesConstrained (s * N) s nodes (entry m) (fun r => rhs.getD r 0) (fun r => x.getD r 0)) := by
  obtain ⟨m, h1, h2, h3, h4, h5, h6, -, -⟩ := assembled h.toSetting ord hord sortNodes hsort bufs outs elemMat hem
  obtain ⟨m₁, m', h1', g1, hspd⟩ := C96_system_is_spd h ord hord sortNodes hsort bufs outs elemMat hem
  rw [h1] at h1'
  obtain rfl : m = m₁ := by injection h1' with h1'; injection h1'
  have hin : ∀ r, Constrained s nodes r → r < m.rows.length := fun r hr => by
    rw [← h3.1]
    exact h3.2 r r (h6 r hr)
  obtain ⟨m₂, rhs', g2, g3, hsol⟩ := Assembly.C25_csr_solutions m rhs nodes s h2 h3 h4 (hrhs.trans h5.symm) hin h6
  rw [g1] at g2
  obtain rfl := Option.some.inj g2
  obtain ⟨rhs₁, g3', hl, -, -⟩ := Assembly.C25_rhs_entries rhs nodes s (fun r hr => by rw [hrhs, ← h5]; exact hin r hr)
  rw [g3] at g3'
  obtain rfl := Option.some.inj g3'
  rw [h5] at hsol
  have hl' : rhs'.length = s * N := hl.trans hrhs
  set A := (Matrix.of fun i j : Fin (s * N) => entry m' i j) with hA
  set b : Fin (s * N) → K := fun i => rhs'.getD i 0 with hb
  have hbl : rhs' = List.ofFn b := by
    apply List.ext_getElem (by simp [hl'])
    intro i hi hi'
    simp [hb, List.getD_eq_getElem?_getD, List.getElem?_eq_getElem hi]
  -- the solver on vectors, for any norm and tolerance
  have key : ∀ (norm : List K → K), (∀ v, 0 ≤ norm v) → (∀ v, norm v = 0 ↔ ∀ a ∈ v, a = 0) →
      ∀ (tol : K), 0 ≤ tol → ∀ (w : CgBuffers.Workspace K) (x₀ : Fin (s * N) → K),
        ∃ (x : Fin (s * N) → K) (k : Nat), (CgBuffers.solveWithGuess (E := E) ⟨CgBuffers.csrOperator 0 1 (fullRows (s * N) m'),
            CgBuffers.identityOperator, CgBuffers.relativeResidual norm tol, none, norm⟩ (s * N + 1) w rhs' (List.ofFn x₀)).map Prod.fst =
            .done ⟨List.ofFn x, k, .ok ()⟩ ∧ k ≤ s * N ∧ norm (List.ofFn (b - A.mulVec x)) ≤ tol * norm rhs' := by
    intro norm hpos hnorm tol htol w x₀
    rw [hbl]
    exact cg_solves_spd m' hspd b norm hpos hnorm tol htol w x₀
  have hvec : ∀ y : List K, y.length = s * N → y = List.ofFn fun i : Fin (s * N) => y.getD i 0 := by
    intro y hy
    apply List.ext_getElem (by simp [hy])
    intro i hi hi'
    simp [List.getD_eq_getElem?_getD, List.getElem?_eq_getElem hi]
  have hget : ∀ (x : Fin (s * N) → K) (i : Fin (s * N)), (List.ofFn x).getD i 0 = x i := by
    intro x i
    rw [List.getD_eq_getElem?_getD, List.getElem?_eq_getElem (by simp)]
    simp
  have hsolves : ∀ x : Fin (s * N) → K, SolvesConstrained (s * N) s nodes (entry m) (fun r => rhs.getD r 0) (fun r => (List.ofFn x).getD r 0) ↔
      A.mulVec x = b := by
    intro x
    rw [← hsol, solves_iff_mulVec]
    simp only [hget]
    rfl
  refine ⟨m, m', rhs', h1, g1, g3, hl', ?_, ?_⟩
  · -- some norm with values in the field
    obtain ⟨x, k, -, -, hx⟩ := key (fun v => (v.map fun a => |a|).sum) (fun v => List.sum_nonneg (by simp)) (by
      intro v
      constructor
      · intro h0 a ha
        have := List.all_zero_of_le_zero_le_of_sum_eq_zero (l := v.map fun a => |a|) (by simp) h0 (List.mem_map.2 ⟨a, ha, rfl⟩)
        exact abs_eq_zero.1 this
      · intro h0
        apply List.sum_eq_zero
        intro x hx
        obtain ⟨a, ha, rfl⟩ := List.mem_map.1 hx
        rw [h0 a ha, abs_zero]) 0 (le_refl _) CgBuffers.Workspace.default 0
    have hx0 : A.mulVec x = b := by
      rw [zero_mul] at hx
      have h0 := le_antisymm hx (List.sum_nonneg (by simp))
      funext i
      have := List.all_zero_of_le_zero_le_of_sum_eq_zero (l := (List.ofFn (b - A.mulVec x)).map fun a => |a|) (by simp) h0
        (List.mem_map.2 ⟨_, List.mem_ofFn.2 ⟨i, rfl⟩, rfl⟩)
      have := abs_eq_zero.1 this
      rw [Pi.sub_apply, sub_eq_zero] at this
      exact this.symm
    refine ⟨List.ofFn x, by simp, fun y hy => ?_⟩
    rw [hvec y hy, hsolves]
    constructor
    · intro hy'
      rw [spd_injective hspd (hy'.trans hx0.symm)]
    · intro hy'
      rw [List.ofFn_injective hy']
      exact hx0
  · intro norm hpos hnorm tol htol w guess hguess
    obtain ⟨x, k, hx, hk, hr⟩ := key norm hpos hnorm tol htol w (fun i => guess.getD i 0)
    rw [← hvec guess hguess] at hx
    refine ⟨List.ofFn x, k, hx, hk, by simp, ?_, fun h0 => ?_⟩
    · have e : ((List.range (s * N)).map fun r => rhs'.getD r 0 - ∑ c ∈ Finset.range (s * N), entry m' r c * (List.ofFn x).getD c 0) =
          List.ofFn (b - A.mulVec x) := by
        apply List.ext_getElem (by simp)
        intro i hi hi'
        simp only [List.getElem_map, List.getElem_range, List.getElem_ofFn, Pi.sub_apply, hb]
        congr 1
        rw [Finset.sum_range]
        simp only [hget]
        rfl
      rw [e]
      exact hr
    · rw [hsolves]
      rw [h0, zero_mul] at hr
      have h00 := (hnorm _).1 (le_antisymm hr (hpos _))
      funext i
      have := h00 _ (List.mem_ofFn.2 ⟨i, rfl⟩)
      rw [Pi.sub_apply, sub_eq_zero] at this
      exact this.symm

end Fenris.LinearProblem
