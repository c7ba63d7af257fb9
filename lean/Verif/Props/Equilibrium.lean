import Verif.Spec.Equilibrium
import Verif.Props.Elasticity
import Verif.Props.MassAssembler
/-! # C105: the forces a body exerts on itself are in balance -/
set_option autoImplicit false
set_option linter.unusedSectionVars false

namespace Fenris.Equilibrium
open Fenris.Element Fenris.Local Fenris.Local.Spec Fenris.PatchTest Fenris.PatchTest.Spec Fenris.LinearProblem Fenris.LinearProblem.Spec Quadrature
open Fenris.Surface Fenris.Surface.Spec Fenris.Elasticity Fenris.Elasticity.Spec Fenris.Solid Fenris.Mass Fenris.Mass.Spec Fenris.Equilibrium.Spec
open Fenris.Spec (vectorContribution)

variable {K : Type} [Field K] [LinearOrder K] [IsStrictOrderedRing K] {d s : Nat} {Param : Type} [Inhabited Param]

attribute [local instance] zeroFill

/-! ## Virtual work -/

theorem gradU_entry (el : VolElement d K) (hel : WellFormed el) (nodes : List Nat) (hn : nodes.length = el.numNodes) (v : List K)
    (p : Point d K) (k : Fin d) (i : Fin s) : gradU s (el.jacobian p) (el.gradients p) (localPart s v nodes) k i =
      ∑ I : Fin nodes.length, physGrad (el.jacobian p) ((el.gradients p)[(I : Nat)]?.getD 0) k * v.getD (s * nodes[I] + i) 0 := by
  have hlen : (el.gradients p).length = nodes.length := (hel p).2.trans hn.symm
  rw [gradU]
  apply Fintype.sum_equiv (finCongr hlen)
  intro I
  have hI : (I : Nat) < nodes.length := hlen ▸ I.2
  rw [localPart_getD s v nodes I hI]
  simp

/-- **C105.** The vector an elliptic operator assembles does virtual work: for every vector `v` the number `vᵀ f` is the sum over the elements
of the quadrature of the operator against the gradient of the function with the nodal values `v`. -/
theorem C105_virtual_work {space : Space d K} {N : Nat} {table : Table (Point d K) K Param} {rules : Nat → List (QPoint d K Param)} {u : List K}
    (h : Discretisation space N table rules u s) (o : Operator d s K Param) (bufs : Nat → Buffer (Point d K) K Param) (outs : Nat → Nat → K)
    (elemVec : Nat → Except String (Nat → K))
    (hev : ∀ e, e < space.length → ∃ buf', elementVector space o table u (bufs e) (outs e) e = some (elemVec e, buf')) :
    ∃ f, Assembly.assembleVector (conn s space N) elemVec = some (.ok f) ∧ f.length = s * N ∧
      ∀ v : List K, ∑ r ∈ Finset.range (s * N), v.getD r 0 * f.getD r 0 =
        ∑ e : Fin space.length, quadSum (space[e]).1 (rules e) fun p param => ∑ k, ∑ i,
          o.op (gradU s ((space[e]).1.jacobian p) ((space[e]).1.gradients p) (localPart s u (space[e]).2)) param k i *
            gradU s ((space[e]).1.jacobian p) ((space[e]).1.gradients p) (localPart s v (space[e]).2) k i := by
  have hex : ∀ e, ∃ f : Nat → K, ∀ (he : e < space.length) (I : Nat) (i : Fin s), I < (space[e]).2.length →
      f (s * I + i) = quadSum (space[e]).1 (rules e) (fun p param =>
        ∑ k, o.op (gradU s ((space[e]).1.jacobian p) ((space[e]).1.gradients p) (localPart s u (space[e]).2)) param k i *
          physGrad ((space[e]).1.jacobian p) (((space[e]).1.gradients p)[I]?.getD 0) k) := by
    intro e
    by_cases hs : 0 < s
    · by_cases he : e < space.length
      · refine ⟨fun r => quadSum (space[e]).1 (rules e) (fun p param =>
          ∑ k, o.op (gradU s ((space[e]).1.jacobian p) ((space[e]).1.gradients p) (localPart s u (space[e]).2)) param k ⟨r % s, Nat.mod_lt _ hs⟩ *
            physGrad ((space[e]).1.jacobian p) (((space[e]).1.gradients p)[r / s]?.getD 0) k), fun _ I i _ => ?_⟩
        have e1 : (⟨(s * I + i) % s, Nat.mod_lt _ hs⟩ : Fin s) = i := Fin.ext ((Nat.mul_add_mod ..).trans (Nat.mod_eq_of_lt i.2))
        have e2 : (s * I + (i : Nat)) / s = I := by rw [Nat.mul_add_div hs, Nat.div_eq_of_lt i.2, Nat.add_zero]
        beta_reduce
        rw [e1, e2]
      · exact ⟨fun _ => 0, fun h => absurd h he⟩
    · exact ⟨fun _ => 0, fun _ _ i => absurd (Nat.lt_of_le_of_lt (Nat.zero_le _) i.2) hs⟩
  choose f hf using hex
  have h1 := C69_global_vector space N table rules u h o bufs outs elemVec hev f (by
    intro e el nodes hg I i hI
    obtain ⟨he, hg'⟩ := List.getElem?_eq_some_iff.1 hg
    have := hf e he I i (by rw [hg']; exact hI)
    rw [hg'] at this
    exact this)
  refine ⟨_, h1, by simp, fun v => ?_⟩
  have hent : ∀ r ∈ Finset.range (s * N), v.getD r 0 * ((List.range (s * N)).map (fun r =>
      ∑ e : Fin space.length, vectorContribution s (space[e]).2 (f e) r)).getD r 0 =
      ∑ e : Fin space.length, v.getD r 0 * vectorContribution s (space[e]).2 (f e) r := by
    intro r hr
    rw [getD_map_range _ (Finset.mem_range.1 hr), Finset.mul_sum]
  rw [Finset.sum_congr rfl hent, Finset.sum_comm]
  refine Finset.sum_congr rfl fun e _ => ?_
  have hmem : space[(e : Nat)] ∈ space := List.getElem_mem _
  rw [vector_form (N := N) (space[e]).2 (fun n hn => h.inBounds _ hmem n hn) (f e) (fun r => v.getD r 0)]
  have e1 : ∀ (I : Fin (space[e]).2.length) (i : Fin s), v.getD (s * (space[e]).2[I] + i) 0 * f e (s * I + i) =
      quadSum (space[e]).1 (rules e) (fun p param => ∑ k,
        o.op (gradU s ((space[e]).1.jacobian p) ((space[e]).1.gradients p) (localPart s u (space[e]).2)) param k i *
          (physGrad ((space[e]).1.jacobian p) (((space[e]).1.gradients p)[(I : Nat)]?.getD 0) k * v.getD (s * (space[e]).2[I] + i) 0)) := by
    intro I i
    rw [hf e e.2 I i I.2, quadSum_mul_left']
    apply quadSum_congr
    intro p q
    rw [Finset.mul_sum]
    refine Finset.sum_congr rfl fun k _ => ?_
    simp only [Fin.getElem_fin]
    ring
  simp only [e1, quadSum_finsetSum]
  apply quadSum_congr
  intro p q
  rw [Finset.sum_comm, Finset.sum_comm (s := (Finset.univ : Finset (Fin d)))]
  refine Finset.sum_congr rfl fun i _ => ?_
  rw [Finset.sum_comm]
  refine Finset.sum_congr rfl fun k _ => ?_
  rw [gradU_entry (space[e]).1 (h.wellFormed _ hmem) (space[e]).2 (h.nodeCount _ hmem), Finset.mul_sum]

/-! ## Forces -/

theorem sum_nodes (s N : Nat) (f : Nat → K) : ∑ r ∈ Finset.range (s * N), f r = ∑ n ∈ Finset.range N, ∑ k : Fin s, f (s * n + k) := by
  rw [Finset.sum_range f, Finset.sum_range fun n => ∑ k : Fin s, f (s * n + k),
    ← Equiv.sum_comp (finProdFinEquiv (m := N) (n := s) |>.trans (finCongr (Nat.mul_comm N s))), Fintype.sum_prod_type]
  refine Finset.sum_congr rfl fun n _ => Finset.sum_congr rfl fun k _ => ?_
  have e : ((finProdFinEquiv (m := N) (n := s) |>.trans (finCongr (Nat.mul_comm N s))) (n, k) : Nat) = s * n + k := by
    simp [finProdFinEquiv, Nat.add_comm]
  rw [e]

private theorem index_lt {s n N : Nat} (hn : n < N) (k : Fin s) : s * n + k < s * N := by
  have h1 : s * (n + 1) ≤ s * N := Nat.mul_le_mul_left _ hn
  have := k.2
  rw [Nat.mul_succ] at h1
  omega

/-- The vector of given values at the nodes. -/
private def nodal (s N : Nat) (w : Nat → Fin s → K) : List K :=
  (List.range (s * N)).map fun r => if h : 0 < s then w (r / s) ⟨r % s, Nat.mod_lt r h⟩ else 0

private theorem nodal_getD (s N : Nat) (w : Nat → Fin s → K) (n : Nat) (hn : n < N) (k : Fin s) : (nodal s N w).getD (s * n + k) 0 = w n k := by
  have hs : 0 < s := Nat.lt_of_le_of_lt (Nat.zero_le _) k.2
  unfold nodal
  rw [getD_map_range _ (index_lt hn k), dif_pos hs]
  have e1 : (⟨(s * n + k) % s, Nat.mod_lt _ hs⟩ : Fin s) = k := Fin.ext ((Nat.mul_add_mod ..).trans (Nat.mod_eq_of_lt k.2))
  have e2 : (s * n + (k : Nat)) / s = n := by rw [Nat.mul_add_div hs, Nat.div_eq_of_lt k.2, Nat.add_zero]
  rw [e1, e2]

theorem quadSum_congr_mem (el : VolElement d K) (rule : List (QPoint d K Param)) (f g : Point d K → Param → K)
    (h : ∀ q ∈ rule, f q.2.1 q.2.2 = g q.2.1 q.2.2) : quadSum el rule f = quadSum el rule g := by
  unfold quadSum
  congr 1
  refine List.map_congr_left fun q hq => ?_
  rw [h q hq]

private theorem quadSum_zero (el : VolElement d K) (rule : List (QPoint d K Param)) : quadSum el rule (fun _ _ => 0) = 0 := by
  simp [quadSum]

/-- The work of the forces on displacements of the nodes. -/
theorem work {space : Space d K} {N : Nat} {table : Table (Point d K) K Param} {rules : Nat → List (QPoint d K Param)} {u : List K}
    (h : Discretisation space N table rules u s) (o : Operator d s K Param) (bufs : Nat → Buffer (Point d K) K Param) (outs : Nat → Nat → K)
    (elemVec : Nat → Except String (Nat → K))
    (hev : ∀ e, e < space.length → ∃ buf', elementVector space o table u (bufs e) (outs e) e = some (elemVec e, buf')) (f : List K)
    (hf : Assembly.assembleVector (conn s space N) elemVec = some (.ok f)) (w : Nat → Fin s → K) (g : VolElement d K × List Nat → Point d K → Param → K)
    (hw : ∀ (e : Nat) (en : VolElement d K × List Nat), space[e]? = some en → ∀ q ∈ rules e, ∑ k, ∑ i,
      o.op (gradU s (en.1.jacobian q.2.1) (en.1.gradients q.2.1) (localPart s u en.2)) q.2.2 k i *
        ∑ I : Fin en.2.length, physGrad (en.1.jacobian q.2.1) ((en.1.gradients q.2.1)[(I : Nat)]?.getD 0) k * w en.2[I] i = g en q.2.1 q.2.2) :
    ∑ n ∈ Finset.range N, ∑ k : Fin s, w n k * f.getD (s * n + k) 0 = ∑ e : Fin space.length, quadSum (space[e]).1 (rules e) (g (space[e])) := by
  obtain ⟨f', h1, -, h3⟩ := C105_virtual_work h o bufs outs elemVec hev
  obtain rfl : f' = f := by
    rw [hf] at h1
    injection h1 with h1
    injection h1 with h1
    exact h1.symm
  have h4 := h3 (nodal s N w)
  rw [sum_nodes] at h4
  rw [Finset.sum_congr rfl fun n hn => Finset.sum_congr rfl fun k _ => by rw [nodal_getD s N w n (Finset.mem_range.1 hn) k]] at h4
  rw [h4]
  refine Finset.sum_congr rfl fun e _ => quadSum_congr_mem _ _ _ _ fun q hq => ?_
  have hmem : space[(e : Nat)] ∈ space := List.getElem_mem _
  refine Eq.trans ?_ (hw e _ (List.getElem?_eq_getElem e.2) q hq)
  refine Finset.sum_congr rfl fun k _ => Finset.sum_congr rfl fun i _ => ?_
  rw [gradU_entry (space[e]).1 (h.wellFormed _ hmem) (space[e]).2 (h.nodeCount _ hmem)]
  congr 1
  refine Finset.sum_congr rfl fun I _ => ?_
  exact congrArg _ (nodal_getD s N w _ (h.inBounds _ hmem _ (List.getElem_mem _)) i)

/-- **C105.** The forces balance: for every operator, every space whose basis functions add up to one, and every `u`, the components of the
assembled vector that belong to one direction add up to zero. -/
theorem C105_forces_balance {space : Space d K} {N : Nat} {table : Table (Point d K) K Param} {rules : Nat → List (QPoint d K Param)} {u : List K}
    (h : Discretisation space N table rules u s)
    (hzero : ∀ (e : Nat) (en : VolElement d K × List Nat), space[e]? = some en → ∀ q ∈ rules e, ∀ m, ((en.1.gradients q.2.1).map fun g => g m).sum = 0)
    (o : Operator d s K Param) (bufs : Nat → Buffer (Point d K) K Param) (outs : Nat → Nat → K) (elemVec : Nat → Except String (Nat → K))
    (hev : ∀ e, e < space.length → ∃ buf', elementVector space o table u (bufs e) (outs e) e = some (elemVec e, buf')) (f : List K)
    (hf : Assembly.assembleVector (conn s space N) elemVec = some (.ok f)) (i : Fin s) : totalForce s N f i = 0 := by
  have h1 := work h o bufs outs elemVec hev f hf (fun _ k => if k = i then 1 else 0) (fun _ _ _ => 0) (by
    intro e en hen q hq
    have hmem : en ∈ space := List.mem_of_getElem? hen
    have hlen : (en.1.gradients q.2.1).length = en.2.length := ((h.wellFormed _ hmem) _).2.trans (h.nodeCount _ hmem).symm
    refine Finset.sum_eq_zero fun k _ => Finset.sum_eq_zero fun l _ => ?_
    rw [← Finset.sum_mul]
    simp only [physGrad]
    rw [Finset.sum_comm]
    have : ∀ m, ∑ I : Fin en.2.length, (en.1.jacobian q.2.1)⁻¹ m k * ((en.1.gradients q.2.1)[(I : Nat)]?.getD 0) m = 0 := by
      intro m
      rw [← Finset.mul_sum]
      have e2 : ∑ I : Fin en.2.length, ((en.1.gradients q.2.1)[(I : Nat)]?.getD 0) m = 0 := by
        rw [← hzero e en hen q hq m, ← Fin.sum_univ_fun_getElem]
        apply Fintype.sum_equiv (finCongr hlen.symm)
        intro I
        have hI : (I : Nat) < (en.1.gradients q.2.1).length := hlen.symm ▸ I.2
        rw [List.getElem?_eq_getElem hI]
        rfl
      rw [e2, mul_zero]
    rw [Finset.sum_eq_zero fun m _ => this m, zero_mul, mul_zero])
  simp only [ite_mul, one_mul, zero_mul, Finset.sum_ite_eq', Finset.mem_univ, if_true, quadSum_zero, Finset.sum_const_zero] at h1
  exact h1

/-! ## Moments -/

/-- The body: a mesh of elements whose map is given by their basis functions, or of affine images of the reference element. -/
def Shaped (kind : Kind) (mesh : Mesh (Point kind.dim ℝ)) : Prop :=
  kind ∈ [Kind.tri3, .quad4, .tet4, .hex8] ∨ ∀ c ∈ mesh.cells, AffineCell kind (c.map (coords mesh.vertices))

theorem physGrad_zero (kind : Kind) (J : Matrix (Fin kind.dim) (Fin kind.dim) ℝ) (p : Point kind.dim ℝ) (n : Nat) (hn : n = kind.numNodes)
    (k : Fin kind.dim) : ∑ I : Fin n, physGrad J ((gradients kind p)[(I : Nat)]?.getD 0) k = 0 := by
  subst hn
  simp only [physGrad]
  rw [Finset.sum_comm]
  refine Finset.sum_eq_zero fun m _ => ?_
  rw [← Finset.mul_sum, ← Finset.sum_range fun I => (gradients kind p)[I]?.getD 0 m, gradients_sum_range, mul_zero]

theorem physGrad_one (kind : Kind) (mesh : Mesh (Point kind.dim ℝ)) (hshape : Shaped kind mesh)
    (c : List Nat) (hc : c ∈ mesh.cells) (hlen : c.length = kind.numNodes) (hv : ∀ v ∈ c, v < mesh.vertices.length) (p : Point kind.dim ℝ)
    (hdet : ((elementOfKind kind (c.map (coords mesh.vertices))).jacobian p).det ≠ 0) (k i : Fin kind.dim) :
    ∑ I : Fin c.length, physGrad ((elementOfKind kind (c.map (coords mesh.vertices))).jacobian p) ((gradients kind p)[(I : Nat)]?.getD 0) k *
      reference mesh.vertices c[I] i = if k = i then 1 else 0 := by
  let v : List ℝ := nodal kind.dim mesh.vertices.length (fun n => reference mesh.vertices n)
  have hwf : WellFormed (elementOfKind kind (c.map (coords mesh.vertices))) := elementOfKind_wellFormed kind _
  have h1 : ∀ k i, gradU kind.dim ((elementOfKind kind (c.map (coords mesh.vertices))).jacobian p)
      ((elementOfKind kind (c.map (coords mesh.vertices))).gradients p) (localPart kind.dim v c) k i =
      ∑ I : Fin c.length, physGrad ((elementOfKind kind (c.map (coords mesh.vertices))).jacobian p) ((gradients kind p)[(I : Nat)]?.getD 0) k *
        reference mesh.vertices c[I] i := by
    intro k i
    rw [gradU_entry _ hwf c hlen]
    refine Finset.sum_congr rfl fun I _ => ?_
    exact congrArg _ (nodal_getD _ _ _ _ (hv _ (List.getElem_mem _)) i)
  have h2 : gradU kind.dim ((elementOfKind kind (c.map (coords mesh.vertices))).jacobian p)
      ((elementOfKind kind (c.map (coords mesh.vertices))).gradients p) (localPart kind.dim v c) = 1 := by
    rcases hshape with hk | haff
    · refine C89_gradient kind hk mesh.vertices 1 0 v ⟨by simp [v, nodal], fun n x hx j => ?_⟩ c hlen hv p hdet
      obtain ⟨hn, hx'⟩ := List.getElem?_eq_some_iff.1 hx
      have h3 := nodal_getD kind.dim mesh.vertices.length (fun n => reference mesh.vertices n) n hn j
      have h4 : kind.dim * n + (j : Nat) < v.length := by simpa [v, nodal] using index_lt hn j
      change v.getD _ 0 = _ at h3
      rw [List.getD_eq_getElem?_getD, List.getElem?_eq_getElem h4, Option.getD_some] at h3
      rw [List.getElem?_eq_getElem h4, h3]
      simp [reference, hn, hx', Matrix.one_apply]
    · obtain ⟨A, t, hA, hx⟩ := haff c hc
      have hJ := affine_jacobian kind _ A t hx p
      have h3 := gradU_reference kind A hA p kind.dim (localPart kind.dim v c)
      have h4 : (Matrix.of fun m (i : Fin kind.dim) => ∑ I ∈ Finset.range kind.numNodes,
          (gradients kind p)[I]?.getD 0 m * (localPart kind.dim v c).getD (kind.dim * I + i) 0) = A.transpose := by
        ext m r
        rw [Matrix.of_apply, Matrix.transpose_apply]
        refine affine_gradient kind A t p m r (fun I => (localPart kind.dim v c).getD (kind.dim * I + r) 0) fun I x hIx => ?_
        have hI : I < c.length := by
          have := (List.getElem?_eq_some_iff.1 hIx).1
          rw [refNodes_length] at this
          omega
        have h5 := hx I x hIx
        rw [List.getElem?_map, List.getElem?_eq_getElem hI, Option.map_some] at h5
        injection h5 with h5
        rw [localPart_getD kind.dim v c I hI, nodal_getD _ _ _ _ (hv _ (List.getElem_mem _)), ← h5]
        rfl
      rw [h4] at h3
      rw [hJ]
      have hu : IsUnit A.transpose.det := by rw [Matrix.det_transpose]; exact isUnit_iff_ne_zero.2 hA
      have h6 := congrArg (fun M => (A.transpose)⁻¹ * M) h3
      simp only [← Matrix.mul_assoc, Matrix.nonsing_inv_mul _ hu, Matrix.one_mul] at h6
      exact h6
  rw [← h1 k i, h2, Matrix.one_apply]

/-- The operator computes the transpose of the stress of the material at this displacement gradient, and the stress is a number. -/
def Realises {d : Nat} (o : Operator d d ℝ (Lame ℝ)) (m : Material d) (G : Matrix (Fin d) (Fin d) ℝ) (p : Lame ℝ) : Prop :=
  ∃ P, m.stress (deformationGradient G) p = .val P ∧ o.op G p = P.transpose

/-- C105: the operator of the St. Venant-Kirchhoff material computes its stress. -/
theorem C105_stvk_realises {d : Nat} (G : Matrix (Fin d) (Fin d) ℝ) (p : Lame ℝ) : Realises (stvkOperator d) (stvk d) G p :=
  ⟨_, rfl, rfl⟩

/-- C105: at every deformation gradient and for all parameters, `F Pᵀ` is symmetric for the nonlinear materials wherever the stress `P` is a number. -/
theorem C105_stress_symmetric {d : Nat} (m : Material d) (hm : m = stvk d ∨ m = neoHookean d) (F : Matrix (Fin d) (Fin d) ℝ) (p : Lame ℝ)
    (P : Matrix (Fin d) (Fin d) ℝ) (hP : m.stress F p = .val P) : (F * P.transpose).transpose = F * P.transpose := by
  rcases hm with rfl | rfl
  · have h1 : stvkStress F p = P := by injection hP
    have hE : (greenStrain F).transpose = greenStrain F := green_symm F
    rw [← h1, stvkStress]
    simp only [Matrix.transpose_add, Matrix.transpose_smul, Matrix.transpose_mul, hE, Matrix.mul_add, Matrix.transpose_transpose, Matrix.mul_smul,
      Matrix.mul_assoc]
  · have hF : 0 < F.det := by
      by_contra hle
      push Not at hle
      change nhStress F p = _ at hP
      rw [nhStress] at hP
      simp only [if_pos hle] at hP
      cases hP
    change nhStress F p = _ at hP
    rw [nhStress_eq F p hF] at hP
    injection hP with hP
    rw [← hP]
    have hu : IsUnit F.det := isUnit_iff_ne_zero.2 hF.ne'
    simp only [Matrix.transpose_add, Matrix.transpose_smul, Matrix.mul_add, Matrix.transpose_transpose, Matrix.mul_smul, Matrix.mul_nonsing_inv F hu,
      Matrix.transpose_mul, Matrix.transpose_one]

private theorem moment_eq (d N : Nat) (x : Nat → Point d ℝ) (f : List ℝ) (i j : Fin d) : totalMoment N x f i j =
    ∑ n ∈ Finset.range N, ∑ k : Fin d, ((if k = j then x n i else 0) - if k = i then x n j else 0) * f.getD (d * n + k) 0 := by
  unfold totalMoment
  refine Finset.sum_congr rfl fun n _ => ?_
  simp only [sub_mul, ite_mul, zero_mul, Finset.sum_sub_distrib, Finset.sum_ite_eq', Finset.mem_univ, if_true]

/-- The work of the forces on a rotation. -/
private theorem rotation_work {d : Nat} (A B : Matrix (Fin d) (Fin d) ℝ) (i j : Fin d) :
    ∑ k, ∑ l, A k l * ((if l = j then B i k else 0) - if l = i then B j k else 0) = (B * A) i j - (B * A) j i := by
  rw [Matrix.mul_apply, Matrix.mul_apply]
  simp only [mul_sub, mul_ite, mul_zero, Finset.sum_sub_distrib, Finset.sum_ite_eq', Finset.mem_univ, if_true]
  simp only [mul_comm (A _ _)]

section mesh
variable {kind : Kind} {mesh : Mesh (Point kind.dim ℝ)} {space : Space kind.dim ℝ} {table : Table (Point kind.dim ℝ) ℝ (Lame ℝ)}
  {rules : Nat → List (QPoint kind.dim ℝ (Lame ℝ))} {u : List ℝ}

/-- **C105.** The total moment of the assembled forces about the nodes, displaced by `t` times `u`: the quadrature of the part of
`(1 + t ∇uᵀ) op(∇u)` that is not symmetric. -/
theorem C105_total_moment [Inhabited (Lame ℝ)] (hspace : meshSpace kind mesh = some space) (hb : ∀ c ∈ mesh.cells, ∀ v ∈ c, v < mesh.vertices.length)
    (hshape : Shaped kind mesh) (h : Discretisation space mesh.vertices.length table rules u kind.dim) (o : Operator kind.dim kind.dim ℝ (Lame ℝ))
    (bufs : Nat → Buffer (Point kind.dim ℝ) ℝ (Lame ℝ)) (outs : Nat → Nat → ℝ) (elemVec : Nat → Except String (Nat → ℝ))
    (hev : ∀ e, e < space.length → ∃ buf', elementVector space o table u (bufs e) (outs e) e = some (elemVec e, buf')) (f : List ℝ)
    (hf : Assembly.assembleVector (conn kind.dim space mesh.vertices.length) elemVec = some (.ok f)) (t : ℝ) (i j : Fin kind.dim) :
    totalMoment mesh.vertices.length (fun n l => reference mesh.vertices n l + t * u.getD (kind.dim * n + l) 0) f i j =
      ∑ e : Fin space.length, quadSum (space[e]).1 (rules e) fun p param =>
        ((1 + t • (gradU kind.dim ((space[e]).1.jacobian p) ((space[e]).1.gradients p) (localPart kind.dim u (space[e]).2)).transpose) *
          o.op (gradU kind.dim ((space[e]).1.jacobian p) ((space[e]).1.gradients p) (localPart kind.dim u (space[e]).2)) param) i j -
        ((1 + t • (gradU kind.dim ((space[e]).1.jacobian p) ((space[e]).1.gradients p) (localPart kind.dim u (space[e]).2)).transpose) *
          o.op (gradU kind.dim ((space[e]).1.jacobian p) ((space[e]).1.gradients p) (localPart kind.dim u (space[e]).2)) param) j i := by
  rw [moment_eq]
  refine work h o bufs outs elemVec hev f hf (fun n k => (if k = j then reference mesh.vertices n i + t * u.getD (kind.dim * n + i) 0 else 0) -
    if k = i then reference mesh.vertices n j + t * u.getD (kind.dim * n + j) 0 else 0) (fun en p param =>
    ((1 + t • (gradU kind.dim (en.1.jacobian p) (en.1.gradients p) (localPart kind.dim u en.2)).transpose) *
      o.op (gradU kind.dim (en.1.jacobian p) (en.1.gradients p) (localPart kind.dim u en.2)) param) i j -
    ((1 + t • (gradU kind.dim (en.1.jacobian p) (en.1.gradients p) (localPart kind.dim u en.2)).transpose) *
      o.op (gradU kind.dim (en.1.jacobian p) (en.1.gradients p) (localPart kind.dim u en.2)) param) j i) ?_
  intro e en hen q hq
  obtain ⟨c, hc, rfl⟩ : ∃ c, mesh.cells[e]? = some c ∧ en = (elementOfKind kind (c.map (coords mesh.vertices)), c) := by
    rw [C89_mesh_space kind mesh hb] at hspace
    injection hspace with hs
    rw [← hs, List.getElem?_map, Option.map_eq_some_iff] at hen
    obtain ⟨c, h1, h2⟩ := hen
    exact ⟨c, h1, h2.symm⟩
  have hlen : c.length = kind.numNodes := h.nodeCount _ (List.mem_of_getElem? hen)
  have hcell : c ∈ mesh.cells := List.mem_of_getElem? hc
  have hdet := h.regular e _ hen q hq
  have hx : ∀ k l, ∑ I : Fin c.length, physGrad ((elementOfKind kind (c.map (coords mesh.vertices))).jacobian q.2.1)
      ((gradients kind q.2.1)[(I : Nat)]?.getD 0) k * (reference mesh.vertices c[I] l + t * u.getD (kind.dim * c[I] + l) 0) =
      (1 + t • (gradU kind.dim ((elementOfKind kind (c.map (coords mesh.vertices))).jacobian q.2.1)
        ((elementOfKind kind (c.map (coords mesh.vertices))).gradients q.2.1) (localPart kind.dim u c)).transpose) l k := by
    intro k l
    rw [Matrix.add_apply, Matrix.smul_apply, Matrix.transpose_apply, gradU_entry _ (elementOfKind_wellFormed kind _) _ hlen, smul_eq_mul, Finset.mul_sum,
      Matrix.one_apply, show (if l = k then (1 : ℝ) else 0) = if k = l then 1 else 0 from if_congr eq_comm rfl rfl,
      ← physGrad_one kind mesh hshape _ hcell hlen (hb _ hcell) q.2.1 hdet k l, ← Finset.sum_add_distrib]
    refine Finset.sum_congr rfl fun I _ => ?_
    change _ = _ + t * (physGrad _ ((gradients kind q.2.1)[(I : Nat)]?.getD 0) k * _)
    ring
  refine Eq.trans ?_ (rotation_work _ _ i j)
  refine Finset.sum_congr rfl fun k _ => Finset.sum_congr rfl fun l _ => ?_
  congr 1
  rw [← hx k i, ← hx k j]
  simp only [mul_sub, Finset.sum_sub_distrib]
  congr 1
  · by_cases hl : l = j
    · simp only [if_pos hl]
      rfl
    · simp only [if_neg hl, mul_zero, Finset.sum_const_zero]
  · by_cases hl : l = i
    · simp only [if_pos hl]
      rfl
    · simp only [if_neg hl, mul_zero, Finset.sum_const_zero]

private theorem moment_zero [Inhabited (Lame ℝ)] (hspace : meshSpace kind mesh = some space) (hb : ∀ c ∈ mesh.cells, ∀ v ∈ c, v < mesh.vertices.length)
    (hshape : Shaped kind mesh) (h : Discretisation space mesh.vertices.length table rules u kind.dim) (o : Operator kind.dim kind.dim ℝ (Lame ℝ))
    (bufs : Nat → Buffer (Point kind.dim ℝ) ℝ (Lame ℝ)) (outs : Nat → Nat → ℝ) (elemVec : Nat → Except String (Nat → ℝ))
    (hev : ∀ e, e < space.length → ∃ buf', elementVector space o table u (bufs e) (outs e) e = some (elemVec e, buf')) (f : List ℝ)
    (hf : Assembly.assembleVector (conn kind.dim space mesh.vertices.length) elemVec = some (.ok f)) (t : ℝ)
    (hop : ∀ (e : Nat) (en : VolElement kind.dim ℝ × List Nat), space[e]? = some en → ∀ q ∈ rules e,
      ((1 + t • (gradU kind.dim (en.1.jacobian q.2.1) (en.1.gradients q.2.1) (localPart kind.dim u en.2)).transpose) *
        o.op (gradU kind.dim (en.1.jacobian q.2.1) (en.1.gradients q.2.1) (localPart kind.dim u en.2)) q.2.2).transpose =
      (1 + t • (gradU kind.dim (en.1.jacobian q.2.1) (en.1.gradients q.2.1) (localPart kind.dim u en.2)).transpose) *
        o.op (gradU kind.dim (en.1.jacobian q.2.1) (en.1.gradients q.2.1) (localPart kind.dim u en.2)) q.2.2) (i j : Fin kind.dim) :
    totalMoment mesh.vertices.length (fun n l => reference mesh.vertices n l + t * u.getD (kind.dim * n + l) 0) f i j = 0 := by
  rw [C105_total_moment hspace hb hshape h o bufs outs elemVec hev f hf t i j]
  refine Finset.sum_eq_zero fun e _ => ?_
  refine Eq.trans (quadSum_congr_mem _ _ _ (fun _ _ => 0) fun q hq => ?_) (quadSum_zero _ _)
  have h1 := congrFun (congrFun (hop e _ (List.getElem?_eq_getElem e.2) q hq) j) i
  rw [Matrix.transpose_apply] at h1
  exact sub_eq_zero.2 h1

/-- **C105.** The moments of the nonlinear materials balance: the forces a body of St. Venant-Kirchhoff or Neo-Hookean material exerts, in any state in
which the stresses are numbers, have no total moment about the origin when they act at the displaced nodes. -/
theorem C105_moments_balance [Inhabited (Lame ℝ)] (hspace : meshSpace kind mesh = some space) (hb : ∀ c ∈ mesh.cells, ∀ v ∈ c, v < mesh.vertices.length)
    (hshape : Shaped kind mesh) (h : Discretisation space mesh.vertices.length table rules u kind.dim) (m : Material kind.dim)
    (hm : m = stvk kind.dim ∨ m = neoHookean kind.dim) (o : Operator kind.dim kind.dim ℝ (Lame ℝ))
    (ho : ∀ (e : Nat) (en : VolElement kind.dim ℝ × List Nat), space[e]? = some en → ∀ q ∈ rules e,
      Realises o m (gradU kind.dim (en.1.jacobian q.2.1) (en.1.gradients q.2.1) (localPart kind.dim u en.2)) q.2.2)
    (bufs : Nat → Buffer (Point kind.dim ℝ) ℝ (Lame ℝ)) (outs : Nat → Nat → ℝ) (elemVec : Nat → Except String (Nat → ℝ))
    (hev : ∀ e, e < space.length → ∃ buf', elementVector space o table u (bufs e) (outs e) e = some (elemVec e, buf')) (f : List ℝ)
    (hf : Assembly.assembleVector (conn kind.dim space mesh.vertices.length) elemVec = some (.ok f)) (i j : Fin kind.dim) :
    totalMoment mesh.vertices.length (deformed mesh.vertices u) f i j = 0 := by
  have := moment_zero hspace hb hshape h o bufs outs elemVec hev f hf 1 (by
    intro e en hen q hq
    obtain ⟨P, h1, h2⟩ := ho e en hen q hq
    rw [one_smul, h2]
    exact C105_stress_symmetric m hm _ _ P h1) i j
  simp only [one_mul] at this
  exact this

/-- **C105.** The moments of linear elasticity balance about the undeformed body: the forces have no total moment when they act at the nodes where they
are before the displacement. -/
theorem C105_linear_moments_balance [Inhabited (Lame ℝ)] (hspace : meshSpace kind mesh = some space)
    (hb : ∀ c ∈ mesh.cells, ∀ v ∈ c, v < mesh.vertices.length)
    (hshape : Shaped kind mesh) (h : Discretisation space mesh.vertices.length table rules u kind.dim)
    (bufs : Nat → Buffer (Point kind.dim ℝ) ℝ (Lame ℝ)) (outs : Nat → Nat → ℝ) (elemVec : Nat → Except String (Nat → ℝ))
    (hev : ∀ e, e < space.length → ∃ buf', elementVector space (leOperator kind.dim) table u (bufs e) (outs e) e = some (elemVec e, buf')) (f : List ℝ)
    (hf : Assembly.assembleVector (conn kind.dim space mesh.vertices.length) elemVec = some (.ok f)) (i j : Fin kind.dim) :
    totalMoment mesh.vertices.length (reference mesh.vertices) f i j = 0 := by
  have := moment_zero hspace hb hshape h (leOperator kind.dim) bufs outs elemVec hev f hf 0 (by
    intro e en hen q hq
    rw [zero_smul, add_zero, Matrix.one_mul]
    ext a b
    rw [Matrix.transpose_apply, leOp_apply, leOp_apply]
    by_cases hab : a = b
    · subst hab; rfl
    · rw [if_neg hab, if_neg (Ne.symm hab)]
      ring) i j
  simp only [zero_mul, add_zero] at this
  exact this

/-- **C105.** On every mesh, of any element kind, the forces of every operator balance. -/
theorem C105_mesh_forces_balance {P : Type} [Inhabited P] {s : Nat} {table : Table (Point kind.dim ℝ) ℝ P} {rules : Nat → List (QPoint kind.dim ℝ P)}
    (hspace : meshSpace kind mesh = some space) (hb : ∀ c ∈ mesh.cells, ∀ v ∈ c, v < mesh.vertices.length)
    (h : Discretisation space mesh.vertices.length table rules u s) (o : Operator kind.dim s ℝ P)
    (bufs : Nat → Buffer (Point kind.dim ℝ) ℝ P) (outs : Nat → Nat → ℝ) (elemVec : Nat → Except String (Nat → ℝ))
    (hev : ∀ e, e < space.length → ∃ buf', elementVector space o table u (bufs e) (outs e) e = some (elemVec e, buf')) (f : List ℝ)
    (hf : Assembly.assembleVector (conn s space mesh.vertices.length) elemVec = some (.ok f)) (i : Fin s) :
    totalForce s mesh.vertices.length f i = 0 := by
  refine C105_forces_balance h ?_ o bufs outs elemVec hev f hf i
  intro e en hen q _ m
  obtain ⟨c, rfl⟩ : ∃ c, en = (elementOfKind kind (c.map (coords mesh.vertices)), c) := by
    rw [C89_mesh_space kind mesh hb] at hspace
    injection hspace with hs
    rw [← hs, List.getElem?_map, Option.map_eq_some_iff] at hen
    obtain ⟨c, -, h2⟩ := hen
    exact ⟨c, h2.symm⟩
  exact (C35_gradients_sum_to_zero kind q.2.1 m).2

end mesh

/-! ## Weight -/

/-- **C105.** The gravity source: the components of the assembled vector that belong to one direction add up to the mass times the acceleration. -/
theorem C105_weight {space : Space d K} {N : Nat} {table : Table (Point d K) K K} {rules : Nat → List (QPoint d K K)}
    (h : Sampled space N table rules) (hone : ∀ e (he : e < space.length), ∀ q ∈ rules e, ((space[e]).1.basis q.2.1).sum = 1)
    (acceleration : Point d K) (bufs : Nat → Buffer (Point d K) K K) (outs : Nat → Nat → K) (elemVec : Nat → Except String (Nat → K))
    (hev : ∀ e, e < space.length → ∃ buf', sourceElementVector space (gravityEvaluate acceleration) table (bufs e) (outs e) e = some (elemVec e, buf')) :
    ∃ b, Assembly.assembleVector (conn d space N) elemVec = some (.ok b) ∧ b.length = d * N ∧ ∀ i : Fin d,
      totalForce d N b i = (∑ e : Fin space.length, quadSum (space[e]).1 (rules e) fun _ density => density) * acceleration i := by
  obtain ⟨b, h1, h2, h3⟩ := C98_source_form h (gravityEvaluate acceleration) bufs outs elemVec hev
  refine ⟨b, h1, h2, fun i => ?_⟩
  have hd : 0 < d := Nat.lt_of_le_of_lt (Nat.zero_le _) i.2
  have h4 := h3 (unitField d N i)
  rw [sum_nodes, Finset.sum_congr rfl fun n hn => Finset.sum_congr rfl fun k _ => by rw [unitField_getD hd i k n (Finset.mem_range.1 hn)]] at h4
  simp only [ite_mul, one_mul, zero_mul, Finset.sum_ite_eq', Finset.mem_univ, if_true] at h4
  refine h4.trans ?_
  rw [Finset.sum_mul]
  refine Finset.sum_congr rfl fun e _ => ?_
  have hmem : space[(e : Nat)] ∈ space := List.getElem_mem _
  rw [mul_comm, quadSum_mul_left']
  refine quadSum_congr_mem _ _ _ _ fun q hq => ?_
  have e1 : ∀ k : Fin d, gravityEvaluate acceleration ((space[e]).1.map q.2.1) q.2.2 k *
      valueU d ((space[e]).1.basis q.2.1) (localPart d (unitField d N i) (space[e]).2) k = if k = i then acceleration i * q.2.2 else 0 := by
    intro k
    have h5 := valueU_unitField hd (space[(e : Nat)]).1 (h.wellFormed _ hmem) (space[(e : Nat)]).2 (h.nodeCount _ hmem) (h.inBounds _ hmem) q.2.1
      (hone e e.2 q hq) i k
    refine (congrArg _ h5).trans ?_
    split_ifs with hk
    · subst hk
      simp [gravityEvaluate, mul_comm]
    · rw [mul_zero]
  rw [Finset.sum_congr rfl fun k _ => e1 k, Finset.sum_ite_eq', if_pos (Finset.mem_univ _)]

/-- **C105.** The supports carry the weight: if the internal forces of any operator balance gravity in every degree of freedom but those of the
constrained nodes, then the forces that are missing there add up to the mass times the acceleration. -/
theorem C105_supports_carry_weight {space : Space d K} {N : Nat} {table : Table (Point d K) K Param} {rules : Nat → List (QPoint d K Param)} {u : List K}
    (h : Discretisation space N table rules u d)
    (hzero : ∀ (e : Nat) (en : VolElement d K × List Nat), space[e]? = some en → ∀ q ∈ rules e, ∀ m, ((en.1.gradients q.2.1).map fun g => g m).sum = 0)
    (o : Operator d d K Param) (bufs : Nat → Buffer (Point d K) K Param) (outs : Nat → Nat → K) (elemVec : Nat → Except String (Nat → K))
    (hev : ∀ e, e < space.length → ∃ buf', elementVector space o table u (bufs e) (outs e) e = some (elemVec e, buf')) (f : List K)
    (hf : Assembly.assembleVector (conn d space N) elemVec = some (.ok f))
    {table' : Table (Point d K) K K} {rules' : Nat → List (QPoint d K K)} (h' : Sampled space N table' rules')
    (hone : ∀ e (he : e < space.length), ∀ q ∈ rules' e, ((space[e]).1.basis q.2.1).sum = 1) (acceleration : Point d K)
    (bufs' : Nat → Buffer (Point d K) K K) (outs' : Nat → Nat → K) (elemVec' : Nat → Except String (Nat → K))
    (hev' : ∀ e, e < space.length → ∃ buf',
      sourceElementVector space (gravityEvaluate acceleration) table' (bufs' e) (outs' e) e = some (elemVec' e, buf')) (b : List K)
    (hb : Assembly.assembleVector (conn d space N) elemVec' = some (.ok b)) (nodes : Finset Nat) (hn : nodes ⊆ Finset.range N)
    (hfree : ∀ n, n < N → n ∉ nodes → ∀ i : Fin d, f.getD (d * n + i) 0 = b.getD (d * n + i) 0) (i : Fin d) :
    ∑ n ∈ nodes, (b.getD (d * n + i) 0 - f.getD (d * n + i) 0) =
      (∑ e : Fin space.length, quadSum (space[e]).1 (rules' e) fun _ density => density) * acceleration i := by
  obtain ⟨b', h1, -, h3⟩ := C105_weight h' hone acceleration bufs' outs' elemVec' hev'
  obtain rfl : b' = b := by
    rw [hb] at h1
    injection h1 with h1
    injection h1 with h1
    exact h1.symm
  have h4 := C105_forces_balance h hzero o bufs outs elemVec hev f hf i
  calc ∑ n ∈ nodes, (b'.getD (d * n + i) 0 - f.getD (d * n + i) 0)
      = ∑ n ∈ Finset.range N, (b'.getD (d * n + i) 0 - f.getD (d * n + i) 0) :=
        Finset.sum_subset hn fun n hnN hno => by rw [hfree n (Finset.mem_range.1 hnN) hno i, sub_self]
    _ = totalForce d N b' i - totalForce d N f i := Finset.sum_sub_distrib ..
    _ = _ := by rw [h4, sub_zero, h3 i]

/-! ## One triangle -/

/-- One triangle. -/
def plate : Mesh (Point 2 ℝ) := ⟨[![-1, -1], ![1, -1], ![-1, 1]], [[0, 1, 2]]⟩

/-- The element of `plate`. -/
noncomputable abbrev plateSpace : Space 2 ℝ := [(elementOfKind .tri3 ([![-1, -1], ![1, -1], ![-1, 1]] : List (Point 2 ℝ)), [0, 1, 2])]

theorem plate_space : meshSpace .tri3 plate = some plateSpace := by
  have h := C89_mesh_space .tri3 plate (by simp [plate])
  exact h

theorem plate_jacobian (p : Point 2 ℝ) : (elementOfKind .tri3 ([![-1, -1], ![1, -1], ![-1, 1]] : List (Point 2 ℝ))).jacobian p = (1 : Matrix (Fin 2) (Fin 2) ℝ) := by
  ext a b
  fin_cases a <;> fin_cases b <;>
    simp [elementOfKind, referenceJacobian, geometryGradients, tri3Gradients, Kind.numNodes, weightedSum, tri3G] <;> norm_num

theorem plate_disc [Inhabited (Lame ℝ)] (par : Lame ℝ) (u : List ℝ) (hu : u.length = 6) :
    Discretisation plateSpace 3 (Uniform.table ⟨[![0, 0]], [2], [par]⟩) (fun _ => [(2, ![0, 0], par)]) u 2 where
  wellFormed := by
    intro en hen
    obtain rfl := List.mem_singleton.1 hen
    exact elementOfKind_wellFormed _ _
  nodeCount := by
    intro en hen
    obtain rfl := List.mem_singleton.1 hen
    rfl
  inBounds := by
    intro en hen
    obtain rfl := List.mem_singleton.1 hen
    decide
  uLength := hu
  rule := by
    intro e he b
    exact (C27_uniform_returns_the_rule (P := Point 2 ℝ) (W := ℝ) (D := Lame ℝ) [![0, 0]] [2] [par]).2 _ rfl e b
  regular := by
    intro e en he q hq
    obtain rfl := List.mem_singleton.1 (List.mem_of_getElem? he)
    change ((elementOfKind .tri3 _).jacobian _).det ≠ 0
    rw [plate_jacobian]
    exact (Matrix.det_one (R := ℝ) (n := Fin 2)).trans_ne one_ne_zero

/-- The displacement `(x, y) ↦ (x, x)` of the triangle. -/
def stretch : List ℝ := [-1, -1, 1, 1, -1, -1]

theorem stretch_gradient (p : Point 2 ℝ) : gradU 2 ((elementOfKind .tri3 ([![-1, -1], ![1, -1], ![-1, 1]] : List (Point 2 ℝ))).jacobian p)
    ((elementOfKind .tri3 ([![-1, -1], ![1, -1], ![-1, 1]] : List (Point 2 ℝ))).gradients p) (localPart 2 stretch [0, 1, 2]) = !![1, 1; 0, 0] := by
  refine C89_gradient .tri3 (by simp) plate.vertices !![1, 1; 0, 0] 0 stretch ⟨rfl, fun n x hx i => ?_⟩ [0, 1, 2] rfl (by simp [plate]) p ?_
  · have hn : n < 3 := (List.getElem?_eq_some_iff.1 hx).1
    have : n = 0 ∨ n = 1 ∨ n = 2 := by omega
    rcases this with rfl | rfl | rfl
    all_goals
      obtain rfl := Option.some.inj hx
      fin_cases i
    all_goals
      refine congrArg some ?_
      refine Eq.trans ?_ (congrArg (· + (0 : ℝ)) (Fin.sum_univ_two _).symm)
      norm_num
  · change ((elementOfKind .tri3 ([![-1, -1], ![1, -1], ![-1, 1]] : List (Point 2 ℝ))).jacobian p).det ≠ 0
    rw [plate_jacobian]
    exact (Matrix.det_one (R := ℝ) (n := Fin 2)).trans_ne one_ne_zero

/-- **C105.** Linear elasticity does not balance the moments about the displaced nodes: the forces of one stretched triangle have the total moment
`-2` there. -/
theorem C105_linear_moments_deformed [Inhabited (Lame ℝ)] (bufs : Nat → Buffer (Point 2 ℝ) ℝ (Lame ℝ)) (outs : Nat → Nat → ℝ)
    (elemVec : Nat → Except String (Nat → ℝ)) :
    ∃ space, meshSpace .tri3 plate = some space ∧
      Discretisation space 3 (Uniform.table ⟨[![0, 0]], [2], [(⟨1, 0⟩ : Lame ℝ)]⟩) (fun _ => [(2, ![0, 0], (⟨1, 0⟩ : Lame ℝ))]) stretch 2 ∧
      ((∀ e, e < space.length → ∃ buf', elementVector space (leOperator 2) (Uniform.table ⟨[![0, 0]], [2], [(⟨1, 0⟩ : Lame ℝ)]⟩) stretch (bufs e) (outs e) e =
        some (elemVec e, buf')) →
      ∃ f, Assembly.assembleVector (conn 2 space 3) elemVec = some (.ok f) ∧ totalMoment 3 (deformed plate.vertices stretch) f 0 1 = -2) := by
  have hd := plate_disc ⟨1, 0⟩ stretch rfl
  refine ⟨plateSpace, plate_space, hd, fun hev => ?_⟩
  obtain ⟨f, h1, -, -⟩ := C105_virtual_work hd (leOperator 2) bufs outs elemVec hev
  refine ⟨f, h1, ?_⟩
  have h2 := C105_total_moment (kind := .tri3) plate_space (by simp [plate]) (.inl (by simp)) hd (leOperator 2) bufs outs elemVec hev f h1 1 0 1
  simp only [one_mul] at h2
  refine Eq.trans h2 ?_
  refine Eq.trans (Fin.sum_univ_one _) ?_
  have key : ∀ G : Matrix (Fin 2) (Fin 2) ℝ, G = !![1, 1; 0, 0] → ((1 + (1 : ℝ) • G.transpose) * (leOperator 2).op G ⟨1, 0⟩) 0 1 -
      ((1 + (1 : ℝ) • G.transpose) * (leOperator 2).op G ⟨1, 0⟩) 1 0 = -1 := by
    rintro G rfl
    simp only [Matrix.mul_apply, Fin.sum_univ_two, leOp_apply]
    norm_num [Matrix.one_apply]
  refine Eq.trans (congrArg (fun z => (2 : ℝ) * |((elementOfKind .tri3 ([![-1, -1], ![1, -1], ![-1, 1]] : List (Point 2 ℝ))).jacobian ![0, 0]).det| * z + 0)
    (key _ (stretch_gradient ![0, 0]))) ?_
  have hdet : ((elementOfKind .tri3 ([![-1, -1], ![1, -1], ![-1, 1]] : List (Point 2 ℝ))).jacobian ![0, 0]).det = 1 := by
    rw [plate_jacobian]
    exact Matrix.det_one
  beta_reduce
  rw [hdet]
  norm_num

-- The hypotheses of the theorems about moments hold for the triangle: with the St. Venant-Kirchhoff material in every state, with the Neo-Hookean
-- material after the displacement `stretch`.
example [Inhabited (Lame ℝ)] (par : Lame ℝ) (u : List ℝ) (hu : u.length = 6) (bufs : Nat → Buffer (Point 2 ℝ) ℝ (Lame ℝ)) (outs : Nat → Nat → ℝ)
    (elemVec : Nat → Except String (Nat → ℝ)) (f : List ℝ)
    (hev : ∀ e, e < plateSpace.length → ∃ buf', elementVector plateSpace (stvkOperator 2) (Uniform.table ⟨[![0, 0]], [2], [par]⟩) u (bufs e) (outs e) e =
      some (elemVec e, buf'))
    (hf : Assembly.assembleVector (conn 2 plateSpace 3) elemVec = some (.ok f)) : totalMoment 3 (deformed plate.vertices u) f 0 1 = 0 :=
  C105_moments_balance (kind := .tri3) plate_space (by simp [plate]) (.inl (by simp)) (plate_disc par u hu) (stvk 2) (.inl rfl) (stvkOperator 2)
    (fun _ _ _ _ _ => C105_stvk_realises _ _) bufs outs elemVec hev f hf 0 1
example [Inhabited (Lame ℝ)] (par : Lame ℝ) (o : Operator 2 2 ℝ (Lame ℝ))
    (ho : ∀ G p, 0 < (deformationGradient G).det → Realises o (neoHookean 2) G p) (bufs : Nat → Buffer (Point 2 ℝ) ℝ (Lame ℝ)) (outs : Nat → Nat → ℝ)
    (elemVec : Nat → Except String (Nat → ℝ)) (f : List ℝ)
    (hev : ∀ e, e < plateSpace.length → ∃ buf', elementVector plateSpace o (Uniform.table ⟨[![0, 0]], [2], [par]⟩) stretch (bufs e) (outs e) e =
      some (elemVec e, buf'))
    (hf : Assembly.assembleVector (conn 2 plateSpace 3) elemVec = some (.ok f)) : totalMoment 3 (deformed plate.vertices stretch) f 0 1 = 0 := by
  refine C105_moments_balance (kind := .tri3) plate_space (by simp [plate]) (.inl (by simp)) (plate_disc par stretch rfl) (neoHookean 2) (.inr rfl) o
    (fun e en he q hq => ?_) bufs outs elemVec hev f hf 0 1
  obtain rfl := List.mem_singleton.1 (List.mem_of_getElem? he)
  refine ho _ _ ?_
  have h1 := stretch_gradient q.2.1
  change 0 < (deformationGradient (gradU 2 _ _ _)).det
  rw [h1]
  have h2 : deformationGradient !![(1 : ℝ), 1; 0, 0] = !![2, 0; 1, 1] := by
    ext a b
    fin_cases a <;> fin_cases b <;> simp [deformationGradient] <;> norm_num
  rw [h2, Matrix.det_fin_two_of]
  norm_num

-- The weight of the triangle, whose area is two, at the density 3 and the acceleration `(0, -10)`.
example (bufs : Nat → Buffer (Point 2 ℝ) ℝ ℝ) (outs : Nat → Nat → ℝ) (elemVec : Nat → Except String (Nat → ℝ))
    (hev : ∀ e, e < plateSpace.length → ∃ buf', sourceElementVector plateSpace (gravityEvaluate ![0, -10]) (Uniform.table ⟨[![0, 0]], [2], [3]⟩)
      (bufs e) (outs e) e = some (elemVec e, buf')) :
    ∃ b, Assembly.assembleVector (conn 2 plateSpace 3) elemVec = some (.ok b) ∧ totalForce 2 3 b 1 = -60 := by
  have hs : Sampled plateSpace 3 (Uniform.table ⟨[![0, 0]], [2], [3]⟩) (fun _ => [(2, ![0, 0], (3 : ℝ))]) :=
    ⟨fun en hen => by obtain rfl := List.mem_singleton.1 hen; exact elementOfKind_wellFormed _ _,
     fun en hen => by obtain rfl := List.mem_singleton.1 hen; rfl,
     fun en hen => by obtain rfl := List.mem_singleton.1 hen; decide,
     fun e he b => (C27_uniform_returns_the_rule (P := Point 2 ℝ) (W := ℝ) (D := ℝ) [![0, 0]] [2] [3]).2 _ rfl e b⟩
  obtain ⟨b, h1, -, h3⟩ := C105_weight hs (by
    intro e he q hq
    obtain rfl : e = 0 := by
      have : e < 1 := he
      omega
    exact (C35_basis_sums_to_one .tri3 q.2.1).2) ![0, -10] bufs outs elemVec hev
  refine ⟨b, h1, (h3 1).trans ?_⟩
  rw [show (∑ e : Fin plateSpace.length, quadSum (plateSpace[e]).1 [(2, ![0, 0], (3 : ℝ))] fun _ density => density) = 6 from ?_]
  · norm_num
  · refine Eq.trans (Fin.sum_univ_one _) ?_
    change (2 : ℝ) * |((elementOfKind .tri3 ([![-1, -1], ![1, -1], ![-1, 1]] : List (Point 2 ℝ))).jacobian ![0, 0]).det| * 3 + 0 = 6
    rw [plate_jacobian, show (1 : Matrix (Fin 2) (Fin 2) ℝ).det = 1 from Matrix.det_one]
    norm_num

end Fenris.Equilibrium
