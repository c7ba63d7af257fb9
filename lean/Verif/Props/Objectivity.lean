import Verif.Spec.Objectivity
import Verif.Props.Equilibrium
/-! # C106: moving a body rigidly turns its forces and keeps its energy -/
set_option autoImplicit false
set_option linter.unusedSectionVars false

namespace Fenris.Objectivity
open Fenris.Element Fenris.Local Fenris.Local.Spec Fenris.PatchTest Fenris.PatchTest.Spec Fenris.LinearProblem Fenris.LinearProblem.Spec Quadrature
open Fenris.Surface Fenris.Surface.Spec Fenris.Elasticity Fenris.Elasticity.Spec Fenris.Solid Fenris.Mass Fenris.Mass.Spec Fenris.Equilibrium
open Fenris.Equilibrium.Spec Fenris.Objectivity.Spec

attribute [local instance] zeroFill

/-! ## The force at a node -/

section generic
variable {K : Type} [Field K] [LinearOrder K] [IsStrictOrderedRing K] {d s : Nat} {Param : Type} [Inhabited Param]

/-- The components of the assembled vector that belong to one node. -/
theorem node_force {space : Space d K} {N : Nat} {table : Table (Point d K) K Param} {rules : Nat → List (QPoint d K Param)} {u : List K}
    (h : Discretisation space N table rules u s) (o : Operator d s K Param) (bufs : Nat → Buffer (Point d K) K Param) (outs : Nat → Nat → K)
    (elemVec : Nat → Except String (Nat → K))
    (hev : ∀ e, e < space.length → ∃ buf', elementVector space o table u (bufs e) (outs e) e = some (elemVec e, buf')) (f : List K)
    (hf : Assembly.assembleVector (conn s space N) elemVec = some (.ok f)) (n : Nat) (hn : n < N) (i : Fin s) :
    f.getD (s * n + i) 0 = ∑ e : Fin space.length, quadSum (space[e]).1 (rules e) fun p param => ∑ I : Fin (space[e]).2.length,
      if (space[e]).2[I] = n then ∑ k, o.op (gradU s ((space[e]).1.jacobian p) ((space[e]).1.gradients p) (localPart s u (space[e]).2)) param k i *
        physGrad ((space[e]).1.jacobian p) (((space[e]).1.gradients p)[(I : Nat)]?.getD 0) k else 0 := by
  have w1 := work h o bufs outs elemVec hev f hf (fun n' k => if n' = n ∧ k = i then 1 else 0) (fun en p param => ∑ I : Fin en.2.length,
      if en.2[I] = n then ∑ k, o.op (gradU s (en.1.jacobian p) (en.1.gradients p) (localPart s u en.2)) param k i *
        physGrad (en.1.jacobian p) ((en.1.gradients p)[(I : Nat)]?.getD 0) k else 0) (by
    intro e en hen q hq
    have hr : ∀ k l, o.op (gradU s (en.1.jacobian q.2.1) (en.1.gradients q.2.1) (localPart s u en.2)) q.2.2 k l *
        ∑ I : Fin en.2.length, physGrad (en.1.jacobian q.2.1) ((en.1.gradients q.2.1)[(I : Nat)]?.getD 0) k * (if en.2[I] = n ∧ l = i then 1 else 0) =
        if l = i then ∑ I : Fin en.2.length, if en.2[I] = n then
          o.op (gradU s (en.1.jacobian q.2.1) (en.1.gradients q.2.1) (localPart s u en.2)) q.2.2 k i *
            physGrad (en.1.jacobian q.2.1) ((en.1.gradients q.2.1)[(I : Nat)]?.getD 0) k else 0 else 0 := by
      intro k l
      by_cases hl : l = i
      · subst hl
        simp only [and_true, if_true, Finset.mul_sum, mul_ite, mul_one, mul_zero]
      · simp only [hl, and_false, if_false, mul_zero, Finset.sum_const_zero]
    simp only [hr, Finset.sum_ite_eq', Finset.mem_univ, if_true]
    rw [Finset.sum_comm]
    refine Finset.sum_congr rfl fun I _ => ?_
    split_ifs
    · rfl
    · exact Finset.sum_const_zero)
  rw [← w1, Finset.sum_eq_single n]
  · simp
  · intro n' _ hne
    simp [hne]
  · intro hno
    exact absurd (Finset.mem_range.2 hn) hno

/-- If at every quadrature point the contributions of the nodes to the two vectors are turned by `R`, then so are the vectors. -/
theorem turned_of_points {space space' : Space d K} {N : Nat} {table table' : Table (Point d K) K Param} {rules : Nat → List (QPoint d K Param)}
    {u u' : List K} (h : Discretisation space N table rules u s) (h' : Discretisation space' N table' rules u' s) (o : Operator d s K Param)
    (R : Matrix (Fin s) (Fin s) K) (hlen : space'.length = space.length)
    (hpoint : ∀ (e : Nat) (en en' : VolElement d K × List Nat), space[e]? = some en → space'[e]? = some en' → en'.2 = en.2 ∧
      ∀ q ∈ rules e, |(en'.1.jacobian q.2.1).det| = |(en.1.jacobian q.2.1).det| ∧ ∀ (I : Nat) (i : Fin s),
        ∑ k, o.op (gradU s (en'.1.jacobian q.2.1) (en'.1.gradients q.2.1) (localPart s u' en'.2)) q.2.2 k i *
          physGrad (en'.1.jacobian q.2.1) ((en'.1.gradients q.2.1)[I]?.getD 0) k =
        ∑ j, R i j * ∑ k, o.op (gradU s (en.1.jacobian q.2.1) (en.1.gradients q.2.1) (localPart s u en.2)) q.2.2 k j *
          physGrad (en.1.jacobian q.2.1) ((en.1.gradients q.2.1)[I]?.getD 0) k)
    (bufs bufs' : Nat → Buffer (Point d K) K Param) (outs outs' : Nat → Nat → K) (elemVec elemVec' : Nat → Except String (Nat → K))
    (hev : ∀ e, e < space.length → ∃ buf', elementVector space o table u (bufs e) (outs e) e = some (elemVec e, buf'))
    (hev' : ∀ e, e < space'.length → ∃ buf', elementVector space' o table' u' (bufs' e) (outs' e) e = some (elemVec' e, buf')) (f f' : List K)
    (hf : Assembly.assembleVector (conn s space N) elemVec = some (.ok f))
    (hf' : Assembly.assembleVector (conn s space' N) elemVec' = some (.ok f')) : Turned R N f f' := by
  intro n hn i
  have key : ∀ (rs : List (QPoint d K Param)) (en en' : VolElement d K × List Nat), (en'.2 = en.2 ∧
      ∀ q ∈ rs, |(en'.1.jacobian q.2.1).det| = |(en.1.jacobian q.2.1).det| ∧ ∀ (I : Nat) (i : Fin s),
        ∑ k, o.op (gradU s (en'.1.jacobian q.2.1) (en'.1.gradients q.2.1) (localPart s u' en'.2)) q.2.2 k i *
          physGrad (en'.1.jacobian q.2.1) ((en'.1.gradients q.2.1)[I]?.getD 0) k =
        ∑ j, R i j * ∑ k, o.op (gradU s (en.1.jacobian q.2.1) (en.1.gradients q.2.1) (localPart s u en.2)) q.2.2 k j *
          physGrad (en.1.jacobian q.2.1) ((en.1.gradients q.2.1)[I]?.getD 0) k) →
      (quadSum en'.1 rs fun p param => ∑ I : Fin en'.2.length, if en'.2[I] = n then
        ∑ k, o.op (gradU s (en'.1.jacobian p) (en'.1.gradients p) (localPart s u' en'.2)) param k i *
          physGrad (en'.1.jacobian p) ((en'.1.gradients p)[(I : Nat)]?.getD 0) k else 0) =
      ∑ j, R i j * quadSum en.1 rs fun p param => ∑ I : Fin en.2.length, if en.2[I] = n then
        ∑ k, o.op (gradU s (en.1.jacobian p) (en.1.gradients p) (localPart s u en.2)) param k j *
          physGrad (en.1.jacobian p) ((en.1.gradients p)[(I : Nat)]?.getD 0) k else 0 := by
    rintro rs ⟨el, nodes⟩ ⟨el', nodes'⟩ ⟨rfl, hp⟩
    simp only [quadSum_mul_left', quadSum_finsetSum]
    unfold quadSum
    congr 1
    refine List.map_congr_left fun q hq => ?_
    rw [(hp q hq).1]
    congr 1
    simp only [Finset.mul_sum]
    rw [Finset.sum_comm]
    refine Finset.sum_congr rfl fun I _ => ?_
    by_cases hI : nodes'[I] = n
    · have := (hp q hq).2 I i
      simp only [Finset.mul_sum] at this
      simp only [if_pos hI]
      rw [this]
      simp only [Finset.mul_sum]
    · simp only [if_neg hI, mul_zero, Finset.sum_const_zero]
  rw [node_force h' o bufs' outs' elemVec' hev' f' hf' n hn i]
  simp only [node_force h o bufs outs elemVec hev f hf n hn, Finset.mul_sum]
  rw [Finset.sum_comm]
  apply Fintype.sum_equiv (finCongr hlen)
  intro e
  have he : (e : Nat) < space.length := hlen ▸ e.2
  exact key _ _ _ (hpoint e _ _ (List.getElem?_eq_getElem he) (List.getElem?_eq_getElem e.2))

end generic

/-! ## A rigid motion on top of a deformation -/

/-- The operator computes the energy density and the transposed stress of the material wherever they are numbers. -/
def Computes {d : Nat} (o : Operator d d ℝ (Lame ℝ)) (m : Material d) : Prop :=
  ∀ G p, (∀ P, m.stress (deformationGradient G) p = .val P → o.op G p = P.transpose) ∧
    ∀ x : ℝ, m.energy (deformationGradient G) p = (x : WithTop ℝ) → o.energy G p = x

/-- C106: the operators of the linear elastic and the St. Venant-Kirchhoff material compute them. -/
theorem C106_operators_compute (d : Nat) : Computes (leOperator d) (linearElastic d) ∧ Computes (stvkOperator d) (stvk d) := by
  refine ⟨fun G p => ⟨fun P hP => ?_, fun x hx => ?_⟩, fun G p => ⟨fun P hP => ?_, fun x hx => ?_⟩⟩
  · cases hP; rfl
  · exact WithTop.coe_injective hx
  · cases hP; rfl
  · exact WithTop.coe_injective hx

section mesh
variable {kind : Kind} {mesh : Mesh (Point kind.dim ℝ)} {space : Space kind.dim ℝ} {table : Table (Point kind.dim ℝ) ℝ (Lame ℝ)}
  {rules : Nat → List (QPoint kind.dim ℝ (Lame ℝ))} {u u' : List ℝ} [Inhabited (Lame ℝ)]

private theorem cell_of (hspace : meshSpace kind mesh = some space) (hb : ∀ c ∈ mesh.cells, ∀ v ∈ c, v < mesh.vertices.length) {e : Nat}
    {en : VolElement kind.dim ℝ × List Nat} (hen : space[e]? = some en) :
    ∃ c, c ∈ mesh.cells ∧ en = (elementOfKind kind (c.map (coords mesh.vertices)), c) := by
  rw [C89_mesh_space kind mesh hb] at hspace
  injection hspace with hs
  rw [← hs, List.getElem?_map, Option.map_eq_some_iff] at hen
  obtain ⟨c, h1, h2⟩ := hen
  exact ⟨c, List.mem_of_getElem? h1, h2.symm⟩

/-- The deformation gradient is the gradient of the displaced positions. -/
private theorem deformation_entry (hb : ∀ c ∈ mesh.cells, ∀ v ∈ c, v < mesh.vertices.length) (hshape : Shaped kind mesh) (c : List Nat)
    (hc : c ∈ mesh.cells) (hlen : c.length = kind.numNodes) (p : Point kind.dim ℝ)
    (hdet : ((elementOfKind kind (c.map (coords mesh.vertices))).jacobian p).det ≠ 0) (u : List ℝ) (k l : Fin kind.dim) :
    deformationGradient (gradU kind.dim ((elementOfKind kind (c.map (coords mesh.vertices))).jacobian p)
      ((elementOfKind kind (c.map (coords mesh.vertices))).gradients p) (localPart kind.dim u c)) l k =
    ∑ I : Fin c.length, physGrad ((elementOfKind kind (c.map (coords mesh.vertices))).jacobian p) ((gradients kind p)[(I : Nat)]?.getD 0) k *
      deformed mesh.vertices u c[I] l := by
  rw [deformationGradient, Matrix.add_apply, Matrix.transpose_apply, gradU_entry _ (elementOfKind_wellFormed kind _) _ hlen, Matrix.one_apply,
    show (if l = k then (1 : ℝ) else 0) = if k = l then 1 else 0 from if_congr eq_comm rfl rfl,
    ← physGrad_one kind mesh hshape _ hc hlen (hb _ hc) p hdet k l, ← Finset.sum_add_distrib]
  refine Finset.sum_congr rfl fun I _ => ?_
  rw [deformed, mul_add]
  rfl

/-- The deformation gradient of a body that has been moved. -/
theorem deformation_moved (hspace : meshSpace kind mesh = some space) (hb : ∀ c ∈ mesh.cells, ∀ v ∈ c, v < mesh.vertices.length)
    (hshape : Shaped kind mesh) (h : Discretisation space mesh.vertices.length table rules u kind.dim)
    (Q : Matrix (Fin kind.dim) (Fin kind.dim) ℝ) (b : Point kind.dim ℝ)
    (hmove : Moved Q b mesh.vertices.length (deformed mesh.vertices u) (deformed mesh.vertices u'))
    {e : Nat} {en : VolElement kind.dim ℝ × List Nat} (hen : space[e]? = some en) {q : QPoint kind.dim ℝ (Lame ℝ)} (hq : q ∈ rules e) :
    deformationGradient (gradU kind.dim (en.1.jacobian q.2.1) (en.1.gradients q.2.1) (localPart kind.dim u' en.2)) =
      Q * deformationGradient (gradU kind.dim (en.1.jacobian q.2.1) (en.1.gradients q.2.1) (localPart kind.dim u en.2)) := by
  have hlen := h.nodeCount _ (List.mem_of_getElem? hen)
  have hdet := h.regular e _ hen q hq
  obtain ⟨c, hc, rfl⟩ := cell_of hspace hb hen
  ext l k
  change deformationGradient (gradU kind.dim ((elementOfKind kind (c.map (coords mesh.vertices))).jacobian q.2.1)
    ((elementOfKind kind (c.map (coords mesh.vertices))).gradients q.2.1) (localPart kind.dim u' c)) l k = _
  rw [deformation_entry hb hshape c hc hlen q.2.1 hdet u' k l, Matrix.mul_apply]
  have e1 : ∀ j, Q l j * deformationGradient (gradU kind.dim ((elementOfKind kind (c.map (coords mesh.vertices))).jacobian q.2.1)
      ((elementOfKind kind (c.map (coords mesh.vertices))).gradients q.2.1) (localPart kind.dim u c)) j k =
      ∑ I : Fin c.length, physGrad ((elementOfKind kind (c.map (coords mesh.vertices))).jacobian q.2.1) ((gradients kind q.2.1)[(I : Nat)]?.getD 0) k *
        (Q l j * deformed mesh.vertices u c[I] j) := by
    intro j
    rw [deformation_entry hb hshape c hc hlen q.2.1 hdet u k j, Finset.mul_sum]
    exact Finset.sum_congr rfl fun I _ => by ring
  rw [Finset.sum_congr rfl fun j _ => e1 j, Finset.sum_comm]
  have e2 : ∀ I : Fin c.length, physGrad ((elementOfKind kind (c.map (coords mesh.vertices))).jacobian q.2.1) ((gradients kind q.2.1)[(I : Nat)]?.getD 0) k *
      deformed mesh.vertices u' c[I] l = (∑ j, physGrad ((elementOfKind kind (c.map (coords mesh.vertices))).jacobian q.2.1)
        ((gradients kind q.2.1)[(I : Nat)]?.getD 0) k * (Q l j * deformed mesh.vertices u c[I] j)) +
      physGrad ((elementOfKind kind (c.map (coords mesh.vertices))).jacobian q.2.1) ((gradients kind q.2.1)[(I : Nat)]?.getD 0) k * b l := by
    intro I
    have h3 := congrFun (hmove c[I] (hb _ hc _ (List.getElem_mem _))) l
    rw [Pi.add_apply, Matrix.mulVec, dotProduct] at h3
    rw [h3, mul_add, Finset.mul_sum]
  rw [Finset.sum_congr rfl fun I _ => e2 I, Finset.sum_add_distrib, ← Finset.sum_mul, physGrad_zero kind _ _ _ hlen, zero_mul, add_zero]

/-- **C106.** The forces turn with the body: if the displacements `u'` put the nodes where `u` puts them, followed by a rotation `Q` and a translation,
then for the nonlinear materials the assembled forces at `u'` are those at `u`, turned by `Q`. -/
theorem C106_forces_turn (hspace : meshSpace kind mesh = some space) (hb : ∀ c ∈ mesh.cells, ∀ v ∈ c, v < mesh.vertices.length)
    (hshape : Shaped kind mesh) (h : Discretisation space mesh.vertices.length table rules u kind.dim) (hu' : u'.length = u.length)
    (m : Material kind.dim) (hm : m = stvk kind.dim ∨ m = neoHookean kind.dim) (o : Operator kind.dim kind.dim ℝ (Lame ℝ)) (ho : Computes o m)
    (hval : ∀ (e : Nat) (en : VolElement kind.dim ℝ × List Nat), space[e]? = some en → ∀ q ∈ rules e, ∃ P,
      m.stress (deformationGradient (gradU kind.dim (en.1.jacobian q.2.1) (en.1.gradients q.2.1) (localPart kind.dim u en.2))) q.2.2 = .val P)
    (Q : Matrix (Fin kind.dim) (Fin kind.dim) ℝ) (hQ : Q.transpose * Q = 1) (hQ1 : Q.det = 1) (b : Point kind.dim ℝ)
    (hmove : Moved Q b mesh.vertices.length (deformed mesh.vertices u) (deformed mesh.vertices u'))
    (bufs bufs' : Nat → Buffer (Point kind.dim ℝ) ℝ (Lame ℝ)) (outs outs' : Nat → Nat → ℝ) (elemVec elemVec' : Nat → Except String (Nat → ℝ))
    (hev : ∀ e, e < space.length → ∃ buf', elementVector space o table u (bufs e) (outs e) e = some (elemVec e, buf'))
    (hev' : ∀ e, e < space.length → ∃ buf', elementVector space o table u' (bufs' e) (outs' e) e = some (elemVec' e, buf')) (f f' : List ℝ)
    (hf : Assembly.assembleVector (conn kind.dim space mesh.vertices.length) elemVec = some (.ok f))
    (hf' : Assembly.assembleVector (conn kind.dim space mesh.vertices.length) elemVec' = some (.ok f')) :
    Turned Q mesh.vertices.length f f' := by
  have h' : Discretisation space mesh.vertices.length table rules u' kind.dim := { h with uLength := hu'.trans h.uLength }
  refine turned_of_points h h' o Q rfl ?_ bufs bufs' outs outs' elemVec elemVec' hev hev' f f' hf hf'
  intro e en en' hen hen'
  obtain rfl : en = en' := Option.some.inj (hen.symm.trans hen')
  refine ⟨rfl, fun q hq => ⟨rfl, fun I i => ?_⟩⟩
  obtain ⟨P, hP⟩ := hval e en hen q hq
  have hF := deformation_moved hspace hb hshape h Q b hmove hen hq
  have hP' : m.stress (deformationGradient (gradU kind.dim (en.1.jacobian q.2.1) (en.1.gradients q.2.1) (localPart kind.dim u' en.2))) q.2.2 = .val (Q * P) := by
    rw [hF]
    rcases hm with rfl | rfl
    · exact (C72_stvk_objective _ Q _ hQ).2.1 P hP
    · exact (C72_neo_hookean_objective _ Q _ hQ hQ1).2.1 P hP
  rw [(ho _ _).1 _ hP, (ho _ _).1 _ hP', Matrix.transpose_mul]
  simp only [Matrix.mul_apply, Matrix.transpose_apply, Finset.sum_mul, Finset.mul_sum]
  rw [Finset.sum_comm]
  exact Finset.sum_congr rfl fun j _ => Finset.sum_congr rfl fun k _ => by ring

/-- **C106.** The energy does not change when the body is moved rigidly. -/
theorem C106_energy_invariant (hspace : meshSpace kind mesh = some space) (hb : ∀ c ∈ mesh.cells, ∀ v ∈ c, v < mesh.vertices.length)
    (hshape : Shaped kind mesh) (h : Discretisation space mesh.vertices.length table rules u kind.dim) (hu' : u'.length = u.length)
    (m : Material kind.dim) (hm : m = stvk kind.dim ∨ m = neoHookean kind.dim) (o : Operator kind.dim kind.dim ℝ (Lame ℝ)) (ho : Computes o m)
    (hval : ∀ (e : Nat) (en : VolElement kind.dim ℝ × List Nat), space[e]? = some en → ∀ q ∈ rules e, ∃ x : ℝ,
      m.energy (deformationGradient (gradU kind.dim (en.1.jacobian q.2.1) (en.1.gradients q.2.1) (localPart kind.dim u en.2))) q.2.2 = (x : WithTop ℝ))
    (Q : Matrix (Fin kind.dim) (Fin kind.dim) ℝ) (hQ : Q.transpose * Q = 1) (hQ1 : Q.det = 1) (b : Point kind.dim ℝ)
    (hmove : Moved Q b mesh.vertices.length (deformed mesh.vertices u) (deformed mesh.vertices u'))
    (bufs bufs' : Nat → Buffer (Point kind.dim ℝ) ℝ (Lame ℝ)) (elem elem' : Nat → Except String ℝ)
    (hee : ∀ e, e < space.length → ∃ buf', elementEnergy space o table u (bufs e) e = some (elem e, buf'))
    (hee' : ∀ e, e < space.length → ∃ buf', elementEnergy space o table u' (bufs' e) e = some (elem' e, buf')) :
    ∃ x, Assembly.assembleScalar space.length elem = .ok x ∧ Assembly.assembleScalar space.length elem' = .ok x := by
  have h' : Discretisation space mesh.vertices.length table rules u' kind.dim := { h with uLength := hu'.trans h.uLength }
  refine ⟨_, (C69_global_energy space _ table rules u h o bufs elem hee .leaf).1, ?_⟩
  rw [(C69_global_energy space _ table rules u' h' o bufs' elem' hee' .leaf).1]
  congr 1
  refine Finset.sum_congr rfl fun e _ => quadSum_congr_mem _ _ _ _ fun q hq => ?_
  have hen := List.getElem?_eq_getElem e.2
  obtain ⟨x, hx⟩ := hval e _ hen q hq
  have hF := deformation_moved hspace hb hshape h Q b hmove hen hq
  refine ((ho _ _).2 x ?_).trans ((ho _ _).2 x hx).symm
  refine Eq.trans ?_ hx
  refine Eq.trans (congrArg (fun F => m.energy F q.2.2) hF) ?_
  rcases hm with rfl | rfl
  · exact (C72_stvk_objective _ Q _ hQ).1
  · refine ((C72_neo_hookean_objective _ Q _ hQ hQ1).1 ?_).1
    cases kind <;> simp [Kind.dim]

/-- **C106.** A body that is only moved, not deformed, exerts no forces. -/
theorem C106_rigid_body_exerts_no_forces (hspace : meshSpace kind mesh = some space) (hb : ∀ c ∈ mesh.cells, ∀ v ∈ c, v < mesh.vertices.length)
    (hshape : Shaped kind mesh) (h : Discretisation space mesh.vertices.length table rules u kind.dim)
    (m : Material kind.dim) (hm : m = stvk kind.dim ∨ m = neoHookean kind.dim) (o : Operator kind.dim kind.dim ℝ (Lame ℝ)) (ho : Computes o m)
    (Q : Matrix (Fin kind.dim) (Fin kind.dim) ℝ) (hQ : Q.transpose * Q = 1) (hQ1 : Q.det = 1) (b : Point kind.dim ℝ)
    (hmove : Moved Q b mesh.vertices.length (reference mesh.vertices) (deformed mesh.vertices u))
    (bufs : Nat → Buffer (Point kind.dim ℝ) ℝ (Lame ℝ)) (outs : Nat → Nat → ℝ) (elemVec : Nat → Except String (Nat → ℝ))
    (hev : ∀ e, e < space.length → ∃ buf', elementVector space o table u (bufs e) (outs e) e = some (elemVec e, buf')) (f : List ℝ)
    (hf : Assembly.assembleVector (conn kind.dim space mesh.vertices.length) elemVec = some (.ok f)) :
    ∀ n, n < mesh.vertices.length → ∀ i : Fin kind.dim, f.getD (kind.dim * n + i) 0 = 0 := by
  intro n hn i
  rw [node_force h o bufs outs elemVec hev f hf n hn i]
  refine Finset.sum_eq_zero fun e _ => ?_
  refine Eq.trans (quadSum_congr_mem _ _ _ (fun _ _ => 0) fun q hq => ?_) (by simp [quadSum])
  have hen := List.getElem?_eq_getElem e.2
  let u₀ : List ℝ := List.replicate (kind.dim * mesh.vertices.length) 0
  have h0 : ∀ r, u₀.getD r 0 = 0 := by
    intro r
    rw [List.getD_eq_getElem?_getD, List.getElem?_replicate]
    split_ifs <;> rfl
  have hd0 : deformed mesh.vertices u₀ = reference mesh.vertices := by
    funext n' l
    rw [deformed, h0, add_zero]
  have hdisc0 : Discretisation space mesh.vertices.length table rules u₀ kind.dim := { h with uLength := by simp [u₀] }
  have hF := deformation_moved (u := u₀) (u' := u) hspace hb hshape hdisc0 Q b (hd0.symm ▸ hmove) hen hq
  have hG0 : deformationGradient (gradU kind.dim ((space[(e : Nat)]).1.jacobian q.2.1) ((space[(e : Nat)]).1.gradients q.2.1)
      (localPart kind.dim u₀ (space[(e : Nat)]).2)) = 1 := by
    have hmem : space[(e : Nat)] ∈ space := List.getElem_mem _
    have : gradU kind.dim ((space[(e : Nat)]).1.jacobian q.2.1) ((space[(e : Nat)]).1.gradients q.2.1)
        (localPart kind.dim u₀ (space[(e : Nat)]).2) = 0 := by
      ext k l
      rw [gradU_entry _ (h.wellFormed _ hmem) _ (h.nodeCount _ hmem)]
      simp only [h0, mul_zero, Finset.sum_const_zero]
      rfl
    rw [this, deformationGradient, Matrix.transpose_zero, add_zero]
  have hP0 : m.stress 1 q.2.2 = .val 0 := by
    rcases hm with rfl | rfl
    · exact (C56_undeformed _ (.inr rfl) _).2.2
    · change nhStress 1 _ = _
      rw [nhStress_eq _ _ (by rw [Matrix.det_one]; exact one_pos)]
      simp
  have hP : m.stress (deformationGradient (gradU kind.dim ((space[(e : Nat)]).1.jacobian q.2.1) ((space[(e : Nat)]).1.gradients q.2.1)
      (localPart kind.dim u (space[(e : Nat)]).2))) q.2.2 = .val 0 := by
    rw [hF, hG0]
    rcases hm with rfl | rfl
    · exact ((C72_stvk_objective 1 Q _ hQ).2.1 0 hP0).trans (by rw [Matrix.mul_zero])
    · exact ((C72_neo_hookean_objective 1 Q _ hQ hQ1).2.1 0 hP0).trans (by rw [Matrix.mul_zero])
  have hop := (ho _ _).1 0 hP
  refine Finset.sum_eq_zero fun I _ => ?_
  split_ifs
  · refine Finset.sum_eq_zero fun k _ => ?_
    refine mul_eq_zero_of_left ?_ _
    exact (congrFun (congrFun hop k) i).trans rfl
  · rfl

/-- **C106.** The linear material does not feel infinitesimal rigid motions: adding `W x + b` with an antisymmetric `W` to the displacement does not
change the forces. -/
theorem C106_linear_infinitesimal (hspace : meshSpace kind mesh = some space) (hb : ∀ c ∈ mesh.cells, ∀ v ∈ c, v < mesh.vertices.length)
    (hshape : Shaped kind mesh) (h : Discretisation space mesh.vertices.length table rules u kind.dim) (hu' : u'.length = u.length)
    (o : Operator kind.dim kind.dim ℝ (Lame ℝ)) (ho : Computes o (linearElastic kind.dim))
    (W : Matrix (Fin kind.dim) (Fin kind.dim) ℝ) (hW : W.transpose = -W) (b : Point kind.dim ℝ)
    (hmove : ∀ n, n < mesh.vertices.length → deformed mesh.vertices u' n = deformed mesh.vertices u n + (W.mulVec (reference mesh.vertices n) + b))
    (bufs bufs' : Nat → Buffer (Point kind.dim ℝ) ℝ (Lame ℝ)) (outs outs' : Nat → Nat → ℝ) (elemVec elemVec' : Nat → Except String (Nat → ℝ))
    (hev : ∀ e, e < space.length → ∃ buf', elementVector space o table u (bufs e) (outs e) e = some (elemVec e, buf'))
    (hev' : ∀ e, e < space.length → ∃ buf', elementVector space o table u' (bufs' e) (outs' e) e = some (elemVec' e, buf')) (f f' : List ℝ)
    (hf : Assembly.assembleVector (conn kind.dim space mesh.vertices.length) elemVec = some (.ok f))
    (hf' : Assembly.assembleVector (conn kind.dim space mesh.vertices.length) elemVec' = some (.ok f')) :
    ∀ n, n < mesh.vertices.length → ∀ i : Fin kind.dim, f'.getD (kind.dim * n + i) 0 = f.getD (kind.dim * n + i) 0 := by
  have h' : Discretisation space mesh.vertices.length table rules u' kind.dim := { h with uLength := hu'.trans h.uLength }
  have hturn : Turned (1 : Matrix (Fin kind.dim) (Fin kind.dim) ℝ) mesh.vertices.length f f' := by
    refine turned_of_points h h' o 1 rfl ?_ bufs bufs' outs outs' elemVec elemVec' hev hev' f f' hf hf'
    intro e en en' hen hen'
    obtain rfl : en = en' := Option.some.inj (hen.symm.trans hen')
    refine ⟨rfl, fun q hq => ⟨rfl, fun I i => ?_⟩⟩
    have hF : deformationGradient (gradU kind.dim (en.1.jacobian q.2.1) (en.1.gradients q.2.1) (localPart kind.dim u' en.2)) =
        deformationGradient (gradU kind.dim (en.1.jacobian q.2.1) (en.1.gradients q.2.1) (localPart kind.dim u en.2)) + W := by
      have hlen := h.nodeCount _ (List.mem_of_getElem? hen)
      have hdet := h.regular e _ hen q hq
      obtain ⟨c, hc, rfl⟩ := cell_of hspace hb hen
      ext l k
      change deformationGradient (gradU kind.dim ((elementOfKind kind (c.map (coords mesh.vertices))).jacobian q.2.1)
        ((elementOfKind kind (c.map (coords mesh.vertices))).gradients q.2.1) (localPart kind.dim u' c)) l k =
        deformationGradient (gradU kind.dim ((elementOfKind kind (c.map (coords mesh.vertices))).jacobian q.2.1)
        ((elementOfKind kind (c.map (coords mesh.vertices))).gradients q.2.1) (localPart kind.dim u c)) l k + W l k
      rw [deformation_entry hb hshape c hc hlen q.2.1 hdet u' k l, deformation_entry hb hshape c hc hlen q.2.1 hdet u k l]
      have e2 : ∀ I : Fin c.length, physGrad ((elementOfKind kind (c.map (coords mesh.vertices))).jacobian q.2.1) ((gradients kind q.2.1)[(I : Nat)]?.getD 0) k *
          deformed mesh.vertices u' c[I] l = physGrad ((elementOfKind kind (c.map (coords mesh.vertices))).jacobian q.2.1)
            ((gradients kind q.2.1)[(I : Nat)]?.getD 0) k * deformed mesh.vertices u c[I] l +
          ((∑ j, W l j * (physGrad ((elementOfKind kind (c.map (coords mesh.vertices))).jacobian q.2.1) ((gradients kind q.2.1)[(I : Nat)]?.getD 0) k *
            reference mesh.vertices c[I] j)) +
          physGrad ((elementOfKind kind (c.map (coords mesh.vertices))).jacobian q.2.1) ((gradients kind q.2.1)[(I : Nat)]?.getD 0) k * b l) := by
        intro I
        have h3 := congrFun (hmove c[I] (hb _ hc _ (List.getElem_mem _))) l
        rw [Pi.add_apply, Pi.add_apply, Matrix.mulVec, dotProduct] at h3
        rw [h3, mul_add, mul_add, Finset.mul_sum]
        congr 2
        exact Finset.sum_congr rfl fun j _ => by ring
      rw [Finset.sum_congr rfl fun I _ => e2 I, Finset.sum_add_distrib, Finset.sum_add_distrib, ← Finset.sum_mul, physGrad_zero kind _ _ _ hlen, zero_mul,
        add_zero, Finset.sum_comm]
      simp only [← Finset.mul_sum, physGrad_one kind mesh hshape c hc hlen (hb _ hc) q.2.1 hdet]
      simp
    have hs := (C72_linear_elastic_invariant (deformationGradient (gradU kind.dim (en.1.jacobian q.2.1) (en.1.gradients q.2.1) (localPart kind.dim u en.2)))
      W 1 q.2.2 hW (by simp)).2.1
    rw [← hF] at hs
    have hop := (ho (gradU kind.dim (en.1.jacobian q.2.1) (en.1.gradients q.2.1) (localPart kind.dim u en.2)) q.2.2).1 _ rfl
    have hop' := (ho (gradU kind.dim (en.1.jacobian q.2.1) (en.1.gradients q.2.1) (localPart kind.dim u' en.2)) q.2.2).1 _ hs
    rw [hop', hop]
    simp [Matrix.one_apply]
  intro n hn i
  rw [hturn n hn i]
  simp [Matrix.one_apply]

end mesh

/-! ## The whole problem moved -/

section moved
variable {K : Type} [Field K] [LinearOrder K] [IsStrictOrderedRing K] {s : Nat} {Param : Type} [Inhabited Param]

private theorem weightedSum_moved {d : Nat} (Q : Matrix (Fin d) (Fin d) K) (b : Point d K) (x x' : Nat → Point d K) (r : Fin d) :
    ∀ (vs : List Nat) (ns : List K), (∀ v ∈ vs, x' v = Q.mulVec (x v) + b) →
      weightedSum (vs.map x') ns r = ∑ j, Q r j * weightedSum (vs.map x) ns j + b r * (ns.take vs.length).sum := by
  intro vs
  induction vs with
  | nil => intro ns _; simp [weightedSum]
  | cons v vs ih =>
    intro ns hv
    cases ns with
    | nil => simp [weightedSum]
    | cons n ns =>
      simp only [List.map_cons, weightedSum, List.length_cons, List.take_succ_cons, List.sum_cons]
      rw [ih ns fun w hw => hv w (List.mem_cons_of_mem _ hw), hv v List.mem_cons_self, Pi.add_apply, Matrix.mulVec, dotProduct]
      simp only [mul_add, Finset.sum_add_distrib, ← mul_assoc, ← Finset.sum_mul]
      ring

private theorem geometry_gradients (kind : Kind) (p : Point kind.dim K) (c : Fin kind.dim) :
    (geometryGradients kind p).length = kind.geometry.numNodes ∧ ((geometryGradients kind p).map fun G => G c).sum = 0 := by
  cases kind
  · exact C35_gradients_sum_to_zero .segment2 p c
  · exact C35_gradients_sum_to_zero .tri3 p c
  · exact C35_gradients_sum_to_zero .tri3 p c
  · exact C35_gradients_sum_to_zero .quad4 p c
  · exact C35_gradients_sum_to_zero .quad4 p c
  · exact C35_gradients_sum_to_zero .tet4 p c
  · exact C35_gradients_sum_to_zero .tet4 p c
  · exact C35_gradients_sum_to_zero .tet4 p c
  · exact C35_gradients_sum_to_zero .hex8 p c
  · exact C35_gradients_sum_to_zero .hex8 p c
  · exact C35_gradients_sum_to_zero .hex8 p c

private theorem jacobian_moved (kind : Kind) (Q : Matrix (Fin kind.dim) (Fin kind.dim) K) (b : Point kind.dim K) (x x' : Nat → Point kind.dim K)
    (c : List Nat) (hlen : c.length = kind.numNodes) (hx : ∀ v ∈ c, x' v = Q.mulVec (x v) + b) (p : Point kind.dim K) :
    (elementOfKind kind (c.map x')).jacobian p = Q * (elementOfKind kind (c.map x)).jacobian p := by
  ext r k
  rw [Matrix.mul_apply]
  change weightedSum ((c.map x').take _) ((geometryGradients kind p).map fun G => G k) r =
    ∑ j, Q r j * weightedSum ((c.map x).take _) ((geometryGradients kind p).map fun G => G k) j
  have hle : ((geometryGradients kind p).map fun G => G k).length ≤ (c.take kind.geometry.numNodes).length := by
    rw [List.length_map, (geometry_gradients kind p k).1, List.length_take, hlen]
    refine le_min le_rfl ?_
    cases kind <;> decide
  rw [← List.map_take, ← List.map_take, weightedSum_moved Q b x x' r _ _ fun v hv => hx v (List.mem_of_mem_take hv), List.take_of_length_le hle,
    (geometry_gradients kind p k).2, mul_zero, add_zero]

theorem physGrad_moved {d : Nat} (Q : Matrix (Fin d) (Fin d) K) (hQ : Q.transpose * Q = 1) (J : Matrix (Fin d) (Fin d) K) (g : Point d K) :
    physGrad (Q * J) g = Q.mulVec (physGrad J g) := by
  have h : ∀ M : Matrix (Fin d) (Fin d) K, physGrad M g = M⁻¹.transpose.mulVec g := fun M => rfl
  rw [h, h, Matrix.mul_inv_rev, Matrix.inv_eq_left_inv hQ, Matrix.transpose_mul, Matrix.transpose_transpose, Matrix.mulVec_mulVec]

theorem abs_det_orthogonal {d : Nat} {Q : Matrix (Fin d) (Fin d) K} (hQ : Q.transpose * Q = 1) : |Q.det| = 1 := by
  have := congrArg Matrix.det hQ
  rw [Matrix.det_mul, Matrix.det_transpose, Matrix.det_one] at this
  exact (abs_eq zero_le_one).2 (mul_self_eq_one_iff.1 this)

section
variable {kind : Kind} {mesh mesh' : Mesh (Point kind.dim K)} {space space' : Space kind.dim K} {table : Table (Point kind.dim K) K Param}
  {rules : Nat → List (QPoint kind.dim K Param)} {u u' : List K}

private theorem cell_of' (hspace : meshSpace kind mesh = some space) (hb : ∀ c ∈ mesh.cells, ∀ v ∈ c, v < mesh.vertices.length) {e : Nat}
    {en : VolElement kind.dim K × List Nat} (hen : space[e]? = some en) :
    ∃ c, mesh.cells[e]? = some c ∧ en = (elementOfKind kind (c.map (coords mesh.vertices)), c) := by
  rw [C89_mesh_space kind mesh hb] at hspace
  injection hspace with hs
  rw [← hs, List.getElem?_map, Option.map_eq_some_iff] at hen
  obtain ⟨c, h1, h2⟩ := hen
  exact ⟨c, h1, h2.symm⟩

/-- The elements of the moved mesh. -/
theorem moved_element (hspace : meshSpace kind mesh = some space) (hspace' : meshSpace kind mesh' = some space')
    (hb : ∀ c ∈ mesh.cells, ∀ v ∈ c, v < mesh.vertices.length) (hcells : mesh'.cells = mesh.cells) (hN : mesh'.vertices.length = mesh.vertices.length)
    (h : Discretisation space mesh.vertices.length table rules u s) (Q : Matrix (Fin kind.dim) (Fin kind.dim) K) (b : Point kind.dim K)
    (hmove : Moved Q b mesh.vertices.length (reference mesh.vertices) (reference mesh'.vertices)) {e : Nat} {en en' : VolElement kind.dim K × List Nat}
    (hen : space[e]? = some en) (hen' : space'[e]? = some en') :
    en'.2 = en.2 ∧ (∀ p, en'.1.jacobian p = Q * en.1.jacobian p) ∧ (∀ p, en'.1.gradients p = en.1.gradients p) ∧ en'.1.numNodes = en.1.numNodes ∧
      WellFormed en'.1 := by
  have hlen := h.nodeCount _ (List.mem_of_getElem? hen)
  obtain ⟨c, hc, rfl⟩ := cell_of' hspace hb hen
  obtain ⟨c', hc', rfl⟩ := cell_of' hspace' (by rw [hcells, hN]; exact hb) hen'
  rw [hcells] at hc'
  obtain rfl : c = c' := Option.some.inj (hc.symm.trans hc')
  exact ⟨rfl, fun p => jacobian_moved kind Q b _ _ c hlen (fun v hv => hmove v (hb _ (List.mem_of_getElem? hc) v hv)) p, fun _ => rfl, rfl,
    elementOfKind_wellFormed kind _⟩

theorem moved_length (hspace : meshSpace kind mesh = some space) (hspace' : meshSpace kind mesh' = some space')
    (hb : ∀ c ∈ mesh.cells, ∀ v ∈ c, v < mesh.vertices.length) (hcells : mesh'.cells = mesh.cells) (hN : mesh'.vertices.length = mesh.vertices.length) :
    space'.length = space.length := by
  rw [C89_mesh_space kind mesh hb] at hspace
  rw [C89_mesh_space kind mesh' (by rw [hcells, hN]; exact hb)] at hspace'
  injection hspace with hs
  injection hspace' with hs'
  rw [← hs, ← hs', List.length_map, List.length_map, hcells]

/-- **C106.** A mesh that can be used for assembly can still be used after it has been moved. -/
theorem C106_moved_mesh_usable (hspace : meshSpace kind mesh = some space) (hspace' : meshSpace kind mesh' = some space')
    (hb : ∀ c ∈ mesh.cells, ∀ v ∈ c, v < mesh.vertices.length) (hcells : mesh'.cells = mesh.cells) (hN : mesh'.vertices.length = mesh.vertices.length)
    (h : Discretisation space mesh.vertices.length table rules u s) (hu' : u'.length = u.length) (Q : Matrix (Fin kind.dim) (Fin kind.dim) K)
    (hQ : Q.transpose * Q = 1) (b : Point kind.dim K) (hmove : Moved Q b mesh.vertices.length (reference mesh.vertices) (reference mesh'.vertices)) :
    Discretisation space' mesh.vertices.length table rules u' s := by
  have hl := moved_length hspace hspace' hb hcells hN
  have hm : ∀ (e : Nat) (en' : VolElement kind.dim K × List Nat), space'[e]? = some en' → ∃ en, space[e]? = some en ∧ (en'.2 = en.2 ∧
      (∀ p, en'.1.jacobian p = Q * en.1.jacobian p) ∧ (∀ p, en'.1.gradients p = en.1.gradients p) ∧ en'.1.numNodes = en.1.numNodes ∧ WellFormed en'.1) := by
    intro e en' hen'
    have he : e < space.length := hl ▸ (List.getElem?_eq_some_iff.1 hen').1
    exact ⟨_, List.getElem?_eq_getElem he, moved_element hspace hspace' hb hcells hN h Q b hmove (List.getElem?_eq_getElem he) hen'⟩
  refine ⟨fun en' hen' => ?_, fun en' hen' => ?_, fun en' hen' => ?_, hu'.trans h.uLength, fun e he => h.rule e (hl ▸ he), fun e en' hen' q hq => ?_⟩
  · obtain ⟨e, he⟩ := List.getElem?_of_mem hen'
    obtain ⟨en, -, -, -, -, -, h5⟩ := hm e en' he
    exact h5
  · obtain ⟨e, he⟩ := List.getElem?_of_mem hen'
    obtain ⟨en, h0, h1, -, -, h4, -⟩ := hm e en' he
    rw [h1, h4]
    exact h.nodeCount _ (List.mem_of_getElem? h0)
  · obtain ⟨e, he⟩ := List.getElem?_of_mem hen'
    obtain ⟨en, h0, h1, -⟩ := hm e en' he
    rw [h1]
    exact h.inBounds _ (List.mem_of_getElem? h0)
  · obtain ⟨en, h0, -, h2, -⟩ := hm e en' hen'
    rw [h2, Matrix.det_mul]
    refine mul_ne_zero (fun h0 => ?_) (h.regular e _ h0 q hq)
    have := abs_det_orthogonal hQ
    rw [h0, abs_zero] at this
    exact zero_ne_one this

/-- The gradient of the turned values on the moved mesh. -/
theorem gradU_moved (Q : Matrix (Fin kind.dim) (Fin kind.dim) K) (hQ : Q.transpose * Q = 1) (R : Matrix (Fin s) (Fin s) K)
    (hturn : Turned R mesh.vertices.length u u') (h : Discretisation space mesh.vertices.length table rules u s)
    {en en' : VolElement kind.dim K × List Nat} (hen : en ∈ space) (p : Point kind.dim K)
    (hm : en'.2 = en.2 ∧ (∀ p, en'.1.jacobian p = Q * en.1.jacobian p) ∧ (∀ p, en'.1.gradients p = en.1.gradients p) ∧ en'.1.numNodes = en.1.numNodes ∧
      WellFormed en'.1) :
    gradU s (en'.1.jacobian p) (en'.1.gradients p) (localPart s u' en'.2) =
      Q * gradU s (en.1.jacobian p) (en.1.gradients p) (localPart s u en.2) * R.transpose := by
  obtain ⟨el, nodes⟩ := en
  obtain ⟨el', nodes'⟩ := en'
  obtain ⟨rfl, h2, h3, h4, h5⟩ := hm
  dsimp only at h2 h3 h4 h5 ⊢
  have hlen := h.nodeCount _ hen
  have hin := h.inBounds _ hen
  ext k i
  rw [gradU_entry _ h5 _ (hlen.trans h4.symm), h2, h3, Matrix.mul_assoc, Matrix.mul_apply]
  have e1 : ∀ l, (gradU s (el.jacobian p) (el.gradients p) (localPart s u nodes') * R.transpose) l i =
      ∑ I : Fin nodes'.length, physGrad (el.jacobian p) ((el.gradients p)[(I : Nat)]?.getD 0) l * u'.getD (s * nodes'[I] + i) 0 := by
    intro l
    rw [Matrix.mul_apply]
    simp only [gradU_entry _ (h.wellFormed _ hen) _ hlen, Finset.sum_mul, Matrix.transpose_apply]
    rw [Finset.sum_comm]
    refine Finset.sum_congr rfl fun I _ => ?_
    have := hturn nodes'[I] (hin _ (List.getElem_mem _)) i
    rw [this, Finset.mul_sum]
    exact Finset.sum_congr rfl fun j _ => by ring
  simp only [e1, Finset.mul_sum]
  rw [Finset.sum_comm]
  refine Finset.sum_congr rfl fun I _ => ?_
  rw [physGrad_moved Q hQ, Matrix.mulVec, dotProduct, Finset.sum_mul]
  exact Finset.sum_congr rfl fun j _ => by ring

/-- **C106.** Moving the whole problem: if the mesh is turned by `Q` and translated, and the values at the nodes are turned by `R`, then the assembled
vector is turned by `R`, for every operator whose flux turns along with the gradient. -/
theorem C106_moved_problem (hspace : meshSpace kind mesh = some space) (hspace' : meshSpace kind mesh' = some space')
    (hb : ∀ c ∈ mesh.cells, ∀ v ∈ c, v < mesh.vertices.length) (hcells : mesh'.cells = mesh.cells) (hN : mesh'.vertices.length = mesh.vertices.length)
    (h : Discretisation space mesh.vertices.length table rules u s) (hu' : u'.length = u.length) (Q : Matrix (Fin kind.dim) (Fin kind.dim) K)
    (hQ : Q.transpose * Q = 1) (b : Point kind.dim K) (hmove : Moved Q b mesh.vertices.length (reference mesh.vertices) (reference mesh'.vertices))
    (R : Matrix (Fin s) (Fin s) K) (hturn : Turned R mesh.vertices.length u u') (o : Operator kind.dim s K Param)
    (ho : ∀ (e : Nat) (en : VolElement kind.dim K × List Nat), space[e]? = some en → ∀ q ∈ rules e,
      ∀ G, G = gradU s (en.1.jacobian q.2.1) (en.1.gradients q.2.1) (localPart s u en.2) →
        o.op (Q * G * R.transpose) q.2.2 = Q * o.op G q.2.2 * R.transpose)
    (bufs bufs' : Nat → Buffer (Point kind.dim K) K Param) (outs outs' : Nat → Nat → K) (elemVec elemVec' : Nat → Except String (Nat → K))
    (hev : ∀ e, e < space.length → ∃ buf', elementVector space o table u (bufs e) (outs e) e = some (elemVec e, buf'))
    (hev' : ∀ e, e < space'.length → ∃ buf', elementVector space' o table u' (bufs' e) (outs' e) e = some (elemVec' e, buf')) (f f' : List K)
    (hf : Assembly.assembleVector (conn s space mesh.vertices.length) elemVec = some (.ok f))
    (hf' : Assembly.assembleVector (conn s space' mesh.vertices.length) elemVec' = some (.ok f')) :
    Turned R mesh.vertices.length f f' := by
  have h' := C106_moved_mesh_usable hspace hspace' hb hcells hN h hu' Q hQ b hmove
  refine turned_of_points h h' o R (moved_length hspace hspace' hb hcells hN) ?_ bufs bufs' outs outs' elemVec elemVec' hev hev' f f' hf hf'
  intro e en en' hen hen'
  have hm := moved_element hspace hspace' hb hcells hN h Q b hmove hen hen'
  refine ⟨hm.1, fun q hq => ⟨?_, fun I i => ?_⟩⟩
  · rw [hm.2.1, Matrix.det_mul, abs_mul, abs_det_orthogonal hQ, one_mul]
  · rw [gradU_moved Q hQ R hturn h (List.mem_of_getElem? hen) q.2.1 hm, ho e en hen q hq _ rfl, hm.2.1, hm.2.2.1, physGrad_moved Q hQ]
    have e1 : ∀ (T : Matrix (Fin kind.dim) (Fin s) K) (g : Point kind.dim K),
        (Q * T * R.transpose).transpose.mulVec (Q.mulVec g) = R.mulVec (T.transpose.mulVec g) := by
      intro T g
      rw [Matrix.transpose_mul, Matrix.transpose_mul, Matrix.transpose_transpose, Matrix.mulVec_mulVec, Matrix.mul_assoc, Matrix.mul_assoc, hQ,
        Matrix.mul_one, Matrix.mulVec_mulVec]
    exact congrFun (e1 _ _) i

/-- **C106.** Moving the whole problem does not change its energy. -/
theorem C106_moved_energy (hspace : meshSpace kind mesh = some space) (hspace' : meshSpace kind mesh' = some space')
    (hb : ∀ c ∈ mesh.cells, ∀ v ∈ c, v < mesh.vertices.length) (hcells : mesh'.cells = mesh.cells) (hN : mesh'.vertices.length = mesh.vertices.length)
    (h : Discretisation space mesh.vertices.length table rules u s) (hu' : u'.length = u.length) (Q : Matrix (Fin kind.dim) (Fin kind.dim) K)
    (hQ : Q.transpose * Q = 1) (b : Point kind.dim K) (hmove : Moved Q b mesh.vertices.length (reference mesh.vertices) (reference mesh'.vertices))
    (R : Matrix (Fin s) (Fin s) K) (hturn : Turned R mesh.vertices.length u u') (o : Operator kind.dim s K Param)
    (ho : ∀ (e : Nat) (en : VolElement kind.dim K × List Nat), space[e]? = some en → ∀ q ∈ rules e,
      ∀ G, G = gradU s (en.1.jacobian q.2.1) (en.1.gradients q.2.1) (localPart s u en.2) →
        o.energy (Q * G * R.transpose) q.2.2 = o.energy G q.2.2)
    (bufs bufs' : Nat → Buffer (Point kind.dim K) K Param) (elem elem' : Nat → Except String K)
    (hee : ∀ e, e < space.length → ∃ buf', elementEnergy space o table u (bufs e) e = some (elem e, buf'))
    (hee' : ∀ e, e < space'.length → ∃ buf', elementEnergy space' o table u' (bufs' e) e = some (elem' e, buf')) :
    ∃ x, Assembly.assembleScalar space.length elem = .ok x ∧ Assembly.assembleScalar space'.length elem' = .ok x := by
  have h' := C106_moved_mesh_usable hspace hspace' hb hcells hN h hu' Q hQ b hmove
  have hl := moved_length hspace hspace' hb hcells hN
  refine ⟨_, (C69_global_energy space _ table rules u h o bufs elem hee .leaf).1, ?_⟩
  rw [(C69_global_energy space' _ table rules u' h' o bufs' elem' hee' .leaf).1]
  congr 1
  apply Fintype.sum_equiv (finCongr hl)
  intro e
  have he : (e : Nat) < space.length := hl ▸ e.2
  have hen := List.getElem?_eq_getElem he
  have hen' := List.getElem?_eq_getElem e.2
  have hm := moved_element hspace hspace' hb hcells hN h Q b hmove hen hen'
  change quadSum (space'[(e : Nat)]).1 (rules e) _ = quadSum (space[(e : Nat)]).1 (rules e) _
  unfold quadSum
  congr 1
  refine List.map_congr_left fun q hq => ?_
  have e1 : |((space'[(e : Nat)]).1.jacobian q.2.1).det| = |((space[(e : Nat)]).1.jacobian q.2.1).det| := by
    rw [hm.2.1, Matrix.det_mul, abs_mul, abs_det_orthogonal hQ, one_mul]
  rw [e1]
  congr 1
  have e2 := gradU_moved Q hQ R hturn h (List.getElem_mem he) q.2.1 hm
  exact (congrArg (fun G => o.energy G q.2.2) e2).trans (ho e _ hen q hq _ rfl)

end

end moved

/-- **C106.** The flux and the energy of the Laplace operator turn along with the gradient. -/
theorem C106_laplace_turns {K : Type} [Field K] [LinearOrder K] [IsStrictOrderedRing K] (d : Nat) (Q : Matrix (Fin d) (Fin d) K) (hQ : Q.transpose * Q = 1)
    (G : Matrix (Fin d) (Fin 1) K) :
    (laplace d K).op (Q * G * (1 : Matrix (Fin 1) (Fin 1) K).transpose) () = Q * (laplace d K).op G () * (1 : Matrix (Fin 1) (Fin 1) K).transpose ∧
    (laplace d K).energy (Q * G * (1 : Matrix (Fin 1) (Fin 1) K).transpose) () = (laplace d K).energy G () := by
  rw [Matrix.transpose_one, Matrix.mul_one, Matrix.mul_one]
  refine ⟨rfl, ?_⟩
  have e : ∀ M : Matrix (Fin d) (Fin 1) K, (laplace d K).energy M () = 1 / 2 * (M.transpose * M) 0 0 := fun M => rfl
  rw [e, e, Matrix.transpose_mul, Matrix.mul_assoc, ← Matrix.mul_assoc Q.transpose, hQ, Matrix.one_mul]

/-- **C106.** The materials are isotropic: turning the reference and the deformed body together turns the stress and keeps the energy. -/
theorem C106_materials_isotropic (d : Nat) (m : Material d) (hm : m = linearElastic d ∨ m = stvk d ∨ m = neoHookean d)
    (Q F : Matrix (Fin d) (Fin d) ℝ) (hQ : Q.transpose * Q = 1) (p : Lame ℝ) :
    (∀ P, m.stress F p = .val P → m.stress (Q * F * Q.transpose) p = .val (Q * P * Q.transpose)) ∧
    (d = 1 ∨ d = 2 ∨ d = 3 → Q.det = 1 → m.energy (Q * F * Q.transpose) p = m.energy F p) := by
  have hQ' : Q * Q.transpose = 1 := mul_eq_one_comm.mp hQ
  have htr : ∀ M : Matrix (Fin d) (Fin d) ℝ, (Q * M * Q.transpose).trace = M.trace := fun M => by
    rw [Matrix.trace_mul_comm, ← Matrix.mul_assoc, hQ, Matrix.one_mul]
  have hT : ∀ M : Matrix (Fin d) (Fin d) ℝ, (Q * M * Q.transpose).transpose = Q * M.transpose * Q.transpose := fun M => by
    rw [Matrix.transpose_mul, Matrix.transpose_mul, Matrix.transpose_transpose, Matrix.mul_assoc]
  have hmul : ∀ M N : Matrix (Fin d) (Fin d) ℝ, Q * M * Q.transpose * (Q * N * Q.transpose) = Q * (M * N) * Q.transpose := fun M N => by
    rw [← Matrix.mul_assoc, ← Matrix.mul_assoc, Matrix.mul_assoc (Q * M), hQ, Matrix.mul_one, Matrix.mul_assoc Q M N]
  have h1 : (1 : Matrix (Fin d) (Fin d) ℝ) = Q * 1 * Q.transpose := by rw [Matrix.mul_one, hQ']
  rcases hm with rfl | rfl | rfl
  · refine ⟨fun P hP => ?_, fun _ _ => ?_⟩
    · cases hP
      change Out.val (leStress (Q * F * Q.transpose) p) = .val (Q * leStress F p * Q.transpose)
      have e : infinitesimalStrain (Q * F * Q.transpose) = Q * infinitesimalStrain F * Q.transpose := by
        rw [infinitesimalStrain, infinitesimalStrain, symmetricPart, symmetricPart, hT, Matrix.mul_sub, Matrix.sub_mul, ← h1, Matrix.mul_smul,
          Matrix.smul_mul, Matrix.mul_add, Matrix.add_mul]
      have e2 : ∀ c : ℝ, (Matrix.diagonal fun _ => c : Matrix (Fin d) (Fin d) ℝ) = c • 1 := fun c => (Matrix.smul_one_eq_diagonal c).symm
      rw [leStress, leStress]
      rw [e, htr, e2, Matrix.mul_add, Matrix.add_mul]
      simp only [Matrix.mul_smul, Matrix.smul_mul, Matrix.mul_one, hQ']
    · have := (C72_linear_elastic_invariant F 0 Q.transpose p (by simp) (by rw [Matrix.transpose_transpose, hQ'])).2.2
      rwa [Matrix.transpose_transpose] at this
  · have hgreen : greenStrain (Q * F * Q.transpose) = Q * greenStrain F * Q.transpose := by
      rw [greenStrain, greenStrain, hT, hmul, Matrix.mul_smul, Matrix.smul_mul, Matrix.mul_sub, Matrix.sub_mul, ← h1]
    refine ⟨fun P hP => ?_, fun _ _ => ?_⟩
    · cases hP
      change Out.val (stvkStress (Q * F * Q.transpose) p) = .val (Q * stvkStress F p * Q.transpose)
      rw [stvkStress, stvkStress]
      rw [hgreen, htr, hmul, Matrix.mul_add, Matrix.add_mul]
      simp only [Matrix.mul_smul, Matrix.smul_mul]
    · have := (C72_stvk_objective (Q * F) Q.transpose p (by rw [Matrix.transpose_transpose, hQ'])).2.2
      rw [this]
      exact (C72_stvk_objective F Q p hQ).1
  · refine ⟨fun P hP => ?_, fun hd hQ1 => ?_⟩
    · have hdet : (Q * F * Q.transpose).det = F.det := by
        have hd2 := congrArg Matrix.det hQ
        rw [Matrix.det_mul, Matrix.det_one] at hd2
        rw [Matrix.det_mul, Matrix.det_mul, mul_right_comm, mul_comm Q.det, hd2, one_mul]
      change nhStress F p = .val P at hP
      have hpos : 0 < F.det := by
        by_contra hn
        rw [nhStress] at hP
        simp only [if_pos (not_lt.1 hn)] at hP
        cases hP
      change nhStress (Q * F * Q.transpose) p = _
      rw [nhStress_eq _ _ hpos] at hP
      rw [nhStress_eq _ _ (hdet.symm ▸ hpos), hdet]
      cases hP
      have hinv : (Q * F * Q.transpose)⁻¹ = Q * F⁻¹ * Q.transpose := by
        rw [Matrix.mul_inv_rev, Matrix.mul_inv_rev, Matrix.inv_eq_left_inv hQ, Matrix.inv_eq_left_inv (B := Q) hQ', Matrix.mul_assoc]
      rw [hinv, hT, Matrix.mul_add, Matrix.add_mul]
      simp only [Matrix.mul_smul, Matrix.smul_mul]
    · have := ((C72_neo_hookean_objective (Q * F) Q.transpose p (by rw [Matrix.transpose_transpose, hQ']) (by rw [Matrix.det_transpose, hQ1])).1 hd).2
      rw [this]
      exact ((C72_neo_hookean_objective F Q p hQ hQ1).1 hd).1

/-- **C106.** The operator of an isotropic material turns along with the gradient of the displacement. -/
theorem C106_solid_turns (d : Nat) (m : Material d) (hm : m = linearElastic d ∨ m = stvk d ∨ m = neoHookean d) (o : Operator d d ℝ (Lame ℝ))
    (ho : Computes o m) (Q G : Matrix (Fin d) (Fin d) ℝ) (hQ : Q.transpose * Q = 1) (p : Lame ℝ) :
    ((∃ P, m.stress (deformationGradient G) p = .val P) → o.op (Q * G * Q.transpose) p = Q * o.op G p * Q.transpose) ∧
    (d = 1 ∨ d = 2 ∨ d = 3 → Q.det = 1 → (∃ x : ℝ, m.energy (deformationGradient G) p = (x : WithTop ℝ)) →
      o.energy (Q * G * Q.transpose) p = o.energy G p) := by
  have hF : deformationGradient (Q * G * Q.transpose) = Q * deformationGradient G * Q.transpose := by
    rw [deformationGradient, deformationGradient, Matrix.transpose_mul, Matrix.transpose_mul, Matrix.transpose_transpose, Matrix.mul_add, Matrix.add_mul,
      Matrix.mul_one, mul_eq_one_comm.mp hQ, Matrix.mul_assoc]
  have hiso := C106_materials_isotropic d m hm Q (deformationGradient G) hQ p
  refine ⟨fun ⟨P, hP⟩ => ?_, fun hd hQ1 ⟨x, hx⟩ => ?_⟩
  · rw [(ho _ _).1 _ hP, (ho (Q * G * Q.transpose) p).1 (Q * P * Q.transpose) (hF ▸ hiso.1 P hP), Matrix.transpose_mul, Matrix.transpose_mul,
      Matrix.transpose_transpose, Matrix.mul_assoc]
  · rw [(ho _ _).2 _ hx]
    exact (ho _ _).2 x (hF ▸ (hiso.2 hd hQ1).trans hx)

/-! ## A rotated triangle -/

/-- The displacements that turn the triangle by 90 degrees. -/
private def turn : List ℝ := [2, 0, 0, 2, 0, -2]

private theorem quarter : (!![0, -1; 1, 0] : Matrix (Fin 2) (Fin 2) ℝ).transpose * !![0, -1; 1, 0] = 1 ∧
    (!![0, -1; 1, 0] : Matrix (Fin 2) (Fin 2) ℝ).det = 1 := by
  constructor
  · ext i j
    fin_cases i <;> fin_cases j <;> simp [Matrix.mul_apply, Fin.sum_univ_two]
  · simp

private theorem turn_moved : Moved !![0, -1; 1, 0] 0 3 (reference plate.vertices) (deformed plate.vertices turn) := by
  intro n hn
  interval_cases n <;> ext i <;> fin_cases i <;> simp [deformed, reference, plate, turn] <;> norm_num

-- The hypotheses hold for a triangle that is turned by 90 degrees: it exerts no forces.
example [Inhabited (Lame ℝ)] (par : Lame ℝ) (bufs : Nat → Buffer (Point 2 ℝ) ℝ (Lame ℝ)) (outs : Nat → Nat → ℝ)
    (elemVec : Nat → Except String (Nat → ℝ)) (f : List ℝ)
    (hev : ∀ e, e < plateSpace.length → ∃ buf', elementVector plateSpace (stvkOperator 2) (Uniform.table ⟨[![0, 0]], [2], [par]⟩) turn (bufs e) (outs e) e =
      some (elemVec e, buf'))
    (hf : Assembly.assembleVector (conn 2 plateSpace 3) elemVec = some (.ok f)) (n : Nat) (hn : n < 3) (i : Fin 2) : f.getD (2 * n + i) 0 = 0 :=
  C106_rigid_body_exerts_no_forces (kind := .tri3) (mesh := plate) plate_space (by simp [plate]) (.inl (by simp)) (plate_disc par turn rfl) (stvk 2) (.inl rfl)
    (stvkOperator 2) (C106_operators_compute 2).2 _ quarter.1 quarter.2 0 turn_moved bufs outs elemVec hev f hf n hn i

-- The displacements that stretch the triangle and then turn it by 90 degrees.
private def stretchTurned : List ℝ := [3, -1, -1, 3, 1, -3]

example [Inhabited (Lame ℝ)] (par : Lame ℝ) (bufs bufs' : Nat → Buffer (Point 2 ℝ) ℝ (Lame ℝ)) (outs outs' : Nat → Nat → ℝ)
    (elemVec elemVec' : Nat → Except String (Nat → ℝ)) (f f' : List ℝ)
    (hev : ∀ e, e < plateSpace.length → ∃ buf', elementVector plateSpace (stvkOperator 2) (Uniform.table ⟨[![0, 0]], [2], [par]⟩) stretch (bufs e) (outs e) e =
      some (elemVec e, buf'))
    (hev' : ∀ e, e < plateSpace.length → ∃ buf', elementVector plateSpace (stvkOperator 2) (Uniform.table ⟨[![0, 0]], [2], [par]⟩) stretchTurned
      (bufs' e) (outs' e) e = some (elemVec' e, buf'))
    (hf : Assembly.assembleVector (conn 2 plateSpace 3) elemVec = some (.ok f))
    (hf' : Assembly.assembleVector (conn 2 plateSpace 3) elemVec' = some (.ok f')) : Turned !![0, -1; 1, 0] 3 f f' :=
  C106_forces_turn (kind := .tri3) (mesh := plate) plate_space (by simp [plate]) (.inl (by simp)) (u' := stretchTurned)
    (plate_disc par stretch rfl) rfl (stvk 2) (.inl rfl) (stvkOperator 2) (C106_operators_compute 2).2 (fun _ _ _ _ _ => ⟨_, rfl⟩) _ quarter.1 quarter.2 0 (by
      intro n hn
      have hn' : n < 3 := hn
      interval_cases n <;> ext i <;> fin_cases i <;> simp [deformed, reference, plate, stretchTurned, stretch, Matrix.mulVec, dotProduct] <;> norm_num)
    bufs bufs' outs outs' elemVec elemVec' hev hev' f f' hf hf'

-- The triangle and its displacements turned together, for the Laplace operator (whose values are not turned).
private def turnedPlate : Mesh (Point 2 ℝ) := ⟨[![1, -1], ![1, 1], ![-1, -1]], [[0, 1, 2]]⟩

example : turnedPlate.cells = plate.cells ∧ turnedPlate.vertices.length = plate.vertices.length ∧
    Moved !![0, -1; 1, 0] 0 plate.vertices.length (reference plate.vertices) (reference turnedPlate.vertices) ∧
    (meshSpace .tri3 plate).isSome ∧ (meshSpace .tri3 turnedPlate).isSome ∧ (∀ u : List ℝ, Turned (1 : Matrix (Fin 1) (Fin 1) ℝ) 3 u u) := by
  refine ⟨rfl, rfl, ?_, ?_, ?_, fun u n _ i => by rw [Subsingleton.elim i 0]; simp⟩
  · intro n hn
    have hn' : n < 3 := hn
    interval_cases n <;> ext i <;> fin_cases i <;> simp [reference, plate, turnedPlate]
  · rw [plate_space]; rfl
  · rw [C89_mesh_space .tri3 turnedPlate (by simp [turnedPlate])]; rfl

end Fenris.Objectivity
