import Verif.Model.EllipticAssembler
import Verif.Props.ElementAssembly
import Verif.Props.QuadratureTable
import Verif.Props.Assembly
/-! # C69: from a finite element space, an operator and a quadrature table to the global system

`bufs e` is the content of the workspace of whichever thread handles element `e`, left over from any
earlier work; `outs e` is the previous content of the local output. Neither matters. -/
set_option autoImplicit false
set_option linter.unusedSectionVars false

namespace Fenris
namespace Local

open Quadrature Spec
open Fenris.Spec (matrixContribution vectorContribution SortsNodes NodesInBounds entry)

variable {K : Type} [Field K] [LinearOrder K] {d s : Nat} {Param : Type} [Inhabited Param]

attribute [local instance] zeroFill

/-- The hypotheses of a discretisation: element `e` has as many nodes as its reference element, all of them
in bounds; the table assigns it the rule `rules e`; no Jacobian at a quadrature point is singular. -/
structure Discretisation (space : Space d K) (numNodes : Nat) (table : Table (Point d K) K Param)
    (rules : Nat → List (QPoint d K Param)) (u : List K) (s : Nat) : Prop where
  wellFormed : ∀ en ∈ space, WellFormed en.1
  nodeCount : ∀ en ∈ space, en.2.length = en.1.numNodes
  inBounds : ∀ en ∈ space, ∀ n ∈ en.2, n < numNodes
  uLength : u.length = s * numNodes
  rule : ∀ e, e < space.length → ∀ b : Buffer (Point d K) K Param, b.populate e table =
    some ⟨(rules e).map (·.2.1), (rules e).map (·.1), (rules e).map (·.2.2)⟩
  regular : ∀ (e : Nat) (en : VolElement d K × List Nat), space[e]? = some en →
    ∀ q ∈ rules e, (en.1.jacobian q.2.1).det ≠ 0

private theorem gather_eq (s : Nat) (u : List K) (nodes : List Nat) (N : Nat) (hlen : u.length = s * N)
    (hn : ∀ n ∈ nodes, n < N) : Assembly.gather s u nodes = some (localPart s u nodes) := by
  have hin : ∀ n ∈ nodes, (List.range s).mapM (fun i => u[s * n + i]?) =
      some ((List.range s).map fun i => u.getD (s * n + i) 0) := by
    intro n h
    apply Assembly.mapM_some_map
    intro i hi
    have : s * n + i < u.length := by
      have := Nat.mul_le_mul_left s (Nat.succ_le_of_lt (hn n h))
      rw [Nat.mul_succ] at this
      have := List.mem_range.1 hi
      omega
    rw [List.getElem?_eq_getElem this, List.getD_eq_getElem?_getD, List.getElem?_eq_getElem this]
    rfl
  unfold Assembly.gather
  rw [Assembly.mapM_some_map _ _ _ hin]
  simp [localPart, List.flatMap]

private theorem prepare_eq {space : Space d K} {numNodes : Nat} {table : Table (Point d K) K Param}
    {rules : Nat → List (QPoint d K Param)} {u : List K}
    (h : Discretisation space numNodes table rules u s) (buf : Buffer (Point d K) K Param) (e : Nat)
    (en : VolElement d K × List Nat) (he : space[e]? = some en) :
    prepare space table u s buf e = some (en.1, localPart s u en.2,
      ⟨(rules e).map (·.2.1), (rules e).map (·.1), (rules e).map (·.2.2)⟩) := by
  have hmem := List.mem_of_getElem? he
  have hlt := (List.getElem?_eq_some_iff.1 he).1
  unfold prepare
  rw [he]
  simp only [Option.bind_some]
  rw [gather_eq s u en.2 numNodes h.uLength (h.inBounds en hmem), Option.bind_some, h.rule e hlt]
  rfl

private theorem localPart_length (s : Nat) (u : List K) (nodes : List Nat) :
    (localPart s u nodes).length = s * nodes.length := by
  unfold localPart
  induction nodes with
  | nil => simp
  | cons n nodes ih => rw [List.flatMap_cons, List.length_append, ih]; simp [Nat.mul_succ, Nat.add_comm]

/-- **C69.** The element matrix of every element of the space is the quadrature sum of the contraction, with
the local solution taken from the element's nodes; workspace and previous output do not matter. -/
theorem C69_element_matrix (space : Space d K) (numNodes : Nat) (table : Table (Point d K) K Param)
    (rules : Nat → List (QPoint d K Param)) (u : List K)
    (h : Discretisation space numNodes table rules u s)
    (o : Operator d s K Param) (hsym : SymmetryLaw o) (buf : Buffer (Point d K) K Param) (out0 : Mat K)
    (e : Nat) (el : VolElement d K) (nodes : List Nat) (he : space[e]? = some (el, nodes)) :
    ∃ A buf', elementMatrix space o table u buf out0 e = some (.ok A, buf') ∧
      ∀ (I J : Nat) (i j : Fin s), I < nodes.length → J < nodes.length →
        A (s * I + i) (s * J + j) = quadSum el (rules e) (fun p param =>
          o.contract (gradU s (el.jacobian p) (el.gradients p) (localPart s u nodes))
            (physGrad (el.jacobian p) ((el.gradients p)[I]?.getD 0))
            (physGrad (el.jacobian p) ((el.gradients p)[J]?.getD 0)) param i j) := by
  have hmem := List.mem_of_getElem? he
  have hnc : nodes.length = el.numNodes := h.nodeCount _ hmem
  obtain ⟨A, h1, h2⟩ := C28_matrix_is_quadrature_sum el (h.wellFormed _ hmem) o hsym (localPart s u nodes)
    (by rw [localPart_length, hnc]) (rules e) (h.regular e _ he) out0
  refine ⟨A, ⟨(rules e).map (·.2.1), (rules e).map (·.1), (rules e).map (·.2.2)⟩, ?_, ?_⟩
  · unfold elementMatrix
    rw [prepare_eq h buf e _ he]
    simp only [Option.bind_some, h1, Option.map_some]
  · intro I J i j hI hJ
    exact h2 I J i j (by omega) (by omega)

/-- **C69.** The element vector likewise. -/
theorem C69_element_vector (space : Space d K) (numNodes : Nat) (table : Table (Point d K) K Param)
    (rules : Nat → List (QPoint d K Param)) (u : List K)
    (h : Discretisation space numNodes table rules u s)
    (o : Operator d s K Param) (buf : Buffer (Point d K) K Param) (out0 : Nat → K)
    (e : Nat) (el : VolElement d K) (nodes : List Nat) (he : space[e]? = some (el, nodes)) :
    ∃ v buf', elementVector space o table u buf out0 e = some (.ok v, buf') ∧
      ∀ (I : Nat) (i : Fin s), I < nodes.length →
        v (s * I + i) = quadSum el (rules e) (fun p param =>
          ∑ k, o.op (gradU s (el.jacobian p) (el.gradients p) (localPart s u nodes)) param k i *
            physGrad (el.jacobian p) ((el.gradients p)[I]?.getD 0) k) := by
  have hmem := List.mem_of_getElem? he
  have hnc : nodes.length = el.numNodes := h.nodeCount _ hmem
  obtain ⟨A, h1, h2⟩ := C28_vector_is_quadrature_sum el (h.wellFormed _ hmem) o (localPart s u nodes)
    (by rw [localPart_length, hnc]) (rules e) (h.regular e _ he) out0
  refine ⟨A, ⟨(rules e).map (·.2.1), (rules e).map (·.1), (rules e).map (·.2.2)⟩, ?_, ?_⟩
  · unfold elementVector
    rw [prepare_eq h buf e _ he]
    simp only [Option.bind_some, h1, Option.map_some]
  · intro I i hI
    exact h2 I i (by omega)

private theorem contribution_congr {s : Nat} (nodes : List Nat) (A B : Mat K)
    (h : ∀ (I J : Nat) (i j : Fin s), I < nodes.length → J < nodes.length →
      A (s * I + i) (s * J + j) = B (s * I + i) (s * J + j)) (r c : Nat) :
    matrixContribution s nodes A r c = matrixContribution s nodes B r c := by
  unfold matrixContribution
  refine Finset.sum_congr rfl fun a _ => Finset.sum_congr rfl fun i _ => Finset.sum_congr rfl fun b _ =>
    Finset.sum_congr rfl fun j _ => ?_
  rw [h a b i j a.2 b.2]

private theorem vcontribution_congr {s : Nat} (nodes : List Nat) (A B : Nat → K)
    (h : ∀ (I : Nat) (i : Fin s), I < nodes.length → A (s * I + i) = B (s * I + i)) (r : Nat) :
    vectorContribution s nodes A r = vectorContribution s nodes B r := by
  unfold vectorContribution
  refine Finset.sum_congr rfl fun a _ => Finset.sum_congr rfl fun i _ => ?_
  rw [h a i a.2]

/-- The connectivity that the global assembler sees. -/
def conn (s : Nat) (space : Space d K) (numNodes : Nat) : Assembly.Conn := ⟨s, numNodes, space.map (·.2)⟩

/-- **C69.** Global matrix: assembling a finite element space, an operator and a quadrature table succeeds, and
entry `(r, c)` is the sum over all elements of the element quadrature sums whose degrees of freedom are `r` and
`c`. `stiff e` is the element matrix by its formula. -/
theorem C69_global_matrix (space : Space d K) (numNodes : Nat) (table : Table (Point d K) K Param)
    (rules : Nat → List (QPoint d K Param)) (u : List K) (hs : 0 < s)
    (h : Discretisation space numNodes table rules u s)
    (hnd : ∀ en ∈ space, en.2.Nodup)
    (o : Operator d s K Param) (hsym : SymmetryLaw o)
    (ord : List Nat → List Nat) (hord : ∀ l, (ord l).Perm l)
    (sortNodes : List (Nat × Nat) → List (Nat × Nat)) (hsort : SortsNodes sortNodes)
    (bufs : Nat → Buffer (Point d K) K Param) (outs : Nat → Mat K)
    (elemMat : Nat → Except String (Mat K))
    (hem : ∀ e, e < space.length → ∃ buf',
      elementMatrix space o table u (bufs e) (outs e) e = some (elemMat e, buf'))
    (stiff : Nat → Mat K)
    (hstiff : ∀ (e : Nat) (el : VolElement d K) (nodes : List Nat), space[e]? = some (el, nodes) →
      ∀ (I J : Nat) (i j : Fin s), I < nodes.length → J < nodes.length →
        stiff e (s * I + i) (s * J + j) = quadSum el (rules e) (fun p param =>
          o.contract (gradU s (el.jacobian p) (el.gradients p) (localPart s u nodes))
            (physGrad (el.jacobian p) ((el.gradients p)[I]?.getD 0))
            (physGrad (el.jacobian p) ((el.gradients p)[J]?.getD 0)) param i j)) :
    ∃ m, Assembly.assemble ord sortNodes (conn s space numNodes) elemMat = some (.ok m) ∧
      ∀ r c, entry m r c = ∑ e : Fin space.length, matrixContribution s (space[e]).2 (stiff e) r c := by
  have hex : ∀ e, ∃ A : Mat K, ∀ he : e < space.length, elemMat e = .ok A ∧
      ∀ r c, matrixContribution s (space[e]).2 A r c = matrixContribution s (space[e]).2 (stiff e) r c := by
    intro e
    by_cases he : e < space.length
    · have hg : space[e]? = some ((space[e]).1, (space[e]).2) := List.getElem?_eq_getElem he
      obtain ⟨A, b, h1, h2⟩ := C69_element_matrix space numNodes table rules u h o hsym (bufs e) (outs e) e _ _ hg
      obtain ⟨b', h3⟩ := hem e he
      rw [h1] at h3
      refine ⟨A, fun _ => ⟨?_, fun r c => contribution_congr _ _ _ (fun I J i j hI hJ => ?_) r c⟩⟩
      · cases h4 : elemMat e with
        | error x => rw [h4] at h3; cases h3
        | ok B => rw [h4] at h3; cases h3; rfl
      · rw [h2 I J i j hI hJ, hstiff e _ _ hg I J i j hI hJ]
    · exact ⟨fun _ _ => 0, fun h => absurd h he⟩
  choose A hA using hex
  obtain ⟨m, h1, -, -, -, -, h2⟩ := C21_assemble_is_sum_of_contributions ord hord sortNodes hsort
    (conn s space numNodes) hs (by
      intro e he n hn
      obtain ⟨en, hen, rfl⟩ := List.mem_map.1 he
      exact h.inBounds en hen n hn) (by
      intro e he
      obtain ⟨en, hen, rfl⟩ := List.mem_map.1 he
      exact hnd en hen) elemMat A (fun e he => (hA e (by simpa [conn] using he)).1)
  refine ⟨m, h1, fun r c => ?_⟩
  rw [h2 r c]
  apply Fintype.sum_equiv (finCongr (by simp [conn]))
  intro e
  have he : (e : Nat) < space.length := by simpa [conn] using e.2
  have := (hA e he).2 r c
  have hn : (conn s space numNodes).elements[e] = (space[(e : Nat)]).2 := List.getElem_map ..
  rw [hn]
  exact this

/-- **C69.** Global vector: assembling succeeds, and entry `r` is the sum over all elements of the element
quadrature sums whose degree of freedom is `r`. -/
theorem C69_global_vector (space : Space d K) (numNodes : Nat) (table : Table (Point d K) K Param)
    (rules : Nat → List (QPoint d K Param)) (u : List K)
    (h : Discretisation space numNodes table rules u s) (o : Operator d s K Param)
    (bufs : Nat → Buffer (Point d K) K Param) (outs : Nat → Nat → K)
    (elemVec : Nat → Except String (Nat → K))
    (hev : ∀ e, e < space.length → ∃ buf',
      elementVector space o table u (bufs e) (outs e) e = some (elemVec e, buf'))
    (force : Nat → Nat → K)
    (hforce : ∀ (e : Nat) (el : VolElement d K) (nodes : List Nat), space[e]? = some (el, nodes) →
      ∀ (I : Nat) (i : Fin s), I < nodes.length →
        force e (s * I + i) = quadSum el (rules e) (fun p param =>
          ∑ k, o.op (gradU s (el.jacobian p) (el.gradients p) (localPart s u nodes)) param k i *
            physGrad (el.jacobian p) ((el.gradients p)[I]?.getD 0) k)) :
    Assembly.assembleVector (conn s space numNodes) elemVec =
      some (.ok ((List.range (s * numNodes)).map (fun r =>
        ∑ e : Fin space.length, vectorContribution s (space[e]).2 (force e) r))) := by
  have hex : ∀ e, ∃ A : Nat → K, ∀ he : e < space.length, elemVec e = .ok A ∧
      ∀ r, vectorContribution s (space[e]).2 A r = vectorContribution s (space[e]).2 (force e) r := by
    intro e
    by_cases he : e < space.length
    · have hg : space[e]? = some ((space[e]).1, (space[e]).2) := List.getElem?_eq_getElem he
      obtain ⟨A, b, h1, h2⟩ := C69_element_vector space numNodes table rules u h o (bufs e) (outs e) e _ _ hg
      obtain ⟨b', h3⟩ := hev e he
      rw [h1] at h3
      refine ⟨A, fun _ => ⟨?_, fun r => vcontribution_congr _ _ _ (fun I i hI => ?_) r⟩⟩
      · cases h4 : elemVec e with
        | error x => rw [h4] at h3; cases h3
        | ok B => rw [h4] at h3; cases h3; rfl
      · rw [h2 I i hI, hforce e _ _ hg I i hI]
    · exact ⟨fun _ => 0, fun h => absurd h he⟩
  choose A hA using hex
  rw [C23_assemble_vector_is_sum_of_contributions (conn s space numNodes) (by
      intro e he n hn
      obtain ⟨en, hen, rfl⟩ := List.mem_map.1 he
      exact h.inBounds en hen n hn) elemVec A (fun e he => (hA e (by simpa [conn] using he)).1)]
  congr 2
  apply List.map_congr_left
  intro r _
  apply Fintype.sum_equiv (finCongr (by simp [conn]))
  intro e
  have he : (e : Nat) < space.length := by simpa [conn] using e.2
  have := (hA e he).2 r
  have hn : (conn s space numNodes).elements[e] = (space[(e : Nat)]).2 := List.getElem_map ..
  rw [hn]
  exact this

/-- **C69.** Global energy: the sum over all elements of the quadrature sums of the energy density, serially and
for every way of splitting the parallel reduction. -/
theorem C69_global_energy (space : Space d K) (numNodes : Nat) (table : Table (Point d K) K Param)
    (rules : Nat → List (QPoint d K Param)) (u : List K)
    (h : Discretisation space numNodes table rules u s) (o : Operator d s K Param)
    (bufs : Nat → Buffer (Point d K) K Param) (elem : Nat → Except String K)
    (hee : ∀ e, e < space.length → ∃ buf',
      elementEnergy space o table u (bufs e) e = some (elem e, buf')) (tree : Assembly.ReduceTree) :
    Assembly.assembleScalar space.length elem =
      .ok (∑ e : Fin space.length, quadSum (space[e]).1 (rules e) (fun p param =>
        o.energy (gradU s ((space[e]).1.jacobian p) ((space[e]).1.gradients p)
          (localPart s u (space[e]).2)) param)) ∧
    Assembly.parAssembleScalar tree space.length elem = Assembly.assembleScalar space.length elem := by
  have hex : ∀ e, ∃ x : K, ∀ he : e < space.length, elem e = .ok x ∧
      x = quadSum (space[e]).1 (rules e) (fun p param =>
        o.energy (gradU s ((space[e]).1.jacobian p) ((space[e]).1.gradients p)
          (localPart s u (space[e]).2)) param) := by
    intro e
    by_cases he : e < space.length
    · have hg : space[e]? = some (space[e]) := List.getElem?_eq_getElem he
      have hmem := List.mem_of_getElem? hg
      refine ⟨quadSum (space[e]).1 (rules e) (fun p param =>
        o.energy (gradU s ((space[e]).1.jacobian p) ((space[e]).1.gradients p)
          (localPart s u (space[e]).2)) param), fun _ => ⟨?_, rfl⟩⟩
      obtain ⟨b', h3⟩ := hee e he
      unfold elementEnergy at h3
      rw [prepare_eq h (bufs e) e _ hg] at h3
      simp only [Option.bind_some] at h3
      rw [C28_energy_is_quadrature_sum _ o _ (by rw [localPart_length, h.nodeCount _ hmem]) (rules e)
        (h.regular e _ hg)] at h3
      simp only [Option.map_some, Option.some.injEq, Prod.mk.injEq] at h3
      exact h3.1.symm
    · exact ⟨0, fun h => absurd h he⟩
  choose x hx using hex
  have hxe : ∀ e, e < space.length → elem e = .ok (x e) := fun e he => (hx e he).1
  refine ⟨?_, ((C24_parallel_scalar_every_tree tree space.length elem).1 x hxe).2⟩
  rw [C24_scalar_is_sum space.length elem x hxe]
  congr 1
  exact Finset.sum_congr rfl fun e _ => (hx e e.2).2

/-- Non-vacuity: two triangles sharing an edge, a uniform rule with two points, four nodes. -/
example : Discretisation (d := 2) (K := ℚ) (Param := Unit)
    [(exampleTriangle, [0, 1, 2]), (exampleTriangle, [3, 2, 1])] 4
    (Uniform.table ⟨[![0, 0], ![-1 / 2, -1 / 2]], [1, 1], [(), ()]⟩)
    (fun _ => [(1, ![0, 0], ()), (1, ![-1 / 2, -1 / 2], ())]) [3, 1, 4, 1] 1 where
  wellFormed := by
    intro en hen
    simp only [List.mem_cons, List.not_mem_nil, or_false] at hen
    rcases hen with rfl | rfl <;> exact elementOfKind_wellFormed _ _
  nodeCount := by
    intro en hen
    simp only [List.mem_cons, List.not_mem_nil, or_false] at hen
    rcases hen with rfl | rfl <;> rfl
  inBounds := by
    intro en hen
    simp only [List.mem_cons, List.not_mem_nil, or_false] at hen
    rcases hen with rfl | rfl <;> decide
  uLength := rfl
  rule := by
    intro e he b
    exact (C27_uniform_returns_the_rule (P := Point 2 ℚ) (W := ℚ) (D := Unit) [![0, 0], ![-1 / 2, -1 / 2]]
      [1, 1] [(), ()]).2 _ rfl e b
  regular := by
    intro e en he q hq
    have hen := List.mem_of_getElem? he
    simp only [List.mem_cons, List.not_mem_nil, or_false] at hen
    rcases hen with rfl | rfl <;> (rw [exampleTriangle_regular]; norm_num)

end Local
end Fenris
