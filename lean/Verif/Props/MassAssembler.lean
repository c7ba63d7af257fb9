import Verif.Spec.MassAssembler
import Verif.Props.LinearProblem
/-! # C98: mass matrices and source vectors of finite element spaces -/
set_option autoImplicit false
set_option linter.unusedSectionVars false

namespace Fenris.Mass
open Fenris.Local Fenris.Local.Spec Fenris.Mass.Spec Fenris.LinearProblem Fenris.LinearProblem.Spec Quadrature
open Fenris.Spec (matrixContribution vectorContribution entry SortsNodes Solves)

variable {K : Type} [Field K] [LinearOrder K] [IsStrictOrderedRing K] {d s : Nat} {Param : Type} [Inhabited Param]

attribute [local instance] zeroFill

/-- A finite element space with `N` nodes and a quadrature table that assigns `rules e` to element `e`. -/
structure Sampled (space : Space d K) (N : Nat) (table : Table (Point d K) K Param) (rules : Nat → List (QPoint d K Param)) : Prop where
  wellFormed : ∀ en ∈ space, WellFormed en.1
  nodeCount : ∀ en ∈ space, en.2.length = en.1.numNodes
  inBounds : ∀ en ∈ space, ∀ n ∈ en.2, n < N
  rule : ∀ e, e < space.length → ∀ b : Buffer (Point d K) K Param, b.populate e table =
    some ⟨(rules e).map (·.2.1), (rules e).map (·.1), (rules e).map (·.2.2)⟩

/-! ## Elements -/

/-- C98: the element mass matrix of every element of the space; workspace and previous output do not matter. -/
theorem C98_element_matrix {space : Space d K} {N : Nat} {table : Table (Point d K) K K} {rules : Nat → List (QPoint d K K)}
    (h : Sampled space N table rules) (s : Nat) (buf : Buffer (Point d K) K K) (out0 : Mat K) (e : Nat) (el : VolElement d K) (nodes : List Nat)
    (he : space[e]? = some (el, nodes)) :
    ∃ M buf', massElementMatrix space s table buf out0 e = some (.ok M, buf') ∧
      ∀ (I J : Nat) (i j : Fin s), I < nodes.length → J < nodes.length → M (s * I + i) (s * J + j) =
        if i = j then quadSum el (rules e) (fun p density => density * ((el.basis p)[I]?.getD 0 * (el.basis p)[J]?.getD 0)) else 0 := by
  have hmem := List.mem_of_getElem? he
  have hnc : nodes.length = el.numNodes := h.nodeCount _ hmem
  obtain ⟨M, h1, h2⟩ := C29_mass_matrix_is_quadrature_sum el (h.wellFormed _ hmem) s (rules e) out0
  refine ⟨M, ⟨(rules e).map (·.2.1), (rules e).map (·.1), (rules e).map (·.2.2)⟩, ?_, fun I J i j hI hJ => h2 I J i j (by omega) (by omega)⟩
  unfold massElementMatrix
  rw [he, Option.bind_some, h.rule e (List.getElem?_eq_some_iff.1 he).1, Option.bind_some, h1]
  rfl

/-- C98: the element source vector of every element of the space. -/
theorem C98_element_vector {space : Space d K} {N : Nat} {table : Table (Point d K) K Param} {rules : Nat → List (QPoint d K Param)}
    (h : Sampled space N table rules) (source : Point d K → Param → Fin s → K) (buf : Buffer (Point d K) K Param) (out0 : Nat → K) (e : Nat)
    (el : VolElement d K) (nodes : List Nat) (he : space[e]? = some (el, nodes)) :
    ∃ v buf', sourceElementVector space source table buf out0 e = some (.ok v, buf') ∧
      ∀ (I : Nat) (i : Fin s), I < nodes.length → v (s * I + i) =
        quadSum el (rules e) (fun p param => (el.basis p)[I]?.getD 0 * source (el.map p) param i) := by
  have hmem := List.mem_of_getElem? he
  have hnc : nodes.length = el.numNodes := h.nodeCount _ hmem
  obtain ⟨v, h1, h2⟩ := C29_source_vector_is_quadrature_sum el (h.wellFormed _ hmem) source (rules e) out0
  refine ⟨v, ⟨(rules e).map (·.2.1), (rules e).map (·.1), (rules e).map (·.2.2)⟩, ?_, fun I i hI => h2 I i (by omega)⟩
  unfold sourceElementVector
  rw [he, Option.bind_some, h.rule e (List.getElem?_eq_some_iff.1 he).1, Option.bind_some, h1]
  rfl

private theorem valueU_eq (el : VolElement d K) (hel : WellFormed el) (nodes : List Nat) (hn : nodes.length = el.numNodes) (v : List K)
    (p : Point d K) (i : Fin s) :
    valueU s (el.basis p) (localPart s v nodes) i = ∑ I : Fin nodes.length, (el.basis p)[(I : Nat)]?.getD 0 * v.getD (s * nodes[I] + i) 0 := by
  have hlen : (el.basis p).length = nodes.length := (hel p).1.trans hn.symm
  unfold valueU
  apply Fintype.sum_equiv (finCongr hlen)
  intro I
  have hI : (I : Nat) < nodes.length := hlen ▸ I.2
  rw [localPart_getD s v nodes I hI]
  simp

theorem quadSum_mul_left' (el : VolElement d K) (rule : List (QPoint d K Param)) (c : K) (f : Point d K → Param → K) :
    c * quadSum el rule f = quadSum el rule fun p q => c * f p q := by
  unfold quadSum
  rw [← List.sum_map_mul_left]
  congr 1
  refine List.map_congr_left fun q _ => ?_
  ring

private theorem mass_element_form (el : VolElement d K) (hel : WellFormed el) (nodes : List Nat) (hn : nodes.length = el.numNodes)
    (rule : List (QPoint d K K)) (M : Mat K)
    (hM : ∀ (I J : Nat) (i j : Fin s), I < nodes.length → J < nodes.length → M (s * I + i) (s * J + j) =
        if i = j then quadSum el rule (fun p density => density * ((el.basis p)[I]?.getD 0 * (el.basis p)[J]?.getD 0)) else 0) (v w : List K) :
    ∑ I : Fin nodes.length, ∑ i : Fin s, ∑ J : Fin nodes.length, ∑ j : Fin s,
      v.getD (s * nodes[I] + i) 0 * M (s * I + i) (s * J + j) * w.getD (s * nodes[J] + j) 0 =
    quadSum el rule fun p density => density * ∑ i : Fin s,
      valueU s (el.basis p) (localPart s v nodes) i * valueU s (el.basis p) (localPart s w nodes) i := by
  have e1 : ∀ (I J : Fin nodes.length) (i : Fin s), (∑ j : Fin s,
      v.getD (s * nodes[I] + i) 0 * M (s * I + i) (s * J + j) * w.getD (s * nodes[J] + j) 0) =
      quadSum el rule fun p density => density * (((el.basis p)[(I : Nat)]?.getD 0 * v.getD (s * nodes[I] + i) 0) *
        ((el.basis p)[(J : Nat)]?.getD 0 * w.getD (s * nodes[J] + i) 0)) := by
    intro I J i
    rw [Finset.sum_eq_single i]
    · rw [hM I J i i I.2 J.2, if_pos rfl, quadSum_mul_left', mul_comm, quadSum_mul_left']
      apply quadSum_congr
      intro p q
      ring
    · intro j _ hj
      rw [hM I J i j I.2 J.2, if_neg (Ne.symm hj)]
      ring
    · simp
  simp only [e1, quadSum_finsetSum]
  apply quadSum_congr
  intro p q
  rw [Finset.sum_comm, Finset.mul_sum]
  refine Finset.sum_congr rfl fun i _ => ?_
  rw [valueU_eq el hel nodes hn v p i, valueU_eq el hel nodes hn w p i, Finset.sum_mul_sum, Finset.mul_sum]
  refine Finset.sum_congr rfl fun I _ => ?_
  rw [Finset.mul_sum]

/-! ## The mass matrix -/

/-- **C98.** The mass matrix of a finite element space: assembly succeeds, the matrix is symmetric, and for all vectors `v`, `w` the number
`vᵀ M w` is the sum over the elements of the quadrature of `ρ v_h · w_h`, with the functions `v_h`, `w_h` that have the nodal values `v` and
`w`. -/
theorem C98_mass_form {space : Space d K} {N : Nat} {table : Table (Point d K) K K} {rules : Nat → List (QPoint d K K)}
    (h : Sampled space N table rules) (hs : 0 < s) (hnd : ∀ en ∈ space, en.2.Nodup)
    (ord : List Nat → List Nat) (hord : ∀ l, (ord l).Perm l)
    (sortNodes : List (Nat × Nat) → List (Nat × Nat)) (hsort : SortsNodes sortNodes)
    (bufs : Nat → Buffer (Point d K) K K) (outs : Nat → Mat K) (elemMat : Nat → Except String (Mat K))
    (hem : ∀ e, e < space.length → ∃ buf', massElementMatrix space s table (bufs e) (outs e) e = some (elemMat e, buf')) :
    ∃ m, Assembly.assemble ord sortNodes (conn s space N) elemMat = some (.ok m) ∧ Fenris.Spec.WellFormed m ∧ m.rows.length = s * N ∧
      (∀ r c, entry m r c = entry m c r) ∧
      ∀ v w : List K, ∑ r ∈ Finset.range (s * N), ∑ c ∈ Finset.range (s * N), v.getD r 0 * entry m r c * w.getD c 0 =
        ∑ e : Fin space.length, quadSum (space[e]).1 (rules e) fun p density => density * ∑ i : Fin s,
          valueU s ((space[e]).1.basis p) (localPart s v (space[e]).2) i * valueU s ((space[e]).1.basis p) (localPart s w (space[e]).2) i := by
  have hex : ∀ e, ∃ A : Mat K, ∀ he : e < space.length, elemMat e = .ok A ∧
      ∀ (I J : Nat) (i j : Fin s), I < (space[e]).2.length → J < (space[e]).2.length → A (s * I + i) (s * J + j) =
        if i = j then quadSum (space[e]).1 (rules e) (fun p density =>
          density * (((space[e]).1.basis p)[I]?.getD 0 * ((space[e]).1.basis p)[J]?.getD 0)) else 0 := by
    intro e
    by_cases he : e < space.length
    · have hg : space[e]? = some ((space[e]).1, (space[e]).2) := List.getElem?_eq_getElem he
      obtain ⟨A, b, h1, h2⟩ := C98_element_matrix h s (bufs e) (outs e) e _ _ hg
      obtain ⟨b', h3⟩ := hem e he
      rw [h1] at h3
      refine ⟨A, fun _ => ⟨?_, h2⟩⟩
      cases h4 : elemMat e with
      | error x => rw [h4] at h3; cases h3
      | ok B => rw [h4] at h3; cases h3; rfl
    · exact ⟨fun _ _ => 0, fun h => absurd h he⟩
  choose A hA using hex
  have hbn : Fenris.Spec.NodesInBounds (conn s space N) := by
    intro e he n hn
    obtain ⟨en, hen, rfl⟩ := List.mem_map.1 he
    exact h.inBounds en hen n hn
  obtain ⟨m, h1, h2, h3, -, -, h6⟩ := C21_assemble_is_sum_of_contributions ord hord sortNodes hsort
    (conn s space N) hs hbn (by
      intro e he
      obtain ⟨en, hen, rfl⟩ := List.mem_map.1 he
      exact hnd en hen) elemMat A (fun e he => (hA e (by simpa [conn] using he)).1)
  have h6' : ∀ r c, entry m r c = ∑ e : Fin space.length, matrixContribution s (space[e]).2 (A e) r c := by
    intro r c
    rw [h6 r c]
    apply Fintype.sum_equiv (finCongr (by simp [conn]))
    intro e
    have hn : (conn s space N).elements[e] = (space[(e : Nat)]'(by simpa [conn] using e.2)).2 := List.getElem_map ..
    rw [hn]
    rfl
  refine ⟨m, h1, h2, h3, fun r c => ?_, fun v w => ?_⟩
  · rw [h6', h6']
    refine Finset.sum_congr rfl fun e _ => contribution_symm _ _ (fun I J i j hI hJ => ?_) r c
    have hf := (hA e e.2).2
    rw [hf I J i j hI hJ, hf J I j i hJ hI]
    simp only [eq_comm (a := j)]
    split
    · apply quadSum_congr
      intro p q
      ring
    · rfl
  · simp only [h6', Finset.mul_sum, Finset.sum_mul]
    have hc : ∀ f : Nat → Nat → Fin space.length → K, (∑ r ∈ Finset.range (s * N), ∑ c ∈ Finset.range (s * N), ∑ e, f r c e) =
        ∑ e, ∑ r ∈ Finset.range (s * N), ∑ c ∈ Finset.range (s * N), f r c e := by
      intro f
      calc _ = ∑ r ∈ Finset.range (s * N), ∑ x, ∑ c ∈ Finset.range (s * N), f r c x := Finset.sum_congr rfl fun r _ => Finset.sum_comm
        _ = _ := Finset.sum_comm
    rw [hc]
    refine Finset.sum_congr rfl fun e _ => ?_
    have hmem : space[(e : Nat)] ∈ space := List.getElem_mem _
    rw [contribution_form (N := N) (space[e]).2 (fun n hn => h.inBounds _ hmem n hn) (A e) (fun r => v.getD r 0) (fun r => w.getD r 0)]
    have := mass_element_form (space[e]).1 (h.wellFormed _ hmem) (space[e]).2 (h.nodeCount _ hmem) (rules e) (A e) (hA e e.2).2 v w
    simp only [Finset.mul_sum] at this
    exact this

private theorem mass_nonneg {space : Space d K} {rules : Nat → List (QPoint d K K)}
    (hpos : ∀ e, e < space.length → ∀ q ∈ rules e, 0 < q.1 ∧ 0 < q.2.2) (v : List K) (e : Fin space.length) :
    0 ≤ quadSum (space[e]).1 (rules e) fun p density => density * ∑ i : Fin s,
      valueU s ((space[e]).1.basis p) (localPart s v (space[e]).2) i * valueU s ((space[e]).1.basis p) (localPart s v (space[e]).2) i := by
  apply List.sum_nonneg
  intro x hx
  obtain ⟨q, hq, rfl⟩ := List.mem_map.1 hx
  have := hpos e e.2 q hq
  exact mul_nonneg (mul_nonneg this.1.le (abs_nonneg _)) (mul_nonneg this.2.le (Finset.sum_nonneg fun i _ => mul_self_nonneg _))

/-- **C98.** With positive weights and densities, quadrature points at which the elements are not degenerate, rules that determine the values
of the functions of the element, and nodes that all belong to elements, the mass matrix is symmetric and positive definite. -/
theorem C98_mass_is_spd {space : Space d K} {N : Nat} {table : Table (Point d K) K K} {rules : Nat → List (QPoint d K K)}
    (h : Sampled space N table rules) (hs : 0 < s) (hnd : ∀ en ∈ space, en.2.Nodup)
    (hpos : ∀ e, e < space.length → ∀ q ∈ rules e, 0 < q.1 ∧ 0 < q.2.2)
    (hreg : ∀ e (he : e < space.length), ∀ q ∈ rules e, ((space[e]).1.jacobian q.2.1).det ≠ 0)
    (hdet : ∀ e (he : e < space.length), DeterminesValues (space[e]).1 (rules e))
    (hall : ∀ n, n < N → ∃ en ∈ space, n ∈ en.2)
    (ord : List Nat → List Nat) (hord : ∀ l, (ord l).Perm l)
    (sortNodes : List (Nat × Nat) → List (Nat × Nat)) (hsort : SortsNodes sortNodes)
    (bufs : Nat → Buffer (Point d K) K K) (outs : Nat → Mat K) (elemMat : Nat → Except String (Mat K))
    (hem : ∀ e, e < space.length → ∃ buf', massElementMatrix space s table (bufs e) (outs e) e = some (elemMat e, buf')) :
    ∃ m, Assembly.assemble ord sortNodes (conn s space N) elemMat = some (.ok m) ∧
      Cg.Spd (Matrix.of fun i j : Fin (s * N) => entry m i j) := by
  obtain ⟨m, h1, -, -, hsym, hform⟩ := C98_mass_form h hs hnd ord hord sortNodes hsort bufs outs elemMat hem
  refine ⟨m, h1, ?_, fun w hw => ?_⟩
  · ext i j
    exact hsym j i
  · have hget : ∀ i : Fin (s * N), (List.ofFn w).getD i 0 = w i := fun i => by simp [List.getD_eq_getElem?_getD]
    have hq : w ⬝ᵥ (Matrix.of fun i j : Fin (s * N) => entry m i j).mulVec w = ∑ r ∈ Finset.range (s * N), ∑ c ∈ Finset.range (s * N),
        (List.ofFn w).getD r 0 * entry m r c * (List.ofFn w).getD c 0 := by
      simp only [dotProduct, Matrix.mulVec, Matrix.of_apply, Finset.sum_range, hget, Finset.mul_sum, mul_assoc]
    rw [hq, hform]
    have hn := mass_nonneg (s := s) hpos (List.ofFn w)
    refine lt_of_le_of_ne (Finset.sum_nonneg fun e _ => hn e) fun h0 => hw ?_
    have h0' := (Finset.sum_eq_zero_iff_of_nonneg fun e (_ : e ∈ Finset.univ) => hn e).1 h0.symm
    have hval : ∀ (e : Nat) (he : e < space.length), ∀ q ∈ rules e, ∀ i : Fin s,
        valueU s ((space[e]).1.basis q.2.1) (localPart s (List.ofFn w) (space[e]).2) i = 0 := by
      intro e he q hq i
      have hz := List.all_zero_of_le_zero_le_of_sum_eq_zero (l := (rules e).map fun q : QPoint d K K => q.1 * |((space[e]).1.jacobian q.2.1).det| *
        (q.2.2 * ∑ i : Fin s, valueU s ((space[e]).1.basis q.2.1) (localPart s (List.ofFn w) (space[e]).2) i *
          valueU s ((space[e]).1.basis q.2.1) (localPart s (List.ofFn w) (space[e]).2) i))
        (fun x hx => by
          obtain ⟨q, hq, rfl⟩ := List.mem_map.1 hx
          have := hpos e he q hq
          exact mul_nonneg (mul_nonneg this.1.le (abs_nonneg _)) (mul_nonneg this.2.le (Finset.sum_nonneg fun i _ => mul_self_nonneg _)))
        (h0' ⟨e, he⟩ (Finset.mem_univ _)) (List.mem_map.2 ⟨q, hq, rfl⟩)
      have hp := hpos e he q hq
      have hz' := (mul_eq_zero.1 ((mul_eq_zero.1 hz).resolve_left (mul_pos hp.1 (abs_pos.2 (hreg e he q hq))).ne')).resolve_left hp.2.ne'
      exact mul_self_eq_zero.1 ((Finset.sum_eq_zero_iff_of_nonneg fun i (_ : i ∈ Finset.univ) => mul_self_nonneg _).1 hz' i (Finset.mem_univ _))
    funext r
    have hr : (r : Nat) / s < N := Nat.div_lt_of_lt_mul r.2
    obtain ⟨en, hen, hmem⟩ := hall _ hr
    obtain ⟨e, he, rfl⟩ := List.mem_iff_getElem.1 hen
    obtain ⟨a, ha, han⟩ := List.mem_iff_getElem.1 hmem
    have hel := h.wellFormed _ hen
    have hnc := h.nodeCount _ hen
    let i : Fin s := ⟨r % s, Nat.mod_lt _ hs⟩
    have hz := hdet e he ((space[e]).2.map fun n => (List.ofFn w).getD (s * n + i) 0) (by simp [hnc]) (by
      intro q hq
      have hv := hval e he q hq i
      rw [valueU_eq _ hel _ hnc] at hv
      refine Eq.trans ?_ hv
      have hlen : ((space[e]).1.basis q.2.1).length = (space[e]).2.length := (hel _).1.trans hnc.symm
      apply Fintype.sum_equiv (finCongr hlen)
      intro I
      have hI : (I : Nat) < (space[e]).2.length := hlen ▸ I.2
      rw [List.getD_eq_getElem?_getD, List.getElem?_map, List.getElem?_eq_getElem hI]
      simp) a (by omega)
    rw [List.getD_eq_getElem?_getD, List.getElem?_map, List.getElem?_eq_getElem ha, Option.map_some, Option.getD_some, han] at hz
    have hri : s * ((r : Nat) / s) + (i : Nat) = r := Nat.div_add_mod _ _
    rw [hri, hget] at hz
    exact hz

/-- **C98.** If some node belongs to no element, then the mass matrix is not positive definite. -/
theorem C98_isolated_node {space : Space d K} {N : Nat} {table : Table (Point d K) K K} {rules : Nat → List (QPoint d K K)}
    (h : Sampled space N table rules) (hs : 0 < s) (hnd : ∀ en ∈ space, en.2.Nodup) (n : Nat) (hn : n < N) (hno : ∀ en ∈ space, n ∉ en.2)
    (ord : List Nat → List Nat) (hord : ∀ l, (ord l).Perm l)
    (sortNodes : List (Nat × Nat) → List (Nat × Nat)) (hsort : SortsNodes sortNodes)
    (bufs : Nat → Buffer (Point d K) K K) (outs : Nat → Mat K) (elemMat : Nat → Except String (Mat K))
    (hem : ∀ e, e < space.length → ∃ buf', massElementMatrix space s table (bufs e) (outs e) e = some (elemMat e, buf')) :
    ∃ m, Assembly.assemble ord sortNodes (conn s space N) elemMat = some (.ok m) ∧
      ¬ Cg.Spd (Matrix.of fun i j : Fin (s * N) => entry m i j) := by
  obtain ⟨m, h1, -, -, -, hform⟩ := C98_mass_form h hs hnd ord hord sortNodes hsort bufs outs elemMat hem
  refine ⟨m, h1, fun hspd => ?_⟩
  have hlt : s * n < s * N := Nat.mul_lt_mul_of_pos_left hn hs
  let w : Fin (s * N) → K := Pi.single ⟨s * n, hlt⟩ 1
  have hw : w ≠ 0 := fun h0 => by
    have := congrFun h0 ⟨s * n, hlt⟩
    simp [w] at this
  have hp := hspd.2 w hw
  have hget : ∀ i : Fin (s * N), (List.ofFn w).getD i 0 = w i := fun i => by simp [List.getD_eq_getElem?_getD]
  have hq : w ⬝ᵥ (Matrix.of fun i j : Fin (s * N) => entry m i j).mulVec w = ∑ r ∈ Finset.range (s * N), ∑ c ∈ Finset.range (s * N),
      (List.ofFn w).getD r 0 * entry m r c * (List.ofFn w).getD c 0 := by
    simp only [dotProduct, Matrix.mulVec, Matrix.of_apply, Finset.sum_range, hget, Finset.mul_sum, mul_assoc]
  rw [hq, hform] at hp
  refine absurd hp (not_lt.2 (le_of_eq (Finset.sum_eq_zero fun e _ => ?_)))
  have hmem : space[(e : Nat)] ∈ space := List.getElem_mem _
  apply List.sum_eq_zero
  intro x hx
  obtain ⟨q, hq, rfl⟩ := List.mem_map.1 hx
  beta_reduce
  have hz : ∀ i : Fin s, valueU s ((space[e]).1.basis q.2.1) (localPart s (List.ofFn w) (space[e]).2) i = 0 := by
    intro i
    rw [valueU_eq (space[e]).1 (h.wellFormed _ hmem) (space[e]).2 (h.nodeCount _ hmem)]
    apply Finset.sum_eq_zero
    intro I _
    have hne : (space[e]).2[I] ≠ n := fun heq => hno _ hmem (heq ▸ List.getElem_mem _)
    have hlt' : s * (space[e]).2[I] + (i : Nat) < s * N := by
      have h1 := h.inBounds _ hmem (space[e]).2[I] (List.getElem_mem _)
      have : s * ((space[e]).2[I] + 1) ≤ s * N := Nat.mul_le_mul_left _ h1
      have := i.2
      rw [Nat.mul_succ] at *
      omega
    have hv := hget ⟨_, hlt'⟩
    have hdiff : (⟨s * (space[e]).2[I] + (i : Nat), hlt'⟩ : Fin (s * N)) ≠ ⟨s * n, hlt⟩ := by
      intro heq
      have h3 := Fin.mk.inj heq
      have h4 := congrArg (· / s) h3
      simp only [Nat.mul_add_div hs, Nat.mul_div_cancel_left _ hs, Nat.div_eq_of_lt i.2, Nat.add_zero] at h4
      exact hne h4
    change (List.ofFn w).getD (s * (space[e]).2[I] + (i : Nat)) 0 = w _ at hv
    rw [hv, show w ⟨s * (space[e]).2[I] + (i : Nat), hlt'⟩ = 0 from Pi.single_eq_of_ne hdiff 1, mul_zero]
  simp only [hz, mul_zero, Finset.sum_const_zero]

/-! ## The source vector -/

theorem getD_map_range {n r : Nat} (f : Nat → K) (hr : r < n) : ((List.range n).map f).getD r 0 = f r := by
  rw [List.getD_eq_getElem?_getD, List.getElem?_map, List.getElem?_range hr]
  rfl

theorem vector_form {N : Nat} (nodes : List Nat) (hb : ∀ n ∈ nodes, n < N) (f : Nat → K) (v : Nat → K) :
    ∑ r ∈ Finset.range (s * N), v r * vectorContribution s nodes f r = ∑ I : Fin nodes.length, ∑ i : Fin s, v (s * nodes[I] + i) * f (s * I + i) := by
  have hlt : ∀ (I : Fin nodes.length) (i : Fin s), s * nodes[I] + (i : Nat) ∈ Finset.range (s * N) := by
    intro I i
    have h1 := hb nodes[I] (List.getElem_mem _)
    have h2 : s * (nodes[I] + 1) ≤ s * N := Nat.mul_le_mul_left _ h1
    have h3 := i.2
    rw [Finset.mem_range]
    rw [Nat.mul_succ] at h2
    omega
  unfold vectorContribution
  simp only [Finset.mul_sum]
  rw [Finset.sum_comm]
  refine Finset.sum_congr rfl fun I _ => ?_
  rw [Finset.sum_comm]
  refine Finset.sum_congr rfl fun i _ => ?_
  simp only [mul_ite, mul_zero]
  rw [Finset.sum_ite_eq, if_pos (hlt I i)]

/-- **C98.** The source vector of a finite element space: assembly succeeds, and for every vector `v` the number `vᵀ b` is the sum over the
elements of the quadrature of `f · v_h`, with the function `v_h` that has the nodal values `v`. -/
theorem C98_source_form {space : Space d K} {N : Nat} {table : Table (Point d K) K Param} {rules : Nat → List (QPoint d K Param)}
    (h : Sampled space N table rules) (source : Point d K → Param → Fin s → K)
    (bufs : Nat → Buffer (Point d K) K Param) (outs : Nat → Nat → K) (elemVec : Nat → Except String (Nat → K))
    (hev : ∀ e, e < space.length → ∃ buf', sourceElementVector space source table (bufs e) (outs e) e = some (elemVec e, buf')) :
    ∃ b, Assembly.assembleVector (conn s space N) elemVec = some (.ok b) ∧ b.length = s * N ∧
      ∀ v : List K, ∑ r ∈ Finset.range (s * N), v.getD r 0 * b.getD r 0 =
        ∑ e : Fin space.length, quadSum (space[e]).1 (rules e) fun p param => ∑ i : Fin s,
          source ((space[e]).1.map p) param i * valueU s ((space[e]).1.basis p) (localPart s v (space[e]).2) i := by
  have hex : ∀ e, ∃ f : Nat → K, ∀ he : e < space.length, elemVec e = .ok f ∧
      ∀ (I : Nat) (i : Fin s), I < (space[e]).2.length → f (s * I + i) =
        quadSum (space[e]).1 (rules e) (fun p param => ((space[e]).1.basis p)[I]?.getD 0 * source ((space[e]).1.map p) param i) := by
    intro e
    by_cases he : e < space.length
    · have hg : space[e]? = some ((space[e]).1, (space[e]).2) := List.getElem?_eq_getElem he
      obtain ⟨A, b, h1, h2⟩ := C98_element_vector h source (bufs e) (outs e) e _ _ hg
      obtain ⟨b', h3⟩ := hev e he
      rw [h1] at h3
      refine ⟨A, fun _ => ⟨?_, h2⟩⟩
      cases h4 : elemVec e with
      | error x => rw [h4] at h3; cases h3
      | ok B => rw [h4] at h3; cases h3; rfl
    · exact ⟨fun _ => 0, fun h => absurd h he⟩
  choose f hf using hex
  have hbn : Fenris.Spec.NodesInBounds (conn s space N) := by
    intro e he n hn
    obtain ⟨en, hen, rfl⟩ := List.mem_map.1 he
    exact h.inBounds en hen n hn
  have h1 := C23_assemble_vector_is_sum_of_contributions (conn s space N) hbn elemVec f
    (fun e he => (hf e (by simpa [conn] using he)).1)
  refine ⟨_, h1, by simp [conn], fun v => ?_⟩
  have hent : ∀ r ∈ Finset.range (s * N), v.getD r 0 * ((List.range ((conn s space N).solutionDim * (conn s space N).numNodes)).map (fun r =>
      ∑ e : Fin (conn s space N).elements.length, vectorContribution (conn s space N).solutionDim (conn s space N).elements[e] (f e) r)).getD r 0 =
      ∑ e : Fin space.length, v.getD r 0 * vectorContribution s (space[e]).2 (f e) r := by
    intro r hr
    rw [getD_map_range _ (by simpa [conn] using hr), Finset.mul_sum]
    apply Fintype.sum_equiv (finCongr (by simp [conn]))
    intro e
    have hn : (conn s space N).elements[e] = (space[(e : Nat)]'(by simpa [conn] using e.2)).2 := List.getElem_map ..
    rw [hn]
    rfl
  rw [Finset.sum_congr rfl hent, Finset.sum_comm]
  refine Finset.sum_congr rfl fun e _ => ?_
  have hmem : space[(e : Nat)] ∈ space := List.getElem_mem _
  rw [vector_form (N := N) (space[e]).2 (fun n hn => h.inBounds _ hmem n hn) (f e) (fun r => v.getD r 0)]
  have e1 : ∀ (I : Fin (space[e]).2.length) (i : Fin s), v.getD (s * (space[e]).2[I] + i) 0 * f e (s * I + i) =
      quadSum (space[e]).1 (rules e) (fun p param => source ((space[e]).1.map p) param i *
        (((space[e]).1.basis p)[(I : Nat)]?.getD 0 * v.getD (s * (space[e]).2[I] + i) 0)) := by
    intro I i
    rw [(hf e e.2).2 I i I.2, quadSum_mul_left']
    apply quadSum_congr
    intro p q
    simp only [Fin.getElem_fin]
    ring
  simp only [e1, quadSum_finsetSum]
  apply quadSum_congr
  intro p q
  rw [Finset.sum_comm]
  refine Finset.sum_congr rfl fun i _ => ?_
  rw [valueU_eq (space[e]).1 (h.wellFormed _ hmem) (space[e]).2 (h.nodeCount _ hmem), Finset.mul_sum]

/-! ## Totals and projections -/

theorem unitField_getD {N : Nat} (hs : 0 < s) (i j : Fin s) (n : Nat) (hn : n < N) :
    (unitField s N i : List K).getD (s * n + j) 0 = if j = i then 1 else 0 := by
  unfold unitField
  have hlt : s * n + (j : Nat) < s * N := by
    have : s * (n + 1) ≤ s * N := Nat.mul_le_mul_left _ hn
    have := j.2
    rw [Nat.mul_succ] at *
    omega
  rw [getD_map_range _ hlt, Nat.mul_add_mod, Nat.mod_eq_of_lt j.2]
  exact if_congr Fin.val_inj rfl rfl

theorem valueU_unitField {N : Nat} (hs : 0 < s) (el : VolElement d K) (hel : WellFormed el) (nodes : List Nat)
    (hn : nodes.length = el.numNodes) (hb : ∀ n ∈ nodes, n < N) (p : Point d K) (hone : (el.basis p).sum = 1) (i j : Fin s) :
    valueU s (el.basis p) (localPart s (unitField s N i) nodes) j = if j = i then 1 else 0 := by
  have hlen : (el.basis p).length = nodes.length := (hel p).1.trans hn.symm
  rw [valueU_eq el hel nodes hn]
  have e1 : ∀ I : Fin nodes.length, (el.basis p)[(I : Nat)]?.getD 0 * (unitField s N i : List K).getD (s * nodes[I] + j) 0 =
      (el.basis p)[(I : Nat)]?.getD 0 * if j = i then 1 else 0 := fun I => by
    rw [unitField_getD hs i j nodes[I] (hb _ (List.getElem_mem _))]
  rw [Finset.sum_congr rfl fun I _ => e1 I, ← Finset.sum_mul]
  have e2 : ∑ I : Fin nodes.length, (el.basis p)[(I : Nat)]?.getD 0 = 1 := by
    rw [← hone, ← Fin.sum_univ_getElem]
    symm
    apply Fintype.sum_equiv (finCongr hlen)
    intro I
    simp
  rw [e2, one_mul]

/-- **C98.** The mass matrix does not couple different components: all its entries between them are zero. -/
theorem C98_components_decoupled {space : Space d K} {N : Nat} {table : Table (Point d K) K K} {rules : Nat → List (QPoint d K K)}
    (h : Sampled space N table rules) (hs : 0 < s) (hnd : ∀ en ∈ space, en.2.Nodup)
    (ord : List Nat → List Nat) (hord : ∀ l, (ord l).Perm l)
    (sortNodes : List (Nat × Nat) → List (Nat × Nat)) (hsort : SortsNodes sortNodes)
    (bufs : Nat → Buffer (Point d K) K K) (outs : Nat → Mat K) (elemMat : Nat → Except String (Mat K))
    (hem : ∀ e, e < space.length → ∃ buf', massElementMatrix space s table (bufs e) (outs e) e = some (elemMat e, buf')) :
    ∃ m, Assembly.assemble ord sortNodes (conn s space N) elemMat = some (.ok m) ∧
      ∀ r c, r < s * N → c < s * N → r % s ≠ c % s → entry m r c = 0 := by
  obtain ⟨m, h1, -, -, -, hform⟩ := C98_mass_form h hs hnd ord hord sortNodes hsort bufs outs elemMat hem
  refine ⟨m, h1, fun r c hr hc hne => ?_⟩
  let δ : Nat → List K := fun r => (List.range (s * N)).map fun r' => if r' = r then 1 else 0
  have hδ : ∀ (r : Nat) (_ : r < s * N) (f : Nat → K), ∑ r' ∈ Finset.range (s * N), (δ r).getD r' 0 * f r' = f r := by
    intro r hr f
    rw [Finset.sum_eq_single r]
    · rw [getD_map_range _ hr, if_pos rfl, one_mul]
    · intro r' hr' hne
      rw [getD_map_range _ (Finset.mem_range.1 hr'), if_neg hne, zero_mul]
    · intro hn
      exact absurd (Finset.mem_range.2 hr) hn
  have hm := hform (δ r) (δ c)
  have hl : ∑ r' ∈ Finset.range (s * N), ∑ c' ∈ Finset.range (s * N), (δ r).getD r' 0 * entry m r' c' * (δ c).getD c' 0 = entry m r c := by
    rw [← hδ c hc fun c => entry m r c, ← hδ r hr fun r => ∑ r' ∈ Finset.range (s * N), (δ c).getD r' 0 * entry m r r']
    refine Finset.sum_congr rfl fun r' _ => ?_
    rw [Finset.mul_sum]
    refine Finset.sum_congr rfl fun c' _ => ?_
    ring
  rw [← hl, hm]
  apply Finset.sum_eq_zero
  intro e _
  have hmem : space[(e : Nat)] ∈ space := List.getElem_mem _
  have hz : ∀ (r : Nat) (_ : r < s * N) (p : Point d K) (i : Fin s), r % s ≠ i → valueU s ((space[e]).1.basis p) (localPart s (δ r) (space[e]).2) i = 0 := by
    intro r hr p i hi
    rw [valueU_eq (space[e]).1 (h.wellFormed _ hmem) (space[e]).2 (h.nodeCount _ hmem)]
    apply Finset.sum_eq_zero
    intro I _
    have hlt : s * (space[e]).2[I] + (i : Nat) < s * N := by
      have h1 := h.inBounds _ hmem (space[e]).2[I] (List.getElem_mem _)
      have : s * ((space[e]).2[I] + 1) ≤ s * N := Nat.mul_le_mul_left _ h1
      have := i.2
      rw [Nat.mul_succ] at *
      omega
    rw [getD_map_range _ hlt, if_neg, mul_zero]
    intro heq
    apply hi
    rw [← heq, Nat.mul_add_mod, Nat.mod_eq_of_lt i.2]
  apply List.sum_eq_zero
  intro x hx
  obtain ⟨q, hq, rfl⟩ := List.mem_map.1 hx
  beta_reduce
  have h0 : ∑ i : Fin s, valueU s ((space[e]).1.basis q.2.1) (localPart s (δ r) (space[e]).2) i *
      valueU s ((space[e]).1.basis q.2.1) (localPart s (δ c) (space[e]).2) i = 0 := by
    apply Finset.sum_eq_zero
    intro i _
    by_cases hi : r % s = i
    · rw [hz c hc q.2.1 i (fun h => hne (hi.trans h.symm)), mul_zero]
    · rw [hz r hr q.2.1 i hi, zero_mul]
  rw [h0, mul_zero, mul_zero]

/-- **C98.** The entries of the mass matrix that belong to component `i` add up to the total mass, the quadrature of the density over all
elements; those that couple different components add up to zero. -/
theorem C98_total_mass {space : Space d K} {N : Nat} {table : Table (Point d K) K K} {rules : Nat → List (QPoint d K K)}
    (h : Sampled space N table rules) (hs : 0 < s) (hnd : ∀ en ∈ space, en.2.Nodup)
    (hone : ∀ e (he : e < space.length), ∀ q ∈ rules e, ((space[e]).1.basis q.2.1).sum = 1)
    (ord : List Nat → List Nat) (hord : ∀ l, (ord l).Perm l)
    (sortNodes : List (Nat × Nat) → List (Nat × Nat)) (hsort : SortsNodes sortNodes)
    (bufs : Nat → Buffer (Point d K) K K) (outs : Nat → Mat K) (elemMat : Nat → Except String (Mat K))
    (hem : ∀ e, e < space.length → ∃ buf', massElementMatrix space s table (bufs e) (outs e) e = some (elemMat e, buf')) :
    ∃ m, Assembly.assemble ord sortNodes (conn s space N) elemMat = some (.ok m) ∧ ∀ i j : Fin s,
      ∑ n ∈ Finset.range N, ∑ n' ∈ Finset.range N, entry m (s * n + i) (s * n' + j) =
        if i = j then ∑ e : Fin space.length, quadSum (space[e]).1 (rules e) fun _ density => density else 0 := by
  obtain ⟨m, h1, -, -, -, hform⟩ := C98_mass_form h hs hnd ord hord sortNodes hsort bufs outs elemMat hem
  refine ⟨m, h1, fun i j => ?_⟩
  have hsplit : ∀ (f : Nat → K) (i : Fin s), ∑ r ∈ Finset.range (s * N), (unitField s N i : List K).getD r 0 * f r =
      ∑ n ∈ Finset.range N, f (s * n + i) := by
    intro f i
    rw [Finset.sum_range fun r => (unitField s N i : List K).getD r 0 * f r, Finset.sum_range fun n => f (s * n + i)]
    rw [← Equiv.sum_comp (finProdFinEquiv (m := N) (n := s) |>.trans (finCongr (Nat.mul_comm N s))), Fintype.sum_prod_type]
    refine Finset.sum_congr rfl fun n _ => ?_
    rw [Finset.sum_eq_single i]
    · have e : ((finProdFinEquiv (m := N) (n := s) |>.trans (finCongr (Nat.mul_comm N s))) (n, i) : Nat) = s * n + i := by
        simp [finProdFinEquiv, Nat.add_comm]
      rw [e, unitField_getD hs i i _ n.2, if_pos rfl, one_mul]
    · intro j _ hj
      have e : ((finProdFinEquiv (m := N) (n := s) |>.trans (finCongr (Nat.mul_comm N s))) (n, j) : Nat) = s * n + j := by
        simp [finProdFinEquiv, Nat.add_comm]
      rw [e, unitField_getD hs i j _ n.2, if_neg hj, zero_mul]
    · simp
  have hl : ∑ n ∈ Finset.range N, ∑ n' ∈ Finset.range N, entry m (s * n + i) (s * n' + j) =
      ∑ r ∈ Finset.range (s * N), ∑ c ∈ Finset.range (s * N), (unitField s N i).getD r 0 * entry m r c * (unitField s N j).getD c 0 := by
    rw [← hsplit (fun r => ∑ n' ∈ Finset.range N, entry m r (s * n' + j)) i]
    refine Finset.sum_congr rfl fun r _ => ?_
    rw [← hsplit (fun c => entry m r c) j, Finset.mul_sum]
    refine Finset.sum_congr rfl fun c _ => ?_
    ring
  rw [hl, hform]
  have hv : ∀ e : Fin space.length, (quadSum (space[e]).1 (rules e) fun p density => density * ∑ k : Fin s,
      valueU s ((space[e]).1.basis p) (localPart s (unitField s N i) (space[e]).2) k *
        valueU s ((space[e]).1.basis p) (localPart s (unitField s N j) (space[e]).2) k) =
      if i = j then quadSum (space[e]).1 (rules e) fun _ density => density else 0 := by
    intro e
    have hmem : space[(e : Nat)] ∈ space := List.getElem_mem _
    have e1 : ∀ q ∈ rules e, (∑ k : Fin s,
      valueU s ((space[e]).1.basis q.2.1) (localPart s (unitField s N i) (space[e]).2) k *
        valueU s ((space[e]).1.basis q.2.1) (localPart s (unitField s N j) (space[e]).2) k) = if i = j then 1 else 0 := by
      intro q hq
      have hu := valueU_unitField hs (space[e]).1 (h.wellFormed _ hmem) (space[e]).2 (h.nodeCount _ hmem) (h.inBounds _ hmem) q.2.1
        (hone e e.2 q hq)
      simp only [hu]
      simp [eq_comm]
    unfold quadSum
    split
    · next hij =>
      congr 1
      refine List.map_congr_left fun q hq => ?_
      beta_reduce
      rw [e1 q hq, if_pos hij, mul_one]
    · next hij =>
      apply List.sum_eq_zero
      intro x hx
      obtain ⟨q, hq, rfl⟩ := List.mem_map.1 hx
      beta_reduce
      rw [e1 q hq, if_neg hij, mul_zero, mul_zero]
  rw [Finset.sum_congr rfl fun e _ => hv e]
  split <;> simp

/-- **C98.** If at the quadrature points the source is the density times a function of the space, then the source vector is the mass matrix
times the vector of nodal values of the function. -/
theorem C98_source_of_space_function {space : Space d K} {N : Nat} {table : Table (Point d K) K K} {rules : Nat → List (QPoint d K K)}
    (h : Sampled space N table rules) (hs : 0 < s) (hnd : ∀ en ∈ space, en.2.Nodup)
    {table' : Table (Point d K) K Param} {rules' : Nat → List (QPoint d K Param)} (h' : Sampled space N table' rules')
    (source : Point d K → Param → Fin s → K) (u : List K)
    (heq : ∀ e (he : e < space.length), List.Forall₂ (fun (q : QPoint d K K) (q' : QPoint d K Param) => q.1 = q'.1 ∧ q.2.1 = q'.2.1 ∧
      ∀ i, source ((space[e]).1.map q'.2.1) q'.2.2 i = q.2.2 * valueU s ((space[e]).1.basis q.2.1) (localPart s u (space[e]).2) i)
      (rules e) (rules' e))
    (ord : List Nat → List Nat) (hord : ∀ l, (ord l).Perm l)
    (sortNodes : List (Nat × Nat) → List (Nat × Nat)) (hsort : SortsNodes sortNodes)
    (bufs : Nat → Buffer (Point d K) K K) (outs : Nat → Mat K) (elemMat : Nat → Except String (Mat K))
    (hem : ∀ e, e < space.length → ∃ buf', massElementMatrix space s table (bufs e) (outs e) e = some (elemMat e, buf'))
    (bufs' : Nat → Buffer (Point d K) K Param) (outs' : Nat → Nat → K) (elemVec : Nat → Except String (Nat → K))
    (hev : ∀ e, e < space.length → ∃ buf', sourceElementVector space source table' (bufs' e) (outs' e) e = some (elemVec e, buf')) :
    ∃ m b, Assembly.assemble ord sortNodes (conn s space N) elemMat = some (.ok m) ∧
      Assembly.assembleVector (conn s space N) elemVec = some (.ok b) ∧ b.length = s * N ∧
      Solves (s * N) (entry m) (fun r => b.getD r 0) (fun r => u.getD r 0) := by
  obtain ⟨m, h1, -, -, -, hform⟩ := C98_mass_form h hs hnd ord hord sortNodes hsort bufs outs elemMat hem
  obtain ⟨b, g1, g2, gform⟩ := C98_source_form h' source bufs' outs' elemVec hev
  refine ⟨m, b, h1, g1, g2, fun r hr => ?_⟩
  let v : List K := (List.range (s * N)).map fun r' => if r' = r then 1 else 0
  have hv : ∀ f : Nat → K, ∑ r' ∈ Finset.range (s * N), v.getD r' 0 * f r' = f r := by
    intro f
    rw [Finset.sum_eq_single r]
    · rw [getD_map_range _ hr, if_pos rfl, one_mul]
    · intro r' hr' hne
      rw [getD_map_range _ (Finset.mem_range.1 hr'), if_neg hne, zero_mul]
    · intro hn
      exact absurd (Finset.mem_range.2 hr) hn
  have hm := hform v u
  have hb := gform v
  rw [hv] at hb
  have hl : ∑ r' ∈ Finset.range (s * N), ∑ c ∈ Finset.range (s * N), v.getD r' 0 * entry m r' c * u.getD c 0 =
      ∑ c ∈ Finset.range (s * N), entry m r c * u.getD c 0 := by
    rw [← hv fun r => ∑ c ∈ Finset.range (s * N), entry m r c * u.getD c 0]
    refine Finset.sum_congr rfl fun r' _ => ?_
    rw [Finset.mul_sum]
    simp only [mul_assoc]
  rw [hl] at hm
  beta_reduce
  rw [hm, hb]
  refine Finset.sum_congr rfl fun e _ => ?_
  have key := heq e e.2
  unfold quadSum
  revert key
  generalize rules e = R
  generalize rules' e = R'
  intro key
  induction key with
  | nil => rfl
  | @cons q q' R R' hq _ ih =>
    rw [List.map_cons, List.map_cons, List.sum_cons, List.sum_cons, ih, hq.1, hq.2.1]
    congr 1
    simp only [Finset.mul_sum]
    refine Finset.sum_congr rfl fun i _ => ?_
    have := hq.2.2 i
    rw [hq.2.1] at this
    rw [show (space[e]).1 = (space[(e : Nat)]).1 from rfl, this]
    simp only [Fin.getElem_fin]
    ring

/-- **C98.** The projection onto the space reproduces the functions of the space: if moreover the mass matrix is positive definite, then the
conjugate gradient solver, with the mass matrix as it is, without preconditioner, with tolerance zero, any workspace and any guess, returns
the nodal values of the function. -/
theorem C98_projection {E : Type} {space : Space d K} {N : Nat} {table : Table (Point d K) K K} {rules : Nat → List (QPoint d K K)}
    (h : Sampled space N table rules) (hs : 0 < s) (hnd : ∀ en ∈ space, en.2.Nodup)
    (hpos : ∀ e, e < space.length → ∀ q ∈ rules e, 0 < q.1 ∧ 0 < q.2.2)
    (hreg : ∀ e (he : e < space.length), ∀ q ∈ rules e, ((space[e]).1.jacobian q.2.1).det ≠ 0)
    (hdet : ∀ e (he : e < space.length), DeterminesValues (space[e]).1 (rules e))
    (hall : ∀ n, n < N → ∃ en ∈ space, n ∈ en.2)
    {table' : Table (Point d K) K Param} {rules' : Nat → List (QPoint d K Param)} (h' : Sampled space N table' rules')
    (source : Point d K → Param → Fin s → K) (u : List K) (hu : u.length = s * N)
    (heq : ∀ e (he : e < space.length), List.Forall₂ (fun (q : QPoint d K K) (q' : QPoint d K Param) => q.1 = q'.1 ∧ q.2.1 = q'.2.1 ∧
      ∀ i, source ((space[e]).1.map q'.2.1) q'.2.2 i = q.2.2 * valueU s ((space[e]).1.basis q.2.1) (localPart s u (space[e]).2) i)
      (rules e) (rules' e))
    (ord : List Nat → List Nat) (hord : ∀ l, (ord l).Perm l)
    (sortNodes : List (Nat × Nat) → List (Nat × Nat)) (hsort : SortsNodes sortNodes)
    (bufs : Nat → Buffer (Point d K) K K) (outs : Nat → Mat K) (elemMat : Nat → Except String (Mat K))
    (hem : ∀ e, e < space.length → ∃ buf', massElementMatrix space s table (bufs e) (outs e) e = some (elemMat e, buf'))
    (bufs' : Nat → Buffer (Point d K) K Param) (outs' : Nat → Nat → K) (elemVec : Nat → Except String (Nat → K))
    (hev : ∀ e, e < space.length → ∃ buf', sourceElementVector space source table' (bufs' e) (outs' e) e = some (elemVec e, buf'))
    (norm : List K → K) (hnn : ∀ v, 0 ≤ norm v) (hnz : ∀ v, norm v = 0 ↔ ∀ a ∈ v, a = 0)
    (w : CgBuffers.Workspace K) (guess : List K) (hguess : guess.length = s * N) :
    ∃ m b k, Assembly.assemble ord sortNodes (conn s space N) elemMat = some (.ok m) ∧
      Assembly.assembleVector (conn s space N) elemVec = some (.ok b) ∧ k ≤ s * N ∧
      (CgBuffers.solveWithGuess (E := E) ⟨CgBuffers.csrOperator 0 1 (fullRows (s * N) m), CgBuffers.identityOperator,
        CgBuffers.relativeResidual norm 0, none, norm⟩ (s * N + 1) w b guess).map Prod.fst = .done ⟨u, k, .ok ()⟩ := by
  obtain ⟨m, h1, hspd⟩ := C98_mass_is_spd h hs hnd hpos hreg hdet hall ord hord sortNodes hsort bufs outs elemMat hem
  obtain ⟨m₁, b, h1', g1, g2, hsol⟩ := C98_source_of_space_function h hs hnd h' source u heq ord hord sortNodes hsort bufs outs elemMat hem
    bufs' outs' elemVec hev
  rw [h1] at h1'
  obtain rfl : m = m₁ := by injection h1' with h1'; injection h1'
  have hvec : ∀ y : List K, y.length = s * N → y = List.ofFn fun i : Fin (s * N) => y.getD i 0 := by
    intro y hy
    apply List.ext_getElem (by simp [hy])
    intro i hi hi'
    simp [List.getD_eq_getElem?_getD, List.getElem?_eq_getElem hi]
  obtain ⟨x, k, hx, hk, hres⟩ := cg_solves_spd (E := E) m hspd (fun i : Fin (s * N) => b.getD i 0) norm hnn hnz 0 (le_refl _) w
    (fun i : Fin (s * N) => guess.getD i 0)
  rw [← hvec b g2, ← hvec guess hguess] at hx
  refine ⟨m, b, k, h1, g1, hk, ?_⟩
  rw [hx]
  have hxu : x = fun i : Fin (s * N) => u.getD i 0 := by
    apply spd_injective hspd
    rw [(solves_iff_mulVec _ _ _).1 hsol]
    rw [zero_mul] at hres
    have h0 := (hnz _).1 (le_antisymm hres (hnn _))
    funext i
    have := h0 _ (List.mem_ofFn.2 ⟨i, rfl⟩)
    exact (sub_eq_zero.1 this).symm
  rw [hxu, ← hvec u hu]

end Fenris.Mass
