import Mathlib.Analysis.Calculus.Deriv.Add
import Mathlib.Analysis.Calculus.Deriv.Mul
import Verif.Spec.Variational
import Verif.Props.EllipticAssembler
/-! # C71: assembled vectors and matrices are derivatives of assembled energies

For operators that derive from an energy, see Spec/Variational.lean. -/
set_option autoImplicit false

namespace Fenris
namespace Local

open Quadrature Spec
open Fenris.Spec (matrixContribution vectorContribution SortsNodes NodesInBounds entry)

variable {d s : Nat} {Param : Type}

/-! ### Elements -/

theorem perturb_getD (u v : List ℝ) (h : u.length = v.length) (t : ℝ) (r : Nat) :
    (perturb u v t).getD r 0 = u.getD r 0 + t * v.getD r 0 := by
  simp only [perturb, List.getD_eq_getElem?_getD, List.getElem?_zipWith]
  by_cases hr : r < u.length
  · rw [List.getElem?_eq_getElem hr, List.getElem?_eq_getElem (h ▸ hr)]
    rfl
  · rw [List.getElem?_eq_none (by omega), List.getElem?_eq_none (by omega)]
    simp

theorem perturb_length (u v : List ℝ) (h : u.length = v.length) (t : ℝ) : (perturb u v t).length = u.length := by
  rw [perturb, List.length_zipWith, h, min_self]

private theorem gradU_perturb (J : Matrix (Fin d) (Fin d) ℝ) (g : List (Point d ℝ)) (u v : List ℝ)
    (h : u.length = v.length) (t : ℝ) :
    gradU s J g (perturb u v t) = gradU s J g u + t • gradU s J g v := by
  ext k i
  rw [Matrix.add_apply, Matrix.smul_apply]
  simp only [gradU, perturb_getD u v h, smul_eq_mul, Finset.mul_sum, ← Finset.sum_add_distrib]
  exact Finset.sum_congr rfl fun I _ => by ring

private theorem quadSum_deriv (el : VolElement d ℝ) (rule : List (QPoint d ℝ Param)) (f : ℝ → Point d ℝ → Param → ℝ)
    (f' : Point d ℝ → Param → ℝ) (h : ∀ p param, HasDerivAt (fun t => f t p param) (f' p param) 0) :
    HasDerivAt (fun t => quadSum el rule (f t)) (quadSum el rule f') 0 := by
  unfold quadSum
  induction rule with
  | nil => simpa using hasDerivAt_const (0 : ℝ) (0 : ℝ)
  | cons q rule ih =>
    simp only [List.map_cons, List.sum_cons]
    exact ((h q.2.1 q.2.2).const_mul _).add ih

private theorem quadSum_sum {ι : Type} (A : Finset ι) (el : VolElement d ℝ) (rule : List (QPoint d ℝ Param))
    (f : ι → Point d ℝ → Param → ℝ) (c : ι → ℝ) :
    quadSum el rule (fun p param => ∑ x ∈ A, f x p param * c x) = ∑ x ∈ A, quadSum el rule (f x) * c x := by
  unfold quadSum
  induction rule with
  | nil => simp
  | cons q rule ih =>
    simp only [List.map_cons, List.sum_cons]
    rw [ih, Finset.mul_sum, ← Finset.sum_add_distrib]
    exact Finset.sum_congr rfl fun x _ => by ring

private theorem sum_reverse {α β γ : Type} [Fintype α] [Fintype β] [Fintype γ] (f : α → β → γ → ℝ) :
    ∑ k, ∑ i, ∑ I, f k i I = ∑ I, ∑ i, ∑ k, f k i I := by
  rw [Finset.sum_comm]
  rw [Finset.sum_congr rfl fun i _ => Finset.sum_comm (f := fun k I => f k i I)]
  exact Finset.sum_comm

private theorem energy_deriv (el : VolElement d ℝ) (hel : WellFormed el) (o : Operator d s ℝ Param)
    (ho : EnergyLaw o) (rule : List (QPoint d ℝ Param)) (u v : List ℝ) (h : u.length = v.length) :
    HasDerivAt (fun t => quadSum el rule fun p param =>
        o.energy (gradU s (el.jacobian p) (el.gradients p) (perturb u v t)) param)
      (∑ I ∈ Finset.range el.numNodes, ∑ i : Fin s, quadSum el rule (fun p param =>
        ∑ k, o.op (gradU s (el.jacobian p) (el.gradients p) u) param k i *
          physGrad (el.jacobian p) ((el.gradients p)[I]?.getD 0) k) * v.getD (s * I + i) 0) 0 := by
  have h1 := quadSum_deriv el rule (fun t p param =>
      o.energy (gradU s (el.jacobian p) (el.gradients p) (perturb u v t)) param)
    (fun p param => ∑ k, ∑ i, o.op (gradU s (el.jacobian p) (el.gradients p) u) param k i *
      gradU s (el.jacobian p) (el.gradients p) v k i)
    (fun p param => by
      simp only [gradU_perturb _ _ u v h]
      exact ho _ _ _)
  refine h1.congr_deriv ?_
  rw [← Finset.sum_product', ← quadSum_sum]
  congr 1
  funext p param
  rw [Finset.sum_product]
  have hlen : (el.gradients p).length = el.numNodes := (hel p).2
  simp only [gradU, Finset.mul_sum, Finset.sum_mul]
  rw [← hlen, Finset.sum_range]
  have e : ∀ I : Fin (el.gradients p).length, (el.gradients p)[(I : Nat)]?.getD 0 = (el.gradients p)[I] := fun I => by
    rw [List.getElem?_eq_getElem I.2]
    rfl
  simp only [e]
  rw [sum_reverse]
  exact Finset.sum_congr rfl fun I _ => Finset.sum_congr rfl fun i _ => Finset.sum_congr rfl fun k _ => by ring

private theorem vector_deriv (el : VolElement d ℝ) (hel : WellFormed el) (o : Operator d s ℝ Param)
    (ho : ContractionLaw o) (rule : List (QPoint d ℝ Param)) (u v : List ℝ) (h : u.length = v.length) (I : Nat)
    (i : Fin s) :
    HasDerivAt (fun t => quadSum el rule fun p param =>
        ∑ k, o.op (gradU s (el.jacobian p) (el.gradients p) (perturb u v t)) param k i *
          physGrad (el.jacobian p) ((el.gradients p)[I]?.getD 0) k)
      (∑ J ∈ Finset.range el.numNodes, ∑ j : Fin s, quadSum el rule (fun p param =>
        o.contract (gradU s (el.jacobian p) (el.gradients p) u)
          (physGrad (el.jacobian p) ((el.gradients p)[I]?.getD 0))
          (physGrad (el.jacobian p) ((el.gradients p)[J]?.getD 0)) param i j) * v.getD (s * J + j) 0) 0 := by
  have h1 := quadSum_deriv el rule (fun t p param =>
      ∑ k, o.op (gradU s (el.jacobian p) (el.gradients p) (perturb u v t)) param k i *
          physGrad (el.jacobian p) ((el.gradients p)[I]?.getD 0) k)
    (fun p param => ∑ J : Fin (el.gradients p).length, ∑ j : Fin s,
      o.contract (gradU s (el.jacobian p) (el.gradients p) u)
          (physGrad (el.jacobian p) ((el.gradients p)[I]?.getD 0))
          (physGrad (el.jacobian p) (el.gradients p)[J]) param i j * v.getD (s * J + j) 0)
    (fun p param => by
      simp only [gradU_perturb _ _ u v h]
      exact ho _ _ _ (fun J => physGrad (el.jacobian p) (el.gradients p)[J]) (fun J j => v.getD (s * J + j) 0) _ _)
  refine h1.congr_deriv ?_
  rw [← Finset.sum_product', ← quadSum_sum]
  congr 1
  funext p param
  rw [Finset.sum_product]
  have hlen : (el.gradients p).length = el.numNodes := (hel p).2
  rw [← hlen, Finset.sum_range]
  have e : ∀ I : Fin (el.gradients p).length, (el.gradients p)[(I : Nat)]?.getD 0 = (el.gradients p)[I] := fun I => by
    rw [List.getElem?_eq_getElem I.2]
    rfl
  simp only [e]

private theorem sum_blocks (n s : Nat) (f : Nat → ℝ) :
    ∑ r ∈ Finset.range (s * n), f r = ∑ I ∈ Finset.range n, ∑ i : Fin s, f (s * I + i) := by
  induction n with
  | zero => simp
  | succ n ih => rw [Nat.mul_succ, Finset.sum_range_add, ih, Finset.sum_range_succ, Finset.sum_range (n := s)]

/-- **C71.** The element vector is the gradient of the element energy, for every element, quadrature rule, local
solution `u` and direction `v`, and every operator that derives from its energy. -/
theorem C71_element_vector_is_energy_gradient (el : VolElement d ℝ) (hel : WellFormed el)
    (o : Operator d s ℝ Param) (ho : EnergyLaw o) (u v : List ℝ) (hu : u.length = s * el.numNodes)
    (hv : v.length = s * el.numNodes) (rule : List (QPoint d ℝ Param))
    (hdet : ∀ q ∈ rule, (el.jacobian q.2.1).det ≠ 0) (out0 : Nat → ℝ) :
    ∃ (g : Nat → ℝ) (E : ℝ → ℝ),
      ellipticVector el o u (rule.map (·.1)) (rule.map (·.2.1)) (rule.map (·.2.2)) out0 = some (.ok g) ∧
      (∀ t, ellipticEnergy el o (perturb u v t) (rule.map (·.1)) (rule.map (·.2.1)) (rule.map (·.2.2)) =
        some (.ok (E t))) ∧
      HasDerivAt E (∑ r ∈ Finset.range (s * el.numNodes), g r * v.getD r 0) 0 := by
  obtain ⟨g, h1, h2⟩ := C28_vector_is_quadrature_sum el hel o u hu rule hdet out0
  have huv : u.length = v.length := hu.trans hv.symm
  refine ⟨g, _, h1, fun t => C28_energy_is_quadrature_sum el o _ (by rw [perturb_length u v huv, hu]) rule hdet, ?_⟩
  refine (energy_deriv el hel o ho rule u v huv).congr_deriv ?_
  rw [sum_blocks]
  exact Finset.sum_congr rfl fun I hI => Finset.sum_congr rfl fun i _ => by rw [h2 I i (Finset.mem_range.1 hI)]

/-- **C71.** The element matrix is the derivative of the element vector with respect to the local solution. -/
theorem C71_element_matrix_is_vector_derivative (el : VolElement d ℝ) (hel : WellFormed el)
    (o : Operator d s ℝ Param) (ho : ContractionLaw o) (hsym : SymmetryLaw o) (u v : List ℝ)
    (hu : u.length = s * el.numNodes) (hv : v.length = s * el.numNodes) (rule : List (QPoint d ℝ Param))
    (hdet : ∀ q ∈ rule, (el.jacobian q.2.1).det ≠ 0) (out0 : Mat ℝ) (vec0 : Nat → ℝ) :
    ∃ (A : Mat ℝ) (g : ℝ → Nat → ℝ),
      ellipticMatrix el o u (rule.map (·.1)) (rule.map (·.2.1)) (rule.map (·.2.2)) out0 = some (.ok A) ∧
      (∀ t, ellipticVector el o (perturb u v t) (rule.map (·.1)) (rule.map (·.2.1)) (rule.map (·.2.2)) vec0 =
        some (.ok (g t))) ∧
      ∀ r < s * el.numNodes,
        HasDerivAt (fun t => g t r) (∑ c ∈ Finset.range (s * el.numNodes), A r c * v.getD c 0) 0 := by
  obtain ⟨A, h1, h2⟩ := C28_matrix_is_quadrature_sum el hel o hsym u hu rule hdet out0
  have huv : u.length = v.length := hu.trans hv.symm
  choose g h3 h4 using fun t => C28_vector_is_quadrature_sum el hel o (perturb u v t)
    (by rw [perturb_length u v huv, hu]) rule hdet vec0
  refine ⟨A, g, h1, h3, fun r hr => ?_⟩
  have hs : 0 < s := Nat.pos_of_ne_zero fun h => by
    rw [h, Nat.zero_mul] at hr
    omega
  obtain ⟨I, i, hI, rfl⟩ : ∃ (I : Nat) (i : Fin s), I < el.numNodes ∧ r = s * I + i :=
    ⟨r / s, ⟨r % s, Nat.mod_lt _ hs⟩, Nat.div_lt_of_lt_mul hr, (Nat.div_add_mod r s).symm⟩
  have e : (fun t => g t (s * I + i)) = fun t => quadSum el rule fun p param =>
        ∑ k, o.op (gradU s (el.jacobian p) (el.gradients p) (perturb u v t)) param k i *
          physGrad (el.jacobian p) ((el.gradients p)[I]?.getD 0) k := by
    funext t
    rw [h4 t I i hI]
  rw [e]
  refine (vector_deriv el hel o ho rule u v huv I i).congr_deriv ?_
  rw [sum_blocks]
  exact Finset.sum_congr rfl fun J hJ => Finset.sum_congr rfl fun j _ => by
    rw [h2 I J i j hI (Finset.mem_range.1 hJ)]

/-! ### Global systems -/

section global

variable [Inhabited Param]

attribute [local instance] zeroFill

private theorem localPart_getD (s : Nat) (u : List ℝ) (nodes : List Nat) (a : Nat) (ha : a < nodes.length) (i : Fin s) :
    (localPart s u nodes).getD (s * a + i) 0 = u.getD (s * nodes[a] + i) 0 := by
  unfold localPart
  induction nodes generalizing a with
  | nil => simp at ha
  | cons n nodes ih =>
    rw [List.flatMap_cons]
    cases a with
    | zero =>
      rw [List.getD_eq_getElem?_getD, List.getElem?_append_left (by simp)]
      simp
    | succ a =>
      rw [List.getD_eq_getElem?_getD, List.getElem?_append_right (by simp [Nat.mul_succ]; omega),
        ← List.getD_eq_getElem?_getD]
      have e : s * (a + 1) + (i : Nat) - ((List.range s).map fun i => u.getD (s * n + i) 0).length = s * a + i := by
        simp [Nat.mul_succ]
        omega
      rw [e, ih a (by simpa using ha)]
      rfl

private theorem localPart_perturb (s : Nat) (u v : List ℝ) (h : u.length = v.length) (t : ℝ) (nodes : List Nat) :
    localPart s (perturb u v t) nodes = perturb (localPart s u nodes) (localPart s v nodes) t := by
  unfold localPart
  induction nodes with
  | nil => rfl
  | cons n nodes ih =>
    rw [List.flatMap_cons, ih, List.flatMap_cons, List.flatMap_cons]
    simp only [perturb]
    rw [List.zipWith_append (by simp)]
    congr 1
    rw [List.zipWith_map_left, List.zipWith_map_right]
    have : ∀ l : List Nat, List.zipWith (fun a b => u.getD (s * n + a) 0 + t * v.getD (s * n + b) 0) l l
        = l.map fun i => (perturb u v t).getD (s * n + i) 0 := by
      intro l
      induction l with
      | nil => rfl
      | cons x l ih => rw [List.zipWith_cons_cons, ih, List.map_cons, perturb_getD u v h]
    exact (this _).symm

private theorem localPart_len (s : Nat) (u : List ℝ) (nodes : List Nat) :
    (localPart s u nodes).length = s * nodes.length := by
  unfold localPart
  induction nodes with
  | nil => simp
  | cons n nodes ih => rw [List.flatMap_cons, List.length_append, ih]; simp [Nat.mul_succ, Nat.add_comm]

private theorem discretisation_of_length {space : Space d ℝ} {numNodes : Nat} {table : Table (Point d ℝ) ℝ Param}
    {rules : Nat → List (QPoint d ℝ Param)} {u w : List ℝ} (h : Discretisation space numNodes table rules u s)
    (hw : w.length = u.length) : Discretisation space numNodes table rules w s :=
  ⟨h.wellFormed, h.nodeCount, h.inBounds, hw.trans h.uLength, h.rule, h.regular⟩

private theorem sum_contribution (s : Nat) (nodes : List Nat) (f : Nat → ℝ) (v : List ℝ) (N : Nat)
    (hb : ∀ n ∈ nodes, n < N) :
    ∑ r ∈ Finset.range (s * N), vectorContribution s nodes f r * v.getD r 0
      = ∑ a : Fin nodes.length, ∑ i : Fin s, f (s * a + i) * v.getD (s * nodes[a] + i) 0 := by
  simp only [vectorContribution, Finset.sum_mul]
  rw [Finset.sum_comm]
  refine Finset.sum_congr rfl fun a _ => ?_
  rw [Finset.sum_comm]
  refine Finset.sum_congr rfl fun i _ => ?_
  have hr : s * nodes[a] + i ∈ Finset.range (s * N) := by
    have := Nat.mul_le_mul_left s (Nat.succ_le_of_lt (hb nodes[a] (List.getElem_mem _)))
    rw [Nat.mul_succ] at this
    have := i.2
    rw [Finset.mem_range]
    omega
  rw [Finset.sum_eq_single_of_mem _ hr]
  · rw [if_pos rfl]
  · intro r _ hne
    rw [if_neg (Ne.symm hne), zero_mul]

/-- The element vectors by their formula. -/
private noncomputable def forceOf (space : Space d ℝ) (rules : Nat → List (QPoint d ℝ Param)) (o : Operator d s ℝ Param)
    (u : List ℝ) (e x : Nat) : ℝ :=
  (space[e]?.map fun en => quadSum en.1 (rules e) (fun p param =>
    ∑ k, (if hs : 0 < s then o.op (gradU s (en.1.jacobian p) (en.1.gradients p) (localPart s u en.2)) param k
        ⟨x % s, Nat.mod_lt _ hs⟩ else 0) *
      physGrad (en.1.jacobian p) ((en.1.gradients p)[x / s]?.getD 0) k)).getD 0

private theorem split_index (I : Nat) (i : Fin s) (hs : 0 < s) :
    (s * I + (i : Nat)) / s = I ∧ (⟨(s * I + (i : Nat)) % s, Nat.mod_lt _ hs⟩ : Fin s) = i := by
  refine ⟨?_, Fin.ext ?_⟩
  · rw [Nat.mul_add_div hs, Nat.div_eq_of_lt i.2, Nat.add_zero]
  · change (s * I + (i : Nat)) % s = i
    rw [Nat.mul_add_mod, Nat.mod_eq_of_lt i.2]

private theorem forceOf_eq (space : Space d ℝ) (rules : Nat → List (QPoint d ℝ Param)) (o : Operator d s ℝ Param)
    (u : List ℝ) (e : Nat) (el : VolElement d ℝ) (nodes : List Nat) (he : space[e]? = some (el, nodes))
    (I : Nat) (i : Fin s) (_ : I < nodes.length) :
    forceOf space rules o u e (s * I + i) = quadSum el (rules e) (fun p param =>
      ∑ k, o.op (gradU s (el.jacobian p) (el.gradients p) (localPart s u nodes)) param k i *
        physGrad (el.jacobian p) ((el.gradients p)[I]?.getD 0) k) := by
  have hs : 0 < s := lt_of_le_of_lt (Nat.zero_le _) i.2
  obtain ⟨e1, e2⟩ := split_index I i hs
  simp only [forceOf, he, Option.map_some, Option.getD_some, dif_pos hs, e1, e2]

/-- The element matrices by their formula. -/
private noncomputable def stiffOf (space : Space d ℝ) (rules : Nat → List (QPoint d ℝ Param)) (o : Operator d s ℝ Param)
    (u : List ℝ) (e x y : Nat) : ℝ :=
  (space[e]?.map fun en => quadSum en.1 (rules e) (fun p param =>
    if hs : 0 < s then
      o.contract (gradU s (en.1.jacobian p) (en.1.gradients p) (localPart s u en.2))
        (physGrad (en.1.jacobian p) ((en.1.gradients p)[x / s]?.getD 0))
        (physGrad (en.1.jacobian p) ((en.1.gradients p)[y / s]?.getD 0)) param
        ⟨x % s, Nat.mod_lt _ hs⟩ ⟨y % s, Nat.mod_lt _ hs⟩
    else 0)).getD 0

private theorem stiffOf_eq (space : Space d ℝ) (rules : Nat → List (QPoint d ℝ Param)) (o : Operator d s ℝ Param)
    (u : List ℝ) (e : Nat) (el : VolElement d ℝ) (nodes : List Nat) (he : space[e]? = some (el, nodes))
    (I J : Nat) (i j : Fin s) (_ : I < nodes.length) (_ : J < nodes.length) :
    stiffOf space rules o u e (s * I + i) (s * J + j) = quadSum el (rules e) (fun p param =>
      o.contract (gradU s (el.jacobian p) (el.gradients p) (localPart s u nodes))
        (physGrad (el.jacobian p) ((el.gradients p)[I]?.getD 0))
        (physGrad (el.jacobian p) ((el.gradients p)[J]?.getD 0)) param i j) := by
  have hs : 0 < s := lt_of_le_of_lt (Nat.zero_le _) i.2
  obtain ⟨e1, e2⟩ := split_index I i hs
  obtain ⟨e3, e4⟩ := split_index J j hs
  simp only [stiffOf, he, Option.map_some, Option.getD_some, dif_pos hs, e1, e2, e3, e4]

private theorem sum_matrixContribution (s : Nat) (nodes : List Nat) (A : Mat ℝ) (v : List ℝ) (N : Nat)
    (hb : ∀ n ∈ nodes, n < N) (r : Nat) :
    ∑ c ∈ Finset.range (s * N), matrixContribution s nodes A r c * v.getD c 0
      = ∑ a : Fin nodes.length, ∑ i : Fin s, if s * nodes[a] + i = r then
          ∑ b : Fin nodes.length, ∑ j : Fin s, A (s * a + i) (s * b + j) * v.getD (s * nodes[b] + j) 0 else 0 := by
  simp only [matrixContribution, Finset.sum_mul]
  rw [Finset.sum_comm]
  refine Finset.sum_congr rfl fun a _ => ?_
  rw [Finset.sum_comm]
  refine Finset.sum_congr rfl fun i _ => ?_
  by_cases hri : s * nodes[a] + i = r
  · rw [if_pos hri, Finset.sum_comm]
    refine Finset.sum_congr rfl fun b _ => ?_
    rw [Finset.sum_comm]
    refine Finset.sum_congr rfl fun j _ => ?_
    have hr : s * nodes[b] + j ∈ Finset.range (s * N) := by
      have := Nat.mul_le_mul_left s (Nat.succ_le_of_lt (hb nodes[b] (List.getElem_mem _)))
      rw [Nat.mul_succ] at this
      have := j.2
      rw [Finset.mem_range]
      omega
    rw [Finset.sum_eq_single_of_mem _ hr]
    · rw [if_pos ⟨hri, rfl⟩]
    · intro c _ hne
      rw [if_neg fun hh => hne hh.2.symm, zero_mul]
  · rw [if_neg hri]
    refine Finset.sum_eq_zero fun c _ => Finset.sum_eq_zero fun b _ => Finset.sum_eq_zero fun j _ => ?_
    rw [if_neg fun hh => hri hh.1, zero_mul]

/-- **C71.** The global vector is the gradient of the global energy: for every finite element space, table, global
solution `u`, direction `v` and operator that derives from its energy. `bufs`, `outs` are whatever the workspaces
and outputs held before. -/
theorem C71_global_vector_is_energy_gradient (space : Space d ℝ) (numNodes : Nat) (table : Table (Point d ℝ) ℝ Param)
    (rules : Nat → List (QPoint d ℝ Param)) (u v : List ℝ) (hv : v.length = u.length)
    (h : Discretisation space numNodes table rules u s) (o : Operator d s ℝ Param) (ho : EnergyLaw o)
    (bufs : Nat → Buffer (Point d ℝ) ℝ Param) (outs : Nat → Nat → ℝ) (elemVec : Nat → Except String (Nat → ℝ))
    (hev : ∀ e, e < space.length → ∃ buf',
      elementVector space o table u (bufs e) (outs e) e = some (elemVec e, buf'))
    (bufs' : ℝ → Nat → Buffer (Point d ℝ) ℝ Param) (elem : ℝ → Nat → Except String ℝ)
    (hee : ∀ t e, e < space.length → ∃ buf',
      elementEnergy space o table (perturb u v t) (bufs' t e) e = some (elem t e, buf')) :
    ∃ (g : List ℝ) (E : ℝ → ℝ),
      Assembly.assembleVector (conn s space numNodes) elemVec = some (.ok g) ∧ g.length = s * numNodes ∧
      (∀ t, Assembly.assembleScalar space.length (elem t) = .ok (E t)) ∧
      HasDerivAt E (∑ r ∈ Finset.range (s * numNodes), g.getD r 0 * v.getD r 0) 0 := by
  have huv : u.length = v.length := hv.symm
  let force := forceOf (s := s) space rules o u
  have hforce := forceOf_eq (s := s) space rules o u
  have h1 := C69_global_vector space numNodes table rules u h o bufs outs elemVec hev force hforce
  refine ⟨_, fun t => ∑ e : Fin space.length, quadSum (space[e]).1 (rules e) (fun p param =>
        o.energy (gradU s ((space[e]).1.jacobian p) ((space[e]).1.gradients p)
          (localPart s (perturb u v t) (space[e]).2)) param), h1, by simp, fun t => ?_, ?_⟩
  · exact (C69_global_energy space numNodes table rules (perturb u v t)
      (discretisation_of_length h (perturb_length u v huv t)) o (bufs' t) (elem t) (hee t) .leaf).1
  · have hd : ∀ e : Fin space.length, HasDerivAt (fun t => quadSum (space[e]).1 (rules e) (fun p param =>
        o.energy (gradU s ((space[e]).1.jacobian p) ((space[e]).1.gradients p)
          (localPart s (perturb u v t) (space[e]).2)) param))
        (∑ r ∈ Finset.range (s * numNodes), vectorContribution s (space[e]).2 (force e) r * v.getD r 0) 0 := by
      intro e
      have hmem : space[e] ∈ space := List.getElem_mem _
      have hg : space[(e : Nat)]? = some ((space[e]).1, (space[e]).2) := List.getElem?_eq_getElem e.2
      simp only [localPart_perturb s u v huv]
      refine (energy_deriv _ (h.wellFormed _ hmem) o ho (rules e) (localPart s u (space[e]).2)
        (localPart s v (space[e]).2) (by rw [localPart_len, localPart_len])).congr_deriv ?_
      rw [sum_contribution s _ _ v numNodes (h.inBounds _ hmem), ← h.nodeCount _ hmem, Finset.sum_range]
      refine Finset.sum_congr rfl fun a _ => Finset.sum_congr rfl fun i _ => ?_
      rw [localPart_getD s v _ a a.2 i]
      congr 1
      exact (hforce e _ _ hg a i a.2).symm
    refine (HasDerivAt.fun_sum (u := Finset.univ) fun e _ => hd e).congr_deriv ?_
    rw [Finset.sum_comm]
    refine Finset.sum_congr rfl fun r hr => ?_
    rw [← Finset.sum_mul]
    congr 1
    rw [List.getD_eq_getElem?_getD, List.getElem?_map, List.getElem?_range (Finset.mem_range.1 hr)]
    rfl

/-- **C71.** The global matrix is the derivative of the global vector: for every finite element space whose
elements have distinct nodes, every table, global solution `u` and direction `v`, and every operator whose contraction is
the derivative of its flux. -/
theorem C71_global_matrix_is_vector_derivative (space : Space d ℝ) (numNodes : Nat)
    (table : Table (Point d ℝ) ℝ Param) (rules : Nat → List (QPoint d ℝ Param)) (u v : List ℝ)
    (hv : v.length = u.length) (hs : 0 < s) (h : Discretisation space numNodes table rules u s)
    (hnd : ∀ en ∈ space, en.2.Nodup) (o : Operator d s ℝ Param) (ho : ContractionLaw o) (hsym : SymmetryLaw o)
    (ord : List Nat → List Nat) (hord : ∀ l, (ord l).Perm l)
    (sortNodes : List (Nat × Nat) → List (Nat × Nat)) (hsort : SortsNodes sortNodes)
    (bufs : Nat → Buffer (Point d ℝ) ℝ Param) (outs : Nat → Mat ℝ) (elemMat : Nat → Except String (Mat ℝ))
    (hem : ∀ e, e < space.length → ∃ buf',
      elementMatrix space o table u (bufs e) (outs e) e = some (elemMat e, buf'))
    (bufs' : ℝ → Nat → Buffer (Point d ℝ) ℝ Param) (outs' : ℝ → Nat → Nat → ℝ)
    (elemVec : ℝ → Nat → Except String (Nat → ℝ))
    (hev : ∀ t e, e < space.length → ∃ buf',
      elementVector space o table (perturb u v t) (bufs' t e) (outs' t e) e = some (elemVec t e, buf')) :
    ∃ (m : Assembly.Csr ℝ) (g : ℝ → List ℝ),
      Assembly.assemble ord sortNodes (conn s space numNodes) elemMat = some (.ok m) ∧
      (∀ t, Assembly.assembleVector (conn s space numNodes) (elemVec t) = some (.ok (g t))) ∧
      ∀ r < s * numNodes, HasDerivAt (fun t => (g t).getD r 0)
        (∑ c ∈ Finset.range (s * numNodes), entry m r c * v.getD c 0) 0 := by
  have huv : u.length = v.length := hv.symm
  obtain ⟨m, h1, h2⟩ := C69_global_matrix space numNodes table rules u hs h hnd o hsym ord hord sortNodes hsort
    bufs outs elemMat hem (stiffOf space rules o u) (stiffOf_eq space rules o u)
  have h3 := fun t => C69_global_vector space numNodes table rules (perturb u v t)
    (discretisation_of_length h (perturb_length u v huv t)) o (bufs' t) (outs' t) (elemVec t) (hev t)
    (forceOf space rules o (perturb u v t)) (forceOf_eq space rules o (perturb u v t))
  refine ⟨m, _, h1, h3, fun r hr => ?_⟩
  have e : (fun t => ((List.range (s * numNodes)).map (fun r => ∑ e : Fin space.length,
      vectorContribution s (space[e]).2 (forceOf space rules o (perturb u v t) e) r)).getD r 0)
      = fun t => ∑ e : Fin space.length,
        vectorContribution s (space[e]).2 (forceOf space rules o (perturb u v t) e) r := by
    funext t
    rw [List.getD_eq_getElem?_getD, List.getElem?_map, List.getElem?_range hr]
    rfl
  rw [e]
  have hd : ∀ e : Fin space.length, HasDerivAt
      (fun t => vectorContribution s (space[e]).2 (forceOf space rules o (perturb u v t) e) r)
      (∑ c ∈ Finset.range (s * numNodes), matrixContribution s (space[e]).2 (stiffOf space rules o u e) r c
        * v.getD c 0) 0 := by
    intro e
    have hmem : space[e] ∈ space := List.getElem_mem _
    have hg : space[(e : Nat)]? = some ((space[e]).1, (space[e]).2) := List.getElem?_eq_getElem e.2
    rw [sum_matrixContribution s _ _ v numNodes (h.inBounds _ hmem)]
    refine HasDerivAt.fun_sum (u := Finset.univ) fun a _ => HasDerivAt.fun_sum (u := Finset.univ) fun i _ => ?_
    by_cases hri : s * (space[e]).2[a] + i = r
    · simp only [if_pos hri]
      have e1 : (fun t => forceOf space rules o (perturb u v t) e (s * a + i)) = fun t =>
          quadSum (space[e]).1 (rules e) (fun p param =>
            ∑ k, o.op (gradU s ((space[e]).1.jacobian p) ((space[e]).1.gradients p)
              (perturb (localPart s u (space[e]).2) (localPart s v (space[e]).2) t)) param k i *
              physGrad ((space[e]).1.jacobian p) (((space[e]).1.gradients p)[(a : Nat)]?.getD 0) k) := by
        funext t
        rw [forceOf_eq space rules o _ e _ _ hg a i a.2, localPart_perturb s u v huv]
      rw [e1]
      refine (vector_deriv _ (h.wellFormed _ hmem) o ho (rules e) _ _
        (by rw [localPart_len, localPart_len]) a i).congr_deriv ?_
      rw [← h.nodeCount _ hmem, Finset.sum_range]
      refine Finset.sum_congr rfl fun b _ => Finset.sum_congr rfl fun j _ => ?_
      rw [stiffOf_eq space rules o u e _ _ hg a b i j a.2 b.2, localPart_getD s v _ b b.2 j]
      rfl
    · simp only [if_neg hri]
      exact hasDerivAt_const _ _
  refine (HasDerivAt.fun_sum (u := Finset.univ) fun e _ => hd e).congr_deriv ?_
  rw [Finset.sum_comm]
  refine Finset.sum_congr rfl fun c _ => ?_
  rw [← Finset.sum_mul, h2]

end global

/-! ### Operators that derive from an energy -/

/-- **C71.** The Laplace operator derives from its energy in every dimension. -/
theorem C71_laplace_operator (d : Nat) :
    EnergyLaw (laplace d ℝ) ∧ ContractionLaw (laplace d ℝ) := by
  refine ⟨fun G H _ => ?_, fun G _ n b c a i => ?_⟩
  · have h : ∀ k : Fin d, HasDerivAt (fun t : ℝ => (G + t • H) k 0 * (G + t • H) k 0)
        (H k 0 * G k 0 + G k 0 * H k 0) 0 := by
      intro k
      have h1 : HasDerivAt (fun t : ℝ => (G + t • H) k 0) (H k 0) 0 := by
        have := ((hasDerivAt_id (0 : ℝ)).mul_const (H k 0)).const_add (G k 0)
        simpa [Matrix.add_apply, Matrix.smul_apply] using this
      have := h1.mul h1
      rw [zero_smul, add_zero] at this
      exact this
    refine ((HasDerivAt.fun_sum (u := Finset.univ) fun k _ => h k).const_mul (1 / 2)).congr_deriv ?_
    simp only [laplace, Finset.univ_unique, Finset.sum_singleton, Finset.mul_sum, Fin.default_eq_zero]
    exact Finset.sum_congr rfl fun k _ => by ring
  · have h : ∀ k : Fin d, HasDerivAt (fun t : ℝ => (G + t • Matrix.of fun k j => ∑ J, b J k * c J j) k i * a k)
        ((∑ J, b J k * c J i) * a k) 0 := by
      intro k
      have := (((hasDerivAt_id (0 : ℝ)).mul_const (∑ J, b J k * c J i)).const_add (G k i)).mul_const (a k)
      simpa [Matrix.add_apply, Matrix.smul_apply] using this
    refine (HasDerivAt.fun_sum (u := Finset.univ) fun k _ => h k).congr_deriv ?_
    simp only [laplace, Matrix.of_apply, Finset.univ_unique, Finset.sum_singleton, Finset.sum_mul]
    rw [Finset.sum_comm]
    refine Finset.sum_congr rfl fun J _ => Finset.sum_congr rfl fun k _ => ?_
    rw [Subsingleton.elim i default]
    ring

/-! ### Non-vacuity -/

/-- A triangle with vertices (0,0), (2,0), (0,1). -/
private noncomputable def realTriangle : VolElement 2 ℝ := elementOfKind .tri3 [![0, 0], ![2, 0], ![0, 1]]

private theorem realTriangle_regular (p : Point 2 ℝ) : (realTriangle.jacobian p).det = 1 / 2 := by
  rw [Matrix.det_fin_two]
  simp [realTriangle, elementOfKind, Element.referenceJacobian, Element.weightedSum,
    Element.geometryGradients, Element.Kind.numNodes, Element.tri3Gradients, Element.tri3G]

/-- The hypotheses of the element theorems hold for a triangle with a rule of two points and the Laplace operator. -/
example : WellFormed realTriangle ∧ EnergyLaw (laplace 2 ℝ) ∧ ContractionLaw (laplace 2 ℝ) ∧
    SymmetryLaw (laplace 2 ℝ) ∧ ∀ p, (realTriangle.jacobian p).det ≠ 0 :=
  ⟨elementOfKind_wellFormed _ _, (C71_laplace_operator 2).1, (C71_laplace_operator 2).2, by
    intro _ _ a b _
    ext i j
    simp [laplace, mul_comm], fun p => by rw [realTriangle_regular]; norm_num⟩

/-- The hypotheses of the global theorems hold for two triangles sharing an edge, and four nodes. -/
example : Discretisation (d := 2) (K := ℝ) (Param := Unit)
    [(realTriangle, [0, 1, 2]), (realTriangle, [3, 2, 1])] 4
    (Uniform.table ⟨[![0, 0], ![-1 / 2, -1 / 2]], [1, 1], [(), ()]⟩)
    (fun _ => [(1, ![0, 0], ()), (1, ![-1 / 2, -1 / 2], ())]) [3, 1, 4, 1] 1 where
  wellFormed := by
    intro en hen
    simp only [List.mem_cons, List.not_mem_nil, or_false] at hen
    rcases hen with rfl | rfl <;> exact elementOfKind_wellFormed _ _
  nodeCount := by
    intro en hen
    simp only [List.mem_cons, List.not_mem_nil, or_false] at hen
    rcases hen with rfl | rfl <;> rfl
  inBounds := by
    intro en hen
    simp only [List.mem_cons, List.not_mem_nil, or_false] at hen
    rcases hen with rfl | rfl <;> decide
  uLength := rfl
  rule := by
    intro e he b
    exact (C27_uniform_returns_the_rule (P := Point 2 ℝ) (W := ℝ) (D := Unit) [![0, 0], ![-1 / 2, -1 / 2]]
      [1, 1] [(), ()]).2 _ rfl e b
  regular := by
    intro e en he q hq
    have hen := List.mem_of_getElem? he
    simp only [List.mem_cons, List.not_mem_nil, or_false] at hen
    rcases hen with rfl | rfl <;> (rw [realTriangle_regular]; norm_num)

end Local
end Fenris
