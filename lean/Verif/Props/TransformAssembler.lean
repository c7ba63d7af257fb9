import Verif.Props.Combinators
import Verif.Props.LinearProblem
/-! # C100: transformed element quantities -/
set_option autoImplicit false
set_option linter.unusedSectionVars false

namespace Fenris.Combinators
open Fenris.Assembly Fenris.Spec Fenris.Combinators.Spec

variable {E K : Type}

/-- A transformation of the element matrices leaves vectors and scalars as they are, a transformation of the vectors leaves matrices and scalars,
and a transformation of the scalars leaves matrices and vectors; transformations one after the other are the transformation by the composed
function, which stops at the first error. -/
theorem C100_transform_only_its_quantity [AddCommMonoid K] (ord : List Nat → List Nat) (sortNodes : List (Nat × Nat) → List (Nat × Nat))
    (a : Assembler E K) (f : K → Except E K) (g : (Nat → K) → Except E (Nat → K)) (h : (Nat → Nat → K) → Except E (Nat → Nat → K)) :
    ((a.transformMatrix h).assembleVector = a.assembleVector ∧ (a.transformMatrix h).assembleScalar = a.assembleScalar ∧
      (a.transformMatrix h).conn = a.conn) ∧
    ((a.transformVector g).assembleMatrix ord sortNodes = a.assembleMatrix ord sortNodes ∧
      (a.transformVector g).assembleScalar = a.assembleScalar ∧ (a.transformVector g).conn = a.conn) ∧
    ((a.transformScalar f).assembleMatrix ord sortNodes = a.assembleMatrix ord sortNodes ∧
      (a.transformScalar f).assembleVector = a.assembleVector ∧ (a.transformScalar f).conn = a.conn) ∧
    (∀ f' : K → Except E K, (a.transformScalar f).transformScalar f' = a.transformScalar fun x => (f x).bind f') ∧
    (∀ g' : (Nat → K) → Except E (Nat → K), (a.transformVector g).transformVector g' = a.transformVector fun x => (g x).bind g') ∧
    ∀ h' : (Nat → Nat → K) → Except E (Nat → Nat → K), (a.transformMatrix h).transformMatrix h' = a.transformMatrix fun x => (h x).bind h' := by
  refine ⟨⟨rfl, rfl, rfl⟩, ⟨rfl, rfl, rfl⟩, ⟨rfl, rfl, rfl⟩, fun f' => ?_, fun g' => ?_, fun h' => ?_⟩
  · simp only [Assembler.transformScalar, Option.map_map, Assembler.mk.injEq, true_and, and_true]
    funext e
    congr 1; funext r; cases r <;> rfl
  · simp only [Assembler.transformVector, Option.map_map, Assembler.mk.injEq, true_and, and_true]
    funext e
    congr 1; funext r; cases r <;> rfl
  · simp only [Assembler.transformMatrix, Option.map_map, Assembler.mk.injEq, true_and, and_true]
    funext e
    congr 1; funext r; cases r <;> rfl

/-- If the transformation of all element matrices succeeds, then the transformed matrices are assembled: the same positions are stored as without
the transformation, and the entries are the sums of the entries of the transformed matrices. -/
theorem C100_transform_matrix [AddCommMonoid K] (ord : List Nat → List Nat) (hord : ∀ l, (ord l).Perm l)
    (sortNodes : List (Nat × Nat) → List (Nat × Nat)) (hsort : SortsNodes sortNodes) (a : Assembler E K) (hdim : 0 < a.solutionDim) (ha : Sound a)
    (f : (Nat → Nat → K) → Except E (Nat → Nat → K)) (B : Nat → Nat → Nat → K)
    (hf : ∀ e A, e < a.numElements → a.matrix e = some (.ok A) → f A = .ok (B e)) :
    ∃ m m', a.assembleMatrix ord sortNodes = some (.ok m) ∧ (a.transformMatrix f).assembleMatrix ord sortNodes = some (.ok m') ∧
      WellFormed m' ∧ m'.rows.length = a.solutionDim * a.numNodes ∧ m'.ncols = a.solutionDim * a.numNodes ∧
      (∀ r c, Stored m' r c ↔ Stored m r c) ∧
      ∀ r c, entry m' r c = ∑ e ∈ Finset.range a.numElements, matrixContribution a.solutionDim ((a.nodes e).getD []) (B e) r c := by
  have hm : ∀ e, e < a.numElements → (a.transformMatrix f).matrix e = some (.ok (B e)) := by
    intro e he
    obtain ⟨A, hA⟩ := ha.matrix e he
    simp [Assembler.transformMatrix, hA, Except.bind, hf e A he hA]
  obtain ⟨m, h1, -, h3, -, h5, -⟩ := matrix_sum ord hord sortNodes hsort a hdim ha
  obtain ⟨m', g1, g2, g3, g4, g5, g6⟩ := matrix_sum ord hord sortNodes hsort (a.transformMatrix f) hdim
    ⟨ha.nodes, ha.scalar, ha.vector, fun e he => ⟨B e, hm e he⟩⟩
  have hst : ∀ (x : Csr K), x.rows.length = a.solutionDim * a.numNodes → (∀ r row, x.rows[r]? = some row → ∀ j, j ∈ row.1 ↔
        ∃ e, e < a.numElements ∧ r / a.solutionDim ∈ (a.nodes e).getD [] ∧ j / a.solutionDim ∈ (a.nodes e).getD []) →
      ∀ r c, Stored x r c ↔ r < a.solutionDim * a.numNodes ∧
        ∃ e, e < a.numElements ∧ r / a.solutionDim ∈ (a.nodes e).getD [] ∧ c / a.solutionDim ∈ (a.nodes e).getD [] := by
    intro x hx h r c
    constructor
    · rintro ⟨row, hr, hc⟩
      exact ⟨by rw [← hx]; exact (List.getElem?_eq_some_iff.1 hr).1, (h r row hr c).1 hc⟩
    · rintro ⟨hr, hc⟩
      have hr' : r < x.rows.length := by rw [hx]; exact hr
      exact ⟨_, List.getElem?_eq_getElem hr', (h r _ (List.getElem?_eq_getElem hr') c).2 hc⟩
  refine ⟨m, m', h1, g1, g2, g3, g4, fun r c => (hst m' g3 g5 r c).trans (hst m h3 h5 r c).symm, fun r c => ?_⟩
  rw [g6]
  refine Finset.sum_congr rfl fun e he => ?_
  rw [hm e (Finset.mem_range.1 he)]
  rfl

/-- Multiplying all element matrices by a factor multiplies the assembled matrix by it. -/
theorem C100_scaled_matrix [Semiring K] (ord : List Nat → List Nat) (hord : ∀ l, (ord l).Perm l)
    (sortNodes : List (Nat × Nat) → List (Nat × Nat)) (hsort : SortsNodes sortNodes) (a : Assembler E K) (hdim : 0 < a.solutionDim) (ha : Sound a)
    (x : K) :
    ∃ m m', a.assembleMatrix ord sortNodes = some (.ok m) ∧
      (a.transformMatrix fun A => .ok fun i j => x * A i j).assembleMatrix ord sortNodes = some (.ok m') ∧
      ∀ r c, entry m' r c = x * entry m r c := by
  obtain ⟨m, h1, -, -, -, -, h6⟩ := matrix_sum ord hord sortNodes hsort a hdim ha
  obtain ⟨m', m₂, g0, g1, -, -, -, -, g7⟩ := C100_transform_matrix ord hord sortNodes hsort a hdim ha (fun A => .ok fun i j => x * A i j)
    (fun e i j => x * okOr (fun _ _ => 0) (a.matrix e) i j) (fun e A _ hA => by rw [hA]; rfl)
  refine ⟨m, m₂, h1, g1, fun r c => ?_⟩
  rw [g7, h6, Finset.mul_sum]
  refine Finset.sum_congr rfl fun e _ => ?_
  unfold matrixContribution
  simp only [Finset.mul_sum, mul_ite, mul_zero]

/-- Transposing all element matrices transposes the assembled matrix. -/
theorem C100_transposed_matrix [AddCommMonoid K] (ord : List Nat → List Nat) (hord : ∀ l, (ord l).Perm l)
    (sortNodes : List (Nat × Nat) → List (Nat × Nat)) (hsort : SortsNodes sortNodes) (a : Assembler E K) (hdim : 0 < a.solutionDim) (ha : Sound a) :
    ∃ m m', a.assembleMatrix ord sortNodes = some (.ok m) ∧
      (a.transformMatrix fun A => .ok fun i j => A j i).assembleMatrix ord sortNodes = some (.ok m') ∧
      ∀ r c, entry m' r c = entry m c r := by
  obtain ⟨m, h1, -, -, -, -, h6⟩ := matrix_sum ord hord sortNodes hsort a hdim ha
  obtain ⟨m', m₂, g0, g1, -, -, -, -, g7⟩ := C100_transform_matrix ord hord sortNodes hsort a hdim ha (fun A => .ok fun i j => A j i)
    (fun e i j => okOr (fun _ _ => 0) (a.matrix e) j i) (fun e A _ hA => by rw [hA]; rfl)
  refine ⟨m, m₂, h1, g1, fun r c => ?_⟩
  rw [g7, h6]
  refine Finset.sum_congr rfl fun e _ => ?_
  unfold matrixContribution
  generalize (a.nodes e).getD [] = nodes
  have e1 : ∀ f : Fin nodes.length → Fin a.solutionDim → Fin nodes.length → Fin a.solutionDim → K,
      (∑ I, ∑ i, ∑ J, ∑ j, f I i J j) = ∑ J, ∑ j, ∑ I, ∑ i, f I i J j := by
    intro f
    calc (∑ I, ∑ i, ∑ J, ∑ j, f I i J j) = ∑ I, ∑ J, ∑ i, ∑ j, f I i J j := Finset.sum_congr rfl fun I _ => Finset.sum_comm
      _ = ∑ J, ∑ I, ∑ i, ∑ j, f I i J j := Finset.sum_comm
      _ = ∑ J, ∑ I, ∑ j, ∑ i, f I i J j := Finset.sum_congr rfl fun J _ => Finset.sum_congr rfl fun I _ => Finset.sum_comm
      _ = _ := Finset.sum_congr rfl fun J _ => Finset.sum_comm
  rw [e1]
  refine Finset.sum_congr rfl fun J _ => Finset.sum_congr rfl fun j _ => Finset.sum_congr rfl fun I _ => Finset.sum_congr rfl fun i _ => ?_
  exact if_congr and_comm rfl rfl

/-- If the transformed element matrices are positive semi-definite, for example because the transformation projects them, then so is the assembled
matrix. -/
theorem C100_semidefinite_matrix [Field K] [LinearOrder K] [IsStrictOrderedRing K] (ord : List Nat → List Nat) (hord : ∀ l, (ord l).Perm l)
    (sortNodes : List (Nat × Nat) → List (Nat × Nat)) (hsort : SortsNodes sortNodes) (a : Assembler E K) (hdim : 0 < a.solutionDim) (ha : Sound a)
    (f : (Nat → Nat → K) → Except E (Nat → Nat → K))
    (hf : ∀ e A l, e < a.numElements → a.matrix e = some (.ok A) → a.nodes e = some l → ∃ B, f A = .ok B ∧
      ∀ x : Nat → K, 0 ≤ ∑ i ∈ Finset.range (a.solutionDim * l.length), ∑ j ∈ Finset.range (a.solutionDim * l.length), x i * B i j * x j) :
    ∃ m, (a.transformMatrix f).assembleMatrix ord sortNodes = some (.ok m) ∧
      ∀ x : Nat → K, 0 ≤ ∑ r ∈ Finset.range (a.solutionDim * a.numNodes), ∑ c ∈ Finset.range (a.solutionDim * a.numNodes),
        x r * entry m r c * x c := by
  have hex : ∀ e, ∃ B, ∀ A l, e < a.numElements → a.matrix e = some (.ok A) → a.nodes e = some l → f A = .ok B ∧
      ∀ x : Nat → K, 0 ≤ ∑ i ∈ Finset.range (a.solutionDim * l.length), ∑ j ∈ Finset.range (a.solutionDim * l.length), x i * B i j * x j := by
    intro e
    by_cases he : e < a.numElements
    · obtain ⟨A, hA⟩ := ha.matrix e he
      obtain ⟨l, hl, -⟩ := ha.nodes e he
      obtain ⟨B, hB⟩ := hf e A l he hA hl
      refine ⟨B, fun A' l' _ hA' hl' => ?_⟩
      rw [hA] at hA'; rw [hl] at hl'
      cases hA'; cases hl'
      exact hB
    · exact ⟨fun _ _ => 0, fun _ _ h => absurd h he⟩
  choose B hB using hex
  obtain ⟨m, m', -, g1, -, -, -, -, g7⟩ := C100_transform_matrix ord hord sortNodes hsort a hdim ha f B (by
    intro e A he hA
    obtain ⟨l, hl, -⟩ := ha.nodes e he
    exact (hB e A l he hA hl).1)
  refine ⟨m', g1, fun x => ?_⟩
  have hsum : ∑ r ∈ Finset.range (a.solutionDim * a.numNodes), ∑ c ∈ Finset.range (a.solutionDim * a.numNodes), x r * entry m' r c * x c =
      ∑ e ∈ Finset.range a.numElements, ∑ r ∈ Finset.range (a.solutionDim * a.numNodes), ∑ c ∈ Finset.range (a.solutionDim * a.numNodes),
        x r * matrixContribution a.solutionDim ((a.nodes e).getD []) (B e) r c * x c := by
    simp only [g7, Finset.mul_sum, Finset.sum_mul]
    rw [Finset.sum_comm' (s := Finset.range a.numElements) (t := fun _ => Finset.range (a.solutionDim * a.numNodes))
      (t' := Finset.range (a.solutionDim * a.numNodes)) (s' := fun _ => Finset.range a.numElements) (by simp)]
    exact Finset.sum_congr rfl fun r _ => Finset.sum_comm
  rw [hsum]
  refine Finset.sum_nonneg fun e he => ?_
  have he := Finset.mem_range.1 he
  obtain ⟨A, hA⟩ := ha.matrix e he
  obtain ⟨l, hl, -, hbd⟩ := ha.nodes e he
  have hpos := (hB e A l he hA hl).2
  rw [hl, Option.getD_some, LinearProblem.contribution_form l hbd (B e) x x]
  -- the values of the element
  have hdiv : ∀ (I : Fin l.length) (i : Fin a.solutionDim), x (a.solutionDim * l[I] + i) =
      (fun t => x (a.solutionDim * (l.getD (t / a.solutionDim) 0) + t % a.solutionDim)) (a.solutionDim * I + i) := by
    intro I i
    simp [Nat.mul_add_div hdim, Nat.div_eq_of_lt i.2, Nat.mod_eq_of_lt i.2, List.getD, I.2]
  have hsplit : ∀ F : Nat → K, ∑ t ∈ Finset.range (a.solutionDim * l.length), F t =
      ∑ I : Fin l.length, ∑ i : Fin a.solutionDim, F (a.solutionDim * I + i) := by
    intro F
    rw [Nat.mul_comm, Finset.sum_range, ← Fintype.sum_prod_type' (f := fun (I : Fin l.length) (i : Fin a.solutionDim) => F (a.solutionDim * I + i)),
      ← finProdFinEquiv.sum_comp]
    refine Fintype.sum_congr _ _ fun p => ?_
    congr 1
    simp [finProdFinEquiv, Nat.add_comm]
  have := hpos (fun t => x (a.solutionDim * (l.getD (t / a.solutionDim) 0) + t % a.solutionDim))
  rw [hsplit] at this
  refine this.trans_eq ?_
  refine Finset.sum_congr rfl fun I _ => Finset.sum_congr rfl fun i _ => ?_
  rw [hsplit]
  refine Finset.sum_congr rfl fun J _ => Finset.sum_congr rfl fun j _ => ?_
  rw [hdiv I i, hdiv J j]

/-- If an element fails, or the transformation of its matrix, vector or scalar, then that error is returned if no element before it failed. -/
theorem C100_transform_first_error [AddCommMonoid K] (ord : List Nat → List Nat) (hord : ∀ l, (ord l).Perm l)
    (sortNodes : List (Nat × Nat) → List (Nat × Nat)) (hsort : SortsNodes sortNodes) (a : Assembler E K) (hdim : 0 < a.solutionDim)
    (ha : ∀ e, e < a.numElements → ∃ l, a.nodes e = some l ∧ l.Nodup ∧ ∀ n ∈ l, n < a.numNodes) (k : Nat) (hk : k < a.numElements) (err : E) :
    (∀ f : (Nat → Nat → K) → Except E (Nat → Nat → K), (∀ e, e < k → ∃ A B, a.matrix e = some (.ok A) ∧ f A = .ok B) →
      (a.matrix k = some (.error err) ∨ ∃ A, a.matrix k = some (.ok A) ∧ f A = .error err) →
      (a.transformMatrix f).assembleMatrix ord sortNodes = some (.error (some err))) ∧
    (∀ f : (Nat → K) → Except E (Nat → K), (∀ e, e < k → ∃ A B, a.vector e = some (.ok A) ∧ f A = .ok B) →
      (a.vector k = some (.error err) ∨ ∃ A, a.vector k = some (.ok A) ∧ f A = .error err) →
      (a.transformVector f).assembleVector = some (.error (some err))) ∧
    ∀ f : K → Except E K, (∀ e, e < k → ∃ A B, a.scalar e = some (.ok A) ∧ f A = .ok B) →
      (a.scalar k = some (.error err) ∨ ∃ A, a.scalar k = some (.ok A) ∧ f A = .error err) →
      (a.transformScalar f).assembleScalar = .error (some err) := by
  have hok : ∀ {α : Type} (d : α) (o : Option (Except E α)) (f : α → Except E α), (∃ A B, o = some (.ok A) ∧ f A = .ok B) →
      answer (o.map fun r => r.bind f) = .ok (okOr d (o.map fun r => r.bind f)) := by
    rintro α d o f ⟨A, B, rfl, hB⟩
    simp [Except.bind, hB, answer, okOr]
  have herr : ∀ {α : Type} (o : Option (Except E α)) (f : α → Except E α),
      (o = some (.error err) ∨ ∃ A, o = some (.ok A) ∧ f A = .error err) → answer (o.map fun r => r.bind f) = .error (some err) := by
    rintro α o f (rfl | ⟨A, rfl, hA⟩)
    · rfl
    · simp [Except.bind, hA, answer]
  obtain ⟨h1, h2⟩ := inBounds a ha
  refine ⟨fun f hlt he => ?_, fun f hlt he => ?_, fun f hlt he => ?_⟩
  · obtain ⟨m, p1, p2, p3, -, p5, -, -⟩ := pattern_zeros (K := K) ord hord _ h1
    obtain ⟨m', q1, -⟩ := C21_first_error_is_returned sortNodes hsort _ hdim h1 h2 m p2 p3 p5
      (fun e => answer ((a.transformMatrix f).matrix e)) (fun e => okOr (fun _ _ => 0) ((a.transformMatrix f).matrix e)) k
      (by simpa using hk) (fun e hek => hok _ _ f (hlt e hek)) (some err) (herr _ f he)
    unfold Assembler.assembleMatrix
    rw [conn_eq (a.transformMatrix f) ha, Option.bind_some]
    unfold assemble
    have p1' : (assemblePattern ord ⟨(a.transformMatrix f).solutionDim, (a.transformMatrix f).numNodes,
      (List.range (a.transformMatrix f).numElements).map fun e => ((a.transformMatrix f).nodes e).getD []⟩).bind Csr.zeros = some m := p1
    rw [p1']
    have q1' : assembleInto sortNodes ⟨(a.transformMatrix f).solutionDim, (a.transformMatrix f).numNodes,
      (List.range (a.transformMatrix f).numElements).map fun e => ((a.transformMatrix f).nodes e).getD []⟩
      (fun e => answer ((a.transformMatrix f).matrix e)) m = some (m', .error (some err)) := q1
    simp only [q1']
    rfl
  · unfold Assembler.assembleVector
    rw [conn_eq (a.transformVector f) ha, Option.bind_some]
    exact C23_first_error_is_returned _ h1 (fun e => answer ((a.transformVector f).vector e))
      (fun e => okOr (fun _ => 0) ((a.transformVector f).vector e)) k (by simpa using hk) (fun e hek => hok _ _ f (hlt e hek)) (some err)
      (herr _ f he)
  · unfold Assembler.assembleScalar
    refine C24_scalar_first_error _ _ k hk (some err) (herr _ f he) ?_
    intro e hek
    obtain ⟨x, B, hx, hB⟩ := hlt e hek
    exact ⟨B, by simp [Assembler.transformScalar, hx, Except.bind, hB, answer]⟩

/-! ## Non-vacuity: a body with two bars and a body with one, one of the bars is stretched -/

private def bars (stiffness : Int) (elements : List (List Nat)) (N : Nat) : Assembler String Int where
  solutionDim := 1
  numNodes := N
  numElements := elements.length
  nodes e := elements[e]?
  scalar e := some (.ok (10 * e))
  vector e := some (.ok fun i => if i = 0 then stiffness else e)
  matrix _ := some (.ok fun i j => if i = j then stiffness else -stiffness)

private def sortStable : List (Nat × Nat) → List (Nat × Nat) := stableSort (fun p q => decide (p.1 ≤ q.1))

private def twoBodies : List (Assembler String Int) := [bars 1 [[0, 1], [1, 2]] 3, bars 5 [[1, 0]] 2]

example : (∀ b ∈ twoBodies, Sound b ∧ b.solutionDim = 1 ∧ b.numElements ≠ 0) ∧ BinarySearch searchFirst ∧
    ((aggregate searchFirst (stacked twoBodies)).bind fun a => (a.assembleMatrix id sortStable).map fun r => r.toOption.map fun m =>
      (List.range 5).map fun r => (List.range 5).map fun c => entry m r c) =
      some (some [[1, -1, 0, 0, 0], [-1, 2, -1, 0, 0], [0, -1, 1, 0, 0], [0, 0, 0, 5, -5], [0, 0, 0, -5, 5]]) ∧
    ((aggregate searchFirst (stacked twoBodies)).bind fun a => a.assembleVector.map Except.toOption) = some (some [1, 1, 1, 0, 5]) ∧
    ((aggregate searchFirst (stacked twoBodies)).map fun a => a.assembleScalar.toOption) = some (some 10) := by
  refine ⟨?_, searchFirst_spec, by decide +kernel, by decide +kernel, by decide +kernel⟩
  intro b hb
  simp only [twoBodies, List.mem_cons, List.not_mem_nil, or_false] at hb
  rcases hb with rfl | rfl
  · refine ⟨⟨?_, fun e _ => ⟨_, rfl⟩, fun e _ => ⟨_, rfl⟩, fun e _ => ⟨_, rfl⟩⟩, rfl, by decide⟩
    intro e he
    have he : e < 2 := he
    rcases e with - | - | e
    · exact ⟨[0, 1], rfl, by decide, by decide⟩
    · exact ⟨[1, 2], rfl, by decide, by decide⟩
    · omega
  · refine ⟨⟨?_, fun e _ => ⟨_, rfl⟩, fun e _ => ⟨_, rfl⟩, fun e _ => ⟨_, rfl⟩⟩, rfl, by decide⟩
    intro e he
    have he : e < 1 := he
    rcases e with - | e
    · exact ⟨[1, 0], rfl, by decide, by decide⟩
    · omega

/-- A transformation that fails for the second element. -/
example : (((bars 1 [[0, 1], [1, 2]] 3).transformScalar fun x => if x = 10 then .error "ten" else .ok (3 * x)).assembleScalar) =
    .error (some "ten") := by decide +kernel

end Fenris.Combinators
