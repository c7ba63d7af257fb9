import Verif.Lemmas.Assembly
import Verif.Props.Pattern
import Verif.Props.Paradis
import Verif.Lemmas.Permutation
/-! # C21-C24: global assembly of matrices, vectors and scalars -/
set_option autoImplicit false
set_option linter.unusedSectionVars false

namespace Fenris
open Assembly Spec

variable {K : Type} [AddCommMonoid K] {E : Type}

/-! ## C21 -/

/-- The loop over a prefix of elements that succeed. -/
private theorem assembleInto_prefix (sortNodes : List (Nat × Nat) → List (Nat × Nat))
    (hsort : SortsNodes sortNodes) (c : Conn) (hdim : 0 < c.solutionDim) (hc : NodesInBounds c)
    (hnd : ∀ e ∈ c.elements, e.Nodup) (m : Csr K) (hm : WellFormed m)
    (hrows : m.rows.length = c.solutionDim * c.numNodes) (hcov : Covers m c)
    (elemMat : Nat → Except E (Nat → Nat → K)) (A : Nat → Nat → Nat → K) (k : Nat)
    (hk : k ≤ c.elements.length) (hA : ∀ e, e < k → elemMat e = .ok (A e)) :
    ∃ m', WellFormed m' ∧ SamePattern m m' ∧
      (∀ r col, entry m' r col = entry m r col +
        ∑ e : Fin k, matrixContribution c.solutionDim (c.elements[e.1]?.getD []) (A e) r col) ∧
      elementsLoop c.solutionDim elemMat (fun A nodes => matrixUpd c.solutionDim sortNodes nodes A)
        c.elements 0 m.rows =
      elementsLoop c.solutionDim elemMat (fun A nodes => matrixUpd c.solutionDim sortNodes nodes A)
        (c.elements.drop k) k m'.rows ∧
      m'.rows.length = m.rows.length ∧ m'.ncols = m.ncols := by
  obtain ⟨rows', h1, h2, h3⟩ := elementsLoop_ok rowEntry (RowGood (m.rows.map Prod.fst))
    c.solutionDim c.numNodes elemMat (fun A nodes => matrixUpd c.solutionDim sortNodes nodes A) A
    (fun A nodes a i col => rowDelta c.solutionDim nodes (A (c.solutionDim * a + i)) col)
    (c.elements.drop k) (c.elements.take k) 0 m.rows
    (by
      intro j nodes hj
      rw [Nat.zero_add]
      apply hA
      by_contra hcon
      rw [List.getElem?_eq_none (by simp; omega)] at hj; cases hj)
    (by
      intro j nodes hj
      have hmem : nodes ∈ c.elements := List.mem_of_mem_take (List.mem_of_getElem? hj)
      exact matrixUpd_ok c.solutionDim hdim sortNodes hsort _ (lanes_of_wf m hm) nodes
        (hnd _ hmem) (cover_lanes m c hcov nodes hmem) _)
    (fun nodes hn => hc nodes (List.mem_of_mem_take hn)) ⟨hrows, allGood_of_wf m hm⟩
  refine ⟨⟨m.ncols, rows'⟩, wf_of_good m hm rows' h2.2,
    samePattern_of_good m rows' (by rw [h2.1, hrows]) h2.2, ?_, ?_, by rw [h2.1, hrows], rfl⟩
  · intro r col
    have := h3 (r, col)
    rw [obsAt_entry] at this
    rw [← obsAt_entry ⟨m.ncols, rows'⟩, this]
    congr 1
    rw [List.length_take, Nat.min_eq_left hk, Finset.sum_range]
    apply Finset.sum_congr rfl
    intro e _
    rw [elemSum_matrix, Nat.zero_add, List.getElem?_take, if_pos e.2]
  · rw [List.take_append_drop] at h1
    rw [h1, List.length_take, Nat.min_eq_left hk, Nat.zero_add]

/-- C21.  Assembly into an existing matrix: if the matrix has the rows and stored positions that are
needed (more are allowed), and every element matrix is produced, then the assembler succeeds, keeps the
stored positions, and adds to *every* entry `(r, col)` the sum over all elements and local degrees of
freedom mapped to `(r, col)` of the element matrix entry; all other entries are unchanged. -/
theorem C21_assemble_into_adds_contributions (sortNodes : List (Nat × Nat) → List (Nat × Nat))
    (hsort : SortsNodes sortNodes) (c : Conn) (hdim : 0 < c.solutionDim) (hc : NodesInBounds c)
    (hnd : ∀ e ∈ c.elements, e.Nodup) (m : Csr K) (hm : WellFormed m)
    (hrows : m.rows.length = c.solutionDim * c.numNodes) (hcov : Covers m c)
    (elemMat : Nat → Except E (Nat → Nat → K)) (A : Nat → Nat → Nat → K)
    (hA : ∀ e, e < c.elements.length → elemMat e = .ok (A e)) :
    ∃ m', assembleInto sortNodes c elemMat m = some (m', .ok ()) ∧
      WellFormed m' ∧ SamePattern m m' ∧
      ∀ r col, entry m' r col = entry m r col +
        ∑ e : Fin c.elements.length, matrixContribution c.solutionDim c.elements[e] (A e) r col := by
  obtain ⟨m', h1, h2, h3, h4, h5, h6⟩ := assembleInto_prefix sortNodes hsort c hdim hc hnd m hm hrows
    hcov elemMat A _ (Nat.le_refl _) hA
  refine ⟨m', ?_, h1, h2, ?_⟩
  · unfold assembleInto
    rw [h4, List.drop_length, elementsLoop, ← h6]
    rfl
  · intro r col
    rw [h3]
    simp

/-- C21, failure: the error of the first failing element is returned; the matrix then holds the
contributions of the elements before it. -/
theorem C21_first_error_is_returned (sortNodes : List (Nat × Nat) → List (Nat × Nat))
    (hsort : SortsNodes sortNodes) (c : Conn) (hdim : 0 < c.solutionDim) (hc : NodesInBounds c)
    (hnd : ∀ e ∈ c.elements, e.Nodup) (m : Csr K) (hm : WellFormed m)
    (hrows : m.rows.length = c.solutionDim * c.numNodes) (hcov : Covers m c)
    (elemMat : Nat → Except E (Nat → Nat → K)) (A : Nat → Nat → Nat → K) (k : Nat)
    (hk : k < c.elements.length) (hA : ∀ e, e < k → elemMat e = .ok (A e)) (err : E)
    (herr : elemMat k = .error err) :
    ∃ m', assembleInto sortNodes c elemMat m = some (m', .error err) ∧
      WellFormed m' ∧ SamePattern m m' ∧
      ∀ r col, entry m' r col = entry m r col +
        ∑ e : Fin k, matrixContribution c.solutionDim (c.elements[e.1]?.getD []) (A e) r col := by
  obtain ⟨m', h1, h2, h3, h4, h5, h6⟩ := assembleInto_prefix sortNodes hsort c hdim hc hnd m hm hrows
    hcov elemMat A k (Nat.le_of_lt hk) hA
  refine ⟨m', ?_, h1, h2, h3⟩
  unfold assembleInto
  rw [h4, List.drop_eq_getElem_cons hk, elementsLoop, herr, ← h6]
  rfl

/-- The zero matrix on the assembled pattern satisfies the requirements. -/
theorem pattern_zeros (ord : List Nat → List Nat) (hord : ∀ l, (ord l).Perm l) (c : Conn)
    (hc : NodesInBounds c) :
    ∃ m : Csr K, (assemblePattern ord c).bind Csr.zeros = some m ∧ WellFormed m ∧
      m.rows.length = c.solutionDim * c.numNodes ∧ m.ncols = c.solutionDim * c.numNodes ∧
      Covers m c ∧ (∀ r col, entry m r col = 0) ∧
      ∀ r row, m.rows[r]? = some row → ∀ j, j ∈ row.1 ↔
        ∃ e ∈ c.elements, r / c.solutionDim ∈ e ∧ j / c.solutionDim ∈ e := by
  obtain ⟨p, h1, h2, h3, h4, h5⟩ := C20_pattern_is_exact ord hord c hc
  obtain ⟨m, g1, g2, g3, g4, g5, g6⟩ := zeros_spec (K := K) p h2
  have hlane : ∀ r row, m.rows[r]? = some row → ∀ j, j ∈ row.1 ↔
        ∃ e ∈ c.elements, r / c.solutionDim ∈ e ∧ j / c.solutionDim ∈ e := by
    intro r row hr j
    have hlt : r < p.nrows := by
      rw [← g3]; by_contra hcon; rw [List.getElem?_eq_none (by omega)] at hr; cases hr
    obtain ⟨lane, e1, e2⟩ := g5 r hlt
    obtain ⟨lane', e3, e4⟩ := h5 r hlt
    rw [e1] at e3; cases e3
    rw [hr] at e2
    have : row.1 = lane := by simpa using e2
    rw [this]; exact e4 j
  refine ⟨m, by rw [h1]; exact g1, g2, by rw [g3, h3], by rw [g4, h4], ?_, g6, hlane⟩
  intro e he n hn n' hn' i j hi hj row hr
  rw [hlane _ row hr]
  refine ⟨e, he, ?_, ?_⟩
  · rwa [Nat.mul_add_div (by omega), Nat.div_eq_of_lt hi, Nat.add_zero]
  · rwa [Nat.mul_add_div (by omega), Nat.div_eq_of_lt hj, Nat.add_zero]

/-- C21.  `assemble`: the result is a matrix of the right size whose entry `(r, col)` is exactly the
sum of the element contributions, and which stores exactly the positions coupled by an element. -/
theorem C21_assemble_is_sum_of_contributions (ord : List Nat → List Nat)
    (hord : ∀ l, (ord l).Perm l) (sortNodes : List (Nat × Nat) → List (Nat × Nat))
    (hsort : SortsNodes sortNodes) (c : Conn) (hdim : 0 < c.solutionDim) (hc : NodesInBounds c)
    (hnd : ∀ e ∈ c.elements, e.Nodup)
    (elemMat : Nat → Except E (Nat → Nat → K)) (A : Nat → Nat → Nat → K)
    (hA : ∀ e, e < c.elements.length → elemMat e = .ok (A e)) :
    ∃ m', assemble ord sortNodes c elemMat = some (.ok m') ∧ WellFormed m' ∧
      m'.rows.length = c.solutionDim * c.numNodes ∧ m'.ncols = c.solutionDim * c.numNodes ∧
      (∀ r row, m'.rows[r]? = some row → ∀ j, j ∈ row.1 ↔
        ∃ e ∈ c.elements, r / c.solutionDim ∈ e ∧ j / c.solutionDim ∈ e) ∧
      ∀ r col, entry m' r col =
        ∑ e : Fin c.elements.length, matrixContribution c.solutionDim c.elements[e] (A e) r col := by
  obtain ⟨m, h1, h2, h3, h4, h5, h6, h7⟩ := pattern_zeros (K := K) ord hord c hc
  obtain ⟨m', e1, e2, e3, e4⟩ := C21_assemble_into_adds_contributions sortNodes hsort c hdim hc hnd m
    h2 h3 h5 elemMat A hA
  have hlen := congrArg List.length e3.2
  simp only [List.length_map] at hlen
  refine ⟨m', ?_, e2, by rw [← hlen, h3], by rw [← e3.1, h4], ?_, ?_⟩
  · unfold assemble
    rw [h1]
    simp only [e1, Option.map_some]
    rfl
  · intro r row hr
    have := congrArg (fun l => l[r]?) e3.2
    simp only [List.getElem?_map, hr, Option.map_some] at this
    cases hm : m.rows[r]? with
    | none => rw [hm] at this; cases this
    | some row0 =>
      rw [hm] at this
      have hf : row0.1 = row.1 := by simpa using this
      rw [← hf]
      exact h7 r row0 hm
  · intro r col
    rw [e4, h6, zero_add]

/-- C21, what the code does not support: an element that lists a node twice makes the assembler panic
(although the pattern for it can be assembled): the search for the second occurrence of the column does
not start over. -/
theorem C21_repeated_node_panics (A : Nat → Nat → Int) :
    (assemblePattern id ⟨1, 1, [[0, 0]]⟩).isSome = true ∧
    assemble id (fun l => l) ⟨1, 1, [[0, 0]]⟩ (fun _ => (.ok A : Except Unit _)) = none := by
  constructor
  · decide
  · rfl

/-! ## C23 -/

/-- C23.  Assembly of a vector into existing storage adds to every entry the sum of the element vector
entries mapped to it. -/
theorem C23_assemble_vector_into_adds_contributions (c : Conn) (hc : NodesInBounds c)
    (out : List K) (hout : out.length = c.solutionDim * c.numNodes)
    (elemVec : Nat → Except E (Nat → K)) (v : Nat → Nat → K)
    (hv : ∀ e, e < c.elements.length → elemVec e = .ok (v e)) :
    ∃ out', assembleVectorInto c elemVec out = some (out', .ok ()) ∧ out'.length = out.length ∧
      ∀ r x, out[r]? = some x → out'[r]? = some (x +
        ∑ e : Fin c.elements.length, vectorContribution c.solutionDim c.elements[e] (v e) r) := by
  obtain ⟨out', h1, h2, h3⟩ := elementsLoop_ok (fun (x : K) (_ : Unit) => x) (fun _ _ => True)
    c.solutionDim c.numNodes elemVec (fun v _ => vectorUpd c.solutionDim v) v
    (fun v _ a i _ => v (c.solutionDim * a + i)) [] c.elements 0 out
    (by
      intro j nodes hj
      rw [Nat.zero_add]
      apply hv
      by_contra hcon
      rw [List.getElem?_eq_none (by omega)] at hj; cases hj)
    (fun j nodes _ => vectorUpd_ok c.solutionDim nodes _) hc ⟨hout, fun _ _ _ => trivial⟩
  refine ⟨out', ?_, by rw [h2.1, hout], ?_⟩
  · unfold assembleVectorInto
    rw [if_pos hout]
    rw [List.append_nil] at h1
    rw [h1, elementsLoop]
  · intro r x hx
    have hlt : r < out'.length := by
      rw [h2.1, ← hout]; by_contra hcon; rw [List.getElem?_eq_none (by omega)] at hx; cases hx
    have := h3 (r, ())
    simp only [obsAt, hx, List.getElem?_eq_getElem hlt] at this
    rw [List.getElem?_eq_getElem hlt, this, Finset.sum_range]
    congr 2
    apply Finset.sum_congr rfl
    intro e _
    rw [elemSum_vector]
    simp

/-- C23.  `assemble_vector` returns the vector of the sums. -/
theorem C23_assemble_vector_is_sum_of_contributions (c : Conn) (hc : NodesInBounds c)
    (elemVec : Nat → Except E (Nat → K)) (v : Nat → Nat → K)
    (hv : ∀ e, e < c.elements.length → elemVec e = .ok (v e)) :
    assembleVector c elemVec = some (.ok ((List.range (c.solutionDim * c.numNodes)).map (fun r =>
      ∑ e : Fin c.elements.length, vectorContribution c.solutionDim c.elements[e] (v e) r))) := by
  obtain ⟨out', h1, h2, h3⟩ := C23_assemble_vector_into_adds_contributions c hc
    (List.replicate (c.solutionDim * c.numNodes) 0) (by simp) elemVec v hv
  unfold assembleVector
  rw [h1]
  simp only [Option.map_some, Except.map]
  congr 2
  apply List.ext_getElem?
  intro r
  by_cases hr : r < c.solutionDim * c.numNodes
  · rw [h3 r 0 (by simp [hr]), zero_add, List.getElem?_map, List.getElem?_range hr]
    rfl
  · rw [List.getElem?_eq_none, List.getElem?_eq_none]
    · simpa using hr
    · rw [h2]; simpa using hr

/-- C23, failure: the first failing element's error is returned. -/
theorem C23_first_error_is_returned (c : Conn) (hc : NodesInBounds c)
    (elemVec : Nat → Except E (Nat → K)) (v : Nat → Nat → K) (k : Nat) (hk : k < c.elements.length)
    (hv : ∀ e, e < k → elemVec e = .ok (v e)) (err : E) (herr : elemVec k = .error err) :
    assembleVector c elemVec = some (.error err) := by
  obtain ⟨out', h1, h2, h3⟩ := elementsLoop_ok (fun (x : K) (_ : Unit) => x) (fun _ _ => True)
    c.solutionDim c.numNodes elemVec (fun v _ => vectorUpd c.solutionDim v) v
    (fun v _ a i _ => v (c.solutionDim * a + i)) (c.elements.drop k) (c.elements.take k) 0
    (List.replicate (c.solutionDim * c.numNodes) 0)
    (by
      intro j nodes hj
      rw [Nat.zero_add]
      apply hv
      by_contra hcon
      rw [List.getElem?_eq_none (by simp; omega)] at hj; cases hj)
    (fun j nodes _ => vectorUpd_ok c.solutionDim nodes _)
    (fun nodes hn => hc nodes (List.mem_of_mem_take hn)) ⟨by simp, fun _ _ _ => trivial⟩
  unfold assembleVector assembleVectorInto
  rw [if_pos (by simp)]
  rw [List.take_append_drop] at h1
  rw [h1, List.length_take, Nat.min_eq_left (Nat.le_of_lt hk), Nat.zero_add,
    List.drop_eq_getElem_cons hk, elementsLoop, herr]
  rfl

/-- C23.  Gathering reads exactly the entries of the element's nodes: entry `s * a + i` of the local
vector is entry `s * node a + i` of the global one. -/
theorem C23_gather_reads_element_entries {α : Type} (s : Nat) (global : List α) (nodes : List Nat)
    (N : Nat) (hlen : global.length = s * N) (hn : ∀ n ∈ nodes, n < N) :
    ∃ loc, gather s global nodes = some loc ∧ loc.length = s * nodes.length ∧
      ∀ (a i n : Nat), nodes[a]? = some n → i < s → loc[s * a + i]? = global[s * n + i]? := by
  have hb : ∀ n ∈ nodes, (List.range s).mapM (fun i => global[s * n + i]?) =
      some ((global.drop (s * n)).take s) := by
    intro n h
    have hle : s * n + s ≤ global.length := by
      rw [hlen, ← Nat.mul_succ]; exact Nat.mul_le_mul (Nat.le_refl _) (hn n h)
    have key : ∀ t, t ≤ s → (List.range t).mapM (fun i => global[s * n + i]?) =
        some ((global.drop (s * n)).take t) := by
      intro t
      induction t with
      | zero => intro _; simp
      | succ t ih =>
        intro ht
        rw [List.range_succ, List.mapM_append, ih (by omega)]
        have hg : s * n + t < global.length := by omega
        simp [List.getElem?_eq_getElem hg]
        rw [List.take_add_one, List.getElem?_drop, List.getElem?_eq_getElem hg]
        rfl
    exact key s (Nat.le_refl _)
  have hm : nodes.mapM (fun n => (List.range s).mapM (fun i => global[s * n + i]?)) =
      some (nodes.map (fun n => (global.drop (s * n)).take s)) := by
    clear hn
    induction nodes with
    | nil => rfl
    | cons n nodes ih =>
      rw [List.mapM_cons, hb n (by simp), ih (fun n hn => hb n (by simp [hn]))]
      rfl
  have huni : ∀ b ∈ nodes.map (fun n => (global.drop (s * n)).take s), b.length = s := by
    intro b hbm
    obtain ⟨n, h, rfl⟩ := List.mem_map.1 hbm
    have hle : s * n + s ≤ global.length := by
      rw [hlen, ← Nat.mul_succ]; exact Nat.mul_le_mul (Nat.le_refl _) (hn n h)
    simp; omega
  refine ⟨_, by unfold gather; rw [hm]; rfl, ?_, ?_⟩
  · rw [flatten_length_uniform s _ huni, List.length_map]
  · intro a i n ha hi
    rw [flatten_get_uniform s _ huni a i hi, List.getElem?_map, ha]
    simp only [Option.map_some, Option.bind_some]
    rw [List.getElem?_take, if_pos hi, List.getElem?_drop]

/-! ## C22 -/

/-- The colours computed by `color_nodes` satisfy what the parallel loops need. -/
private theorem colors_ok (c : Conn) (hc : NodesInBounds c) (hlen : c.elements.length ≤ 2147483647)
    (debug : Bool) (hdebug : debug = true → ∀ e ∈ c.elements, e ≠ [])
    (ds : List DisjointSubsets) (hds : colorNodes c = .ok ds) :
    (ds.flatMap (·.labels)).Perm (List.range c.elements.length) ∧
    ∀ d ∈ ds, ColorOf c.elements d ∧ d.parIterAllowed debug c.numNodes = true := by
  obtain ⟨ds', h1, h2⟩ := coloring_spec c.elements hlen
  unfold colorNodes at hds
  rw [hds] at h1; cases h1
  refine ⟨h2.perm, ?_⟩
  intro d hd
  have hcol : ColorOf c.elements d := h2.content d hd
  refine ⟨hcol, ?_⟩
  have hmem : ∀ t ∈ d.subsets, t ∈ c.elements := by
    intro t ht
    obtain ⟨k, hk, rfl⟩ := List.getElem_of_mem ht
    obtain ⟨l, -, h⟩ := hcol.get k hk
    exact List.mem_of_getElem? h
  have hmx := h2.mx d hd
  unfold DisjointSubsets.parIterAllowed
  cases hm : d.maxIndex with
  | none =>
    rw [hm] at hmx
    cases debug with
    | false => simp
    | true =>
      have : d.subsets = [] := by
        apply List.eq_nil_iff_forall_not_mem.2
        intro t ht
        exact hdebug rfl t (hmem t ht) (hmx t ht)
      simp [this]
  | some k =>
    rw [hm] at hmx
    obtain ⟨⟨t, ht, hkt⟩, -⟩ := hmx
    have hne : d.subsets.length ≠ 0 := by
      intro h; rw [List.length_eq_zero_iff] at h; rw [h] at ht; cases ht
    have := hc t (hmem t ht) k hkt
    cases debug <;> simp [this, hne]

private theorem par_perm (c : Conn) (ds : List DisjointSubsets)
    (colors : List (DisjointSubsets × List Nat)) (hcolors : colors.map Prod.fst = ds)
    (hperm : (ds.flatMap (·.labels)).Perm (List.range c.elements.length)) (f : Nat → K) :
    ((colors.flatMap (fun c => c.1.labels)).map f).sum = ∑ e : Fin c.elements.length, f e := by
  have hlab : colors.flatMap (fun c => c.1.labels) = ds.flatMap (·.labels) := by
    rw [← hcolors, List.flatMap_map]
  rw [hlab, (hperm.map f).sum_eq, sum_map_range, Finset.sum_range]

private theorem matrix_colors (sortNodes : List (Nat × Nat) → List (Nat × Nat))
    (hsort : SortsNodes sortNodes) (debug : Bool) (pick : Nat)
    (c : Conn) (hdim : 0 < c.solutionDim)
    (hc : NodesInBounds c) (hnd : ∀ e ∈ c.elements, e.Nodup)
    (hdebug : debug = true → ∀ e ∈ c.elements, e ≠ [])
    (hlen : c.elements.length ≤ 2147483647) (ds : List DisjointSubsets)
    (hds : colorNodes c = .ok ds) (colors : List (DisjointSubsets × List Nat))
    (hcolors : colors.map Prod.fst = ds) (hsched : CompleteSchedules colors)
    (m : Csr K) (hm : WellFormed m) (hrows : m.rows.length = c.solutionDim * c.numNodes)
    (hcov : Covers m c) (elemMat : Nat → Except E (Nat → Nat → K)) :
    ((∀ x ∈ colors, ∀ l ∈ x.1.labels, ∃ v, elemMat l = .ok v) ∧
      ∃ rows', colorsLoop debug c.solutionDim c.elements elemMat
        (fun A nodes => matrixUpd c.solutionDim sortNodes nodes A) (fun _ _ => 0) pick colors m.rows =
          some (.ok rows') ∧
      (rows'.length = c.solutionDim * c.numNodes ∧
        AllGood (RowGood (m.rows.map Prod.fst)) rows') ∧
      ∀ x, obsAt rowEntry rows' x = obsAt rowEntry m.rows x +
        ((colors.flatMap (fun c => c.1.labels)).map (fun l =>
          elemSum c.solutionDim (c.elements[l]?.getD [])
          (fun a i col => rowDelta c.solutionDim (c.elements[l]?.getD [])
            (okOr (fun _ _ => 0) (elemMat l) (c.solutionDim * a + i)) col) x)).sum) ∨
    (∃ x ∈ colors, ∃ l ∈ x.1.labels, ∃ e, elemMat l = .error e ∧
      colorsLoop debug c.solutionDim c.elements elemMat
        (fun A nodes => matrixUpd c.solutionDim sortNodes nodes A) (fun _ _ => 0) pick colors m.rows =
          some (.error e)) :=
  colorsLoop_ok rowEntry (RowGood (m.rows.map Prod.fst)) debug c.solutionDim hdim c.numNodes
    c.elements elemMat
    (fun A nodes => matrixUpd c.solutionDim sortNodes nodes A) (fun _ _ => 0) pick
    (fun l => okOr (fun _ _ => 0) (elemMat l))
    (fun A nodes a i col => rowDelta c.solutionDim nodes (A (c.solutionDim * a + i)) col)
    (by
      intro l nodes hl _
      have hmem := List.mem_of_getElem? hl
      exact matrixUpd_ok c.solutionDim hdim sortNodes hsort _ (lanes_of_wf m hm) nodes
        (hnd _ hmem) (cover_lanes m c hcov nodes hmem) _)
    hc
    (by intro l v hv; rw [hv]; rfl)
    colors m.rows (fun x hx =>
      have hx' : x.1 ∈ ds := by rw [← hcolors]; exact List.mem_map_of_mem hx
      have hok := (colors_ok c hc hlen debug hdebug ds hds).2 _ hx'
      ⟨hok.1, hok.2, hsched x hx⟩)
    ⟨hrows, allGood_of_wf m hm⟩

/-- C22.  Matrices: for every schedule of every colour (in which each element gets the steps it needs)
the parallel assembler gives exactly the matrix that the serial one gives, and it accesses nothing out
of bounds and does not panic. -/
theorem C22_parallel_matrix_equals_serial
    (sortNodes sortNodes' : List (Nat × Nat) → List (Nat × Nat))
    (hsort : SortsNodes sortNodes) (hsort' : SortsNodes sortNodes') (debug : Bool) (pick : Nat)
    (c : Conn) (hdim : 0 < c.solutionDim)
    (hc : NodesInBounds c) (hnd : ∀ e ∈ c.elements, e.Nodup)
    (hdebug : debug = true → ∀ e ∈ c.elements, e ≠ [])
    (hlen : c.elements.length ≤ 2147483647) (ds : List DisjointSubsets)
    (hds : colorNodes c = .ok ds) (colors : List (DisjointSubsets × List Nat))
    (hcolors : colors.map Prod.fst = ds) (hsched : CompleteSchedules colors)
    (m : Csr K) (hm : WellFormed m) (hrows : m.rows.length = c.solutionDim * c.numNodes)
    (hcov : Covers m c) (elemMat : Nat → Except E (Nat → Nat → K)) (A : Nat → Nat → Nat → K)
    (hA : ∀ e, e < c.elements.length → elemMat e = .ok (A e)) :
    ∃ m', parAssembleInto sortNodes debug pick c elemMat colors m = some (.ok m') ∧
      assembleInto sortNodes' c elemMat m = some (m', .ok ()) := by
  have hperm := (colors_ok c hc hlen debug hdebug ds hds).1
  obtain ⟨m', s1, s2, s3, s4⟩ := C21_assemble_into_adds_contributions sortNodes' hsort' c hdim hc hnd m
    hm hrows hcov elemMat A hA
  refine ⟨m', ?_, s1⟩
  rcases matrix_colors sortNodes hsort debug pick c hdim hc hnd hdebug hlen ds hds colors hcolors hsched
    m hm hrows hcov elemMat with ⟨-, rows', e1, e2, e3⟩ | ⟨x, hx, l, hl, e, he, -⟩
  · unfold parAssembleInto
    rw [e1]
    have hr : rows' = m'.rows := by
      apply rows_ext (m.rows.map Prod.fst) (lanes_of_wf m hm)
      · have := congrArg List.length s3.2
        simp only [List.length_map] at this
        rw [e2.1, ← hrows, this]
      · exact e2.2
      · intro r row hrow
        refine ⟨?_, (s2 row (List.mem_of_getElem? hrow)).1⟩
        rw [s3.2, List.getElem?_map, hrow]; rfl
      · intro r col
        rw [e3, obsAt_entry, obsAt_entry, s4,
          par_perm c ds colors hcolors hperm]
        congr 1
        apply Finset.sum_congr rfl
        intro e _
        rw [elemSum_matrix, hA e e.2]
        simp [okOr]
    rw [hr, s3.1]
    rfl
  · have : l ∈ List.range c.elements.length := by
      rw [← hperm.mem_iff, List.mem_flatMap]
      exact ⟨x.1, by rw [← hcolors]; exact List.mem_map_of_mem hx, hl⟩
    rw [hA l (by simpa using this)] at he
    cases he

/-- C22, failure: if some element fails, the parallel assembler returns the error of a failing element
(which one may depend on the schedule); it still does not panic. -/
theorem C22_parallel_matrix_error (sortNodes : List (Nat × Nat) → List (Nat × Nat))
    (hsort : SortsNodes sortNodes) (debug : Bool) (pick : Nat)
    (c : Conn) (hdim : 0 < c.solutionDim)
    (hc : NodesInBounds c) (hnd : ∀ e ∈ c.elements, e.Nodup)
    (hdebug : debug = true → ∀ e ∈ c.elements, e ≠ [])
    (hlen : c.elements.length ≤ 2147483647) (ds : List DisjointSubsets)
    (hds : colorNodes c = .ok ds) (colors : List (DisjointSubsets × List Nat))
    (hcolors : colors.map Prod.fst = ds) (hsched : CompleteSchedules colors)
    (m : Csr K) (hm : WellFormed m) (hrows : m.rows.length = c.solutionDim * c.numNodes)
    (hcov : Covers m c) (elemMat : Nat → Except E (Nat → Nat → K)) (k : Nat)
    (hk : k < c.elements.length) (err : E) (herr : elemMat k = .error err) :
    ∃ l e, l < c.elements.length ∧ elemMat l = .error e ∧
      parAssembleInto sortNodes debug pick c elemMat colors m = some (.error e) := by
  have hperm := (colors_ok c hc hlen debug hdebug ds hds).1
  rcases matrix_colors sortNodes hsort debug pick c hdim hc hnd hdebug hlen ds hds colors hcolors hsched
    m hm hrows hcov elemMat with ⟨hok, -⟩ | ⟨x, hx, l, hl, e, he, hr⟩
  · exfalso
    have : k ∈ ds.flatMap (·.labels) := by rw [hperm.mem_iff]; simpa using hk
    rw [← hcolors, List.flatMap_map, List.mem_flatMap] at this
    obtain ⟨x, hx, hkx⟩ := this
    obtain ⟨v, hv⟩ := hok x hx k hkx
    rw [herr] at hv; cases hv
  · have : l ∈ List.range c.elements.length := by
      rw [← hperm.mem_iff, List.mem_flatMap]
      exact ⟨x.1, by rw [← hcolors]; exact List.mem_map_of_mem hx, hl⟩
    refine ⟨l, e, by simpa using this, he, ?_⟩
    unfold parAssembleInto
    rw [hr]; rfl

/-- C22.  End to end, `CsrParAssembler::assemble` gives the matrix of `CsrAssembler::assemble`, for
every schedule of the pattern assembly and of the colours. -/
theorem C22_parallel_assemble_equals_serial (ord ord' : List Nat → List Nat)
    (hord : ∀ l, (ord l).Perm l) (hord' : ∀ l, (ord' l).Perm l)
    (sortNodes sortNodes' : List (Nat × Nat) → List (Nat × Nat))
    (hsort : SortsNodes sortNodes) (hsort' : SortsNodes sortNodes') (debug : Bool) (pick : Nat)
    (c : Conn) (hdim : 0 < c.solutionDim)
    (hc : NodesInBounds c) (hnd : ∀ e ∈ c.elements, e.Nodup)
    (hdebug : debug = true → ∀ e ∈ c.elements, e ≠ [])
    (hlen : c.elements.length ≤ 2147483647)
    (sched₁ : List (Nat × List Nat))
    (hs₁ : sched₁.Perm ((batches c.elements.length).map (lockOps c)).flatten)
    (sched₂ : List (Nat × Nat) → List (Nat × Nat)) (hs₂ : ∀ l, (sched₂ l).Perm l)
    (ds : List DisjointSubsets)
    (hds : colorNodes c = .ok ds) (colors : List (DisjointSubsets × List Nat))
    (hcolors : colors.map Prod.fst = ds) (hsched : CompleteSchedules colors)
    (elemMat : Nat → Except E (Nat → Nat → K)) (A : Nat → Nat → Nat → K)
    (hA : ∀ e, e < c.elements.length → elemMat e = .ok (A e)) :
    ∃ m' : Csr K,
      parAssemble ord sched₁ sched₂ sortNodes debug pick c elemMat colors = some (.ok m') ∧
      assemble ord' sortNodes' c elemMat = some (.ok m') := by
  obtain ⟨m, h1, h2, h3, h4, h5, h6, h7⟩ := pattern_zeros (K := K) ord' hord' c hc
  obtain ⟨m', e1, e2⟩ := C22_parallel_matrix_equals_serial sortNodes sortNodes' hsort hsort' debug pick
    c hdim hc hnd hdebug hlen ds hds colors hcolors hsched m h2 h3 h5 elemMat A hA
  refine ⟨m', ?_, ?_⟩
  · unfold parAssemble
    rw [C20_parallel_pattern_equals_serial ord ord' hord hord' c hc sched₁ hs₁ sched₂ hs₂, h1]
    exact e1
  · unfold assemble
    rw [h1]
    simp only [e2, Option.map_some]
    rfl

/-- C22.  Vectors: for every schedule the parallel assembler gives exactly the serial result. -/
theorem C22_parallel_vector_equals_serial (debug : Bool) (pick : Nat)
    (c : Conn) (hdim : 0 < c.solutionDim) (hc : NodesInBounds c)
    (hdebug : debug = true → ∀ e ∈ c.elements, e ≠ [])
    (hlen : c.elements.length ≤ 2147483647) (ds : List DisjointSubsets)
    (hds : colorNodes c = .ok ds) (colors : List (DisjointSubsets × List Nat))
    (hcolors : colors.map Prod.fst = ds) (hsched : CompleteSchedules colors)
    (out : List K) (hout : out.length = c.solutionDim * c.numNodes)
    (elemVec : Nat → Except E (Nat → K)) :
    (∀ v : Nat → Nat → K, (∀ e, e < c.elements.length → elemVec e = .ok (v e)) →
      ∃ out', parAssembleVectorInto debug pick c elemVec colors out = some (.ok out') ∧
        assembleVectorInto c elemVec out = some (out', .ok ())) ∧
    (∀ k err, k < c.elements.length → elemVec k = .error err →
      ∃ l e, l < c.elements.length ∧ elemVec l = .error e ∧
        parAssembleVectorInto debug pick c elemVec colors out = some (.error e)) := by
  obtain ⟨hperm, hok⟩ := colors_ok c hc hlen debug hdebug ds hds
  have hmain := colorsLoop_ok (fun (x : K) (_ : Unit) => x) (fun _ _ => True) debug c.solutionDim hdim
    c.numNodes c.elements elemVec (fun v _ => vectorUpd c.solutionDim v) (fun _ => 0) pick
    (fun l => okOr (fun _ => 0) (elemVec l))
    (fun v _ a i _ => v (c.solutionDim * a + i))
    (fun l nodes _ _ => vectorUpd_ok c.solutionDim nodes _) hc
    (by intro l v hv; rw [hv]; rfl)
    colors out (fun x hx =>
      have hx' : x.1 ∈ ds := by rw [← hcolors]; exact List.mem_map_of_mem hx
      ⟨(hok _ hx').1, (hok _ hx').2, hsched x hx⟩)
    ⟨hout, fun _ _ _ => trivial⟩
  have hmem : ∀ x ∈ colors, ∀ l ∈ x.1.labels, l < c.elements.length := by
    intro x hx l hl
    have : l ∈ List.range c.elements.length := by
      rw [← hperm.mem_iff, List.mem_flatMap]
      exact ⟨x.1, by rw [← hcolors]; exact List.mem_map_of_mem hx, hl⟩
    simpa using this
  constructor
  · intro v hv
    obtain ⟨out', s1, s2, s3⟩ := C23_assemble_vector_into_adds_contributions c hc out hout elemVec v hv
    refine ⟨out', ?_, s1⟩
    rcases hmain with ⟨-, rows', e1, e2, e3⟩ | ⟨x, hx, l, hl, e, he, -⟩
    · unfold parAssembleVectorInto
      rw [if_pos hout, e1]
      congr 2
      apply List.ext_getElem (by rw [e2.1, s2, hout])
      intro r h1 h2
      have hlt : r < out.length := by rw [hout, ← e2.1]; exact h1
      have h3 := s3 r _ (List.getElem?_eq_getElem hlt)
      rw [List.getElem?_eq_getElem h2] at h3
      have h4 := e3 (r, ())
      simp only [obsAt, List.getElem?_eq_getElem h1, List.getElem?_eq_getElem hlt] at h4
      rw [h4, Option.some.inj h3, par_perm c ds colors hcolors hperm]
      congr 1
      apply Finset.sum_congr rfl
      intro e _
      rw [elemSum_vector, hv e e.2]
      simp [okOr]
    · rw [hv l (hmem x hx l hl)] at he
      cases he
  · intro k err hk herr
    rcases hmain with ⟨hall, -⟩ | ⟨x, hx, l, hl, e, he, hr⟩
    · exfalso
      have : k ∈ ds.flatMap (·.labels) := by rw [hperm.mem_iff]; simpa using hk
      rw [← hcolors, List.flatMap_map, List.mem_flatMap] at this
      obtain ⟨x, hx, hkx⟩ := this
      obtain ⟨v, hv⟩ := hall x hx k hkx
      rw [herr] at hv; cases hv
    · refine ⟨l, e, hmem x hx l hl, he, ?_⟩
      unfold parAssembleVectorInto
      rw [if_pos hout, hr]

/-- C22.  No two elements that run concurrently write to the same row (of the matrix or vector): the
rows `s * node + i` of different elements of a colour are different. -/
theorem C22_concurrent_elements_write_different_rows (c : Conn)
    (hlen : c.elements.length ≤ 2147483647) (ds : List DisjointSubsets)
    (hds : colorNodes c = .ok ds) (d : DisjointSubsets) (hd : d ∈ ds) (l l' : Nat)
    (hl : l ∈ d.labels) (hl' : l' ∈ d.labels) (hne : l ≠ l') (nodes nodes' : List Nat)
    (hn : c.elements[l]? = some nodes) (hn' : c.elements[l']? = some nodes')
    (n n' i i' : Nat) (h : n ∈ nodes) (h' : n' ∈ nodes') (hi : i < c.solutionDim)
    (hi' : i' < c.solutionDim) : c.solutionDim * n + i ≠ c.solutionDim * n' + i' := by
  intro heq
  have := (div_mod_iff c.solutionDim n' i' (c.solutionDim * n + i) hi').1 heq.symm
  have h2 := ((div_mod_iff c.solutionDim n i (c.solutionDim * n + i) hi).1 rfl)
  have hnn : n = n' := by rw [this.1, ← h2.1]
  subst hnn
  exact C06_same_color_no_shared_index c.elements ds hds hlen d hd l l' hl hl' hne
    ⟨nodes, nodes', n, hn, hn', h, h'⟩

/-! ## C24 -/

/-- C24.  `assemble_scalar` returns the sum of all element scalars. -/
theorem C24_scalar_is_sum (n : Nat) (elem : Nat → Except E K) (x : Nat → K)
    (hx : ∀ e, e < n → elem e = .ok (x e)) :
    assembleScalar n elem = .ok (∑ e : Fin n, x e) := by
  have key : ∀ (n k : Nat) (acc : K), (∀ e, e < n → elem (k + e) = .ok (x (k + e))) →
      assembleScalarLoop elem n k acc = .ok (acc + ∑ e ∈ Finset.range n, x (k + e)) := by
    intro n
    induction n with
    | zero => intro k acc _; simp [assembleScalarLoop]
    | succ n ih =>
      intro k acc h
      have h0 := h 0 (by omega)
      rw [Nat.add_zero] at h0
      rw [assembleScalarLoop, h0]
      simp only
      rw [ih (k + 1) _ (by
        intro e he
        have := h (e + 1) (by omega)
        rwa [show k + (e + 1) = k + 1 + e by omega] at this), Finset.sum_range_succ', add_assoc]
      congr 2
      rw [add_comm]
      simp [Nat.add_comm, Nat.add_left_comm]
  unfold assembleScalar
  rw [key n 0 0 (by simpa using hx), zero_add, Finset.sum_range]
  simp

/-- C24.  `assemble_scalar` returns the error of the first failing element. -/
theorem C24_scalar_first_error (n : Nat) (elem : Nat → Except E K) (k : Nat) (hk : k < n) (err : E)
    (herr : elem k = .error err) (hok : ∀ e, e < k → ∃ x, elem e = .ok x) :
    assembleScalar n elem = .error err := by
  have key : ∀ (k n i : Nat) (acc : K), k < n → elem (i + k) = .error err →
      (∀ e, e < k → ∃ x, elem (i + e) = .ok x) → assembleScalarLoop elem n i acc = .error err := by
    intro k
    induction k with
    | zero =>
      intro n i acc hn he _
      obtain ⟨m, rfl⟩ : ∃ m, n = m + 1 := ⟨n - 1, by omega⟩
      rw [Nat.add_zero] at he
      rw [assembleScalarLoop, he]
    | succ k ih =>
      intro n i acc hn he h
      obtain ⟨m, rfl⟩ : ∃ m, n = m + 1 := ⟨n - 1, by omega⟩
      obtain ⟨x, hx⟩ := h 0 (by omega)
      rw [Nat.add_zero] at hx
      rw [assembleScalarLoop, hx]
      simp only
      apply ih m (i + 1) _ (by omega) (by rw [← he]; congr 1; omega)
      intro e he'
      obtain ⟨y, hy⟩ := h (e + 1) (by omega)
      exact ⟨y, by rw [← hy]; congr 1; omega⟩
  exact key k n 0 0 hk (by simpa using herr) (by simpa using hok)

private theorem foldLeaf_spec (xs : List (Except E K)) (acc : K) :
    (∀ vs : List K, xs = vs.map .ok → foldLeaf xs acc = .ok (acc + vs.sum)) ∧
    ((∃ e, Except.error e ∈ xs) → ∃ e, Except.error e ∈ xs ∧ foldLeaf xs acc = .error e) := by
  induction xs generalizing acc with
  | nil =>
    constructor
    · intro vs h
      have : vs = [] := by simpa using h.symm
      subst this; simp [foldLeaf]
    · rintro ⟨e, he⟩; cases he
  | cons x xs ih =>
    cases x with
    | error e =>
      constructor
      · intro vs h
        cases vs with
        | nil => cases h
        | cons v vs => simp at h
      · intro _; exact ⟨e, by simp, by simp [foldLeaf]⟩
    | ok v =>
      obtain ⟨h1, h2⟩ := ih (acc + v)
      constructor
      · intro vs h
        cases vs with
        | nil => cases h
        | cons w vs =>
          simp only [List.map_cons, List.cons.injEq, Except.ok.injEq] at h
          rw [foldLeaf, h1 vs h.2, h.1, List.sum_cons, add_assoc]
      · rintro ⟨e, he⟩
        simp only [List.mem_cons, reduceCtorEq, false_or] at he
        obtain ⟨e', h3, h4⟩ := h2 ⟨e, he⟩
        exact ⟨e', by simp [h3], by rw [foldLeaf]; exact h4⟩

private theorem tryReduce_spec (t : ReduceTree) : ∀ xs : List (Except E K),
    (∀ vs : List K, xs = vs.map .ok → tryReduce t xs = .ok vs.sum) ∧
    ((∃ e, Except.error e ∈ xs) → ∃ e, Except.error e ∈ xs ∧ tryReduce t xs = .error e) := by
  induction t with
  | leaf =>
    intro xs
    obtain ⟨h1, h2⟩ := foldLeaf_spec xs (0 : K)
    exact ⟨fun vs h => by rw [tryReduce, h1 vs h, zero_add], fun h => by
      obtain ⟨e, a, b⟩ := h2 h; exact ⟨e, a, by rw [tryReduce]; exact b⟩⟩
  | node i b l r ihl ihr =>
    intro xs
    obtain ⟨l1, l2⟩ := ihl (xs.take i)
    obtain ⟨r1, r2⟩ := ihr (xs.drop i)
    have all : ∀ ys : List (Except E K), (¬ ∃ e, Except.error e ∈ ys) →
        ∃ vs : List K, ys = vs.map .ok := by
      intro ys
      induction ys with
      | nil => intro _; exact ⟨[], rfl⟩
      | cons y ys ih =>
        intro h
        obtain ⟨vs, hvs⟩ := ih (fun ⟨e, he⟩ => h ⟨e, by simp [he]⟩)
        cases y with
        | error e => exact absurd ⟨e, by simp⟩ h
        | ok v => exact ⟨v :: vs, by simp [hvs]⟩
    constructor
    · intro vs h
      have hl := l1 (vs.take i) (by rw [h, List.map_take])
      have hr := r1 (vs.drop i) (by rw [h, List.map_drop])
      rw [tryReduce, hl, hr]
      simp only
      rw [← List.sum_append, List.take_append_drop]
    · rintro ⟨e, he⟩
      by_cases hL : ∃ e, Except.error e ∈ xs.take i
      · obtain ⟨e1, a1, b1⟩ := l2 hL
        by_cases hR : ∃ e, Except.error e ∈ xs.drop i
        · obtain ⟨e2, a2, b2⟩ := r2 hR
          rw [tryReduce, b1, b2]
          cases b with
          | true => exact ⟨e1, List.mem_of_mem_take a1, rfl⟩
          | false => exact ⟨e2, List.mem_of_mem_drop a2, rfl⟩
        · obtain ⟨vs, hvs⟩ := all _ hR
          rw [tryReduce, b1, r1 vs hvs]
          exact ⟨e1, List.mem_of_mem_take a1, rfl⟩
      · obtain ⟨vs, hvs⟩ := all _ hL
        have hR : ∃ e, Except.error e ∈ xs.drop i := by
          refine ⟨e, ?_⟩
          have h' : Except.error e ∈ xs.take i ++ xs.drop i := by
            rw [List.take_append_drop]; exact he
          rcases List.mem_append.1 h' with h | h
          · exact absurd ⟨e, h⟩ hL
          · exact h
        obtain ⟨e2, a2, b2⟩ := r2 hR
        rw [tryReduce, l1 vs hvs, b2]
        exact ⟨e2, List.mem_of_mem_drop a2, rfl⟩

/-- C24.  `par_assemble_scalar` returns, for every reduction tree, the result of `assemble_scalar` if
no element fails, and otherwise the error of some failing element. -/
theorem C24_parallel_scalar_every_tree (tree : ReduceTree) (n : Nat) (elem : Nat → Except E K) :
    (∀ x : Nat → K, (∀ e, e < n → elem e = .ok (x e)) →
      parAssembleScalar tree n elem = .ok (∑ e : Fin n, x e) ∧
      parAssembleScalar tree n elem = assembleScalar n elem) ∧
    (∀ k err, k < n → elem k = .error err →
      ∃ l e, l < n ∧ elem l = .error e ∧ parAssembleScalar tree n elem = .error e) := by
  obtain ⟨h1, h2⟩ := tryReduce_spec tree ((List.range n).map elem)
  constructor
  · intro x hx
    have : parAssembleScalar tree n elem = .ok (∑ e : Fin n, x e) := by
      unfold parAssembleScalar
      rw [h1 ((List.range n).map x) (by
        rw [List.map_map]
        apply List.map_congr_left
        intro e he
        exact hx e (by simpa using he)), sum_map_range, Finset.sum_range]
    exact ⟨this, by rw [this, C24_scalar_is_sum n elem x hx]⟩
  · intro k err hk herr
    obtain ⟨e, he, hr⟩ := h2 ⟨err, by
      rw [List.mem_map]; exact ⟨k, by simpa using hk, herr⟩⟩
    obtain ⟨l, hl, hle⟩ := List.mem_map.1 he
    exact ⟨l, e, by simpa using hl, hle, hr⟩

/-! ## Non-vacuity: two triangles sharing an edge, two unknowns per node -/

private def exConn : Conn := ⟨2, 4, [[0, 1, 2], [3, 2, 1]]⟩
private def exMat : Nat → Except String (Nat → Nat → Int) :=
  fun e => .ok (fun i j => (10 * e + i : Int) - j)
private def exSort : List (Nat × Nat) → List (Nat × Nat) := stableSort (fun p q => decide (p.1 ≤ q.1))

private theorem exSort_ok : SortsNodes exSort := fun l =>
  ⟨stableSort_perm _ l, (stableSort_pairwise (fun p q : Nat × Nat => decide (p.1 ≤ q.1))
    (by intro a b c; simp; omega) (by intro a b; simp; omega) l).imp (by simp)⟩
example : NodesInBounds exConn ∧ (∀ e ∈ exConn.elements, e.Nodup ∧ e ≠ []) := by
  constructor
  · intro e he n hn; simp [exConn] at he hn ⊢; rcases he with rfl | rfl <;> simp at hn <;> omega
  · decide
private def exMatrix : Option (Except String (Csr Int)) := assemble id exSort exConn exMat
example : (exMatrix.map (fun r => r.toOption.map (fun m => [(m.rows.length : Int), entry m 2 4,
    entry m 5 2, entry m 0 7]))) = some (some [8, (-2) + 12, 3 + 9, 0]) := by decide
private def exColors : List (DisjointSubsets × List Nat) :=
  [(⟨some 2, [[0, 1, 2]], [0]⟩, [0, 0, 0]), (⟨some 3, [[3, 2, 1]], [1]⟩, [0, 0, 5, 0])]
example : colorNodes exConn = .ok (exColors.map Prod.fst) := by decide
example : CompleteSchedules exColors := by
  intro c hc k nodes hk
  simp only [exColors, List.mem_cons, List.not_mem_nil, or_false] at hc
  rcases hc with rfl | rfl <;> (cases k <;> simp at hk; subst hk; decide)
/- Two elements in one colour, their steps interleaved. -/
private def exConn' : Conn := ⟨2, 5, [[0, 1], [4, 3]]⟩
example : colorNodes exConn' = .ok [⟨some 4, [[0, 1], [4, 3]], [0, 1]⟩] := by decide
example : (parAssembleVectorInto true 0 exConn' (fun e => (.ok (fun i => e + i + 1) : Except Unit _))
    [(⟨some 4, [[0, 1], [4, 3]], [0, 1]⟩, [1, 0, 0, 1])] (List.replicate 10 100)).map Except.toOption =
    some (some [101, 102, 103, 104, 100, 100, 104, 105, 102, 103]) := by decide
example : ((assembleVector exConn' (fun e => (.ok (fun i => e + i + 1) : Except Unit _))).map
    Except.toOption) = some (some [1, 2, 3, 4, 0, 0, 4, 5, 2, 3]) := by decide
example : (match parAssembleScalar (.node 2 false (.node 1 true .leaf .leaf) .leaf) 5
      (fun e => if e = 3 then .error 7 else (.ok e : Except Nat Nat)) with
    | .error e => e | .ok _ => 0) = 7 := by decide
example : gather 2 [10, 11, 12, 13, 14, 15] [2, 0] = some [14, 15, 10, 11] := by decide

end Fenris
