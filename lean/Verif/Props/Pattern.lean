import Verif.Lemmas.Pattern
/-! # C20: assembled sparsity patterns -/
set_option autoImplicit false

namespace Fenris
open Assembly

/-- C20.  For every connectivity whose nodes exist, the assembler returns a valid CSR pattern
(offsets start at 0, are monotone and end at the number of indices, each row strictly increasing and
in bounds) of the right dimensions, in which row `i` contains column `j` exactly when some element
contains both the node of row `i` and the node of column `j`. -/
theorem C20_pattern_is_exact (ord : List Nat → List Nat) (hord : ∀ l, (ord l).Perm l) (c : Conn)
    (hc : Spec.NodesInBounds c) :
    ∃ p, assemblePattern ord c = some p ∧ Spec.ValidPattern p ∧
      p.nrows = c.solutionDim * c.numNodes ∧ p.ncols = c.solutionDim * c.numNodes ∧
      ∀ i, i < p.nrows → ∃ lane, p.lane i = some lane ∧ ∀ j, j ∈ lane ↔
        ∃ e ∈ c.elements, i / c.solutionDim ∈ e ∧ j / c.solutionDim ∈ e := by
  obtain ⟨sets, h1, h2⟩ := serial_sets c hc
  refine ⟨ofRows (c.solutionDim * c.numNodes) (rowsOf ord c.solutionDim sets), ?_, ?_, rfl, rfl, ?_⟩
  · unfold assemblePattern
    rw [h1]
    exact finish_eq ord hord _ _ sets h2.len
  · have hlen : (rowsOf ord c.solutionDim sets).length = c.solutionDim * c.numNodes := by
      rw [rowsOf_length, h2.len]
    refine ⟨?_, ?_, ?_, pushOffsets_mono _ _, ?_⟩
    · simp [ofRows, pushOffsets_length, hlen]
    · simp [ofRows]
    · have := ofRows_last (c.solutionDim * c.numNodes) (rowsOf ord c.solutionDim sets)
      rw [hlen] at this; exact this
    · intro i hi
      have hi : i < c.solutionDim * c.numNodes := hi
      rw [ofRows_lane, rowsOf_get ord _ sets i (by rw [h2.len]; exact hi)]
      have hs : 0 < c.solutionDim := by
        rcases Nat.eq_zero_or_pos c.solutionDim with h | h
        · rw [h] at hi; simp at hi
        · exact h
      have hdiv : i / c.solutionDim < sets.length := by
        rw [h2.len]; exact Nat.div_lt_of_lt_mul hi
      rw [List.getElem?_eq_getElem hdiv]
      refine ⟨_, rfl, ?_, ?_⟩
      · apply blockRow_sorted
        apply sortNat_strict
        exact (hord _).nodup_iff.2 (h2.nodup _ (List.getElem_mem hdiv))
      · intro j hj
        rw [mem_blockRow, (Mesh.sortNat_perm _).mem_iff, (hord _).mem_iff,
          h2.mem _ _ (List.getElem?_eq_getElem hdiv)] at hj
        obtain ⟨-, e, he, hje⟩ := hj
        have := hc e ((mem_allOps c _ _).1 he).1 _ hje
        show j < c.solutionDim * c.numNodes
        rw [Nat.mul_comm]
        exact (Nat.div_lt_iff_lt_mul hs).1 this
  · intro i hi
    have hi : i < c.solutionDim * c.numNodes := hi
    rw [ofRows_lane, rowsOf_get ord _ sets i (by rw [h2.len]; exact hi)]
    have hs : 0 < c.solutionDim := by
      rcases Nat.eq_zero_or_pos c.solutionDim with h | h
      · rw [h] at hi; simp at hi
      · exact h
    have hdiv : i / c.solutionDim < sets.length := by
      rw [h2.len]; exact Nat.div_lt_of_lt_mul hi
    rw [List.getElem?_eq_getElem hdiv]
    refine ⟨_, rfl, ?_⟩
    intro j
    rw [mem_blockRow, (Mesh.sortNat_perm _).mem_iff, (hord _).mem_iff,
      h2.mem _ _ (List.getElem?_eq_getElem hdiv)]
    simp only [mem_allOps, hs, true_and]
    constructor
    · rintro ⟨e, ⟨a, b⟩, d⟩; exact ⟨e, a, b, d⟩
    · rintro ⟨e, a, b, d⟩; exact ⟨e, ⟨a, b⟩, d⟩

/-- C20.  The parallel algorithm returns the same pattern as the serial one, for every order in
which the critical sections of its tasks are executed and every order of the writes of its second
phase (and every iteration order of the hash sets, in both algorithms). -/
theorem C20_parallel_pattern_equals_serial (ord ord' : List Nat → List Nat)
    (hord : ∀ l, (ord l).Perm l) (hord' : ∀ l, (ord' l).Perm l) (c : Conn)
    (hc : Spec.NodesInBounds c) (sched₁ : List (Nat × List Nat))
    (hs₁ : sched₁.Perm ((batches c.elements.length).map (lockOps c)).flatten)
    (sched₂ : List (Nat × Nat) → List (Nat × Nat)) (hs₂ : ∀ l, (sched₂ l).Perm l) :
    parAssemblePattern ord sched₁ sched₂ c = assemblePattern ord' c := by
  rw [lockOps_flatten] at hs₁
  obtain ⟨sets, h1, h2⟩ := serial_sets c hc
  obtain ⟨sets', h3, h4⟩ := runLockOps_inv c.numNodes sched₁ [] _ (setsInv_init _) (by
    intro op hop
    obtain ⟨i, e⟩ := op
    have := (mem_allOps c i e).1 (hs₁.mem_iff.1 hop)
    exact hc e this.1 i this.2)
  simp only [List.nil_append] at h4
  have hrows := rowsOf_congr ord ord' hord hord' c.solutionDim c.numNodes sets' sets h4.len h2.len
    (fun i hi => setsInv_perm c.numNodes _ _ hs₁ _ _ h4 h2 i hi)
  unfold parAssemblePattern assemblePattern
  rw [h1, h3]
  simp only
  obtain ⟨ws, h5, h6⟩ := parWrites_eq ord hord c.solutionDim c.numNodes sets' h4.len
  rw [h5]
  simp only
  have hlast : (offsetsOf c.solutionDim sets').getLast?.getD 0 =
      (indicesOf ord c.solutionDim sets').length := by
    have := finish_eq ord hord c.solutionDim c.numNodes sets' h4.len
    unfold finishPattern at this
    split at this
    · rename_i h; rw [h.2]; rfl
    · cases this
  rw [writeAt_all (indicesOf ord c.solutionDim sets') _ (by rw [← h6]; exact hs₂ _) _
    (by simp [hlast])]
  simp only
  rw [finish_eq ord hord _ _ sets' h4.len, finish_eq ord' hord' _ _ sets h2.len, hrows]

/-- C20, the panic case: if an element mentions a node that does not exist, both algorithms panic
(index out of bounds); no pattern is returned. -/
theorem C20_missing_node_panics (ord : List Nat → List Nat) (c : Conn)
    (h : ¬ Spec.NodesInBounds c) (sched₁ : List (Nat × List Nat))
    (hs₁ : sched₁.Perm ((batches c.elements.length).map (lockOps c)).flatten)
    (sched₂ : List (Nat × Nat) → List (Nat × Nat)) :
    assemblePattern ord c = none ∧ parAssemblePattern ord sched₁ sched₂ c = none := by
  rw [lockOps_flatten] at hs₁
  simp only [Spec.NodesInBounds, not_forall] at h
  obtain ⟨e, he, n, hn, hlt⟩ := h
  have hop : (n, e) ∈ allOps c := (mem_allOps c n e).2 ⟨he, hn⟩
  have hne : e ≠ [] := List.ne_nil_of_mem hn
  constructor
  · unfold assemblePattern
    rw [serial_eq_ops]
    have := runLockOps_none (List.replicate c.numNodes []) (allOps c)
      ⟨(n, e), hop, by simpa using hlt, hne⟩
    rw [allOps] at this
    rw [this]
  · unfold parAssemblePattern
    rw [runLockOps_none _ _ ⟨(n, e), hs₁.mem_iff.2 hop, by simpa using hlt, hne⟩]

/- Two triangles sharing an edge, two unknowns per node, and an isolated node. -/
example : assemblePattern id ⟨1, 5, [[0, 1, 2], [3, 2, 1]]⟩ =
    some ⟨5, 5, [0, 3, 7, 11, 14, 14], [0, 1, 2, 0, 1, 2, 3, 0, 1, 2, 3, 1, 2, 3]⟩ := by decide
example : (assemblePattern id ⟨2, 3, [[0, 2], [2, 2]]⟩).map (fun p => p.lane 5) =
    some (some [0, 1, 4, 5]) := by decide
example : Spec.NodesInBounds ⟨2, 3, [[0, 2], [2, 2]]⟩ := by
  intro e he n hn; simp at he; rcases he with rfl | rfl <;> simp at hn <;> simp <;> omega
example : parAssemblePattern List.reverse [(2, [2, 2]), (2, [0, 2]), (0, [0, 2]), (2, [2, 2])]
    List.reverse ⟨2, 3, [[0, 2], [2, 2]]⟩ = assemblePattern id ⟨2, 3, [[0, 2], [2, 2]]⟩ := by decide

end Fenris
