import Verif.Lemmas.Coloring
import Verif.Lemmas.ParExec
/-! # C03–C08: disjoint subsets, parallel iteration, colouring, block adapter -/
set_option autoImplicit false

namespace Fenris
open DisjointSubsets

/-! ## C03 -/

/-- C03.  With as many labels as subsets (and whatever the iteration order of the hash set) the
constructor answers `Ok` exactly for disjoint families, with subsets and labels stored unchanged
and the true maximum index, and `Err` for all other families. -/
theorem C03_try_from_accepts_iff_disjoint (ord : List Nat → List Nat)
    (hord : ∀ l, (ord l).Perm l) (subsets : List (List Nat)) (labels : List Nat)
    (hl : subsets.length = labels.length) :
    (Spec.DisjointFamily subsets ∧ ∃ m, Spec.IsMaxIndex m subsets ∧
        tryFrom ord subsets labels = .ok ⟨m, subsets, labels⟩) ∨
    (¬ Spec.DisjointFamily subsets ∧ tryFrom ord subsets labels = .err .mk) := by
  by_cases hd : Spec.DisjointFamily subsets
  · exact .inl ⟨hd, _, isMaxIndex_foldl subsets,
      tryFrom_of_disjoint ord hord subsets labels _ hl hd (isMaxIndex_foldl subsets)⟩
  · refine .inr ⟨hd, ?_⟩
    unfold tryFrom
    rw [if_pos hl]
    have := mt (checkLoop_isSome ord hord none [] subsets).1 (fun h => hd h.2)
    cases hc : checkLoop ord none [] subsets with
    | none => rfl
    | some m => rw [hc] at this; simp at this

/-- C03.  The constructor panics exactly on a label count mismatch. -/
theorem C03_panics_iff_label_mismatch (ord : List Nat → List Nat) (subsets : List (List Nat))
    (labels : List Nat) :
    tryFrom ord subsets labels = .panic ↔ subsets.length ≠ labels.length := by
  unfold tryFrom
  by_cases h : subsets.length = labels.length
  · rw [if_pos h]
    split <;> simp [h]
  · simp [h]

example : tryFrom id [[4, 5, 4], [], [1, 2]] [7, 8, 9] =
    .ok ⟨some 5, [[4, 5, 4], [], [1, 2]], [7, 8, 9]⟩ := by decide
example : tryFrom id [[4, 5], [1, 5]] [7, 8] = .err .mk := by decide
example : tryFrom id [[4, 5]] [] = .panic := by decide

/-! ## C04 -/

/-- C04.  For every split tree whose splits satisfy the producer's own assertion, and every
sequence of front/back calls at the leaves: the delivered items form a subsequence of the
(label, subset) pairs in order, and delivered plus left over is the total.  Hence if every leaf is
exhausted, every subset is delivered exactly once, in order, with its own label. -/
theorem C04_split_tree_delivers_each_subset_once_partial (d : DisjointSubsets)
    (hl : d.labels.length = d.subsets.length) (t : SplitTree) (ht : t.Ok d.subsets.length) :
    ∃ xs n, (Producer.full d).drive d t = some (xs, n) ∧
      xs.length + n = d.subsets.length ∧
      xs.Sublist ((d.labels.zip d.subsets).map (fun p => Item.mk p.1 p.2)) ∧
      (n = 0 → xs = (d.labels.zip d.subsets).map (fun p => Item.mk p.1 p.2)) := by
  obtain ⟨xs, n, h1, h2, h3⟩ := drive_eq d hl t (Producer.full d) (by simp [Producer.full]) ht
  have hr : rangeItems d 0 (0 + d.subsets.length) =
      (d.labels.zip d.subsets).map (fun p => Item.mk p.1 p.2) := by
    unfold rangeItems
    rw [List.drop_zero, List.take_of_length_le]
    simp [hl]
  simp only [Producer.full] at h2 h3
  rw [hr] at h3
  refine ⟨xs, n, h1, h2, h3, fun hn => ?_⟩
  apply h3.eq_of_length
  simp [hl]; omega

/-- A leaf that calls `next`/`next_back` at least as often as it has items is exhausted. -/
theorem C04_leaf_exhausted (d : DisjointSubsets) (hl : d.labels.length = d.subsets.length)
    (p : Producer) (hp : p.rangeStart + p.rangeLen ≤ d.subsets.length) (cs : List Bool)
    (hcs : p.rangeLen ≤ cs.length) :
    ∃ xs, p.drive d (.leaf cs) = some (xs, 0) := by
  have key : ∀ (cs : List Bool) (it : SubsetIter), it.current ≤ it.stop →
      it.stop ≤ d.subsets.length → it.stop - it.current ≤ cs.length →
      ∃ f b it', it.calls d cs = some (f, b, it') ∧ it'.current = it'.stop := by
    intro cs
    induction cs with
    | nil =>
      intro it h1 _ h3
      simp only [List.length_nil] at h3
      exact ⟨[], [], it, rfl, by omega⟩
    | cons c cs ih =>
      intro it h1 h2 h3
      simp only [List.length_cons] at h3
      by_cases hlt : it.current < it.stop
      · cases c with
        | true =>
          obtain ⟨x, hx⟩ := itemAt_isSome d it.current hl (by omega)
          obtain ⟨f, b, it', e1, e2⟩ :=
            ih { it with current := it.current + 1 } (by simp only; omega) h2 (by simp only; omega)
          exact ⟨x :: f, b, it', by simp [SubsetIter.calls, SubsetIter.next, hlt, hx, e1], e2⟩
        | false =>
          obtain ⟨x, hx⟩ := itemAt_isSome d (it.stop - 1) hl (by omega)
          obtain ⟨f, b, it', e1, e2⟩ := ih { it with stop := it.stop - 1 } (by simp only; omega)
            (by simp only; omega) (by simp only; omega)
          exact ⟨f, x :: b, it', by simp [SubsetIter.calls, SubsetIter.nextBack, hlt, hx, e1], e2⟩
      · obtain ⟨f, b, it', e1, e2⟩ := ih it h1 h2 (by omega)
        cases c with
        | true => exact ⟨f, b, it', by simp [SubsetIter.calls, SubsetIter.next, hlt, e1], e2⟩
        | false => exact ⟨f, b, it', by simp [SubsetIter.calls, SubsetIter.nextBack, hlt, e1], e2⟩
  obtain ⟨f, b, it', e1, e2⟩ := key cs p.intoIter (by simp [Producer.intoIter])
    (by simp [Producer.intoIter]; omega) (by simp [Producer.intoIter]; omega)
  exact ⟨f ++ b.reverse, by simp [Producer.drive, e1, SubsetIter.len, e2]⟩

/-- The halving splits performed by rayon's `bridge` (`mid = len / 2`, only when `len / 2 ≥ 1`)
always satisfy the assertion. -/
theorem C04_halving_is_allowed (p : Producer) (h : 1 ≤ p.rangeLen / 2) :
    (p.splitAt (p.rangeLen / 2)).isSome := by
  unfold Producer.splitAt
  rw [if_pos (by omega)]; rfl

/-- C04, what fails: rayon's producer contract also allows splitting at `index = len` (used for
example by `take(len)` and `skip(len)`), and the code's assertion rejects that. -/
theorem C04_split_at_len_panics (p : Producer) : p.splitAt p.rangeLen = none := by
  simp [Producer.splitAt]

example : (Producer.full ⟨some 6, [[4, 5], [1, 2, 3], [6, 0]], [0, 1, 2]⟩).drive
    ⟨some 6, [[4, 5], [1, 2, 3], [6, 0]], [0, 1, 2]⟩
    (.node 1 (.leaf [true]) (.leaf [false, true, true])) =
    some ([⟨0, [4, 5]⟩, ⟨1, [1, 2, 3]⟩, ⟨2, [6, 0]⟩], 0) := by decide

/-! ## C05 -/

variable {σ α : Type}

/-- C05.  For every family accepted by the constructor and every storage accepted by
`subsets_par_iter`, every worker code and every two schedules that give each worker the same number
of steps: no step accesses the storage out of bounds (`exec` is never `none`, the model's
undefined behaviour), and both schedules end in the same storage and the same worker states. -/
theorem C05_every_interleaving_same_result (ord : List Nat → List Nat)
    (hord : ∀ l, (ord l).Perm l) (subsets : List (List Nat)) (labels : List Nat)
    (d : DisjointSubsets) (hd : tryFrom ord subsets labels = .ok d) (debug : Bool)
    (st : ParState σ α) (hpar : parIterAllowed debug d st.storage.length = true)
    (w : Nat → Worker σ α) (s₁ s₂ : List Nat) (hs : s₁.Perm s₂) :
    ∃ st', st.exec d.subsets w s₁ = some st' ∧ st.exec d.subsets w s₂ = some st' ∧
      st'.storage.length = st.storage.length := by
  have hl : subsets.length = labels.length := by
    apply Classical.byContradiction
    intro h
    rw [(C03_panics_iff_label_mismatch ord subsets labels).2 h] at hd; cases hd
  rcases C03_try_from_accepts_iff_disjoint ord hord subsets labels hl with ⟨h1, m, h2, h3⟩ | ⟨_, h⟩
  · rw [h3] at hd; cases hd
    have hb : ∀ s ∈ subsets, ∀ x ∈ s, x < st.storage.length := by
      intro s hs x hx
      cases m with
      | none => rw [h2 s hs] at hx; cases hx
      | some m =>
        have := h2.2 s hs x hx
        simp [parIterAllowed] at hpar
        omega
    obtain ⟨st', h4, h5⟩ := exec_safe subsets w st hb s₁
    exact ⟨st', h4, (exec_perm subsets h1 w hs st) ▸ h4, h5⟩
  · rw [h] at hd; cases hd

/-- The sequential schedule: all steps of worker 0, then all steps of worker 1, ... -/
def sequentialSchedule (numWorkers : Nat) (sched : List Nat) : List Nat :=
  (List.range numWorkers).flatMap (fun k => List.replicate (sched.count k) k)

theorem sequentialSchedule_perm (n : Nat) (sched : List Nat) (h : ∀ k ∈ sched, k < n) :
    (sequentialSchedule n sched).Perm sched := by
  rw [List.perm_iff_count]
  intro a
  unfold sequentialSchedule
  rw [List.count_flatMap]
  simp only [Function.comp_def, List.count_replicate]
  have : ∀ n, (List.map (fun x => if x == a then List.count x sched else 0)
      (List.range n)).sum = if a < n then sched.count a else 0 := by
    intro n
    induction n with
    | zero => simp
    | succ n ih =>
      rw [List.range_succ, List.map_append, List.sum_append, ih]
      by_cases h1 : a < n
      · have : n ≠ a := by omega
        have h3 : a < n + 1 := by omega
        simp [h1, this, h3]
      · by_cases h2 : n = a
        · subst h2; simp
        · have : ¬ a < n + 1 := by omega
          simp [h1, h2, this]
  rw [this]
  by_cases ha : a < n
  · simp [ha]
  · simp only [ha, if_false]
    symm
    rw [List.count_eq_zero]
    intro hm; exact ha (h a hm)

/-- C05.  Any parallel run equals running the subsets one after the other. -/
theorem C05_parallel_equals_sequential (ord : List Nat → List Nat)
    (hord : ∀ l, (ord l).Perm l) (subsets : List (List Nat)) (labels : List Nat)
    (d : DisjointSubsets) (hd : tryFrom ord subsets labels = .ok d) (debug : Bool)
    (st : ParState σ α) (hpar : parIterAllowed debug d st.storage.length = true)
    (w : Nat → Worker σ α) (n : Nat) (sched : List Nat) (hn : ∀ k ∈ sched, k < n) :
    st.exec d.subsets w sched = st.exec d.subsets w (sequentialSchedule n sched) := by
  obtain ⟨st', h1, h2, -⟩ := C05_every_interleaving_same_result ord hord subsets labels d hd debug
    st hpar w sched _ (sequentialSchedule_perm n sched hn).symm
  rw [h1, h2]

/-- C05.  Positions outside all subsets are never modified. -/
theorem C05_other_positions_untouched (subsets : List (List Nat)) (w : Nat → Worker σ α)
    (sched : List Nat) (st st' : ParState σ α) (h : st.exec subsets w sched = some st') (g : Nat)
    (hg : ∀ s ∈ subsets, g ∉ s) : st'.storage[g]? = st.storage[g]? := by
  induction sched generalizing st with
  | nil => cases h; rfl
  | cons k l ih =>
    simp only [ParState.exec, List.foldlM_cons] at h
    cases h1 : st.step subsets w k with
    | none => rw [h1] at h; cases h
    | some st1 =>
      rw [h1] at h
      rw [ih st1 h]
      rw [step_eq_act] at h1
      cases ha : actOf subsets w k st.locals[k]? with
      | idle => rw [ha] at h1; cases h1; rfl
      | die => rw [ha] at h1; cases h1; rfl
      | upd g' f =>
        obtain ⟨s, hs, hgs⟩ := actOf_upd_mem ha
        have hne : g' ≠ g := by rintro rfl; exact hg s (List.mem_of_getElem? hs) hgs
        rw [ha] at h1
        simp only [applyAct] at h1
        split at h1
        · cases h1
        · cases h1; simp [List.getElem?_set_ne hne]

/-- C05, what fails: a valid family made only of empty subsets is rejected by the debug assertion
of `subsets_par_iter` although it contains no index at all. -/
theorem C05_only_empty_subsets_panics_in_debug (n : Nat) :
    tryFrom id [[]] [0] = .ok ⟨none, [[]], [0]⟩ ∧
    parIterAllowed true ⟨none, [[]], [0]⟩ n = false ∧
    parIterAllowed false ⟨none, [[]], [0]⟩ n = true := by
  refine ⟨by decide, ?_, ?_⟩ <;> simp [parIterAllowed]

/- Non-vacuity: two workers doubling their entries twice, in two different interleavings. -/
example : ∃ w : Nat → Worker Nat Nat,
    (ParState.exec [[0, 2], [1]] w ⟨[1, 2, 3], [some 2, some 1]⟩ [0, 1, 0]).map (·.storage)
      = some [2, 4, 6] ∧
    (ParState.exec [[0, 2], [1]] w ⟨[1, 2, 3], [some 2, some 1]⟩ [1, 0, 0]).map (·.storage)
      = some [2, 4, 6] :=
  ⟨fun _ => ⟨fun s => if s = 0 then none else some (s - 1, fun v => (s - 1, 2 * v))⟩,
    by decide, by decide⟩
example : parIterAllowed true ⟨some 2, [[0, 2], [1]], [0, 1]⟩ 3 = true := by decide

/-! ## C06 -/

/-- C06.  The colouring succeeds (fewer than `i32::MAX` subsets); each input subset occurs in
exactly one colour, exactly once (labels over all colours are a permutation of the positions),
with its contents, and each colour is accepted, unchanged, by the checked constructor (so the
debug assertion holds and the unchecked construction is sound). -/
theorem C06_coloring_is_proper_partition (subsets : List (List Nat))
    (hlen : subsets.length ≤ 2147483647) :
    ∃ colors, sequentialGreedyColoring subsets = .ok colors ∧
      (colors.flatMap (·.labels)).Perm (List.range subsets.length) ∧
      (∀ d ∈ colors, d.labels.map (fun i => subsets[i]?) = d.subsets.map some) ∧
      (∀ d ∈ colors, Spec.DisjointFamily d.subsets) ∧
      (∀ ord : List Nat → List Nat, (∀ l, (ord l).Perm l) →
        ∀ d ∈ colors, tryFrom ord d.subsets d.labels = .ok d) := by
  obtain ⟨colors, h1, h2⟩ := coloring_spec subsets hlen
  refine ⟨colors, h1, h2.perm, h2.content, h2.disj, ?_⟩
  intro ord hord d hd
  have hl : d.subsets.length = d.labels.length := by
    have := congrArg List.length (h2.content d hd); simpa using this.symm
  exact tryFrom_of_disjoint ord hord d.subsets d.labels d.maxIndex hl (h2.disj d hd) (h2.mx d hd)

/-- C06.  Two different input subsets in the same colour do not share an index. -/
theorem C06_same_color_no_shared_index (subsets : List (List Nat))
    (colors : List DisjointSubsets) (h : sequentialGreedyColoring subsets = .ok colors)
    (hlen : subsets.length ≤ 2147483647)
    (d : DisjointSubsets) (hd : d ∈ colors) (i j : Nat) (hi : i ∈ d.labels) (hj : j ∈ d.labels)
    (hij : i ≠ j) : ¬ Spec.Shares subsets i j := by
  obtain ⟨colors', h1, h2⟩ := coloring_spec subsets hlen
  rw [h] at h1; cases h1
  rintro ⟨s, t, x, hs, ht, hxs, hxt⟩
  obtain ⟨a, ha⟩ := List.getElem?_of_mem hi
  obtain ⟨b, hb⟩ := List.getElem?_of_mem hj
  have hab : a ≠ b := by rintro rfl; rw [ha] at hb; cases hb; exact hij rfl
  have hc := h2.content d hd
  have hA : (d.labels.map (fun i => subsets[i]?))[a]? = some (some s) := by simp [ha, hs]
  have hB : (d.labels.map (fun i => subsets[i]?))[b]? = some (some t) := by simp [hb, ht]
  rw [hc] at hA hB
  simp only [List.getElem?_map, Option.map_eq_some_iff, Option.some.injEq] at hA hB
  obtain ⟨s', hA, rfl⟩ := hA
  obtain ⟨t', hB, rfl⟩ := hB
  exact h2.disj d hd a b s' t' hab hA hB x hxs hxt

example : sequentialGreedyColoring [[0, 1], [1, 2], [], [5, 2, 2], [0]] =
    .ok [⟨some 5, [[0, 1], [], [5, 2, 2]], [0, 2, 3]⟩, ⟨some 2, [[1, 2], [0]], [1, 4]⟩] := by decide

/-! ## C07 -/

/-- C07.  First fit: a subset is in a later colour only because in every earlier colour there is a
conflicting subset that comes before it; no colour is empty. -/
theorem C07_first_fit (subsets : List (List Nat)) (colors : List DisjointSubsets)
    (h : sequentialGreedyColoring subsets = .ok colors) (hlen : subsets.length ≤ 2147483647) :
    (∀ d ∈ colors, d.labels ≠ []) ∧
    ∀ (i j : Nat) (d d' : DisjointSubsets), i < j → colors[i]? = some d → colors[j]? = some d' →
      ∀ p ∈ d'.labels, ∃ q ∈ d.labels, q < p ∧ Spec.Shares subsets q p := by
  obtain ⟨colors', h1, h2⟩ := coloring_spec subsets hlen
  rw [h] at h1; cases h1
  exact ⟨h2.nonempty, h2.first⟩

/-- C07.  If every subset intersects at most `D` other subsets, at most `D + 1` colours are used;
and there are never more colours than subsets. -/
theorem C07_color_count_bound (subsets : List (List Nat)) (colors : List DisjointSubsets)
    (h : sequentialGreedyColoring subsets = .ok colors) (hlen : subsets.length ≤ 2147483647) :
    colors.length ≤ subsets.length ∧
    ∀ D : Nat, (∀ (p : Nat) (L : List Nat), L.Nodup → (∀ q ∈ L, q ≠ p ∧ Spec.Shares subsets q p) →
      L.length ≤ D) → colors.length ≤ D + 1 := by
  obtain ⟨colors', h1, h2⟩ := coloring_spec subsets hlen
  rw [h] at h1; cases h1
  have hnd : (colors.flatMap (·.labels)).Nodup :=
    (h2.perm.nodup_iff).2 List.nodup_range
  constructor
  · have hle : ∀ (cs : List DisjointSubsets), (∀ d ∈ cs, d.labels ≠ []) →
        cs.length ≤ (cs.flatMap (·.labels)).length := by
      intro cs
      induction cs with
      | nil => simp
      | cons c cs ih =>
        intro hc
        have := ih (fun d hd => hc d (by simp [hd]))
        have h0 := List.length_pos_iff.2 (hc c (by simp))
        simp only [List.flatMap_cons, List.length_append, List.length_cons]; omega
    have := hle colors h2.nonempty
    rw [h2.perm.length_eq] at this
    simpa using this
  · intro D hD
    apply Classical.byContradiction
    intro hgt
    have hlast : colors.length - 1 < colors.length := by omega
    have hget : colors[colors.length - 1]? = some colors[colors.length - 1] :=
      List.getElem?_eq_getElem hlast
    obtain ⟨p, hp⟩ := List.exists_mem_of_ne_nil _
      (h2.nonempty _ (List.getElem_mem hlast))
    have key : ∀ k, k ≤ colors.length - 1 → ∃ L : List Nat, L.length = k ∧ L.Nodup ∧
        ∀ q ∈ L, (q < p ∧ Spec.Shares subsets q p) ∧
          ∃ i d, i < k ∧ colors[i]? = some d ∧ q ∈ d.labels := by
      intro k
      induction k with
      | zero => intro _; exact ⟨[], rfl, by simp, by simp⟩
      | succ k ih =>
        intro hk
        obtain ⟨L, l1, l2, l3⟩ := ih (by omega)
        have hgk : colors[k]? = some colors[k] := List.getElem?_eq_getElem (by omega)
        obtain ⟨q, hq, hq1, hq2⟩ := h2.first k _ _ _ (by omega) hgk hget p hp
        refine ⟨q :: L, by simp [l1], ?_, ?_⟩
        · refine List.nodup_cons.2 ⟨?_, l2⟩
          intro hqL
          obtain ⟨-, i, d, hi, hid, hqd⟩ := l3 q hqL
          have hpw := (List.pairwise_flatMap.1 hnd).2
          rw [List.pairwise_iff_getElem] at hpw
          have hil : i < colors.length := by omega
          have := hpw i k hil (by omega) hi
          rw [List.getElem?_eq_getElem hil] at hid
          cases hid
          exact this q hqd q hq rfl
        · intro q' hq'
          rcases List.mem_cons.1 hq' with rfl | hq'
          · exact ⟨⟨hq1, hq2⟩, k, _, by omega, hgk, hq⟩
          · obtain ⟨a, i, d, b, c⟩ := l3 q' hq'
            exact ⟨a, i, d, by omega, c⟩
    obtain ⟨L, l1, l2, l3⟩ := key (colors.length - 1) (Nat.le_refl _)
    have := hD p L l2 (fun q hq => ⟨by have := (l3 q hq).1.1; omega, (l3 q hq).1.2⟩)
    omega

/-! ## C08 -/

/-- C08.  Accepted exactly for a positive block size dividing the length. -/
theorem C08_block_adapter_accepts_iff (len bs : Nat) :
    (BlockAdapter.withBlockSize len bs).isSome ↔ 0 < bs ∧ bs ∣ len := by
  unfold BlockAdapter.withBlockSize
  by_cases h : bs > 0 ∧ len % bs = 0
  · rw [if_pos h]; simp [h.1, Nat.dvd_of_mod_eq_zero h.2]
  · rw [if_neg h]; simp only [Option.isSome_none, Bool.false_eq_true, false_iff]
    rintro ⟨h1, h2⟩; exact h ⟨h1, Nat.mod_eq_zero_of_dvd h2⟩

/-- C08.  Inside the adapter: element indices are refused exactly beyond the block size, every
reachable position is in bounds, different (block, element) pairs have different positions, and
every position of the slice is reached. -/
theorem C08_blocks_partition_the_slice (len bs : Nat) (a : BlockAdapter)
    (ha : BlockAdapter.withBlockSize len bs = some a) :
    (∀ b i, (a.position b i).isSome ↔ i < bs) ∧
    (∀ b i g, b < a.len → a.position b i = some g → g = bs * b + i ∧ g < len) ∧
    (∀ b i b' i' g, a.position b i = some g → a.position b' i' = some g → b = b' ∧ i = i') ∧
    (∀ g, g < len → ∃ b i, b < a.len ∧ a.position b i = some g) := by
  unfold BlockAdapter.withBlockSize at ha
  split at ha
  · rename_i h
    cases ha
    obtain ⟨hpos, hmod⟩ := h
    have hlen : len = bs * (len / bs) := by
      have := Nat.div_add_mod len bs; omega
    refine ⟨?_, ?_, ?_, ?_⟩
    · intro b i; unfold BlockAdapter.position; split <;> rename_i hi <;> simp [hi]
    · intro b i g hb hg
      unfold BlockAdapter.position BlockAdapter.len at *
      simp only at hb hg
      split at hg
      · cases hg
        refine ⟨rfl, ?_⟩
        have : bs * (b + 1) ≤ bs * (len / bs) := Nat.mul_le_mul_left _ hb
        rw [Nat.mul_add] at this; omega
      · cases hg
    · intro b i b' i' g h1 h2
      unfold BlockAdapter.position at h1 h2
      simp only at h1 h2
      split at h1
      · split at h2
        · cases h1
          simp only [Option.some.injEq] at h2
          rename_i hi hi'
          have e1 := congrArg (· / bs) h2
          simp only [Nat.mul_add_div hpos, Nat.div_eq_of_lt hi, Nat.div_eq_of_lt hi'] at e1
          have : b = b' := by omega
          subst this; exact ⟨rfl, by omega⟩
        · cases h2
      · cases h1
    · intro g hg
      refine ⟨g / bs, g % bs, ?_, ?_⟩
      · unfold BlockAdapter.len; exact Nat.div_lt_div_of_lt_of_dvd (Nat.dvd_of_mod_eq_zero hmod) hg
      · unfold BlockAdapter.position
        rw [if_pos (Nat.mod_lt _ hpos), Nat.div_add_mod]
  · cases ha

example : BlockAdapter.withBlockSize 21 3 = some ⟨21, 3⟩ := by decide
example : BlockAdapter.withBlockSize 20 3 = none := by decide

end Fenris
