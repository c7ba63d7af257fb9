import Verif.Spec.Assembly
import Verif.Lemmas.Disjoint
import Verif.Lemmas.MeshOps
/-! # Lemmas for sparsity patterns (C20) -/
set_option autoImplicit false
set_option linter.unusedSimpArgs false

namespace Fenris
namespace Assembly
open DisjointSubsets

/-- What the node sets look like after some critical sections. -/
structure SetsInv (n : Nat) (ops : List (Nat × List Nat)) (sets : List (List Nat)) : Prop where
  len : sets.length = n
  nodup : ∀ s ∈ sets, s.Nodup
  mem : ∀ (i : Nat) (s : List Nat), sets[i]? = some s → ∀ j, j ∈ s ↔ ∃ e, (i, e) ∈ ops ∧ j ∈ e

theorem setInsert_mem (s : List Nat) (i x : Nat) : x ∈ setInsert s i ↔ x = i ∨ x ∈ s := by
  unfold setInsert
  split
  · constructor
    · exact .inr
    · rintro (rfl | h)
      · assumption
      · exact h
  · simp

theorem setInsert_nodup (s : List Nat) (i : Nat) (h : s.Nodup) : (setInsert s i).Nodup := by
  unfold setInsert
  split
  · exact h
  · rename_i hi; exact List.nodup_cons.2 ⟨hi, h⟩

theorem insertRow_eq (e : List Nat) (sets : List (List Nat)) (i : Nat) (hi : i < sets.length) :
    insertRow e sets i = some (sets.set i (e.foldl setInsert sets[i])) := by
  induction e generalizing sets with
  | nil => simp [insertRow]
  | cons j e ih =>
    have h1 : insertNode i sets j = some (sets.set i (setInsert sets[i] j)) := by
      simp [insertNode, List.getElem?_eq_getElem hi]
    have h2 := ih (sets.set i (setInsert sets[i] j)) (by simpa using hi)
    simp only [insertRow, List.foldlM_cons, h1] at h2 ⊢
    simp only [Option.bind_eq_bind, Option.bind_some]
    rw [h2]
    simp

theorem insertRow_none (e : List Nat) (sets : List (List Nat)) (i : Nat) (hi : sets.length ≤ i)
    (he : e ≠ []) : insertRow e sets i = none := by
  cases e with
  | nil => exact absurd rfl he
  | cons j e =>
    simp only [insertRow, List.foldlM_cons]
    have : insertNode i sets j = none := by simp [insertNode, List.getElem?_eq_none hi]
    rw [this]; rfl

theorem runLockOps_inv (n : Nat) (ops done : List (Nat × List Nat)) (sets : List (List Nat))
    (h : SetsInv n done sets) (hops : ∀ op ∈ ops, op.1 < n) :
    ∃ sets', runLockOps sets ops = some sets' ∧ SetsInv n (done ++ ops) sets' := by
  induction ops generalizing sets done with
  | nil => exact ⟨sets, rfl, by simpa using h⟩
  | cons op ops ih =>
    obtain ⟨i, e⟩ := op
    have hi : i < sets.length := by rw [h.len]; exact hops (i, e) (by simp)
    have h1 := insertRow_eq e sets i hi
    have hinv : SetsInv n (done ++ [(i, e)]) (sets.set i (e.foldl setInsert sets[i])) := by
      refine ⟨by simpa using h.len, ?_, ?_⟩
      · intro s hs
        rcases List.mem_or_eq_of_mem_set hs with hs | rfl
        · exact h.nodup s hs
        · exact setInsert_foldl_nodup e _ (h.nodup _ (List.getElem_mem hi))
      · intro k s hk j
        by_cases hki : i = k
        · subst hki
          rw [List.getElem?_set_self hi] at hk
          cases hk
          rw [setInsert_foldl_mem]
          have := h.mem i _ (List.getElem?_eq_getElem hi) j
          rw [this]
          simp only [List.mem_append, List.mem_singleton, Prod.mk.injEq, true_and]
          constructor
          · rintro (⟨e', h1, h2⟩ | h)
            · exact ⟨e', .inl h1, h2⟩
            · exact ⟨e, .inr rfl, h⟩
          · rintro ⟨e', h1 | rfl, h2⟩
            · exact .inl ⟨e', h1, h2⟩
            · exact .inr h2
        · rw [List.getElem?_set_ne hki] at hk
          rw [h.mem k s hk j]
          simp only [List.mem_append, List.mem_singleton, Prod.mk.injEq]
          constructor
          · rintro ⟨e', h1, h2⟩; exact ⟨e', .inl h1, h2⟩
          · rintro ⟨e', h1 | ⟨h, -⟩, h2⟩
            · exact ⟨e', h1, h2⟩
            · exact absurd h.symm hki
    obtain ⟨sets', h2, h3⟩ := ih (done ++ [(i, e)]) _ hinv (fun op hop => hops op (by simp [hop]))
    refine ⟨sets', ?_, by simpa using h3⟩
    simp only [runLockOps, List.foldlM_cons, h1] at h2 ⊢
    simpa using h2

theorem setsInv_init (n : Nat) : SetsInv n [] (List.replicate n []) := by
  refine ⟨by simp, ?_, ?_⟩
  · intro s hs; rw [List.mem_replicate] at hs; rw [hs.2]; exact List.nodup_nil
  · intro i s hs j
    rw [List.getElem?_replicate] at hs
    split at hs
    · cases hs; simp
    · cases hs

/-- All critical sections, in program order. -/
def allOps (c : Conn) : List (Nat × List Nat) := c.elements.flatMap (fun e => e.map (fun n => (n, e)))

theorem runLockOps_append (sets : List (List Nat)) (a b : List (Nat × List Nat)) :
    runLockOps sets (a ++ b) = (runLockOps sets a).bind (fun s => runLockOps s b) := by
  simp [runLockOps, List.foldlM_append]

theorem serial_eq_ops (es : List (List Nat)) (sets : List (List Nat)) :
    es.foldlM insertElement sets =
      runLockOps sets (es.flatMap (fun e => e.map (fun n => (n, e)))) := by
  induction es generalizing sets with
  | nil => rfl
  | cons e es ih =>
    rw [List.flatMap_cons, runLockOps_append, List.foldlM_cons]
    have : insertElement sets e = runLockOps sets (e.map (fun n => (n, e))) := by
      simp [insertElement, runLockOps, List.foldlM_map]
    rw [this]
    cases runLockOps sets (e.map (fun n => (n, e))) with
    | none => rfl
    | some s => exact ih s

theorem runLockOps_none (sets : List (List Nat)) (ops : List (Nat × List Nat))
    (h : ∃ op ∈ ops, sets.length ≤ op.1 ∧ op.2 ≠ []) : runLockOps sets ops = none := by
  induction ops generalizing sets with
  | nil => simp at h
  | cons op ops ih =>
    obtain ⟨i, e⟩ := op
    by_cases hi : i < sets.length
    · have h1 := insertRow_eq e sets i hi
      have h2 := ih (sets.set i (e.foldl setInsert sets[i])) (by
        obtain ⟨op, hop, ho1, ho2⟩ := h
        rcases List.mem_cons.1 hop with rfl | hop
        · exact absurd hi (by simpa using ho1)
        · exact ⟨op, hop, by simpa using ho1, ho2⟩)
      simp only [runLockOps, List.foldlM_cons, h1] at h2 ⊢
      simpa using h2
    · by_cases he : e = []
      · subst he
        have : insertRow [] sets i = some sets := rfl
        have h2 := ih sets (by
          obtain ⟨op, hop, ho1, ho2⟩ := h
          rcases List.mem_cons.1 hop with rfl | hop
          · exact absurd rfl ho2
          · exact ⟨op, hop, ho1, ho2⟩)
        simp only [runLockOps, List.foldlM_cons, this] at h2 ⊢
        simpa using h2
      · have := insertRow_none e sets i (by omega) he
        simp only [runLockOps, List.foldlM_cons, this]; rfl

/-! ## Offsets and lanes -/

theorem pushOffsets_length (l : List Nat) (c : Nat) : (pushOffsets l c).length = l.length := by
  induction l generalizing c with
  | nil => rfl
  | cons a l ih => simp [pushOffsets, ih]

theorem cons_pushOffsets_get (l : List Nat) (c i : Nat) (hi : i ≤ l.length) :
    (c :: pushOffsets l c)[i]? = some (c + (l.take i).sum) := by
  induction l generalizing c i with
  | nil => simp only [List.length_nil, Nat.le_zero] at hi; subst hi; simp
  | cons a l ih =>
    cases i with
    | zero => simp
    | succ i =>
      simp only [pushOffsets, List.getElem?_cons_succ]
      rw [ih (c + a) i (by simpa using hi)]
      simp; omega

theorem pushOffsets_mono (l : List Nat) (c : Nat) :
    (c :: pushOffsets l c).Pairwise (fun a b => a ≤ b) := by
  induction l generalizing c with
  | nil => simp [pushOffsets]
  | cons a l ih =>
    have := ih (c + a)
    rw [pushOffsets, List.pairwise_cons]
    refine ⟨?_, this⟩
    intro x hx
    rcases List.mem_cons.1 hx with rfl | hx
    · omega
    · have := (List.pairwise_cons.1 this).1 x hx; omega

/-- The rows of the pattern. -/
def rowsOf (ord : List Nat → List Nat) (sdim : Nat) (sets : List (List Nat)) : List (List Nat) :=
  sets.flatMap (fun set => List.replicate sdim (blockRow sdim (Mesh.sortNat (ord set))))

theorem blockRow_length (sdim : Nat) (b : List Nat) : (blockRow sdim b).length = sdim * b.length := by
  unfold blockRow
  rw [List.length_flatMap]
  simp only [List.length_map, List.length_range]
  induction b with
  | nil => rfl
  | cons a b ih => simp only [List.map_cons, List.sum_cons, ih, List.length_cons]; rw [Nat.mul_succ]; omega

theorem indicesOf_eq (ord : List Nat → List Nat) (sdim : Nat) (sets : List (List Nat)) :
    indicesOf ord sdim sets = (rowsOf ord sdim sets).flatten := by
  unfold indicesOf rowsOf
  induction sets with
  | nil => rfl
  | cons a sets ih => simp only [List.flatMap_cons, List.flatten_append, ih]

theorem rowsOf_lengths (ord : List Nat → List Nat) (hord : ∀ l, (ord l).Perm l) (sdim : Nat)
    (sets : List (List Nat)) :
    (rowsOf ord sdim sets).map List.length =
      sets.flatMap (fun set => List.replicate sdim (sdim * set.length)) := by
  unfold rowsOf
  rw [List.map_flatMap]
  congr 1
  funext set
  rw [List.map_replicate, blockRow_length, (Mesh.sortNat_perm _).length_eq, (hord set).length_eq]

theorem length_flatten_sum (l : List (List Nat)) : l.flatten.length = (l.map List.length).sum := by
  rw [List.length_flatten]

theorem flatten_slice (rows : List (List Nat)) (i : Nat) (r : List Nat) (hi : rows[i]? = some r) :
    sliceGet? rows.flatten ((rows.map List.length).take i).sum
      ((rows.map List.length).take (i + 1)).sum = some r := by
  have key : ∀ (rows : List (List Nat)) (i : Nat), rows[i]? = some r →
      ((rows.flatten.drop ((rows.map List.length).take i).sum).take r.length = r ∧
      ((rows.map List.length).take (i + 1)).sum = ((rows.map List.length).take i).sum + r.length ∧
      ((rows.map List.length).take (i + 1)).sum ≤ rows.flatten.length) := by
    intro rows
    induction rows with
    | nil => intro i h; simp at h
    | cons a rows ih =>
      intro i h
      cases i with
      | zero => simp at h; subst h; simp
      | succ i =>
        simp only [List.getElem?_cons_succ] at h
        obtain ⟨h1, h2, h3⟩ := ih i h
        refine ⟨?_, ?_, ?_⟩
        · simp only [List.map_cons, List.take_succ_cons, List.sum_cons, List.flatten_cons]
          rw [List.drop_append, List.drop_eq_nil_of_le (by omega)]
          simpa using h1
        · simp only [List.map_cons, List.take_succ_cons, List.sum_cons] at h2 ⊢; omega
        · simp only [List.map_cons, List.take_succ_cons, List.sum_cons, List.flatten_cons,
            List.length_append] at h3 ⊢; omega
  obtain ⟨h1, h2, h3⟩ := key rows i hi
  unfold sliceGet?
  rw [if_pos ⟨by omega, h3⟩, h2, Nat.add_sub_cancel_left, h1]

/-- A pattern given by its rows. -/
def ofRows (n : Nat) (rows : List (List Nat)) : CsrPattern :=
  ⟨n, n, 0 :: pushOffsets (rows.map List.length) 0, rows.flatten⟩

theorem ofRows_lane (n : Nat) (rows : List (List Nat)) (i : Nat) :
    (ofRows n rows).lane i = rows[i]? := by
  unfold CsrPattern.lane ofRows
  simp only
  by_cases hi : i < rows.length
  · rw [cons_pushOffsets_get _ _ _ (by simp; omega), cons_pushOffsets_get _ _ _ (by simp; omega)]
    simp only [Nat.zero_add]
    rw [flatten_slice rows i rows[i] (List.getElem?_eq_getElem hi), List.getElem?_eq_getElem hi]
  · rw [List.getElem?_eq_none (l := rows) (by omega)]
    have : (0 :: pushOffsets (rows.map List.length) 0)[i + 1]? = none := by
      apply List.getElem?_eq_none; simp [pushOffsets_length]; omega
    rw [this]
    split
    · rename_i h; cases h
    · rfl

theorem ofRows_last (n : Nat) (rows : List (List Nat)) :
    (ofRows n rows).offsets[rows.length]? = some (ofRows n rows).indices.length := by
  unfold ofRows
  simp only
  rw [cons_pushOffsets_get _ _ _ (by simp), List.take_of_length_le (by simp)]
  simp [List.length_flatten]

theorem rowsOf_length (ord : List Nat → List Nat) (sdim : Nat) (sets : List (List Nat)) :
    (rowsOf ord sdim sets).length = sdim * sets.length := by
  unfold rowsOf
  rw [List.length_flatMap]
  simp only [List.length_replicate]
  induction sets with
  | nil => rfl
  | cons a b ih => simp only [List.map_cons, List.sum_cons, ih, List.length_cons]; rw [Nat.mul_succ]; omega

theorem rowsOf_get (ord : List Nat → List Nat) (sdim : Nat) (sets : List (List Nat)) (i : Nat)
    (hi : i < sdim * sets.length) :
    (rowsOf ord sdim sets)[i]? =
      sets[i / sdim]?.map (fun set => blockRow sdim (Mesh.sortNat (ord set))) := by
  have hs : 0 < sdim := by
    rcases Nat.eq_zero_or_pos sdim with rfl | h
    · simp at hi
    · exact h
  induction sets generalizing i with
  | nil => simp at hi
  | cons a sets ih =>
    unfold rowsOf at ih ⊢
    rw [List.flatMap_cons]
    by_cases h : i < sdim
    · rw [List.getElem?_append_left (by simpa using h), List.getElem?_replicate, if_pos h,
        Nat.div_eq_of_lt h]
      simp
    · rw [List.getElem?_append_right (by simp; omega), List.length_replicate]
      rw [List.length_cons, Nat.mul_succ] at hi
      rw [ih (i - sdim) (by omega)]
      have : i / sdim = (i - sdim) / sdim + 1 := by
        rw [Nat.div_eq i sdim, if_pos ⟨hs, by omega⟩]
      rw [this]; simp

theorem mem_blockRow (sdim : Nat) (b : List Nat) (j : Nat) :
    j ∈ blockRow sdim b ↔ 0 < sdim ∧ j / sdim ∈ b := by
  unfold blockRow
  simp only [List.mem_flatMap, List.mem_map, List.mem_range]
  constructor
  · rintro ⟨n, hn, k, hk, rfl⟩
    have hs : 0 < sdim := by omega
    refine ⟨hs, ?_⟩
    rw [Nat.mul_add_div hs, Nat.div_eq_of_lt hk]; simpa using hn
  · rintro ⟨hs, h⟩
    exact ⟨j / sdim, h, j % sdim, Nat.mod_lt _ hs, Nat.div_add_mod _ _⟩

theorem blockRow_sorted (sdim : Nat) (b : List Nat) (hb : b.Pairwise (fun x y => x < y)) :
    (blockRow sdim b).Pairwise (fun x y => x < y) := by
  unfold blockRow
  rw [List.pairwise_flatMap]
  refine ⟨?_, ?_⟩
  · intro n _
    rw [List.pairwise_map]
    exact (List.pairwise_lt_range).imp (by intro a b h; omega)
  · refine hb.imp ?_
    intro x y hxy p hp q hq
    simp only [List.mem_map, List.mem_range] at hp hq
    obtain ⟨k, hk, rfl⟩ := hp
    obtain ⟨l, hl, rfl⟩ := hq
    have : sdim * (x + 1) ≤ sdim * y := Nat.mul_le_mul_left _ hxy
    rw [Nat.mul_succ] at this
    omega

theorem sortNat_strict (l : List Nat) (h : l.Nodup) :
    (Mesh.sortNat l).Pairwise (fun x y => x < y) := by
  have h1 := Mesh.sortNat_sorted l
  have h2 : (Mesh.sortNat l).Nodup := (Mesh.sortNat_perm l).nodup_iff.2 h
  exact (h1.and h2).imp (by intro a b h; omega)

theorem finish_eq (ord : List Nat → List Nat) (hord : ∀ l, (ord l).Perm l) (sdim n : Nat)
    (sets : List (List Nat)) (hlen : sets.length = n) :
    finishPattern (sdim * n) (offsetsOf sdim sets) (indicesOf ord sdim sets) =
      some (ofRows (sdim * n) (rowsOf ord sdim sets)) := by
  have h1 : offsetsOf sdim sets = (ofRows (sdim * n) (rowsOf ord sdim sets)).offsets := by
    unfold offsetsOf ofRows
    simp only
    rw [rowsOf_lengths ord hord]
  have h2 := indicesOf_eq ord sdim sets
  have h3 := rowsOf_length ord sdim sets
  have h4 := ofRows_last (sdim * n) (rowsOf ord sdim sets)
  have h5 : (ofRows (sdim * n) (rowsOf ord sdim sets)).offsets.length = sdim * n + 1 := by
    simp [ofRows, pushOffsets_length, h3, hlen]
  unfold finishPattern
  rw [h1, h2]
  rw [if_pos]
  · rfl
  · refine ⟨h5, ?_⟩
    rw [List.getLast?_eq_getElem?, h5]
    rw [h3, hlen] at h4
    exact h4

/-! ## Batches and writes -/

theorem batches_flatten (n : Nat) : (batches n).flatten = List.range n := by
  have key : ∀ m, ((List.range m).map (batch n)).flatten = List.range (min n (10 * m)) := by
    intro m
    induction m with
    | zero => simp
    | succ m ih =>
      rw [List.range_succ, List.map_append, List.flatten_append, ih]
      simp only [List.map_cons, List.map_nil, List.flatten_cons, List.flatten_nil, List.append_nil,
        batch]
      by_cases h : n ≤ 10 * m
      · have e1 : min n (10 * m) = n := by omega
        have e2 : min n (10 * (m + 1)) = n := by omega
        have e3 : min n (10 * m + 10) - 10 * m = 0 := by omega
        rw [e1, e2, e3]; simp
      · have e1 : min n (10 * m) = 10 * m := by omega
        have e2 : min n (10 * (m + 1)) = 10 * m + (min n (10 * m + 10) - 10 * m) := by omega
        rw [e1, e2, List.range_eq_range', List.range_eq_range', ← List.range'_append_1,
          Nat.zero_add]
  unfold batches
  rw [key]
  congr 1
  omega

theorem lockOps_flatten (c : Conn) :
    ((batches c.elements.length).map (lockOps c)).flatten = allOps c := by
  have : ((batches c.elements.length).map (lockOps c)).flatten =
      lockOps c (batches c.elements.length).flatten := by
    generalize batches c.elements.length = bs
    induction bs with
    | nil => rfl
    | cons b bs ih =>
      rw [List.map_cons, List.flatten_cons, List.flatten_cons, ih]
      simp only [lockOps, List.flatMap_append]
  rw [this, batches_flatten]
  unfold lockOps allOps
  generalize c.elements = es
  rw [List.flatMap_def, List.flatMap_def]
  congr 1
  apply List.ext_getElem?
  intro i
  by_cases hi : i < es.length
  · simp [hi]
  · simp [hi]

theorem writeAt_all (vals : List Nat) (ops : List (Nat × Nat))
    (hops : ops.Perm ((List.range vals.length).zip vals)) (l : List Nat)
    (hl : l.length = vals.length) : ops.foldlM writeAt l = some vals := by
  -- after any list of ops with distinct positions
  have key : ∀ (ops : List (Nat × Nat)) (l : List Nat), (ops.map Prod.fst).Nodup →
      (∀ w ∈ ops, w.1 < l.length) →
      ∃ l', ops.foldlM writeAt l = some l' ∧ l'.length = l.length ∧
        (∀ w ∈ ops, l'[w.1]? = some w.2) ∧
        (∀ i, i ∉ ops.map Prod.fst → l'[i]? = l[i]?) := by
    intro ops
    induction ops with
    | nil => intro l _ _; exact ⟨l, rfl, rfl, by simp, by simp⟩
    | cons w ops ih =>
      intro l hn hb
      rw [List.map_cons, List.nodup_cons] at hn
      have hw := hb w (by simp)
      obtain ⟨l', h1, h2, h3, h4⟩ := ih (l.set w.1 w.2) hn.2
        (fun w' hw' => by simpa using hb w' (by simp [hw']))
      refine ⟨l', ?_, by simpa using h2, ?_, ?_⟩
      · rw [List.foldlM_cons]
        have : writeAt l w = some (l.set w.1 w.2) := by simp [writeAt, hw]
        rw [this]; exact h1
      · intro w' hw'
        rcases List.mem_cons.1 hw' with rfl | hw'
        · rw [h4 _ hn.1, List.getElem?_set_self hw]
        · exact h3 w' hw'
      · intro i hi
        rw [List.map_cons, List.mem_cons, not_or] at hi
        rw [h4 i hi.2, List.getElem?_set_ne (Ne.symm hi.1)]
  have hfst : (ops.map Prod.fst).Perm (List.range vals.length) := by
    have := hops.map Prod.fst
    rwa [List.map_fst_zip (by simp)] at this
  obtain ⟨l', h1, h2, h3, -⟩ := key ops l (hfst.nodup_iff.2 List.nodup_range) (by
    intro w hw
    have : w.1 ∈ List.range vals.length := hfst.mem_iff.1 (List.mem_map_of_mem hw)
    rw [hl]; exact List.mem_range.1 this)
  rw [h1]
  congr 1
  apply List.ext_getElem?
  intro i
  by_cases hi : i < vals.length
  · have hm : (i, vals[i]) ∈ ops := by
      rw [hops.mem_iff]
      rw [List.mem_iff_getElem?]
      exact ⟨i, by simp [List.getElem?_zip_eq_some, hi]⟩
    rw [h3 _ hm, List.getElem?_eq_getElem hi]
  · rw [List.getElem?_eq_none (by omega), List.getElem?_eq_none (by omega)]

theorem zipIdx_flatMap_block (sdim : Nat) (b : Nat) (buf : List Nat) (k : Nat) :
    (buf.zipIdx k).flatMap (fun p =>
        (List.range sdim).map (fun j => (b + sdim * p.2 + j, sdim * p.1 + j))) =
      (List.range' (b + sdim * k) (sdim * buf.length)).zip (blockRow sdim buf) := by
  induction buf generalizing k with
  | nil => simp [blockRow]
  | cons a buf ih =>
    rw [List.zipIdx_cons, List.flatMap_cons, ih]
    have h1 : blockRow sdim (a :: buf) =
        (List.range sdim).map (fun j => sdim * a + j) ++ blockRow sdim buf := by
      simp [blockRow]
    have h2 : List.range' (b + sdim * k) (sdim * (a :: buf).length) =
        List.range' (b + sdim * k) sdim ++ List.range' (b + sdim * (k + 1)) (sdim * buf.length) := by
      rw [List.length_cons, Nat.mul_succ sdim k, ← Nat.add_assoc, List.range'_append_1]
      congr 1
      rw [Nat.mul_succ]; omega
    rw [h1, h2, List.zip_append (by simp)]
    congr 1
    apply List.ext_getElem?
    intro i
    by_cases hi : i < sdim
    · rw [List.getElem?_map, List.getElem?_range hi]
      symm
      rw [Option.map_some, List.getElem?_zip_eq_some]
      simp [hi]
    · rw [List.getElem?_eq_none (by simp; omega), List.getElem?_eq_none (by simp; omega)]

/-- The writes for consecutive rows are the enumeration of the concatenated rows. -/
theorem flatten_zip (rows : List (List Nat)) (c : Nat) :
    ((List.range rows.length).map (fun i =>
      (List.range' (c + ((rows.map List.length).take i).sum) (rows[i]?.getD []).length).zip
        (rows[i]?.getD []))).flatten =
      (List.range' c rows.flatten.length).zip rows.flatten := by
  induction rows generalizing c with
  | nil => simp
  | cons a rows ih =>
    rw [List.length_cons, List.range_succ_eq_map, List.map_cons, List.flatten_cons, List.map_map]
    have h := ih (c + a.length)
    simp only [Function.comp_def, List.getElem?_cons_succ, List.map_cons, List.take_succ_cons,
      List.sum_cons, ← Nat.add_assoc, List.take_zero, List.sum_nil, Nat.add_zero,
      List.getElem?_cons_zero, Option.getD_some] at h ⊢
    rw [h, List.flatten_cons, List.length_append]
    rw [← List.zip_append (by simp), List.range'_append_1]

theorem mapM_some_map {α β : Type} (f : α → Option β) (g : α → β) (l : List α)
    (h : ∀ a ∈ l, f a = some (g a)) : l.mapM f = some (l.map g) := by
  induction l with
  | nil => rfl
  | cons a l ih =>
    rw [List.mapM_cons, h a (by simp), ih (fun b hb => h b (by simp [hb]))]
    rfl

theorem range_mul_map {β : Type} (s n : Nat) (f : Nat → β) :
    (List.range n).flatMap (fun i => (List.range s).map (fun k => f (s * i + k))) =
      (List.range (s * n)).map f := by
  induction n with
  | zero => simp
  | succ n ih =>
    rw [List.range_succ, List.flatMap_append, ih, Nat.mul_succ, List.range_add, List.map_append]
    simp [List.map_map, Function.comp_def]

theorem offsetsOf_get (ord : List Nat → List Nat) (hord : ∀ l, (ord l).Perm l) (sdim : Nat)
    (sets : List (List Nat)) (r : Nat) (hr : r ≤ sdim * sets.length) :
    (offsetsOf sdim sets)[r]? =
      some (((rowsOf ord sdim sets).map List.length).take r).sum := by
  unfold offsetsOf
  rw [← rowsOf_lengths ord hord, cons_pushOffsets_get _ _ _ (by simpa [rowsOf_length] using hr)]
  simp

/-- The writes of row `r`. -/
def W (rows : List (List Nat)) (r : Nat) : List (Nat × Nat) :=
  (List.range' (0 + ((rows.map List.length).take r).sum) (rows[r]?.getD []).length).zip
    (rows[r]?.getD [])

theorem nodeWrites_eq (ord : List Nat → List Nat) (hord : ∀ l, (ord l).Perm l) (sdim : Nat)
    (sets : List (List Nat)) (i : Nat) (hi : i < sets.length) :
    nodeWrites ord sdim (offsetsOf sdim sets) sets i =
      some ((List.range sdim).map (fun si => W (rowsOf ord sdim sets) (sdim * i + si))).flatten := by
  unfold nodeWrites
  rw [List.getElem?_eq_getElem hi]
  simp only
  rw [mapM_some_map _ (fun si => W (rowsOf ord sdim sets) (sdim * i + si))]
  · rfl
  · intro si hsi
    rw [List.mem_range] at hsi
    have hlt : sdim * i + si < sdim * sets.length := by
      have : sdim * (i + 1) ≤ sdim * sets.length := Nat.mul_le_mul_left _ hi
      rw [Nat.mul_succ] at this; omega
    have hrow := rowsOf_get ord sdim sets (sdim * i + si) hlt
    have hdiv : (sdim * i + si) / sdim = i := by
      rw [Nat.mul_add_div (by omega), Nat.div_eq_of_lt hsi]; rfl
    rw [hdiv, List.getElem?_eq_getElem hi, Option.map_some] at hrow
    obtain ⟨hh, hg⟩ := List.getElem?_eq_some_iff.1 hrow
    have hnext : (((rowsOf ord sdim sets).map List.length).take (sdim * i + si + 1)).sum =
        (((rowsOf ord sdim sets).map List.length).take (sdim * i + si)).sum +
          sdim * (Mesh.sortNat (ord sets[i])).length := by
      rw [List.take_succ_eq_append_getElem (by simpa using hh), List.sum_append]
      simp [hg, blockRow_length]
    unfold rowWrites
    rw [offsetsOf_get ord hord sdim sets _ (by omega),
      offsetsOf_get ord hord sdim sets _ (by omega), hnext]
    simp only
    rw [if_pos ⟨by omega, by omega⟩]
    have := zipIdx_flatMap_block sdim
      (((rowsOf ord sdim sets).map List.length).take (sdim * i + si)).sum
      (Mesh.sortNat (ord sets[i])) 0
    rw [this]
    simp only [W, hrow, Option.getD_some, blockRow_length, Nat.mul_zero, Nat.add_zero, Nat.zero_add]

theorem parWrites_eq (ord : List Nat → List Nat) (hord : ∀ l, (ord l).Perm l) (sdim n : Nat)
    (sets : List (List Nat)) (hn : sets.length = n) :
    ∃ ws, (batches n).mapM (fun b => b.mapM (nodeWrites ord sdim (offsetsOf sdim sets) sets)) = some ws ∧
      ws.flatten.flatten = (List.range (indicesOf ord sdim sets).length).zip
        (indicesOf ord sdim sets) := by
  let g := fun i => ((List.range sdim).map (fun si => W (rowsOf ord sdim sets) (sdim * i + si))).flatten
  refine ⟨(batches n).map (fun b => b.map g), ?_, ?_⟩
  · apply mapM_some_map
    intro b hb
    apply mapM_some_map
    intro i hi
    have : i ∈ (batches n).flatten := List.mem_flatten.2 ⟨b, hb, hi⟩
    rw [batches_flatten, List.mem_range] at this
    exact nodeWrites_eq ord hord sdim sets i (by omega)
  · have h1 : ((batches n).map (fun b => b.map g)).flatten = (List.range n).map g := by
      rw [← batches_flatten n, List.map_flatten]
    rw [h1]
    have h2 := flatten_zip (rowsOf ord sdim sets) 0
    rw [rowsOf_length, hn, ← range_mul_map] at h2
    rw [indicesOf_eq, List.range_eq_range' (n := (rowsOf ord sdim sets).flatten.length), ← h2]
    have h3 : ∀ (l : List Nat), (l.map g).flatten = (l.flatMap (fun i =>
        (List.range sdim).map (fun k => W (rowsOf ord sdim sets) (sdim * i + k)))).flatten := by
      intro l
      induction l with
      | nil => rfl
      | cons a l ih => simp only [List.map_cons, List.flatten_cons, ih, List.flatMap_cons,
          List.flatten_append]; rfl
    exact h3 _

/-- Two runs of the same critical sections in different orders lead to the same pattern. -/
theorem setsInv_perm (n : Nat) (ops ops' : List (Nat × List Nat)) (h : ops.Perm ops')
    (s s' : List (List Nat)) (hs : SetsInv n ops s) (hs' : SetsInv n ops' s') (i : Nat)
    (hi : i < n) : ∃ a b, s[i]? = some a ∧ s'[i]? = some b ∧ a.Perm b := by
  have h1 : i < s.length := by rw [hs.len]; exact hi
  have h2 : i < s'.length := by rw [hs'.len]; exact hi
  refine ⟨s[i], s'[i], List.getElem?_eq_getElem h1, List.getElem?_eq_getElem h2, ?_⟩
  apply (List.perm_ext_iff_of_nodup (hs.nodup _ (List.getElem_mem h1))
    (hs'.nodup _ (List.getElem_mem h2))).2
  intro j
  rw [hs.mem i _ (List.getElem?_eq_getElem h1) j, hs'.mem i _ (List.getElem?_eq_getElem h2) j]
  simp only [h.mem_iff]

theorem rowsOf_congr (ord ord' : List Nat → List Nat) (hord : ∀ l, (ord l).Perm l)
    (hord' : ∀ l, (ord' l).Perm l) (sdim n : Nat) (s s' : List (List Nat)) (hs : s.length = n)
    (hs' : s'.length = n)
    (h : ∀ i, i < n → ∃ a b, s[i]? = some a ∧ s'[i]? = some b ∧ a.Perm b) :
    rowsOf ord sdim s = rowsOf ord' sdim s' := by
  unfold rowsOf
  have : s.map (fun set => Mesh.sortNat (ord set)) = s'.map (fun set => Mesh.sortNat (ord' set)) := by
    apply List.ext_getElem?
    intro i
    by_cases hi : i < n
    · obtain ⟨a, b, h1, h2, h3⟩ := h i hi
      rw [List.getElem?_map, List.getElem?_map, h1, h2]
      simp only [Option.map_some, Option.some.injEq]
      exact (Mesh.sortNat_eq_iff _ _).2 ((hord a).trans (h3.trans (hord' b).symm))
    · rw [List.getElem?_eq_none (by simp; omega), List.getElem?_eq_none (by simp; omega)]
  have h2 := congrArg (List.flatMap (fun b => List.replicate sdim (blockRow sdim b))) this
  simpa [List.flatMap_map] using h2

theorem serial_sets (c : Conn) (h : Spec.NodesInBounds c) :
    ∃ sets, c.elements.foldlM insertElement (List.replicate c.numNodes []) = some sets ∧
      SetsInv c.numNodes (allOps c) sets := by
  rw [serial_eq_ops]
  obtain ⟨sets, h1, h2⟩ := runLockOps_inv c.numNodes (allOps c) [] _ (setsInv_init _) (by
    intro op hop
    simp only [allOps, List.mem_flatMap, List.mem_map] at hop
    obtain ⟨e, he, n, hn, rfl⟩ := hop
    exact h e he n hn)
  exact ⟨sets, h1, by simpa using h2⟩

theorem mem_allOps (c : Conn) (i : Nat) (e : List Nat) :
    (i, e) ∈ allOps c ↔ e ∈ c.elements ∧ i ∈ e := by
  simp only [allOps, List.mem_flatMap, List.mem_map, Prod.mk.injEq]
  constructor
  · rintro ⟨e', he, n, hn, rfl, rfl⟩; exact ⟨he, hn⟩
  · rintro ⟨he, hi⟩; exact ⟨e, he, i, hi, rfl, rfl⟩

end Assembly
end Fenris
