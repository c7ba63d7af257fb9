import Verif.Spec.CsrRows
import Verif.Lemmas.ParExec
import Verif.Props.Pattern
/-! # C78: rows of CSR matrices can be processed in parallel -/
set_option autoImplicit false

namespace Fenris.CsrRows
open Fenris.CsrRows.Spec
open Fenris.Assembly
variable {K : Type}

private theorem offsets_mono {m : FlatCsr K} (hm : Valid m) {i j b e : Nat} (hij : i ≤ j)
    (hb : m.pattern.offsets[i]? = some b) (he : m.pattern.offsets[j]? = some e) : b ≤ e := by
  rcases Nat.lt_or_ge i j with h | h
  · obtain ⟨hi, rfl⟩ := List.getElem?_eq_some_iff.mp hb
    obtain ⟨hj, rfl⟩ := List.getElem?_eq_some_iff.mp he
    exact List.pairwise_iff_getElem.mp hm.pattern.monotone i j hi hj h
  · have : i = j := by omega
    subst this
    rw [hb] at he
    exact le_of_eq (Option.some.inj he)

private theorem offset_some {m : FlatCsr K} (hm : Valid m) (i : Nat) (hi : i ≤ m.pattern.nrows) :
    ∃ b, m.pattern.offsets[i]? = some b ∧ b ≤ m.pattern.indices.length := by
  have hl := hm.pattern.offsets_length
  refine ⟨m.pattern.offsets[i]'(by omega), List.getElem?_eq_getElem _, ?_⟩
  exact offsets_mono hm hi (List.getElem?_eq_getElem (by omega)) hm.pattern.last

/-- The columns and values between two offsets. -/
private def rowAt (m : FlatCsr K) (i : Nat) : List Nat × List K :=
  let b := m.pattern.offsets.getD i 0
  let e := m.pattern.offsets.getD (i + 1) 0
  ((m.pattern.indices.drop b).take (e - b), (m.values.drop b).take (e - b))

private theorem take_slice {A : Type} (l : List A) (b e : Nat) (h : b ≤ e) :
    l.take b ++ (l.drop b).take (e - b) = l.take e := by
  rw [← List.take_add]
  congr 1
  omega

private theorem flat_take {m : FlatCsr K} (hm : Valid m) (n : Nat) (hn : n ≤ m.pattern.nrows) :
    ((List.range n).map (rowAt m)).flatMap Prod.fst = m.pattern.indices.take (m.pattern.offsets.getD n 0) ∧
    ((List.range n).map (rowAt m)).flatMap Prod.snd = m.values.take (m.pattern.offsets.getD n 0) := by
  induction n with
  | zero => simp [List.getD_eq_getElem?_getD, hm.pattern.first]
  | succ n ih =>
    obtain ⟨b, hb, -⟩ := offset_some hm n (by omega)
    obtain ⟨e, he, -⟩ := offset_some hm (n + 1) hn
    have hbe := offsets_mono hm (Nat.le_succ n) hb he
    obtain ⟨h1, h2⟩ := ih (by omega)
    rw [List.range_succ, List.map_append, List.flatMap_append, List.flatMap_append, h1, h2]
    simp only [List.map_cons, List.map_nil, List.flatMap_cons, List.flatMap_nil, List.append_nil, rowAt,
      List.getD_eq_getElem?_getD, hb, he, Option.getD_some]
    exact ⟨take_slice _ _ _ hbe, take_slice _ _ _ hbe⟩

private theorem getRow_eq {m : FlatCsr K} (hm : Valid m) (i : Nat) (hi : i < m.pattern.nrows) :
    getRow m i = some (rowAt m i) ∧ (rowAt m i).2.length = (rowAt m i).1.length := by
  obtain ⟨b, hb, -⟩ := offset_some hm i (by omega)
  obtain ⟨e, he, hel⟩ := offset_some hm (i + 1) hi
  have hbe := offsets_mono hm (Nat.le_succ i) hb he
  have hv := hm.values
  have hlen : ((m.pattern.indices.drop b).take (e - b)).length = e - b := by
    rw [List.length_take, List.length_drop]; omega
  have h1 : sliceGet? m.pattern.indices b e = some ((m.pattern.indices.drop b).take (e - b)) := if_pos ⟨hbe, hel⟩
  have h2 : sliceGet? m.values b (b + (e - b)) = some ((m.values.drop b).take (e - b)) := by
    rw [sliceGet?, if_pos ⟨by omega, by omega⟩]
    congr 2
    omega
  constructor
  · rw [getRow, hb, Option.bind_some, he, Option.bind_some, h1, Option.bind_some, hlen, h2]
    simp [rowAt, List.getD_eq_getElem?_getD, hb, he]
  · simp only [rowAt, List.getD_eq_getElem?_getD, hb, he, Option.getD_some, List.length_take, List.length_drop]
    omega

/-- C78: a valid CSR matrix is a list of rows, and access number `i` of the collection is row number `i`: its columns are those
of the pattern, and its values those of the matrix. -/
theorem C78_rows (m : FlatCsr K) (hm : Valid m) :
    ∃ rows, IsRows m rows ∧ len m = rows.length ∧ ∀ i, i < len m → getRow m i = rows[i]? ∧
      (getRow m i).map Prod.fst = m.pattern.lane i := by
  refine ⟨(List.range m.pattern.nrows).map (rowAt m), ⟨by simp, ?_, ?_, ?_, ?_⟩, by simp [len], ?_⟩
  · intro r hr
    obtain ⟨i, hi, rfl⟩ := List.mem_map.mp hr
    exact (getRow_eq hm i (List.mem_range.mp hi)).2
  · rw [(flat_take hm _ le_rfl).1, List.getD_eq_getElem?_getD, hm.pattern.last]
    simp
  · rw [(flat_take hm _ le_rfl).2, List.getD_eq_getElem?_getD, hm.pattern.last, Option.getD_some, ← hm.values]
    simp
  · intro i hi
    obtain ⟨b, hb, hbl⟩ := offset_some hm i hi
    rw [← List.map_take, List.take_range, Nat.min_eq_left hi, (flat_take hm i hi).1, List.getD_eq_getElem?_getD, hb,
      Option.getD_some, List.length_take, Nat.min_eq_left hbl]
  · intro i hi
    have hi' : i < m.pattern.nrows := hi
    obtain ⟨h1, h2⟩ := getRow_eq hm i hi'
    refine ⟨?_, ?_⟩
    · rw [h1]
      simp [hi']
    · obtain ⟨b, hb, -⟩ := offset_some hm i (by omega)
      obtain ⟨e, he, hel⟩ := offset_some hm (i + 1) hi'
      have hbe := offsets_mono hm (Nat.le_succ i) hb he
      rw [h1, CsrPattern.lane, hb, he]
      simp only [Option.map_some, sliceGet?, if_pos (show b ≤ e ∧ e ≤ m.pattern.indices.length from ⟨hbe, hel⟩), rowAt,
        List.getD_eq_getElem?_getD, hb, he, Option.getD_some]

private theorem flat_split {A B : Type} (f : A → List B) (l : List A) (i : Nat) (a : A) (h : l[i]? = some a) :
    l.flatMap f = (l.take i).flatMap f ++ f a ++ (l.drop (i + 1)).flatMap f := by
  obtain ⟨hi, rfl⟩ := List.getElem?_eq_some_iff.mp h
  conv_lhs => rw [← List.take_append_drop i l, List.drop_eq_getElem_cons hi]
  rw [List.flatMap_append, List.flatMap_cons, List.append_assoc]

private theorem prefix_len {rows : List (List Nat × List K)} (h : ∀ r ∈ rows, r.2.length = r.1.length) :
    (rows.flatMap Prod.snd).length = (rows.flatMap Prod.fst).length := by
  induction rows with
  | nil => rfl
  | cons r rs ih =>
    rw [List.flatMap_cons, List.flatMap_cons, List.length_append, List.length_append, h r (by simp),
      ih fun r hr => h r (by simp [hr])]

private theorem positions_eq {m : FlatCsr K} {rows : List (List Nat × List K)} (h : IsRows m rows) (i : Nat)
    (r : List Nat × List K) (hr : rows[i]? = some r) :
    rowPositions m i = some (List.range' ((rows.take i).flatMap Prod.fst).length r.1.length) := by
  have hi : i < rows.length := (List.getElem?_eq_some_iff.mp hr).1
  have hn := h.count
  have h1 := h.offsets i (by omega)
  have h2 := h.offsets (i + 1) (by omega)
  have htake : rows.take (i + 1) = rows.take i ++ [r] := by
    rw [List.take_add_one, hr]; rfl
  rw [htake] at h2
  simp only [List.flatMap_append, List.flatMap_cons, List.flatMap_nil, List.append_nil, List.length_append] at h2
  rw [rowPositions, h1, Option.bind_some, h2, Option.bind_some, sliceGet?, if_pos, Option.map_some]
  · congr 2
    rw [List.length_take, List.length_drop, ← h.indices, flat_split Prod.fst rows i r hr]
    simp only [List.length_append]
    omega
  · refine ⟨by omega, ?_⟩
    rw [← h.indices, flat_split Prod.fst rows i r hr]
    simp only [List.length_append]
    omega

private theorem write_fold (pre old post vals : List K) (h : vals.length = old.length) :
    ((List.range' pre.length old.length).zip vals).foldlM
      (fun (vs : List K) p => if p.1 < vs.length then some (vs.set p.1 p.2) else none) (pre ++ old ++ post) =
      some (pre ++ vals ++ post) := by
  induction vals generalizing pre old with
  | nil =>
    have : old = [] := by simpa using h.symm
    subst this
    simp
  | cons v vs ih =>
    cases old with
    | nil => simp at h
    | cons o os =>
      simp only [List.length_cons, Nat.add_right_cancel_iff] at h
      rw [List.length_cons, List.range'_succ, List.zip_cons_cons, List.foldlM_cons]
      have hlt : pre.length < (pre ++ o :: os ++ post).length := by simp
      simp only [if_pos hlt]
      have hset : (pre ++ o :: os ++ post).set pre.length v = (pre ++ [v]) ++ os ++ post := by
        rw [List.append_assoc, List.set_append_right _ _ (Nat.le_refl _)]
        simp
      rw [hset]
      have := ih (pre ++ [v]) os h
      rw [List.length_append, List.length_singleton] at this
      simpa using this

/-- C78: writing the values of a row changes this row of the matrix, and nothing else. -/
theorem C78_write (m : FlatCsr K) (rows : List (List Nat × List K)) (h : IsRows m rows) (i : Nat) (cols : List Nat)
    (old vals : List K) (hr : rows[i]? = some (cols, old)) (hv : vals.length = cols.length) :
    ∃ m', setRow m i vals = some m' ∧ m'.pattern = m.pattern ∧ IsRows m' (rows.set i (cols, vals)) := by
  have hi : i < rows.length := (List.getElem?_eq_some_iff.mp hr).1
  have hold : old.length = cols.length := h.lens _ (List.mem_of_getElem? hr)
  have hpre : ((rows.take i).flatMap Prod.snd).length = ((rows.take i).flatMap Prod.fst).length :=
    prefix_len fun r hr => h.lens r (List.mem_of_mem_take hr)
  have hset : rows.set i (cols, vals) = rows.take i ++ (cols, vals) :: rows.drop (i + 1) :=
    (List.set_eq_take_append_cons_drop ..).trans (by simp [hi])
  refine ⟨⟨m.pattern, (rows.take i).flatMap Prod.snd ++ vals ++ (rows.drop (i + 1)).flatMap Prod.snd⟩, ?_, rfl, ?_⟩
  · rw [setRow, positions_eq h i _ hr, Option.bind_some, List.length_range', if_pos hv, ← h.values,
      flat_split Prod.snd rows i _ hr]
    have := write_fold ((rows.take i).flatMap Prod.snd) old ((rows.drop (i + 1)).flatMap Prod.snd) vals (by omega)
    rw [hpre, hold] at this
    simp only [this, Option.map_some]
  · refine ⟨by simpa using h.count, ?_, ?_, ?_, ?_⟩
    · intro r hr'
      rcases List.mem_or_eq_of_mem_set hr' with g | rfl
      · exact h.lens r g
      · exact hv
    · rw [hset, ← h.indices, flat_split Prod.fst rows i _ hr]
      simp
    · rw [hset]
      simp
    · intro k hk
      show m.pattern.offsets[k]? = _
      rw [h.offsets k hk, hset]
      congr 2
      rcases Nat.lt_or_ge i k with g | g
      · rw [List.take_append]
        have e1 : (rows.take i).length = i := by simp; omega
        rw [e1, List.take_of_length_le (l := rows.take i) (by omega)]
        obtain ⟨j, rfl⟩ : ∃ j, k = i + 1 + j := ⟨k - i - 1, by omega⟩
        have e2 : i + 1 + j - i = j + 1 := by omega
        rw [e2, List.take_succ_cons, List.flatMap_append, List.flatMap_cons]
        have e3 : rows.take (i + 1 + j) = rows.take i ++ (cols, old) :: (rows.drop (i + 1)).take j := by
          rw [List.take_add, List.take_add_one, hr]
          simp
        rw [e3, List.flatMap_append, List.flatMap_cons]
      · rw [List.take_append_of_le_length (by simp; omega), List.take_take, Nat.min_eq_left g]

/-- The positions of all rows. -/
def allPositions (m : FlatCsr K) : Option (List (List Nat)) := (List.range (len m)).mapM (rowPositions m)

private theorem range'_split (s a b : Nat) : List.range' s a ++ List.range' (s + a) b = List.range' s (a + b) := by
  rw [List.range'_append_1]

private theorem allPositions_eq {m : FlatCsr K} {rows : List (List Nat × List K)} (h : IsRows m rows) :
    ∃ ps, allPositions m = some ps ∧ ps.length = len m ∧ ps.flatten = List.range m.values.length ∧
      ∀ i, i < len m → ps[i]? = rowPositions m i := by
  have key : ∀ n, n ≤ rows.length → ∃ ps, (List.range n).mapM (rowPositions m) = some ps ∧ ps.length = n ∧
      ps.flatten = List.range' 0 ((rows.take n).flatMap Prod.fst).length ∧
      ∀ i, i < n → ps[i]? = rowPositions m i := by
    intro n
    induction n with
    | zero => intro _; exact ⟨[], by simp⟩
    | succ n ih =>
      intro hn
      obtain ⟨ps, h1, h2, h3, h4⟩ := ih (by omega)
      have hr : rows[n]? = some rows[n] := List.getElem?_eq_getElem (by omega)
      have hp := positions_eq h n _ hr
      refine ⟨ps ++ [List.range' ((rows.take n).flatMap Prod.fst).length rows[n].1.length], ?_, by simp [h2], ?_, ?_⟩
      · rw [List.range_succ, List.mapM_append, h1]
        simp [hp]
      · have htake : rows.take (n + 1) = rows.take n ++ [rows[n]] := by
          rw [List.take_add_one, hr]; rfl
        rw [List.flatten_append, h3, htake, List.flatMap_append, List.length_append]
        simp only [List.flatten_cons, List.flatten_nil, List.append_nil, List.flatMap_cons, List.flatMap_nil]
        rw [← range'_split, Nat.zero_add]
      · intro i hi
        rcases Nat.lt_or_ge i n with g | g
        · rw [List.getElem?_append_left (by omega)]
          exact h4 i g
        · have : i = n := by omega
          subst this
          rw [List.getElem?_append_right (by omega), h2, Nat.sub_self, hp]
          rfl
  obtain ⟨ps, h1, h2, h3, h4⟩ := key rows.length le_rfl
  have hc := h.count
  refine ⟨ps, ?_, by rw [h2, len, hc], ?_, ?_⟩
  · rw [allPositions, len, ← hc, h1]
  · rw [h3, List.take_length, List.range_eq_range', ← h.values, prefix_len h.lens]
  · intro i hi
    exact h4 i (by rw [hc]; exact hi)

/-- C78: every value of the matrix belongs to exactly one row: the positions of the rows, one row after the other, are all
positions of the value array, and different rows have no position in common. -/
theorem C78_disjoint (m : FlatCsr K) (hm : Valid m) :
    ∃ ps, allPositions m = some ps ∧ ps.length = len m ∧ ps.flatten = List.range m.values.length ∧
      Fenris.Spec.DisjointFamily ps := by
  obtain ⟨rows, hrows, -⟩ := C78_rows m hm
  obtain ⟨ps, h1, h2, h3, h4⟩ := allPositions_eq hrows
  refine ⟨ps, h1, h2, h3, ?_⟩
  have hnd : ps.flatten.Nodup := by rw [h3]; exact List.nodup_range
  have hp := (List.nodup_flatten.mp hnd).2
  intro i j s t hij hs ht x hx hxt
  obtain ⟨hi, rfl⟩ := List.getElem?_eq_some_iff.mp hs
  obtain ⟨hj, rfl⟩ := List.getElem?_eq_some_iff.mp ht
  rcases Nat.lt_or_gt_of_ne hij with g | g
  · exact (List.pairwise_iff_getElem.mp hp i j hi hj g) hx hxt
  · exact (List.pairwise_iff_getElem.mp hp j i hj hi g) hxt hx

/-- C78: when every row is given to one worker, and the workers read and write the values of their rows, then no access is out of
bounds and every interleaving of their steps has the same result. -/
theorem C78_parallel {σ : Type} (m : FlatCsr K) (hm : Valid m) (ps : List (List Nat)) (hps : allPositions m = some ps)
    (locals : List (Option σ)) (w : Nat → Worker σ K) (s₁ s₂ : List Nat) (hs : s₁.Perm s₂) :
    ∃ st', (⟨m.values, locals⟩ : ParState σ K).exec ps w s₁ = some st' ∧
      (⟨m.values, locals⟩ : ParState σ K).exec ps w s₂ = some st' ∧ Valid ⟨m.pattern, st'.storage⟩ := by
  obtain ⟨ps', h1, h2, h3, h4⟩ := C78_disjoint m hm
  rw [hps] at h1
  obtain rfl := Option.some.inj h1
  have hb : ∀ s ∈ ps, ∀ x ∈ s, x < m.values.length := by
    intro s hs x hx
    have : x ∈ ps.flatten := List.mem_flatten.mpr ⟨s, hs, hx⟩
    rw [h3] at this
    exact List.mem_range.mp this
  obtain ⟨st', h5, h6⟩ := exec_safe ps w ⟨m.values, locals⟩ hb s₁
  exact ⟨st', h5, (exec_perm ps h4 w hs _) ▸ h5, ⟨hm.pattern, by rw [h6]; exact hm.values⟩⟩

/-- C78: the matrices of the assemblers are valid: a pattern of the assembler (C20) with one value for every entry. -/
theorem C78_assembled (ord : List Nat → List Nat) (hord : ∀ l, (ord l).Perm l) (c : Conn)
    (hc : Fenris.Spec.NodesInBounds c) :
    ∃ p, assemblePattern ord c = some p ∧ ∀ values : List K, values.length = p.indices.length → Valid ⟨p, values⟩ := by
  obtain ⟨p, h1, h2, -⟩ := C20_pattern_is_exact ord hord c hc
  exact ⟨p, h1, fun values hv => ⟨h2, hv⟩⟩

private def exM : FlatCsr Int := ⟨⟨3, 3, [0, 2, 2, 5], [0, 2, 0, 1, 2]⟩, [1, 2, 3, 4, 5]⟩

/-- A matrix with an empty row. -/
example : Valid exM := by
  refine ⟨⟨rfl, rfl, rfl, by decide, ?_⟩, rfl⟩
  intro i hi
  have : i = 0 ∨ i = 1 ∨ i = 2 := by
    have : i < 3 := hi
    omega
  rcases this with rfl | rfl | rfl
  · exact ⟨[0, 2], rfl, by decide, by decide⟩
  · exact ⟨[], rfl, by decide, by decide⟩
  · exact ⟨[0, 1, 2], rfl, by decide, by decide⟩

example : getRow exM 2 = some ([0, 1, 2], [3, 4, 5]) := by decide
example : getRow exM 1 = some ([], []) := by decide
example : (setRow exM 0 [7, 8]).map (·.values) = some [7, 8, 3, 4, 5] := by decide
example : allPositions exM = some [[0, 1], [], [2, 3, 4]] := by decide

end Fenris.CsrRows
