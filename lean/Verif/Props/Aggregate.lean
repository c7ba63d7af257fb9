import Verif.Spec.Aggregate
import Verif.Lemmas.Assembly
import Mathlib.Tactic.Linarith
/-! # C26: aggregated element assemblers -/
set_option autoImplicit false
set_option linter.unusedSectionVars false

namespace Fenris
namespace Assembly
open Spec

variable {α : Type}

private theorem offsetsLoop_eq (parts : List (Part α)) : ∀ (offsets : List Nat) (total : Nat),
    offsetsLoop parts offsets total =
      (offsets ++ (List.range parts.length).map (fun i => total + elementsBefore parts i),
        total + (parts.map Part.numElements).sum) := by
  induction parts with
  | nil => intro o t; simp [offsetsLoop]
  | cons p ps ih =>
    intro o t
    rw [offsetsLoop, ih]
    simp only [List.length_cons, List.range_succ_eq_map, List.map_cons, List.map_map, List.sum_cons,
      List.append_assoc, List.singleton_append, Prod.mk.injEq]
    refine ⟨?_, by omega⟩
    congr 2
    apply List.map_congr_left
    intro i _
    simp only [Function.comp, elementsBefore, List.take_succ_cons, List.map_cons, List.sum_cons]
    omega

private theorem from_eq (parts : List (Part α)) (hne : parts ≠ []) (hc : Compatible parts) :
    ∃ a, Aggregate.fromAssemblers parts = some a ∧ a.parts = parts ∧
      a.numElements = (parts.map Part.numElements).sum ∧
      a.offsets = (List.range parts.length).map (elementsBefore parts) ∧
      ∀ p ∈ parts, a.solutionDim = p.solutionDim ∧ a.numNodes = p.numNodes := by
  cases parts with
  | nil => exact absurd rfl hne
  | cons p0 ps =>
    have h1 : ((p0 :: ps).all (fun p => p.solutionDim == p0.solutionDim) &&
        (p0 :: ps).all (fun p => p.numNodes == p0.numNodes)) = true := by
      rw [Bool.and_eq_true, List.all_eq_true, List.all_eq_true]
      exact ⟨fun p hp => by simpa using (hc p hp p0 (by simp)).1,
        fun p hp => by simpa using (hc p hp p0 (by simp)).2⟩
    refine ⟨_, by simp only [Aggregate.fromAssemblers]; rw [if_pos h1], rfl, ?_, ?_, ?_⟩
    · rw [offsetsLoop_eq]; simp
    · rw [offsetsLoop_eq]; simp
    · intro p hp
      exact hc p0 (by simp) p hp

/-- Construction: succeeds exactly for a non-empty list of parts of the same solution dimension and number
of nodes; the number of elements is the sum over the parts. -/
theorem C26_construction (parts : List (Part α)) :
    ((Aggregate.fromAssemblers parts).isSome = true ↔ parts ≠ [] ∧ Compatible parts) ∧
    ∀ a, Aggregate.fromAssemblers parts = some a →
      a.numElements = (parts.map Part.numElements).sum ∧
      ∀ p ∈ parts, a.solutionDim = p.solutionDim ∧ a.numNodes = p.numNodes := by
  have hiff : (Aggregate.fromAssemblers parts).isSome = true ↔ parts ≠ [] ∧ Compatible parts := by
    constructor
    · intro h
      cases parts with
      | nil => simp [Aggregate.fromAssemblers] at h
      | cons p0 ps =>
        refine ⟨by simp, ?_⟩
        simp only [Aggregate.fromAssemblers] at h
        split at h
        · rename_i hall
          rw [Bool.and_eq_true, List.all_eq_true, List.all_eq_true] at hall
          intro p hp q hq
          have a1 := hall.1 p hp; have a2 := hall.1 q hq
          have b1 := hall.2 p hp; have b2 := hall.2 q hq
          simp only [beq_iff_eq] at a1 a2 b1 b2
          exact ⟨a1.trans a2.symm, b1.trans b2.symm⟩
        · simp at h
    · rintro ⟨h1, h2⟩
      obtain ⟨a, ha, _⟩ := from_eq parts h1 h2
      rw [ha]; rfl
  refine ⟨hiff, fun a ha => ?_⟩
  obtain ⟨h1, h2⟩ := hiff.1 (by rw [ha]; rfl)
  obtain ⟨a', ha', _, h3, _, h5⟩ := from_eq parts h1 h2
  rw [ha] at ha'
  cases ha'
  exact ⟨h3, h5⟩

private theorem before_succ (parts : List (Part α)) (i : Nat) (p : Part α) (h : parts[i]? = some p) :
    elementsBefore parts (i + 1) = elementsBefore parts i + p.numElements := by
  simp [elementsBefore, List.take_add_one, h]

private theorem before_mono (parts : List (Part α)) {i j : Nat} (h : i ≤ j) :
    elementsBefore parts i ≤ elementsBefore parts j := by
  induction j with
  | zero => have : i = 0 := by omega
            subst this; exact Nat.le_refl _
  | succ j ih =>
    rcases Nat.lt_or_ge j i with hlt | hge
    · have : i = j + 1 := by omega
      subst this; exact Nat.le_refl _
    · refine Nat.le_trans (ih hge) ?_
      cases hp : parts[j]? with
      | some p => rw [before_succ parts j p hp]; omega
      | none =>
        have := List.getElem?_eq_none_iff.1 hp
        simp [elementsBefore, List.take_of_length_le this,
          List.take_of_length_le (Nat.le_succ_of_le this)]

private theorem offsets_get (parts : List (Part α)) (i : Nat) :
    ((List.range parts.length).map (elementsBefore parts))[i]? =
      if i < parts.length then some (elementsBefore parts i) else none := by
  rw [List.getElem?_map]
  split
  · rename_i h; rw [List.getElem?_range h]; rfl
  · rename_i h; rw [List.getElem?_eq_none (by simpa using h)]; rfl

private theorem offsets_sorted (parts : List (Part α)) :
    ((List.range parts.length).map (elementsBefore parts)).Pairwise (fun a b => a ≤ b) := by
  rw [List.pairwise_map]
  exact List.pairwise_lt_range.imp (fun h => before_mono parts (Nat.le_of_lt h))

/-- Which part the dispatch selects: one that starts at or before `e`, and such that the next part starts
after `e`, unless `e` is exactly the start of the selected part. -/
private theorem find_spec (search : List Nat → Nat → SearchResult) (hs : BinarySearch search)
    (parts : List (Part α)) (hne : parts ≠ []) (hc : Compatible parts) (a : Aggregate α)
    (ha : Aggregate.fromAssemblers parts = some a) (e : Nat) (he : e ≤ a.numElements) :
    ∃ i p, parts[i]? = some p ∧ a.find search e = some (p, elementsBefore parts i) ∧
      elementsBefore parts i ≤ e ∧
      ((search a.offsets e = .found i ∧ elementsBefore parts i = e) ∨
        ∀ j, i < j → j < parts.length → e < elementsBefore parts j) := by
  obtain ⟨a', ha', h1, h2, h3, _⟩ := from_eq parts hne hc
  rw [ha] at ha'
  cases ha'
  have hb := hs a.offsets e (by rw [h3]; exact offsets_sorted parts)
  unfold Aggregate.find
  rw [if_pos he]
  cases hsr : search a.offsets e with
  | found i =>
    rw [hsr] at hb
    simp only [h3, offsets_get] at hb
    split at hb
    · rename_i hi
      have hi' := Option.some.inj hb
      refine ⟨i, parts[i], List.getElem?_eq_getElem hi, ?_, by omega, Or.inl ⟨rfl, hi'⟩⟩
      simp only [h1, h3, offsets_get, if_pos hi, List.getElem?_eq_getElem hi]
    · cases hb
  | insert k =>
    rw [hsr] at hb
    obtain ⟨hk, hlo, hhi⟩ := hb
    rw [h3] at hk hlo hhi
    simp only [offsets_get] at hlo hhi
    have hlen : 0 < parts.length := List.length_pos_iff.2 hne
    cases k with
    | zero =>
      have := hhi 0 (elementsBefore parts 0) (by rw [if_pos hlen]) (Nat.le_refl _)
      simp [elementsBefore] at this
    | succ i =>
      have hi : i < parts.length := by simpa using hk
      have hlt := hlo i (elementsBefore parts i) (by rw [if_pos hi]) (by omega)
      refine ⟨i, parts[i], List.getElem?_eq_getElem hi, ?_, by omega, Or.inr ?_⟩
      · simp only [h1, h3, offsets_get, if_pos hi, List.getElem?_eq_getElem hi]
      · intro j hj hjl
        exact hhi j _ (by rw [if_pos hjl]) (by omega)

/-- The dispatch when it is known that no empty part can be selected for `e`. -/
private theorem query_owner (search : List Nat → Nat → SearchResult) (hs : BinarySearch search)
    (parts : List (Part α)) (a : Aggregate α) (ha : Aggregate.fromAssemblers parts = some a)
    (i : Nat) (p : Part α) (hp : parts[i]? = some p) (k : Nat) (hk : k < p.numElements)
    (hsel : ∀ j q, parts[j]? = some q → search a.offsets (elementsBefore parts i + k) = .found j →
      q.numElements ≠ 0) :
    a.query search (elementsBefore parts i + k) = p.query k := by
  have hcon := (C26_construction parts).1.1 (by rw [ha]; rfl)
  have htot := ((C26_construction parts).2 a ha).1
  have hil : i < parts.length := by
    by_contra h; rw [List.getElem?_eq_none (by omega)] at hp; cases hp
  have hend := before_succ parts i p hp
  have hle : elementsBefore parts i + k ≤ a.numElements := by
    have := before_mono parts (show i + 1 ≤ parts.length by omega)
    have h2 : elementsBefore parts parts.length = (parts.map Part.numElements).sum := by
      simp [elementsBefore]
    omega
  obtain ⟨j, q, hq, hfind, hlo, hor⟩ := find_spec search hs parts hcon.1 hcon.2 a ha _ hle
  have hj : j = i := by
    have hjl : j < parts.length := by
      by_contra h; rw [List.getElem?_eq_none (by omega)] at hq; cases hq
    rcases Nat.lt_trichotomy j i with hlt | heq | hgt
    · exfalso
      have hm := before_mono parts (show j + 1 ≤ i by omega)
      rw [before_succ parts j q hq] at hm
      rcases hor with ⟨hf, he⟩ | h
      · have := hsel j q hq hf
        omega
      · have := h i hlt hil
        omega
    · exact heq
    · exfalso
      have := before_mono parts (show i + 1 ≤ j by omega)
      omega
  subst hj
  rw [hp] at hq
  cases hq
  unfold Aggregate.query
  rw [hfind]
  simp only [hlo, if_true, Nat.add_sub_cancel_left]

/-- If no part is empty, every query for an existing element is answered by the part that owns the element
with the element's index in that part. What is missing from the full property: lists with empty parts
(`C26_empty_part_may_be_selected`) and rejection of the index just past the end
(`C26_one_past_the_end_is_not_rejected`). -/
theorem C26_query_is_answered_by_owner_partial (search : List Nat → Nat → SearchResult)
    (hs : BinarySearch search) (parts : List (Part α)) (hpos : ∀ p ∈ parts, p.numElements ≠ 0)
    (a : Aggregate α) (ha : Aggregate.fromAssemblers parts = some a)
    (i : Nat) (p : Part α) (hp : parts[i]? = some p) (k : Nat) (hk : k < p.numElements) :
    a.query search (elementsBefore parts i + k) = p.query k :=
  query_owner search hs parts a ha i p hp k hk
    (fun _ q hq _ => hpos q (List.mem_of_getElem? hq))

/-- With a binary search that finds the last of equal values the same holds for all lists of parts, empty
parts included. -/
theorem C26_query_is_answered_by_owner_with_last_match (search : List Nat → Nat → SearchResult)
    (hs : BinarySearch search) (hlast : FindsLast search) (parts : List (Part α))
    (a : Aggregate α) (ha : Aggregate.fromAssemblers parts = some a)
    (i : Nat) (p : Part α) (hp : parts[i]? = some p) (k : Nat) (hk : k < p.numElements) :
    a.query search (elementsBefore parts i + k) = p.query k := by
  apply query_owner search hs parts a ha i p hp k hk
  intro j q hq hf hq0
  have hcon := (C26_construction parts).1.1 (by rw [ha]; rfl)
  obtain ⟨a', ha', _, _, h3, _⟩ := from_eq parts hcon.1 hcon.2
  rw [ha] at ha'
  cases ha'
  have hb := hs a.offsets (elementsBefore parts i + k) (by rw [h3]; exact offsets_sorted parts)
  rw [hf] at hb
  simp only [h3, offsets_get] at hb
  split at hb
  case isFalse => cases hb
  rename_i hjl
  have hje := Option.some.inj hb
  have hil : i < parts.length := by
    by_contra h; rw [List.getElem?_eq_none (by omega)] at hp; cases hp
  have hnext := before_succ parts j q hq
  by_cases hend : j + 1 < parts.length
  · exact hlast _ _ j hf (j + 1) (by omega) (by rw [h3, offsets_get, if_pos hend]; congr 1; omega)
  · have := before_mono parts (show i + 1 ≤ j + 1 by omega)
    rw [before_succ parts i p hp] at this
    omega

/-- Every existing element index is of the form treated above, for exactly one part and local index. -/
theorem C26_every_index_has_one_owner (parts : List (Part α)) (e : Nat)
    (he : e < (parts.map Part.numElements).sum) :
    ∃! ik : Nat × Nat, ∃ p, parts[ik.1]? = some p ∧ ik.2 < p.numElements ∧
      e = elementsBefore parts ik.1 + ik.2 := by
  have hex : ∀ n, n ≤ parts.length → e < elementsBefore parts n → ∃ i p, parts[i]? = some p ∧
      elementsBefore parts i ≤ e ∧ e < elementsBefore parts (i + 1) := by
    intro n
    induction n with
    | zero => intro _ h; simp [elementsBefore] at h
    | succ n ih =>
      intro hn h
      by_cases h' : e < elementsBefore parts n
      · exact ih (by omega) h'
      · exact ⟨n, parts[n], List.getElem?_eq_getElem hn, by omega, h⟩
  obtain ⟨i, p, hp, h1, h2⟩ := hex parts.length (Nat.le_refl _) (by
    simpa [elementsBefore] using he)
  have hend := before_succ parts i p hp
  refine ⟨(i, e - elementsBefore parts i), ⟨p, hp, by omega, by simp only; omega⟩, ?_⟩
  rintro ⟨j, k⟩ ⟨q, hq, hk, rfl⟩
  simp only at hq hk h1 h2
  have hqe := before_succ parts j q hq
  have : j = i := by
    rcases Nat.lt_trichotomy j i with hlt | heq | hgt
    · have := before_mono parts (show j + 1 ≤ i by omega); omega
    · exact heq
    · have := before_mono parts (show i + 1 ≤ j by omega); omega
  subst this
  simp

private theorem flatMap_range (parts : List (Part α)) (f : Nat → Option α) : ∀ off,
    (∀ (i : Nat) (p : Part α), parts[i]? = some p → ∀ k, k < p.numElements →
      f (off + (elementsBefore parts i + k)) = p.query k) →
    (List.range' off ((parts.map Part.numElements).sum)).map f =
      parts.flatMap (fun p => (List.range p.numElements).map p.query) := by
  induction parts with
  | nil => intro off _; simp
  | cons p ps ih =>
    intro off h
    rw [List.flatMap_cons, List.map_cons, List.sum_cons, ← List.range'_append_1, List.map_append,
      ih (off + p.numElements)]
    · congr 1
      apply List.ext_getElem
      · simp
      · intro k hk _
        have hk : k < p.numElements := by simpa using hk
        have := h 0 p rfl k hk
        simpa [elementsBefore] using this
    · intro i q hq k hk
      have := h (i + 1) q (by simpa using hq) k hk
      rw [← this]
      congr 1
      simp [elementsBefore]; omega

/-- The answers for all elements in order are those of the parts one after the other. -/
theorem C26_aggregate_is_concatenation_partial (search : List Nat → Nat → SearchResult)
    (hs : BinarySearch search) (parts : List (Part α)) (hpos : ∀ p ∈ parts, p.numElements ≠ 0)
    (a : Aggregate α) (ha : Aggregate.fromAssemblers parts = some a) :
    (List.range a.numElements).map (a.query search) =
      parts.flatMap (fun p => (List.range p.numElements).map p.query) := by
  rw [((C26_construction parts).2 a ha).1, List.range_eq_range']
  apply flatMap_range
  intro i p hp k hk
  rw [Nat.zero_add]
  exact C26_query_is_answered_by_owner_partial search hs parts hpos a ha i p hp k hk

/-- Indices beyond the total by more than zero are rejected. -/
theorem C26_indices_beyond_total_rejected (search : List Nat → Nat → SearchResult)
    (a : Aggregate α) (e : Nat) (he : a.numElements < e) : a.query search e = none := by
  simp [Aggregate.query, Aggregate.find, Nat.not_le.2 he]

/-- Finding: the index one past the end passes the assertion and is forwarded to the last part, with that
part's number of elements as the local index. -/
theorem C26_one_past_the_end_is_not_rejected (search : List Nat → Nat → SearchResult)
    (hs : BinarySearch search) (parts : List (Part α)) (hpos : ∀ p ∈ parts, p.numElements ≠ 0)
    (a : Aggregate α) (ha : Aggregate.fromAssemblers parts = some a)
    (p : Part α) (hp : parts.getLast? = some p) :
    a.query search a.numElements = p.query p.numElements := by
  have hcon := (C26_construction parts).1.1 (by rw [ha]; rfl)
  have htot := ((C26_construction parts).2 a ha).1
  rw [List.getLast?_eq_getElem?] at hp
  have hlen : 0 < parts.length := List.length_pos_iff.2 hcon.1
  have hend := before_succ parts _ p hp
  have hfull : elementsBefore parts (parts.length - 1 + 1) = a.numElements := by
    rw [htot, Nat.sub_add_cancel hlen]; simp [elementsBefore]
  have hp0 := hpos p (List.mem_of_getElem? hp)
  obtain ⟨j, q, hq, hfind, hlo, hor⟩ := find_spec search hs parts hcon.1 hcon.2 a ha a.numElements
    (Nat.le_refl _)
  have hjl : j < parts.length := by
    by_contra h; rw [List.getElem?_eq_none (by omega)] at hq; cases hq
  have hq0 := hpos q (List.mem_of_getElem? hq)
  have hqe := before_succ parts j q hq
  have hj : j = parts.length - 1 := by
    by_contra hne
    rcases hor with ⟨_, he⟩ | h
    · have := before_mono parts (show j + 1 ≤ parts.length - 1 + 1 by omega)
      omega
    · have := h (parts.length - 1) (by omega) (by omega)
      omega
  subst hj
  rw [hp] at hq
  cases hq
  unfold Aggregate.query
  rw [hfind]
  simp only [hlo, if_true]
  congr 1
  omega

/-- A search meeting the contract which finds the first of equal values. -/
def searchFirst (l : List Nat) (x : Nat) : SearchResult :=
  if x ∈ l then .found (l.idxOf x) else .insert ((l.filter (fun y => decide (y < x))).length)

theorem searchFirst_spec : BinarySearch searchFirst := by
  intro l x hl
  unfold searchFirst
  by_cases hx : x ∈ l
  · rw [if_pos hx]
    exact List.getElem?_idxOf hx
  · rw [if_neg hx]
    simp only
    induction l with
    | nil => simp
    | cons y l ih =>
      rw [List.pairwise_cons] at hl
      simp only [List.mem_cons, not_or] at hx
      obtain ⟨i1, i2, i3⟩ := ih hl.2 hx.2
      by_cases hy : y < x
      · simp only [List.filter_cons, hy, decide_true, if_true, List.length_cons]
        refine ⟨by omega, ?_, ?_⟩
        · intro j z hj hlt
          cases j with
          | zero => simp at hj; omega
          | succ j => exact i2 j z (by simpa using hj) (by omega)
        · intro j z hj hge
          cases j with
          | zero => omega
          | succ j => exact i3 j z (by simpa using hj) (by omega)
      · have hnil : l.filter (fun y => decide (y < x)) = [] := by
          rw [List.filter_eq_nil_iff]
          intro z hz
          have := hl.1 z hz
          simp; omega
        simp only [List.filter_cons, hy, decide_false, Bool.false_eq_true, if_false, hnil,
          List.length_nil]
        refine ⟨Nat.zero_le _, by intro j z _ h; omega, ?_⟩
        intro j z hj _
        have hz : z ∈ y :: l := List.mem_of_getElem? hj
        rcases List.mem_cons.1 hz with rfl | hz
        · omega
        · have := hl.1 z hz; omega

/-- A part with the given numbers of nodes of its elements. -/
def examplePart (counts : List Nat) : Part Nat := ⟨1, 10, counts.length, fun e => counts[e]?⟩

/-- Finding: with an empty part, some search meeting the contract of `binary_search` sends a valid element
index to the empty part, which panics. -/
theorem C26_empty_part_may_be_selected :
    ∃ search, BinarySearch search ∧ ∃ a : Aggregate Nat,
      Aggregate.fromAssemblers [examplePart [], examplePart [3, 4]] = some a ∧
      0 < a.numElements ∧ a.query search 0 = none :=
  ⟨searchFirst, searchFirst_spec, _, rfl, by decide, by decide⟩

/-- Non-vacuity. -/
example : ∃ a : Aggregate Nat,
    Aggregate.fromAssemblers [examplePart [3, 4], examplePart [6], examplePart [8, 3]] = some a ∧
    (∀ p ∈ [examplePart [3, 4], examplePart [6], examplePart [8, 3]], p.numElements ≠ 0) ∧
    (List.range 5).map (a.query searchFirst) = [some 3, some 4, some 6, some 8, some 3] :=
  ⟨_, rfl, by decide, by decide⟩

/-- The last position of a value. -/
def lastIdx (x : Nat) : List Nat → Option Nat
  | [] => none
  | y :: l =>
    match lastIdx x l with
    | some i => some (i + 1)
    | none => if y = x then some 0 else none

/-- A search meeting the contract which finds the last of equal values. -/
def searchLast (l : List Nat) (x : Nat) : SearchResult :=
  match lastIdx x l with
  | some i => .found i
  | none => searchFirst l x

private theorem lastIdx_spec (x : Nat) (l : List Nat) :
    match lastIdx x l with
    | some i => l[i]? = some x ∧ ∀ j, i < j → l[j]? ≠ some x
    | none => x ∉ l := by
  induction l with
  | nil => simp [lastIdx]
  | cons y l ih =>
    unfold lastIdx
    cases h : lastIdx x l with
    | some i =>
      rw [h] at ih
      refine ⟨by simpa using ih.1, fun j hj => ?_⟩
      cases j with
      | zero => omega
      | succ j => simpa using ih.2 j (by omega)
    | none =>
      rw [h] at ih
      simp only at ih ⊢
      by_cases hy : y = x
      · rw [if_pos hy]
        refine ⟨by simp [hy], fun j hj => ?_⟩
        cases j with
        | zero => omega
        | succ j =>
          intro hcon
          exact ih (List.mem_of_getElem? (by simpa using hcon))
      · rw [if_neg hy]
        simp [Ne.symm hy, ih]

/-- Non-vacuity: the two conditions on the search can be met together. -/
example : BinarySearch searchLast ∧ FindsLast searchLast := by
  constructor
  · intro l x hl
    have h := lastIdx_spec x l
    unfold searchLast
    cases hx : lastIdx x l with
    | some i => rw [hx] at h; exact h.1
    | none => exact searchFirst_spec l x hl
  · intro l x i hf
    have h := lastIdx_spec x l
    unfold searchLast at hf
    cases hx : lastIdx x l with
    | some k =>
      rw [hx] at h hf
      cases hf
      exact h.2
    | none =>
      rw [hx] at h hf
      simp only [searchFirst, if_neg h] at hf
      cases hf

example : ∃ a : Aggregate Nat,
    Aggregate.fromAssemblers [examplePart [], examplePart [3, 4], examplePart [], examplePart [8]]
      = some a ∧
    (List.range 3).map (a.query searchLast) = [some 3, some 4, some 8] :=
  ⟨_, rfl, by decide⟩

end Assembly
end Fenris
