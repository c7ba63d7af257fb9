import Verif.Lemmas.Disjoint
set_option autoImplicit false

namespace Fenris
open DisjointSubsets

theorem getElem?_resize {α : Type} (l : List α) (n : Nat) (v : α) (i : Nat) :
    (resize l n v)[i]? =
      if i < n then (if i < l.length then l[i]? else some v) else none := by
  unfold resize
  rw [List.getElem?_append, List.getElem?_take, List.length_take, List.getElem?_replicate]
  by_cases h1 : i < n <;> by_cases h2 : i < l.length <;> simp [h1, h2] <;> omega

/-- The table marks exactly the nodes in `used` with colour `c`, and no later colour occurs. -/
structure TInv (table : List Int) (c : Int) (used : Nat → Prop) : Prop where
  mark : ∀ n, table[n]? = some c ↔ used n
  bound : ∀ v ∈ table, v ≤ c

theorem mem_resize {α : Type} {l : List α} {n : Nat} {v x : α} (h : x ∈ resize l n v) :
    x ∈ l ∨ x = v := by
  unfold resize at h
  rcases List.mem_append.1 h with h | h
  · exact .inl (List.mem_of_mem_take h)
  · exact .inr (List.mem_replicate.1 h).2

theorem visitNode_inv {table : List Int} {c : Int} {used : Nat → Prop} (hc : 0 ≤ c)
    (h : TInv table c used) (mx : Option Nat) (n : Nat) :
    TInv (visitNode c (table, mx) n).1 c (fun k => used k ∨ k = n) ∧
    (visitNode c (table, mx) n).2 = updMax mx n := by
  refine ⟨?_, ?_⟩
  · unfold visitNode
    by_cases hn : n < table.length
    · simp only [hn, if_true]
      refine ⟨?_, ?_⟩
      · intro k
        by_cases hk : n = k
        · subst hk; simp [List.getElem?_set_self hn]
        · rw [List.getElem?_set_ne hk, h.mark]
          constructor
          · exact .inl
          · rintro (h | h)
            · exact h
            · exact absurd h.symm hk
      · intro v hv
        rcases List.mem_or_eq_of_mem_set hv with hv | rfl
        · exact h.bound v hv
        · exact Int.le_refl _
    · simp only [hn, if_false]
      have hlen : n < (resize table (2 * n + 1) (-1)).length := by
        simp [resize]; omega
      refine ⟨?_, ?_⟩
      · intro k
        by_cases hk : n = k
        · subst hk; simp [List.getElem?_set_self hlen]
        · rw [List.getElem?_set_ne hk, getElem?_resize]
          have hm := h.mark k
          by_cases h1 : k < 2 * n + 1
          · by_cases h2 : k < table.length
            · rw [if_pos h1, if_pos h2, hm]
              constructor
              · exact .inl
              · rintro (h | h)
                · exact h
                · exact absurd h.symm hk
            · rw [if_pos h1, if_neg h2]
              rw [List.getElem?_eq_none (by omega)] at hm
              simp only [reduceCtorEq, false_iff] at hm
              simp only [Option.some.injEq, hm, false_or]
              constructor
              · intro h; omega
              · intro h; exact absurd h.symm hk
          · rw [if_neg h1]
            rw [List.getElem?_eq_none (by omega)] at hm
            simp only [reduceCtorEq, false_iff] at hm
            simp only [reduceCtorEq, hm, false_or, false_iff]
            omega
      · intro v hv
        rcases List.mem_or_eq_of_mem_set hv with hv | rfl
        · rcases mem_resize hv with hv | rfl
          · exact h.bound v hv
          · omega
        · exact Int.le_refl _
  · simp only [visitNode, updMax]
    cases mx with
    | none => by_cases hn : n < table.length <;> simp [hn]
    | some m => by_cases hn : n < table.length <;> simp [hn, Nat.max_comm]

theorem visit_foldl_inv (c : Int) (hc : 0 ≤ c) (subset : List Nat) (table : List Int)
    (used : Nat → Prop) (h : TInv table c used) (mx : Option Nat) :
    TInv (subset.foldl (visitNode c) (table, mx)).1 c (fun k => used k ∨ k ∈ subset) ∧
    (subset.foldl (visitNode c) (table, mx)).2 = subset.foldl updMax mx := by
  induction subset generalizing table used mx with
  | nil => simpa using h
  | cons a l ih =>
    obtain ⟨h1, h2⟩ := visitNode_inv hc h mx a
    simp only [List.foldl_cons]
    have := ih _ _ h1 (visitNode c (table, mx) a).2
    refine ⟨⟨?_, this.1.bound⟩, by rw [← h2]; exact this.2⟩
    intro n
    rw [show (visitNode c (table, mx) a) =
      ((visitNode c (table, mx) a).1, (visitNode c (table, mx) a).2) from rfl, this.1.mark]
    simp only [List.mem_cons]
    constructor
    · rintro ((h | h) | h) <;> simp [h]
    · rintro (h | h | h) <;> simp [h]

/-- Invariant of the inner loop after processing the subset positions in `done`. -/
structure PhaseInv (subsets : List (List Nat)) (c : Int) (done : List Nat) (a : ColorAcc) :
    Prop where
  tinv : TInv a.table c (fun n => ∃ s ∈ a.colorSubsets, n ∈ s)
  content : a.colorIndices.map (fun i => subsets[i]?) = a.colorSubsets.map some
  perm : (a.colorIndices ++ a.postponed).Perm done
  subI : a.colorIndices.Sublist done
  subP : a.postponed.Sublist done
  disj : Spec.DisjointFamily a.colorSubsets
  mx : a.maxNode = a.colorSubsets.flatten.foldl updMax none
  conflict : ∀ p ∈ a.postponed, ∃ q ∈ a.colorIndices, q < p ∧ Spec.Shares subsets q p

theorem disjoint_snoc (l : List (List Nat)) (s : List Nat) (h : Spec.DisjointFamily l)
    (hs : ∀ t ∈ l, ∀ x ∈ s, x ∉ t) : Spec.DisjointFamily (l ++ [s]) := by
  intro i j s' t hij h1 h2 x hx hxt
  rw [List.getElem?_append] at h1 h2
  split at h1 <;> split at h2
  · exact h i j s' t hij h1 h2 x hx hxt
  · have := List.mem_of_getElem? h2
    simp at this; subst this
    exact hs s' (List.mem_of_getElem? h1) x hxt hx
  · have := List.mem_of_getElem? h1
    simp at this; subst this
    exact hs t (List.mem_of_getElem? h2) x hx hxt
  · have h1' := (List.getElem?_eq_some_iff.1 h1).1
    have h2' := (List.getElem?_eq_some_iff.1 h2).1
    simp at h1' h2'; omega

theorem colorOne_inv {subsets : List (List Nat)} {c : Int} (hc : 0 ≤ c) {done : List Nat}
    {a : ColorAcc} (h : PhaseInv subsets c done a) (si : Nat) (hsi : si < subsets.length)
    (hlt : ∀ d ∈ done, d < si) :
    ∃ a', colorOne subsets c a si = some a' ∧ PhaseInv subsets c (done ++ [si]) a' := by
  have hget : subsets[si]? = some subsets[si] := List.getElem?_eq_getElem hsi
  generalize subsets[si] = subset at hget
  have hb : (subset.any (visitedBy a.table c)) = true ↔ ∃ n ∈ subset, ∃ s ∈ a.colorSubsets, n ∈ s := by
    rw [List.any_eq_true]
    constructor
    · rintro ⟨n, hn, hx⟩
      refine ⟨n, hn, (h.tinv.mark n).1 ?_⟩
      unfold visitedBy at hx
      split at hx
      · rename_i heq; rw [heq]; simpa using hx
      · cases hx
    · rintro ⟨n, hn, hx⟩
      refine ⟨n, hn, ?_⟩
      simp [visitedBy, (h.tinv.mark n).2 hx]
  unfold colorOne
  simp only [hget]
  by_cases hblk : ∃ n ∈ subset, ∃ s ∈ a.colorSubsets, n ∈ s
  · rw [if_pos (hb.2 hblk)]
    refine ⟨_, rfl, ?_⟩
    refine ⟨h.tinv, h.content, ?_, ?_, ?_, h.disj, h.mx, ?_⟩
    · simp only [← List.append_assoc]
      exact h.perm.append_right _
    · exact h.subI.trans (List.sublist_append_left _ _)
    · exact h.subP.append (List.Sublist.refl _)
    · intro p hp
      rcases List.mem_append.1 hp with hp | hp
      · exact h.conflict p hp
      · simp at hp; subst hp
        obtain ⟨n, hn, s, hs, hns⟩ := hblk
        have : some s ∈ a.colorSubsets.map some := by simpa using hs
        rw [← h.content, List.mem_map] at this
        obtain ⟨q, hq, hqs⟩ := this
        exact ⟨q, hq, hlt q (h.subI.subset hq), s, subset, n, hqs, hget, hns, hn⟩
  · rw [if_neg (fun hh => hblk (hb.1 hh))]
    obtain ⟨t1, t2⟩ := visit_foldl_inv c hc subset a.table _ h.tinv a.maxNode
    refine ⟨_, rfl, ?_⟩
    refine ⟨?_, ?_, ?_, ?_, ?_, ?_, ?_, ?_⟩
    · constructor
      · intro n; rw [t1.mark n]
        simp only [List.mem_append, List.mem_singleton]
        constructor
        · rintro (⟨s, hs, hn⟩ | hn)
          · exact ⟨s, .inl hs, hn⟩
          · exact ⟨subset, .inr rfl, hn⟩
        · rintro ⟨s, hs | rfl, hn⟩
          · exact .inl ⟨s, hs, hn⟩
          · exact .inr hn
      · exact t1.bound
    · simp [h.content, hget]
    · simp only [List.append_assoc]
      have : (a.colorIndices ++ ([si] ++ a.postponed)).Perm
          (a.colorIndices ++ (a.postponed ++ [si])) :=
        List.Perm.append_left _ List.perm_append_comm
      refine this.trans ?_
      rw [← List.append_assoc]
      exact h.perm.append_right _
    · exact h.subI.append (List.Sublist.refl _)
    · exact h.subP.trans (List.sublist_append_left _ _)
    · apply disjoint_snoc _ _ h.disj
      intro t ht x hx hxt
      exact hblk ⟨x, hx, t, ht, hxt⟩
    · show (subset.foldl (visitNode c) (a.table, a.maxNode)).2 = _
      rw [t2, h.mx]; simp
    · intro p hp
      obtain ⟨q, hq, hr⟩ := h.conflict p hp
      exact ⟨q, by simp [hq], hr⟩

theorem phase_inv {subsets : List (List Nat)} {c : Int} (hc : 0 ≤ c) (cur done : List Nat)
    {a : ColorAcc} (h : PhaseInv subsets c done a) (hcur : ∀ i ∈ cur, i < subsets.length)
    (hs : (done ++ cur).Pairwise (· < ·)) :
    ∃ a', cur.foldlM (colorOne subsets c) a = some a' ∧ PhaseInv subsets c (done ++ cur) a' := by
  induction cur generalizing done a with
  | nil => exact ⟨a, rfl, by simpa using h⟩
  | cons si cur ih =>
    obtain ⟨a1, e1, h1⟩ := colorOne_inv hc h si (hcur si (by simp)) (by
      rw [List.pairwise_append] at hs
      intro d hd; exact hs.2.2 d hd si (by simp))
    obtain ⟨a2, e2, h2⟩ := ih (done ++ [si]) h1 (fun i hi => hcur i (by simp [hi])) (by simpa using hs)
    refine ⟨a2, ?_, by simpa using h2⟩
    simp [List.foldlM_cons, e1, e2]

/-- What the loop appends to the list of colours, for the pending positions `cur`. -/
structure ColorsSpec (subsets : List (List Nat)) (cur : List Nat) (new : List DisjointSubsets) :
    Prop where
  perm : (new.flatMap (·.labels)).Perm cur
  content : ∀ d ∈ new, d.labels.map (fun i => subsets[i]?) = d.subsets.map some
  disj : ∀ d ∈ new, Spec.DisjointFamily d.subsets
  mx : ∀ d ∈ new, Spec.IsMaxIndex d.maxIndex d.subsets
  nonempty : ∀ d ∈ new, d.labels ≠ []
  sorted : ∀ d ∈ new, d.labels.Pairwise (· < ·)
  first : ∀ (i j : Nat) (d d' : DisjointSubsets), i < j → new[i]? = some d → new[j]? = some d' → ∀ p ∈ d'.labels,
    ∃ q ∈ d.labels, q < p ∧ Spec.Shares subsets q p

theorem colorLoop_spec (subsets : List (List Nat)) (fuel : Nat) (table : List Int) (c : Nat)
    (cur : List Nat) (colors : List DisjointSubsets) (hfuel : cur.length ≤ fuel)
    (hmax : c + cur.length ≤ 2147483647) (htab : ∀ v ∈ table, v < (c : Int))
    (hcur : ∀ i ∈ cur, i < subsets.length) (hs : cur.Pairwise (· < ·)) :
    ∃ new, colorLoop subsets fuel table c cur colors = .ok (colors ++ new) ∧
      ColorsSpec subsets cur new := by
  induction fuel generalizing table c cur colors with
  | zero =>
    have : cur = [] := List.length_eq_zero_iff.1 (by omega)
    subst this
    refine ⟨[], by simp [colorLoop], ?_⟩
    constructor <;> simp
  | succ fuel ih =>
    by_cases hemp : cur = []
    · subst hemp
      refine ⟨[], by simp [colorLoop], ?_⟩
      constructor <;> simp
    · have hinit : PhaseInv subsets (c : Int) [] ⟨table, none, [], [], []⟩ := by
        refine ⟨⟨?_, ?_⟩, by simp, by simp, by simp, by simp, ?_, by simp, by simp⟩
        · intro n
          simp only [List.not_mem_nil, false_and, exists_false, iff_false]
          intro hn
          have := htab _ (List.mem_of_getElem? hn); omega
        · intro v hv; exact Int.le_of_lt (htab v hv)
        · intro i j s t _ hs; simp at hs
      obtain ⟨a, e1, h1⟩ := phase_inv (by omega) cur [] hinit hcur (by simpa using hs)
      simp only [List.nil_append] at h1
      have hlen : a.colorSubsets.length = a.colorIndices.length := by
        have := congrArg List.length h1.content; simpa using this.symm
      have hne : a.colorIndices ≠ [] := by
        intro h0
        have hp : a.postponed ≠ [] := by
          intro hp0
          have := h1.perm.length_eq
          simp [h0, hp0] at this
          exact hemp (List.length_eq_zero_iff.1 this.symm)
        obtain ⟨p, hp'⟩ := List.exists_mem_of_ne_nil _ hp
        obtain ⟨q, hq, -⟩ := h1.conflict p hp'
        rw [h0] at hq; cases hq
      have hplen : a.colorIndices.length + a.postponed.length = cur.length := by
        have := h1.perm.length_eq; simpa using this
      have hpos : 0 < a.colorIndices.length := List.length_pos_iff.2 hne
      let d : DisjointSubsets := ⟨a.maxNode, a.colorSubsets, a.colorIndices⟩
      have htab' : ∀ v ∈ a.table, v < ((c + 1 : Nat) : Int) := by
        intro v hv; have := h1.tinv.bound v hv; omega
      obtain ⟨new, e2, h2⟩ := ih a.table (c + 1) a.postponed (colors ++ [d]) (by omega) (by omega)
        htab' (fun i hi => hcur i (h1.subP.subset hi)) (hs.sublist h1.subP)
      refine ⟨d :: new, ?_, ?_⟩
      · have hc1 : ¬ ((c : Int) + 1 > 2147483647) := by omega
        have hce : cur.isEmpty = false := by
          cases cur with
          | nil => exact absurd rfl hemp
          | cons => rfl
        simp only [colorLoop, hce, e1, fromUnchecked, hlen, hc1, if_true, if_false,
          Bool.false_eq_true]
        have : ((c + 1 : Nat) : Int) = (c : Int) + 1 := by omega
        rw [← this, e2]; simp
      · refine ⟨?_, ?_, ?_, ?_, ?_, ?_, ?_⟩
        · simp only [List.flatMap_cons]
          exact (List.Perm.append_left _ h2.perm).trans h1.perm
        · intro d' hd'; rcases List.mem_cons.1 hd' with rfl | hd'
          · exact h1.content
          · exact h2.content d' hd'
        · intro d' hd'; rcases List.mem_cons.1 hd' with rfl | hd'
          · exact h1.disj
          · exact h2.disj d' hd'
        · intro d' hd'; rcases List.mem_cons.1 hd' with rfl | hd'
          · show Spec.IsMaxIndex a.maxNode a.colorSubsets
            rw [h1.mx]; exact isMaxIndex_foldl _
          · exact h2.mx d' hd'
        · intro d' hd'; rcases List.mem_cons.1 hd' with rfl | hd'
          · exact hne
          · exact h2.nonempty d' hd'
        · intro d' hd'; rcases List.mem_cons.1 hd' with rfl | hd'
          · exact hs.sublist h1.subI
          · exact h2.sorted d' hd'
        · intro i j d1 d2 hij g1 g2 p hp
          cases j with
          | zero => omega
          | succ j =>
            simp only [List.getElem?_cons_succ] at g2
            cases i with
            | zero =>
              simp only [List.getElem?_cons_zero, Option.some.injEq] at g1
              subst g1
              have : p ∈ a.postponed := by
                apply h2.perm.subset
                exact List.mem_flatMap.2 ⟨d2, List.mem_of_getElem? g2, hp⟩
              exact h1.conflict p this
            | succ i =>
              simp only [List.getElem?_cons_succ] at g1
              exact h2.first i j d1 d2 (by omega) g1 g2 p hp

theorem coloring_spec (subsets : List (List Nat)) (h : subsets.length ≤ 2147483647) :
    ∃ colors, sequentialGreedyColoring subsets = .ok colors ∧
      ColorsSpec subsets (List.range subsets.length) colors := by
  have := colorLoop_spec subsets subsets.length [] 0 (List.range subsets.length) []
    (by simp) (by simpa using h) (by simp) (by simp) List.pairwise_lt_range
  simpa [sequentialGreedyColoring] using this

end Fenris
