import Verif.Spec.Paradis
set_option autoImplicit false

namespace Fenris
open DisjointSubsets

theorem insertAll_eq (g l : List Nat) :
    insertAll g l = if (∀ x ∈ l, x ∉ g) ∧ l.Nodup then some (l.reverse ++ g) else none := by
  induction l generalizing g with
  | nil => simp [insertAll]
  | cons a l ih =>
    rw [insertAll, ih]
    by_cases ha : a ∈ g
    · rw [if_pos ha, if_neg]; rintro ⟨h, -⟩; exact h a (by simp) ha
    · rw [if_neg ha]
      by_cases h : (∀ x ∈ l, x ∉ a :: g) ∧ l.Nodup
      · rw [if_pos h, if_pos]
        · simp
        · refine ⟨?_, ?_⟩
          · intro x hx; rcases List.mem_cons.1 hx with rfl | hx
            · exact ha
            · exact fun hg => h.1 x hx (List.mem_cons_of_mem _ hg)
          · refine List.nodup_cons.2 ⟨fun hal => h.1 a hal (by simp), h.2⟩
      · rw [if_neg h, if_neg]
        rintro ⟨h1, h2⟩
        rw [List.nodup_cons] at h2
        refine h ⟨?_, h2.2⟩
        intro x hx hxg
        rcases List.mem_cons.1 hxg with rfl | hxg
        · exact h2.1 hx
        · exact h1 x (List.mem_cons_of_mem _ hx) hxg

theorem setInsert_foldl_mem (l s : List Nat) (x : Nat) :
    x ∈ l.foldl setInsert s ↔ x ∈ s ∨ x ∈ l := by
  induction l generalizing s with
  | nil => simp
  | cons a l ih =>
    simp only [List.foldl_cons, ih, setInsert, List.mem_cons]
    split
    · constructor
      · rintro (h | h) <;> simp [h]
      · rintro (h | rfl | h)
        · simp [h]
        · left; assumption
        · simp [h]
    · simp only [List.mem_cons]
      constructor
      · rintro ((h | h) | h) <;> simp [h]
      · rintro (h | h | h) <;> simp [h]

theorem setInsert_foldl_nodup (l s : List Nat) (h : s.Nodup) : (l.foldl setInsert s).Nodup := by
  induction l generalizing s with
  | nil => simpa
  | cons a l ih =>
    simp only [List.foldl_cons]
    apply ih
    unfold setInsert
    split
    · exact h
    · exact List.nodup_cons.2 ⟨by assumption, h⟩

theorem disjoint_cons (s : List Nat) (rest : List (List Nat)) :
    Spec.DisjointFamily (s :: rest) ↔
      (∀ t ∈ rest, ∀ x ∈ s, x ∉ t) ∧ Spec.DisjointFamily rest := by
  constructor
  · intro h
    refine ⟨?_, ?_⟩
    · intro t ht x hx
      obtain ⟨j, hj⟩ := List.getElem?_of_mem ht
      exact h 0 (j+1) s t (by simp) (by simp) (by simpa using hj) x hx
    · intro i j s' t hij hs ht
      exact h (i+1) (j+1) s' t (by omega) (by simpa using hs) (by simpa using ht)
  · rintro ⟨h1, h2⟩ i j s' t hij hs ht x hx hxt
    cases i with
    | zero =>
      cases j with
      | zero => exact hij rfl
      | succ j =>
        simp at hs ht; subst hs
        exact h1 t (List.mem_of_getElem? ht) x hx hxt
    | succ i =>
      cases j with
      | zero =>
        simp at hs ht; subst ht
        exact h1 s' (List.mem_of_getElem? hs) x hxt hx
      | succ j =>
        simp at hs ht
        exact h2 i j s' t (by omega) hs ht x hx hxt

theorem checkLoop_isSome (ord : List Nat → List Nat) (hord : ∀ l, (ord l).Perm l)
    (m : Option Nat) (g : List Nat) (rest : List (List Nat)) :
    (checkLoop ord m g rest).isSome ↔
      (∀ s ∈ rest, ∀ x ∈ s, x ∉ g) ∧ Spec.DisjointFamily rest := by
  induction rest generalizing m g with
  | nil => simp [checkLoop, Spec.DisjointFamily]
  | cons s rest ih =>
    rw [disjoint_cons]
    have hmem : ∀ x, x ∈ ord (s.foldl setInsert []) ↔ x ∈ s := by
      intro x; rw [(hord _).mem_iff, setInsert_foldl_mem]; simp
    have hnd : (ord (s.foldl setInsert [])).Nodup :=
      (hord _).nodup_iff.2 (setInsert_foldl_nodup s [] (by simp))
    simp only [checkLoop, insertAll_eq, hnd, and_true]
    by_cases h : ∀ x ∈ ord (s.foldl setInsert []), x ∉ g
    · rw [if_pos h]
      simp only [ih]
      have hmem' : ∀ x, x ∈ (ord (s.foldl setInsert [])).reverse ++ g ↔ x ∈ s ∨ x ∈ g := by
        intro x; rw [List.mem_append, List.mem_reverse, hmem]
      constructor
      · rintro ⟨h1, h2⟩
        refine ⟨?_, ?_, h2⟩
        · intro t ht x hx
          rcases List.mem_cons.1 ht with rfl | ht
          · exact h x ((hmem x).2 hx)
          · exact fun hg => h1 t ht x hx ((hmem' x).2 (.inr hg))
        · intro t ht x hx hxt
          exact h1 t ht x hxt ((hmem' x).2 (.inl hx))
      · rintro ⟨h1, h2, h3⟩
        refine ⟨?_, h3⟩
        intro t ht x hx hxg
        rcases (hmem' x).1 hxg with hs | hg
        · exact h2 t ht x hs hx
        · exact h1 t (List.mem_cons_of_mem _ ht) x hx hg
    · rw [if_neg h]
      simp only [Option.isSome_none, Bool.false_eq_true, false_iff]
      rintro ⟨h1, -, -⟩
      exact h fun x hx => h1 s (by simp) x ((hmem x).1 hx)

theorem updMax_foldl (l : List Nat) (m : Option Nat) :
    match l.foldl updMax m with
    | none => m = none ∧ l = []
    | some k => (m = some k ∨ k ∈ l) ∧ (∀ c, m = some c → c ≤ k) ∧ ∀ x ∈ l, x ≤ k := by
  induction l generalizing m with
  | nil => cases m <;> simp
  | cons a l ih =>
    have := ih (updMax m a)
    simp only [List.foldl_cons]
    cases hk : l.foldl updMax (updMax m a) with
    | none => rw [hk] at this; cases m <;> simp [updMax] at this
    | some k =>
      rw [hk] at this
      obtain ⟨h1, h2, h3⟩ := this
      cases m with
      | none =>
        simp only [updMax] at h1 h2
        have := h2 a rfl
        refine ⟨?_, by simp, ?_⟩
        · rcases h1 with h1 | h1
          · right; simp only [Option.some.injEq] at h1; simp [h1]
          · right; simp [h1]
        · intro x hx; rcases List.mem_cons.1 hx with rfl | hx
          · exact this
          · exact h3 x hx
      | some c =>
        simp only [updMax] at h1 h2
        have := h2 _ rfl
        refine ⟨?_, ?_, ?_⟩
        · rcases h1 with h1 | h1
          · simp only [Option.some.injEq] at h1
            rcases Nat.le_total c a with hca | hca
            · right; rw [Nat.max_eq_right hca] at h1; simp [h1]
            · left; rw [Nat.max_eq_left hca] at h1; simp [h1]
          · right; simp [h1]
        · intro c' hc'; cases hc'; omega
        · intro x hx; rcases List.mem_cons.1 hx with rfl | hx
          · omega
          · exact h3 x hx

theorem foldl_updMax_flatten (rest : List (List Nat)) (m : Option Nat) :
    rest.foldl (fun m s => s.foldl updMax m) m = rest.flatten.foldl updMax m := by
  induction rest generalizing m with
  | nil => rfl
  | cons a l ih => simp [ih]

theorem checkLoop_eq_some (ord : List Nat → List Nat) (m : Option Nat) (g : List Nat)
    (rest : List (List Nat)) (r : Option Nat) (h : checkLoop ord m g rest = some r) :
    r = rest.flatten.foldl updMax m := by
  induction rest generalizing m g with
  | nil => simpa [checkLoop] using h.symm
  | cons s rest ih =>
    simp only [checkLoop] at h
    split at h
    · cases h
    · rw [ih _ _ h]; simp

theorem isMaxIndex_foldl (subsets : List (List Nat)) :
    Spec.IsMaxIndex (subsets.flatten.foldl updMax none) subsets := by
  have := updMax_foldl subsets.flatten none
  cases h : subsets.flatten.foldl updMax none with
  | none => rw [h] at this; simpa [Spec.IsMaxIndex] using this.2
  | some k =>
    rw [h] at this
    obtain ⟨h1, -, h3⟩ := this
    refine ⟨?_, ?_⟩
    · simpa using h1
    · intro s hs x hx; exact h3 x (List.mem_flatten.2 ⟨s, hs, hx⟩)

theorem isMaxIndex_unique (m m' : Option Nat) (subsets : List (List Nat))
    (h : Spec.IsMaxIndex m subsets) (h' : Spec.IsMaxIndex m' subsets) : m = m' := by
  unfold Spec.IsMaxIndex at h h'
  cases m with
  | none =>
    cases m' with
    | none => rfl
    | some k' =>
      obtain ⟨⟨s, hs, hk⟩, -⟩ := h'
      rw [h s hs] at hk; cases hk
  | some k =>
    obtain ⟨⟨s, hs, hk⟩, hm⟩ := h
    cases m' with
    | none => rw [h' s hs] at hk; cases hk
    | some k' =>
      obtain ⟨⟨s', hs', hk'⟩, hm'⟩ := h'
      have := hm s' hs' k' hk'; have := hm' s hs k hk
      congr 1; omega

theorem tryFrom_of_disjoint (ord : List Nat → List Nat) (hord : ∀ l, (ord l).Perm l)
    (subsets : List (List Nat)) (labels : List Nat) (m : Option Nat)
    (hl : subsets.length = labels.length) (hd : Spec.DisjointFamily subsets)
    (hm : Spec.IsMaxIndex m subsets) : tryFrom ord subsets labels = .ok ⟨m, subsets, labels⟩ := by
  unfold tryFrom
  rw [if_pos hl]
  have := (checkLoop_isSome ord hord none [] subsets).2 ⟨by simp, hd⟩
  obtain ⟨r, hr⟩ := Option.isSome_iff_exists.1 this
  rw [hr]
  have := checkLoop_eq_some _ _ _ _ _ hr
  have := isMaxIndex_unique r m subsets (this ▸ isMaxIndex_foldl subsets) hm
  simp [this]

/-! ### split trees -/

/-- Items of a range of subsets. -/
def rangeItems (d : DisjointSubsets) (a b : Nat) : List Item :=
  ((d.labels.zip d.subsets).map (fun p => Item.mk p.1 p.2) |>.drop a).take (b - a)

theorem itemAt_eq (d : DisjointSubsets) (i : Nat) :
    itemAt d i = ((d.labels.zip d.subsets).map (fun p => Item.mk p.1 p.2))[i]? := by
  simp only [itemAt, List.getElem?_map, List.zip, List.getElem?_zipWith]
  cases d.labels[i]? <;> cases d.subsets[i]? <;> simp

theorem rangeItems_nil (d : DisjointSubsets) (a b : Nat) (h : b ≤ a) : rangeItems d a b = [] := by
  simp [rangeItems, Nat.sub_eq_zero_of_le h]

theorem rangeItems_cons (d : DisjointSubsets) (a b : Nat) (x : Item) (h : a < b)
    (hx : itemAt d a = some x) : rangeItems d a b = x :: rangeItems d (a + 1) b := by
  rw [itemAt_eq] at hx
  unfold rangeItems
  obtain ⟨hlt, hx⟩ := List.getElem?_eq_some_iff.1 hx
  rw [List.drop_eq_getElem_cons hlt, hx]
  have : b - a = (b - (a + 1)) + 1 := by omega
  rw [this, List.take_succ_cons]

theorem rangeItems_snoc (d : DisjointSubsets) (a b : Nat) (x : Item) (h : a < b)
    (hx : itemAt d (b - 1) = some x) : rangeItems d a b = rangeItems d a (b - 1) ++ [x] := by
  rw [itemAt_eq] at hx
  unfold rangeItems
  have : b - a = (b - 1 - a) + 1 := by omega
  rw [this, List.take_add_one, List.getElem?_drop]
  rw [show a + (b - 1 - a) = b - 1 by omega, hx]
  rfl

theorem rangeItems_split (d : DisjointSubsets) (a m b : Nat) (h1 : a ≤ m) (h2 : m ≤ b) :
    rangeItems d a m ++ rangeItems d m b = rangeItems d a b := by
  unfold rangeItems
  have : b - a = (m - a) + (b - m) := by omega
  rw [this, List.take_add, List.drop_drop]
  congr 3; omega

theorem itemAt_isSome (d : DisjointSubsets) (i : Nat) (hl : d.labels.length = d.subsets.length)
    (h : i < d.subsets.length) : ∃ x, itemAt d i = some x := by
  rw [itemAt_eq]
  exact ⟨_, List.getElem?_eq_getElem (by simp [hl, h])⟩

theorem calls_eq (d : DisjointSubsets) (hl : d.labels.length = d.subsets.length) (cs : List Bool)
    (it : SubsetIter) (h1 : it.current ≤ it.stop) (h2 : it.stop ≤ d.subsets.length) :
    ∃ f b it', it.calls d cs = some (f, b, it') ∧ it'.current ≤ it'.stop ∧
      it'.stop ≤ it.stop ∧ it.current ≤ it'.current ∧
      rangeItems d it.current it.stop =
        f ++ rangeItems d it'.current it'.stop ++ b.reverse := by
  induction cs generalizing it with
  | nil => exact ⟨[], [], it, rfl, h1, Nat.le_refl _, Nat.le_refl _, by simp⟩
  | cons c cs ih =>
    cases c with
    | true =>
      by_cases hlt : it.current < it.stop
      · obtain ⟨x, hx⟩ := itemAt_isSome d it.current hl (by omega)
        obtain ⟨f, b, it', e1, e2, e3, e4, e5⟩ :=
          ih { it with current := it.current + 1 } (by simp only; omega) h2
        refine ⟨x :: f, b, it', ?_, e2, e3, ?_, ?_⟩
        · simp [SubsetIter.calls, SubsetIter.next, hlt, hx, e1]
        · simp at e4; omega
        · rw [rangeItems_cons d _ _ x hlt hx, e5]; simp
      · obtain ⟨f, b, it', e1, e2, e3, e4, e5⟩ := ih it h1 h2
        refine ⟨f, b, it', ?_, e2, e3, e4, e5⟩
        simp [SubsetIter.calls, SubsetIter.next, hlt, e1]
    | false =>
      by_cases hlt : it.current < it.stop
      · obtain ⟨x, hx⟩ := itemAt_isSome d (it.stop - 1) hl (by omega)
        obtain ⟨f, b, it', e1, e2, e3, e4, e5⟩ :=
          ih { it with stop := it.stop - 1 } (by simp; omega) (by simp; omega)
        refine ⟨f, x :: b, it', ?_, e2, ?_, e4, ?_⟩
        · simp [SubsetIter.calls, SubsetIter.nextBack, hlt, hx, e1]
        · simp at e3; omega
        · rw [rangeItems_snoc d _ _ x hlt hx, e5]; simp
      · obtain ⟨f, b, it', e1, e2, e3, e4, e5⟩ := ih it h1 h2
        refine ⟨f, b, it', ?_, e2, e3, e4, e5⟩
        simp [SubsetIter.calls, SubsetIter.nextBack, hlt, e1]

theorem rangeItems_length (d : DisjointSubsets) (hl : d.labels.length = d.subsets.length)
    (a b : Nat) (h : b ≤ d.subsets.length) : (rangeItems d a b).length = b - a := by
  simp [rangeItems, hl]; omega

/-- A split tree respects the producer's own assertion. -/
def SplitTree.Ok : SplitTree → Nat → Prop
  | .leaf _, _ => True
  | .node i l r, n => i < n ∧ l.Ok i ∧ r.Ok (n - i)

theorem drive_eq (d : DisjointSubsets) (hl : d.labels.length = d.subsets.length) (t : SplitTree)
    (p : Producer) (hp : p.rangeStart + p.rangeLen ≤ d.subsets.length) (ht : t.Ok p.rangeLen) :
    ∃ xs n, p.drive d t = some (xs, n) ∧ xs.length + n = p.rangeLen ∧
      xs.Sublist (rangeItems d p.rangeStart (p.rangeStart + p.rangeLen)) := by
  induction t generalizing p with
  | leaf cs =>
    obtain ⟨f, b, it', e1, e2, e3, e4, e5⟩ := calls_eq d hl cs p.intoIter
      (by simp [Producer.intoIter]) (by simp [Producer.intoIter]; omega)
    have hlen := congrArg List.length e5
    simp only [Producer.intoIter] at e3 e4 e5 hlen
    rw [rangeItems_length d hl _ _ (by omega)] at hlen
    simp only [List.length_append, List.length_reverse] at hlen
    rw [rangeItems_length d hl _ _ (by omega)] at hlen
    refine ⟨f ++ b.reverse, it'.stop - it'.current, ?_, ?_, ?_⟩
    · simp [Producer.drive, e1, SubsetIter.len, e2]
    · simp; omega
    · rw [Nat.add_comm p.rangeStart, e5]
      simp
  | node i l r ihl ihr =>
    obtain ⟨h1, h2, h3⟩ := ht
    obtain ⟨xs, n, a1, a2, a4⟩ := ihl ⟨p.rangeStart, i⟩ (by simp; omega) h2
    obtain ⟨ys, m, b1, b2, b4⟩ := ihr ⟨p.rangeStart + i, p.rangeLen - i⟩ (by simp; omega) h3
    refine ⟨xs ++ ys, n + m, ?_, ?_, ?_⟩
    · simp [Producer.drive, Producer.splitAt, h1, a1, b1]
    · simp at a2 b2 ⊢; omega
    · have := rangeItems_split d p.rangeStart (p.rangeStart + i) (p.rangeStart + p.rangeLen)
        (by omega) (by omega)
      rw [← this]
      refine List.Sublist.append a4 ?_
      have e : p.rangeStart + i + (p.rangeLen - i) = p.rangeStart + p.rangeLen := by omega
      simpa [e] using b4

end Fenris
