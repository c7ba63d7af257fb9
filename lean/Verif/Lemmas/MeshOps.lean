import Verif.Model.MeshOps
import Verif.Lemmas.Permutation
/-! Helper lemmas for C14, C15. -/
set_option autoImplicit false

namespace Fenris
namespace Mesh

theorem sortNat_perm (l : List Nat) : (sortNat l).Perm l := stableSort_perm _ l

theorem sortNat_sorted (l : List Nat) : (sortNat l).Pairwise (fun a b => a ≤ b) := by
  have := stableSort_pairwise (fun a b : Nat => decide (a ≤ b))
    (by intro a b c; simp; omega) (by intro a b; simp; omega) l
  simpa [sortNat] using this

theorem sortNat_eq_iff (a b : List Nat) : sortNat a = sortNat b ↔ a.Perm b := by
  constructor
  · intro h
    exact (sortNat_perm a).symm.trans (h ▸ sortNat_perm b)
  · intro h
    have hp : (sortNat a).Perm (sortNat b) := (sortNat_perm a).trans (h.trans (sortNat_perm b).symm)
    exact hp.eq_of_pairwise (le := fun a b => a ≤ b) (fun a b _ _ => Nat.le_antisymm)
      (sortNat_sorted a) (sortNat_sorted b)

theorem dedup_cons_spec (l : List Nat) : ∀ a, (a :: l).Pairwise (fun a b => a ≤ b) →
    (dedup (a :: l)).Pairwise (fun a b => a < b) ∧ ∀ x, x ∈ dedup (a :: l) ↔ x ∈ a :: l := by
  induction l with
  | nil => intro a _; simp [dedup]
  | cons b l ih =>
    intro a h
    rw [List.pairwise_cons] at h
    obtain ⟨h1, h2⟩ := h
    obtain ⟨i1, i2⟩ := ih b h2
    unfold dedup
    by_cases hab : a = b
    · subst hab
      rw [if_pos rfl]
      refine ⟨i1, fun x => ?_⟩
      rw [i2]; simp
    · rw [if_neg hab]
      have hlt : a < b := by have := h1 b (by simp); omega
      refine ⟨List.pairwise_cons.2 ⟨?_, i1⟩, fun x => ?_⟩
      · intro x hx
        rw [i2] at hx
        rcases List.mem_cons.1 hx with rfl | hx
        · exact hlt
        · have := (List.pairwise_cons.1 h2).1 x hx; omega
      · rw [List.mem_cons, i2, List.mem_cons (l := b :: l)]

theorem dedup_spec (l : List Nat) (h : l.Pairwise (fun a b => a ≤ b)) :
    (dedup l).Pairwise (fun a b => a < b) ∧ ∀ x, x ∈ dedup l ↔ x ∈ l := by
  cases l with
  | nil => simp [dedup]
  | cons a l => exact dedup_cons_spec l a h

/-- Map invariant after having processed the keys `ks`. -/
structure CountInv (ks : List (List Nat)) (m : List (List Nat × Nat × Nat)) : Prop where
  keys : (m.map (fun e => e.1)).Nodup
  sound : ∀ k i c, (k, i, c) ∈ m → ks[i]? = some k ∧ c = ks.count k
  complete : ∀ k ∈ ks, ∃ i c, (k, i, c) ∈ m

theorem mem_bump (key : List Nat) (i : Nat) (m : List (List Nat × Nat × Nat))
    (hn : (m.map (fun e => e.1)).Nodup) (k : List Nat) (j c : Nat) :
    (k, j, c) ∈ bump key i m ↔
      (k ≠ key ∧ (k, j, c) ∈ m) ∨ (k = key ∧ ∃ c', c = c' + 1 ∧ (k, j, c') ∈ m) ∨
      (k = key ∧ j = i ∧ c = 1 ∧ ∀ e ∈ m, e.1 ≠ key) := by
  induction m with
  | nil => simp [bump]
  | cons e m ih =>
    obtain ⟨k', j', c'⟩ := e
    simp only [List.map_cons, List.nodup_cons, List.mem_map, not_exists, not_and] at hn
    unfold bump
    by_cases hk : k' = key
    · subst hk
      rw [if_pos rfl]
      simp only [List.mem_cons, Prod.mk.injEq]
      constructor
      · rintro (⟨rfl, rfl, rfl⟩ | h)
        · exact .inr (.inl ⟨rfl, c', rfl, .inl ⟨rfl, rfl, rfl⟩⟩)
        · refine .inl ⟨?_, .inr h⟩
          rintro rfl; exact hn.1 _ h rfl
      · rintro (⟨h1, h2⟩ | ⟨rfl, c'', rfl, h2⟩ | ⟨rfl, _, _, h⟩)
        · rcases h2 with ⟨rfl, _, _⟩ | h2
          · exact absurd rfl h1
          · exact .inr h2
        · rcases h2 with ⟨_, rfl, rfl⟩ | h2
          · exact .inl ⟨rfl, rfl, rfl⟩
          · exact absurd rfl (hn.1 _ h2)
        · exact absurd rfl (h _ (.inl rfl))
    · rw [if_neg hk]
      simp only [List.mem_cons, Prod.mk.injEq, ih hn.2]
      constructor
      · rintro (⟨rfl, rfl, rfl⟩ | ⟨h1, h2⟩ | ⟨h1, c'', h2, h3⟩ | ⟨h1, h2, h3, h4⟩)
        · exact .inl ⟨hk, .inl ⟨rfl, rfl, rfl⟩⟩
        · exact .inl ⟨h1, .inr h2⟩
        · exact .inr (.inl ⟨h1, c'', h2, .inr h3⟩)
        · refine .inr (.inr ⟨h1, h2, h3, ?_⟩)
          rintro e (rfl | he)
          · exact hk
          · exact h4 e he
      · rintro (⟨h1, h2⟩ | ⟨rfl, c'', rfl, h3⟩ | ⟨h1, h2, h3, h4⟩)
        · rcases h2 with h2 | h2
          · exact .inl h2
          · exact .inr (.inl ⟨h1, h2⟩)
        · rcases h3 with ⟨rfl, _, _⟩ | h3
          · exact absurd rfl hk
          · exact .inr (.inr (.inl ⟨rfl, c'', rfl, h3⟩))
        · exact .inr (.inr (.inr ⟨h1, h2, h3, fun e he => h4 e (.inr he)⟩))

theorem bump_keys (key : List Nat) (i : Nat) (m : List (List Nat × Nat × Nat)) :
    (bump key i m).map (fun e => e.1) =
      if key ∈ m.map (fun e => e.1) then m.map (fun e => e.1) else m.map (fun e => e.1) ++ [key] := by
  induction m with
  | nil => simp [bump]
  | cons e m ih =>
    obtain ⟨k', j', c'⟩ := e
    unfold bump
    by_cases hk : k' = key
    · subst hk; simp
    · rw [if_neg hk]
      simp only [List.map_cons, ih, List.mem_cons]
      have : ¬ key = k' := fun h => hk h.symm
      by_cases hm : key ∈ m.map (fun e => e.1) <;> simp [hm, this]

theorem countInv_bump (ks : List (List Nat)) (m : List (List Nat × Nat × Nat)) (key : List Nat)
    (h : CountInv ks m) : CountInv (ks ++ [key]) (bump key ks.length m) := by
  refine ⟨?_, ?_, ?_⟩
  · rw [bump_keys]
    split
    · exact h.keys
    · rename_i hm
      rw [List.nodup_append]
      refine ⟨h.keys, by simp, ?_⟩
      rintro a ha b hb rfl
      simp only [List.mem_singleton] at hb
      subst hb; exact hm ha
  · intro k i c hm
    rcases (mem_bump key ks.length m h.keys k i c).1 hm with ⟨h1, h2⟩ | ⟨rfl, c', rfl, h2⟩ | ⟨rfl, rfl, rfl, h4⟩
    · obtain ⟨a, b⟩ := h.sound k i c h2
      have hi := (List.getElem?_eq_some_iff.1 a).1
      refine ⟨by rw [List.getElem?_append_left hi]; exact a, ?_⟩
      rw [List.count_append, b, List.count_singleton]
      have : (key == k) = false := by simp; exact fun h => h1 h.symm
      simp [this]
    · obtain ⟨a, b⟩ := h.sound k i c' h2
      have hi := (List.getElem?_eq_some_iff.1 a).1
      refine ⟨by rw [List.getElem?_append_left hi]; exact a, ?_⟩
      rw [List.count_append, b]; simp
    · refine ⟨by simp, ?_⟩
      rw [List.count_append]
      have : ks.count k = 0 := by
        rw [List.count_eq_zero]
        intro hk
        obtain ⟨i, c, he⟩ := h.complete k hk
        exact h4 _ he rfl
      simp [this]
  · intro k hk
    have hmem : k ∈ (bump key ks.length m).map (fun e => e.1) := by
      rw [bump_keys]
      rcases List.mem_append.1 hk with hk | hk
      · obtain ⟨i, c, he⟩ := h.complete k hk
        have : k ∈ m.map (fun e => e.1) := List.mem_map.2 ⟨_, he, rfl⟩
        split
        · exact this
        · exact List.mem_append.2 (.inl this)
      · simp only [List.mem_singleton] at hk
        subst hk
        split
        · assumption
        · simp
    obtain ⟨⟨k', i, c⟩, he, rfl⟩ := List.mem_map.1 hmem
    exact ⟨i, c, he⟩

theorem countLoop_inv (rest ks : List (List Nat)) (m : List (List Nat × Nat × Nat))
    (h : CountInv ks m) : CountInv (ks ++ rest) (countLoop rest ks.length m) := by
  induction rest generalizing ks m with
  | nil => simpa [countLoop] using h
  | cons k rest ih =>
    unfold countLoop
    have := ih (ks ++ [k]) _ (countInv_bump ks m k h)
    simpa using this

theorem count_eq_one_iff {β : Type} [BEq β] [LawfulBEq β] (ks : List β) (i : Nat) (k : β)
    (hi : ks[i]? = some k) :
    ks.count k = 1 ↔ ∀ j : Nat, ks[j]? = some k → j = i := by
  induction ks generalizing i with
  | nil => simp at hi
  | cons a l ih =>
    rw [List.count_cons]
    cases i with
    | zero =>
      simp only [List.getElem?_cons_zero, Option.some.injEq] at hi
      subst hi
      simp only [BEq.rfl, if_true]
      constructor
      · intro h j hj
        cases j with
        | zero => rfl
        | succ j =>
          simp only [List.getElem?_cons_succ] at hj
          have := List.count_pos_iff.2 (List.mem_of_getElem? hj)
          omega
      · intro h
        have : l.count a = 0 := by
          rw [List.count_eq_zero]
          intro hm
          obtain ⟨j, hj⟩ := List.getElem?_of_mem hm
          have := h (j + 1) (by simpa using hj)
          omega
        omega
    | succ i =>
      simp only [List.getElem?_cons_succ] at hi
      by_cases ha : a = k
      · subst ha
        have := List.count_pos_iff.2 (List.mem_of_getElem? hi)
        simp only [BEq.rfl, if_true]
        constructor
        · intro h; omega
        · intro h; have := h 0 (by simp); omega
      · have : (a == k) = false := by simpa using ha
        simp only [this]
        rw [show l.count k + (if false = true then 1 else 0) = l.count k by simp, ih i hi]
        constructor
        · intro h j hj
          cases j with
          | zero => simp at hj; exact absurd hj ha
          | succ j => rw [h j (by simpa using hj)]
        · intro h j hj
          have := h (j + 1) (by simpa using hj)
          omega

theorem nodup_getElem?_inj {β : Type} {l : List β} (h : l.Nodup) {i j : Nat} {x : β}
    (hi : l[i]? = some x) (hj : l[j]? = some x) : i = j := by
  rw [List.nodup_iff_pairwise_ne, List.pairwise_iff_getElem] at h
  obtain ⟨a, ha⟩ := List.getElem?_eq_some_iff.1 hi
  obtain ⟨b, hb⟩ := List.getElem?_eq_some_iff.1 hj
  rcases Nat.lt_trichotomy i j with hlt | heq | hgt
  · exact absurd (ha.trans hb.symm) (h i j a b hlt)
  · exact heq
  · exact absurd (hb.trans ha.symm) (h j i b a hgt)

/-- Face info entries are exactly the faces, with their indices. -/
theorem mem_faceInfo (facesOf : List Nat → List (List Nat)) (cells : List (List Nat))
    (f : List Nat) (c l : Nat) :
    (f, c, l) ∈ faceInfo facesOf cells ↔
      ∃ cell, cells[c]? = some cell ∧ (facesOf cell)[l]? = some f := by
  unfold faceInfo
  simp only [List.mem_flatMap, List.mem_map, Prod.mk.injEq, Prod.exists]
  constructor
  · rintro ⟨cell, c', h1, f', l', h2, rfl, rfl, rfl⟩
    rw [List.mem_zipIdx_iff_getElem?] at h1 h2
    exact ⟨cell, h1, h2⟩
  · rintro ⟨cell, h1, h2⟩
    exact ⟨cell, c, List.mem_zipIdx_iff_getElem?.2 h1, f, l, List.mem_zipIdx_iff_getElem?.2 h2,
      rfl, rfl, rfl⟩

theorem pairwise_zipIdx {β : Type} (l : List β) (n : Nat) :
    (l.zipIdx n).Pairwise (fun a b => a.2 < b.2) := by
  induction l generalizing n with
  | nil => simp
  | cons a l ih =>
    rw [List.zipIdx_cons, List.pairwise_cons]
    refine ⟨?_, ih _⟩
    intro b hb
    have := List.mem_zipIdx hb
    simp only; omega

/-- Face info is strictly ordered by (cell, local face); in particular indices are distinct. -/
theorem faceInfo_nodup (facesOf : List Nat → List (List Nat)) (cells : List (List Nat)) :
    ((faceInfo facesOf cells).map (fun f => (f.2.1, f.2.2))).Nodup := by
  unfold faceInfo
  rw [List.map_flatMap, List.nodup_iff_pairwise_ne, List.pairwise_flatMap]
  constructor
  · intro p _
    rw [List.map_map, List.pairwise_map]
    refine (pairwise_zipIdx (facesOf p.1) 0).imp ?_
    intro a b hab h
    simp only [Function.comp, Prod.mk.injEq] at h
    omega
  · refine (pairwise_zipIdx cells 0).imp ?_
    intro a b hab x hx y hy hxy
    simp only [List.mem_map] at hx hy
    obtain ⟨x', ⟨q, _, rfl⟩, rfl⟩ := hx
    obtain ⟨y', ⟨q', _, rfl⟩, rfl⟩ := hy
    simp only [Prod.mk.injEq] at hxy
    omega

end Mesh
end Fenris
