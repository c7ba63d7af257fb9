import Verif.Model.Permutation
import Mathlib.Data.List.Perm.Subperm
/-! Helper lemmas for permutations (C10, C11, C13). -/
set_option autoImplicit false

namespace Fenris
namespace Permutation

theorem fromVecLoop_ok (rest : List Nat) (visited : List Bool) :
    fromVecLoop rest visited = .ok () ↔
      rest.Nodup ∧ ∀ i ∈ rest, visited[i]? = some false := by
  induction rest generalizing visited with
  | nil => simp [fromVecLoop]
  | cons x xs ih =>
    unfold fromVecLoop
    cases hv : visited[x]? with
    | none => simp [hv]
    | some b =>
      cases b with
      | true => simp [hv]
      | false =>
        simp only [ih]
        have hx : x < visited.length := by
          rcases List.getElem?_eq_some_iff.1 hv with ⟨h, _⟩; exact h
        constructor
        · rintro ⟨h1, h2⟩
          have hnx : x ∉ xs := by
            intro hx'
            have := h2 x hx'
            rw [List.getElem?_set_self hx] at this
            cases this
          refine ⟨List.nodup_cons.2 ⟨hnx, h1⟩, ?_⟩
          intro i hi
          rcases List.mem_cons.1 hi with rfl | hi
          · exact hv
          · have := h2 i hi
            rwa [List.getElem?_set_ne (by rintro rfl; exact hnx hi)] at this
        · rintro ⟨h1, h2⟩
          obtain ⟨h3, h4⟩ := List.nodup_cons.1 h1
          refine ⟨h4, fun i hi => ?_⟩
          rw [List.getElem?_set_ne (by rintro rfl; exact h3 hi)]
          exact h2 i (List.mem_cons_of_mem _ hi)

theorem fromVecLoop_panic (rest : List Nat) (visited : List Bool)
    (h : ∀ i ∈ rest, i < visited.length) : fromVecLoop rest visited ≠ .panic := by
  induction rest generalizing visited with
  | nil => simp [fromVecLoop]
  | cons x xs ih =>
    unfold fromVecLoop
    have hx := h x (by simp)
    rw [List.getElem?_eq_getElem hx]
    cases visited[x] with
    | true => simp
    | false => exact ih _ (by simpa using fun i hi => h i (by simp [hi]))

theorem fromVec_ok_iff (v : List Nat) (p : Permutation) :
    fromVec v = .ok p ↔ p = ⟨v⟩ ∧ v.Nodup ∧ ∀ i ∈ v, i < v.length := by
  have key := fromVecLoop_ok v (List.replicate v.length false)
  have h2 : (∀ i ∈ v, (List.replicate v.length false)[i]? = some false) ↔
      ∀ i ∈ v, i < v.length := by
    constructor
    · intro h i hi
      have := h i hi
      rw [List.getElem?_replicate] at this
      split at this
      · assumption
      · cases this
    · intro h i hi; rw [List.getElem?_replicate, if_pos (h i hi)]
  rw [h2] at key
  unfold fromVec
  cases hl : fromVecLoop v (List.replicate v.length false) with
  | ok u =>
    have := key.1 hl
    simp only [Res.ok.injEq]
    constructor
    · rintro rfl; exact ⟨rfl, this⟩
    · rintro ⟨rfl, _⟩; rfl
  | err e =>
    have : ¬ (v.Nodup ∧ ∀ i ∈ v, i < v.length) := fun h => by rw [key.2 h] at hl; cases hl
    simp only [reduceCtorEq, false_iff]; rintro ⟨_, h⟩; exact this h
  | panic =>
    have : ¬ (v.Nodup ∧ ∀ i ∈ v, i < v.length) := fun h => by rw [key.2 h] at hl; cases hl
    simp only [reduceCtorEq, false_iff]; rintro ⟨_, h⟩; exact this h

theorem perm_range_iff (v : List Nat) :
    v.Perm (List.range v.length) ↔ v.Nodup ∧ ∀ i ∈ v, i < v.length := by
  constructor
  · intro h
    refine ⟨h.nodup_iff.2 List.nodup_range, fun i hi => ?_⟩
    simpa using h.mem_iff.1 hi
  · rintro ⟨h1, h2⟩
    have hs : v.Subperm (List.range v.length) := by
      apply List.Nodup.subperm h1
      intro i hi; simpa using h2 i hi
    exact hs.perm_of_length_le (by simp)

theorem inverseLoop_spec (rest : List Nat) (k : Nat) (inv : List Nat) (hn : rest.Nodup)
    (hb : ∀ i ∈ rest, i < inv.length) :
    ∃ inv', inverseLoop rest k inv = some inv' ∧ inv'.length = inv.length ∧
      (∀ (j s : Nat), rest[j]? = some s → inv'[s]? = some (k + j)) ∧
      (∀ s, s ∉ rest → inv'[s]? = inv[s]?) := by
  induction rest generalizing k inv with
  | nil => exact ⟨inv, rfl, rfl, by simp, by simp⟩
  | cons x xs ih =>
    obtain ⟨h1, h2⟩ := List.nodup_cons.1 hn
    have hx := hb x (by simp)
    obtain ⟨inv', a, b, c, d⟩ := ih (k + 1) (inv.set x k) h2
      (by simpa using fun i hi => hb i (by simp [hi]))
    refine ⟨inv', by simp [inverseLoop, hx, a], by simpa using b, ?_, ?_⟩
    · intro j s hj
      cases j with
      | zero =>
        simp only [List.getElem?_cons_zero, Option.some.injEq] at hj
        subst hj
        rw [d x h1, List.getElem?_set_self hx]; simp
      | succ j =>
        simp only [List.getElem?_cons_succ] at hj
        rw [c j s hj]; congr 1; omega
    · intro s hs
      simp only [List.mem_cons, not_or] at hs
      rw [d s hs.2, List.getElem?_set_ne (fun h => hs.1 h.symm)]

/-- The defining property of the inverse. -/
theorem inverse_spec (mx : Nat) (v : List Nat) (hn : v.Nodup) (hb : ∀ i ∈ v, i < v.length) :
    ∃ q : List Nat, inverse mx ⟨v⟩ = some ⟨q⟩ ∧ q.length = v.length ∧ q.Nodup ∧
      (∀ i ∈ q, i < q.length) ∧ ∀ (i s : Nat), v[i]? = some s ↔ q[s]? = some i := by
  obtain ⟨q, a, b, c, -⟩ := inverseLoop_spec v 0 (List.replicate v.length mx) hn
    (by simpa using hb)
  simp only [List.length_replicate] at b
  have hp : v.Perm (List.range v.length) := (perm_range_iff v).2 ⟨hn, hb⟩
  have hiff : ∀ (i s : Nat), v[i]? = some s ↔ q[s]? = some i := by
    intro i s
    constructor
    · intro h; simpa using c i s h
    · intro h
      have hs : s < q.length := (List.getElem?_eq_some_iff.1 h).1
      have hm : s ∈ v := hp.mem_iff.2 (by simp; omega)
      obtain ⟨j, hj⟩ := List.getElem?_of_mem hm
      have := c j s hj
      rw [h] at this
      simp only [Nat.zero_add, Option.some.injEq] at this
      rw [this]; exact hj
  have hqb : ∀ i ∈ q, i < q.length := by
    intro i hi
    obtain ⟨s, hs⟩ := List.getElem?_of_mem hi
    have := (List.getElem?_eq_some_iff.1 ((hiff i s).2 hs)).1
    omega
  have hqn : q.Nodup := by
    rw [List.nodup_iff_pairwise_ne, List.pairwise_iff_getElem]
    intro i j hi hj hij heq
    have h1 := (hiff _ i).2 (List.getElem?_eq_getElem hi)
    have h2 := (hiff _ j).2 (List.getElem?_eq_getElem hj)
    rw [heq, h2] at h1
    simp only [Option.some.injEq] at h1; omega
  refine ⟨q, ?_, b, hqn, hqb, hiff⟩
  unfold inverse
  simp only [a]
  rw [(fromVec_ok_iff q ⟨q⟩).2 ⟨rfl, hqn, hqb⟩]

theorem mapM_getElem?_spec {α : Type} (slice : List α) (v : List Nat)
    (hb : ∀ i ∈ v, i < slice.length) :
    ∃ out, v.mapM (fun i => slice[i]?) = some out ∧ out.length = v.length ∧
      ∀ (k i : Nat), v[k]? = some i → out[k]? = slice[i]? := by
  induction v with
  | nil => exact ⟨[], rfl, rfl, by simp⟩
  | cons x xs ih =>
    obtain ⟨out, a, b, c⟩ := ih (fun i hi => hb i (by simp [hi]))
    have hx := hb x (by simp)
    refine ⟨slice[x] :: out, by simp [List.mapM_cons, a, List.getElem?_eq_getElem hx], by simp [b], ?_⟩
    intro k i hk
    cases k with
    | zero =>
      simp only [List.getElem?_cons_zero, Option.some.injEq] at hk
      subst hk; simp [List.getElem?_eq_getElem hx]
    | succ k => simpa using c k i (by simpa using hk)

theorem mapM_option_spec {α β : Type} (f : α → Option β) (l : List α)
    (h : ∀ a ∈ l, (f a).isSome) :
    ∃ out, l.mapM f = some out ∧ out.length = l.length ∧
      ∀ (k : Nat) (a : α), l[k]? = some a → out[k]? = f a := by
  induction l with
  | nil => exact ⟨[], rfl, rfl, by simp⟩
  | cons x xs ih =>
    obtain ⟨out, a, b, c⟩ := ih (fun i hi => h i (by simp [hi]))
    obtain ⟨y, hy⟩ := Option.isSome_iff_exists.1 (h x (by simp))
    refine ⟨y :: out, by simp [List.mapM_cons, a, hy], by simp [b], ?_⟩
    intro k i hk
    cases k with
    | zero =>
      simp only [List.getElem?_cons_zero, Option.some.injEq] at hk
      subst hk; simp [hy]
    | succ k => simpa using c k i (by simpa using hk)

end Permutation
end Fenris
