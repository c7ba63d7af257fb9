import Verif.Lemmas.MeshOps
/-! Helper lemmas for C15. -/
set_option autoImplicit false

namespace Fenris
namespace Mesh
variable {α : Type}

theorem markVertices_spec (vs : List Nat) (table : List Bool) :
    ((∃ v ∈ vs, table.length ≤ v) → markVertices vs table = none) ∧
    ((∀ v ∈ vs, v < table.length) → ∃ t', markVertices vs table = some t' ∧
      t'.length = table.length ∧
      ∀ w : Nat, t'[w]? = some true ↔ table[w]? = some true ∨ w ∈ vs) := by
  induction vs generalizing table with
  | nil => exact ⟨by simp, fun _ => ⟨table, rfl, rfl, by simp⟩⟩
  | cons v vs ih =>
    obtain ⟨i1, i2⟩ := ih (table.set v true)
    simp only [List.length_set] at i1 i2
    constructor
    · rintro ⟨w, hw, hlt⟩
      unfold markVertices
      split
      · apply i1
        rcases List.mem_cons.1 hw with rfl | hw
        · omega
        · exact ⟨w, hw, hlt⟩
      · rfl
    · intro h
      have hv := h v (by simp)
      obtain ⟨t', a, b, c⟩ := i2 (fun w hw => h w (by simp [hw]))
      refine ⟨t', by simp [markVertices, hv, a], b, ?_⟩
      intro w
      rw [c]
      by_cases hw : w = v
      · subst hw; simp [List.getElem?_set_self hv]
      · rw [List.getElem?_set_ne (fun h => hw h.symm)]; simp [hw]

theorem keepTable_spec (cells : List (List Nat)) (is : List Nat) (table : List Bool)
    (hv : ∀ c ∈ cells, ∀ v ∈ c, v < table.length) :
    ((∃ i ∈ is, cells.length ≤ i) → keepTable cells is table = none) ∧
    ((∀ i ∈ is, i < cells.length) → ∃ t', keepTable cells is table = some t' ∧
      t'.length = table.length ∧
      ∀ w : Nat, t'[w]? = some true ↔
        table[w]? = some true ∨ ∃ i ∈ is, ∃ c, cells[i]? = some c ∧ w ∈ c) := by
  induction is generalizing table with
  | nil => exact ⟨by simp, fun _ => ⟨table, rfl, rfl, by simp⟩⟩
  | cons i is ih =>
    unfold keepTable
    cases hc : cells[i]? with
    | none =>
      refine ⟨fun _ => rfl, fun h => ?_⟩
      have := h i (by simp)
      rw [List.getElem?_eq_none_iff] at hc; omega
    | some c =>
      have hil := (List.getElem?_eq_some_iff.1 hc).1
      obtain ⟨t1, a1, b1, c1⟩ := (markVertices_spec c table).2 (hv c (List.mem_of_getElem? hc))
      simp only [a1]
      obtain ⟨i1, i2⟩ := ih t1 (by rw [b1]; exact hv)
      constructor
      · rintro ⟨j, hj, hlt⟩
        apply i1
        rcases List.mem_cons.1 hj with rfl | hj
        · omega
        · exact ⟨j, hj, hlt⟩
      · intro h
        obtain ⟨t', a, b, d⟩ := i2 (fun j hj => h j (by simp [hj]))
        refine ⟨t', a, by omega, fun w => ?_⟩
        rw [d, c1]
        constructor
        · rintro ((h | h) | ⟨j, hj, c', h1, h2⟩)
          · exact .inl h
          · exact .inr ⟨i, by simp, c, hc, h⟩
          · exact .inr ⟨j, by simp [hj], c', h1, h2⟩
        · rintro (h | ⟨j, hj, c', h1, h2⟩)
          · exact .inl (.inl h)
          · rcases List.mem_cons.1 hj with rfl | hj
            · rw [hc] at h1; cases h1; exact .inl (.inr h2)
            · exact .inr ⟨j, hj, c', h1, h2⟩

theorem keptIndices_eq_filter (table : List Bool) (i : Nat) :
    keptIndices table i =
      ((List.range' i table.length).filter (fun v => table[v - i]? == some true)) := by
  induction table generalizing i with
  | nil => simp [keptIndices]
  | cons b t ih =>
    rw [List.length_cons, List.range'_succ]
    have hrest : (List.range' (i + 1) t.length).filter (fun v => (b :: t)[v - i]? == some true) =
        (List.range' (i + 1) t.length).filter (fun v => t[v - (i + 1)]? == some true) := by
      apply List.filter_congr
      intro v hv
      have : i + 1 ≤ v := by
        rw [List.mem_range'] at hv; obtain ⟨k, _, rfl⟩ := hv; omega
      obtain ⟨d, rfl⟩ := Nat.exists_eq_add_of_le this
      rw [show i + 1 + d - i = d + 1 by omega, show i + 1 + d - (i + 1) = d by omega]
      simp
    cases b with
    | true => rw [List.filter_cons_of_pos (by simp)]; simp [keptIndices, ih, hrest]
    | false => rw [List.filter_cons_of_neg (by simp)]; simp [keptIndices, ih, hrest]

/-- The label map inverts the list of kept indices. -/
theorem labelMap_spec (table : List Bool) (i next : Nat) :
    (∀ (v k : Nat), (labelMap table i next).lookup v = some k →
      next ≤ k ∧ (keptIndices table i)[k - next]? = some v) ∧
    (∀ v : Nat, i ≤ v → table[v - i]? = some true →
      ∃ k, (labelMap table i next).lookup v = some k) := by
  induction table generalizing i next with
  | nil => simp [labelMap]
  | cons b t ih =>
    cases b with
    | true =>
      obtain ⟨i1, i2⟩ := ih (i + 1) (next + 1)
      simp only [labelMap, keptIndices, List.lookup_cons]
      constructor
      · intro v k h
        by_cases hv : v = i
        · subst hv; simp at h; subst h; simp
        · have : (v == i) = false := by simpa using hv
          rw [this] at h
          obtain ⟨a, b⟩ := i1 v k h
          refine ⟨by omega, ?_⟩
          rw [show k - next = (k - (next + 1)) + 1 by omega]
          simpa using b
      · intro v hv h
        by_cases hvi : v = i
        · subst hvi; exact ⟨next, by simp⟩
        · have : (v == i) = false := by simpa using hvi
          rw [this]
          apply i2 v (by omega)
          rw [show v - i = (v - (i + 1)) + 1 by omega] at h
          simpa using h
    | false =>
      obtain ⟨i1, i2⟩ := ih (i + 1) next
      simp only [labelMap, keptIndices]
      refine ⟨i1, ?_⟩
      intro v hv h
      by_cases hvi : v = i
      · subst hvi; simp at h
      · apply i2 v (by omega)
        rw [show v - i = (v - (i + 1)) + 1 by omega] at h
        simpa using h

end Mesh
end Fenris
