import Verif.Lemmas.TetGrid
/-! # The faces of the tetrahedra of a grid match -/
set_option autoImplicit false

namespace Fenris
namespace TetGrid

/-- The corners of a side of a cell. -/
def corner (cell : Idx) (axis : Fin 3) (positive : Bool) (i : Fin 4) : Idx := (faceVertices cell axis positive).getD i 0

theorem corner_add (cell : Idx) (axis : Fin 3) (b : Bool) (i : Fin 4) : corner cell axis b i = fun a => cell a + corner 0 axis b i a := by
  funext x
  fin_cases axis <;> cases b <;> fin_cases i <;> fin_cases x <;> simp [corner, faceVertices, faceDeltas]

theorem corner_true (cell : Idx) (axis : Fin 3) (i : Fin 4) : corner cell axis true i = fun a => cell a + (faceDeltas axis).getD i 0 a := by
  funext x
  fin_cases axis <;> fin_cases i <;> fin_cases x <;> simp [corner, faceVertices, faceDeltas]

theorem corner_false (cell : Idx) (axis : Fin 3) (i : Fin 4) :
    corner (fun a => cell a + axisDelta axis a) axis false i = corner cell axis true (3 - i) := by
  funext x
  fin_cases axis <;> fin_cases i <;> fin_cases x <;> simp [corner, faceVertices, faceDeltas, axisDelta]

/-- Every edge of a side of a cell is an edge of another side. -/
theorem edge_match : ∀ (a : Fin 3) (b : Bool) (i : Fin 4), ∃ (a' : Fin 3) (b' : Bool) (j : Fin 4), a' ≠ a ∧
    ((corner 0 a b i = corner 0 a' b' j ∧ corner 0 a b (i + 1) = corner 0 a' b' (j + 1)) ∨
      corner 0 a b i = corner 0 a' b' (j + 1) ∧ corner 0 a b (i + 1) = corner 0 a' b' j) := by
  decide +kernel

theorem corner_axis (cell : Idx) (axis : Fin 3) (b : Bool) (i : Fin 4) :
    corner cell axis b i axis = if b then cell axis + 1 else cell axis := by
  fin_cases axis <;> cases b <;> fin_cases i <;> simp [corner, faceVertices, faceDeltas]

/-- The group that has the tetrahedra of a side of a cell. -/
def sideKey (n cell : Idx) (axis : Fin 3) (positive : Bool) : Key :=
  if positive then if cell axis + 1 < n axis then (cell, axis, .conn) else (cell, axis, .pos)
  else if cell axis = 0 then (cell, axis, .neg) else (fun a => cell a - axisDelta axis a, axis, .conn)

theorem sideKey_axis (n cell : Idx) (axis : Fin 3) (b : Bool) : (sideKey n cell axis b).2.1 = axis := by
  rw [sideKey]
  split_ifs <;> rfl

theorem sideKey_valid (n cell : Idx) (axis : Fin 3) (b : Bool) (hc : ∀ a, cell a < n a) : KeyValid n (sideKey n cell axis b) := by
  have h := hc axis
  rw [sideKey]
  split_ifs with h1 h2 h3
  · exact ⟨hc, h2⟩
  · exact ⟨hc, by omega⟩
  · exact ⟨hc, h3⟩
  · refine ⟨fun a => ?_, ?_⟩
    · have := hc a
      show cell a - axisDelta axis a < n a
      omega
    · show cell axis - axisDelta axis axis + 1 < n axis
      simp only [axisDelta, if_true]
      omega

theorem conn_edge (cell : Idx) (axis : Fin 3) (i : Fin 4) : ∃ t ∈ connN cell axis, Node.center cell ∈ t ∧
    Node.center (fun a => cell a + axisDelta axis a) ∈ t ∧ Node.vert (corner cell axis true i) ∈ t ∧
    Node.vert (corner cell axis true (i + 1)) ∈ t := by
  rw [connN_eq, corner_true, corner_true]
  simp only
  fin_cases i
  · exact ⟨_, .head _, by simp, by simp, by simp, by simp⟩
  · exact ⟨_, .tail _ (.head _), by simp, by simp, by simp, by simp⟩
  · exact ⟨_, .tail _ (.tail _ (.head _)), by simp, by simp, by simp, by simp⟩
  · exact ⟨_, .tail _ (.tail _ (.tail _ (.head _))), by simp, by simp, by simp, by simp⟩

theorem pyr_edge (cell : Idx) (axis : Fin 3) (b : Bool) (i : Fin 4) : ∃ t ∈ pyrN cell axis b, Node.center cell ∈ t ∧
    Node.vert (corner cell axis b i) ∈ t ∧ Node.vert (corner cell axis b (i + 1)) ∈ t := by
  rw [pyrN_eq]
  simp only [corner]
  split
  · fin_cases i
    · exact ⟨_, .head _, by simp, by simp, by simp⟩
    · exact ⟨_, .head _, by simp, by simp, by simp⟩
    · exact ⟨_, .tail _ (.head _), by simp, by simp, by simp⟩
    · exact ⟨_, .tail _ (.head _), by simp, by simp, by simp⟩
  · fin_cases i
    · exact ⟨_, .head _, by simp, by simp, by simp⟩
    · exact ⟨_, .tail _ (.head _), by simp, by simp, by simp⟩
    · exact ⟨_, .tail _ (.head _), by simp, by simp, by simp⟩
    · exact ⟨_, .head _, by simp, by simp, by simp⟩

theorem side_edge (n cell : Idx) (axis : Fin 3) (b : Bool) (i : Fin 4) : ∃ t ∈ groupN (sideKey n cell axis b), Node.center cell ∈ t ∧
    Node.vert (corner cell axis b i) ∈ t ∧ Node.vert (corner cell axis b (i + 1)) ∈ t := by
  rw [sideKey]
  split_ifs with h1 h2 h3
  · subst h1
    obtain ⟨t, ht, e1, -, e2, e3⟩ := conn_edge cell axis i
    exact ⟨t, ht, e1, e2, e3⟩
  · subst h1
    exact pyr_edge cell axis true i
  · obtain rfl : b = false := by simpa using h1
    exact pyr_edge cell axis false i
  · obtain rfl : b = false := by simpa using h1
    obtain ⟨t, ht, -, e1, e2, e3⟩ := conn_edge (fun a => cell a - axisDelta axis a) axis (3 - (i + 1))
    have hcell : (fun a => cell a - axisDelta axis a + axisDelta axis a) = cell := by
      funext a
      by_cases ha : a = axis
      · subst ha
        simp only [axisDelta, if_true]
        omega
      · simp [axisDelta, ha]
    have hc := corner_false (fun a => cell a - axisDelta axis a) axis
    rw [hcell] at hc e1
    refine ⟨t, ht, e1, ?_, ?_⟩
    · rw [hc]
      have : ∀ i : Fin 4, 3 - (i + 1) + 1 = 3 - i := by decide
      rw [← this]
      exact e3
    · rw [hc]
      exact e2

/-- Another group has a tetrahedron with the centre of a cell and an edge of one of its sides. -/
theorem edge_shared (n cell : Idx) (hc : ∀ a, cell a < n a) (axis : Fin 3) (b : Bool) (i : Fin 4) :
    ∃ κ : Key, KeyValid n κ ∧ κ.2.1 ≠ axis ∧ ∃ t ∈ groupN κ, Node.center cell ∈ t ∧ Node.vert (corner cell axis b i) ∈ t ∧
      Node.vert (corner cell axis b (i + 1)) ∈ t := by
  obtain ⟨a', b', j, hne, h⟩ := edge_match axis b i
  refine ⟨sideKey n cell a' b', sideKey_valid n cell a' b' hc, by rw [sideKey_axis]; exact hne, ?_⟩
  obtain ⟨t, ht, e1, e2, e3⟩ := side_edge n cell a' b' j
  rw [corner_add] at e2 e3
  refine ⟨t, ht, e1, ?_⟩
  rw [corner_add cell axis, corner_add cell axis]
  rcases h with ⟨h1, h2⟩ | ⟨h1, h2⟩
  · rw [h1, h2]
    exact ⟨e2, e3⟩
  · rw [h1, h2]
    exact ⟨e3, e2⟩

/-- The nodes of a side of the box. -/
def OnSide (n : Idx) (axis : Fin 3) (positive : Bool) (x : Node) : Prop :=
  ∃ q, x = .vert q ∧ q axis = if positive then n axis else 0

theorem vert_ne (cell : Idx) (axis : Fin 3) (b : Bool) (i j : Fin 4) (h : i ≠ j) : corner cell axis b i ≠ corner cell axis b j := by
  have key : ∀ (a : Fin 3) (b : Bool) (i j : Fin 4), i ≠ j → corner 0 a b i ≠ corner 0 a b j := by decide +kernel
  intro e
  rw [corner_add cell axis b i, corner_add cell axis b j] at e
  refine key axis b i j h ?_
  funext a
  have : cell a + corner 0 axis b i a = cell a + corner 0 axis b j a := congrFun e a
  omega

/-- Every face of a tetrahedron lies in a side of the box, or belongs to another tetrahedron. -/
theorem face_shared (n : Idx) (κ : Key) (hκ : KeyValid n κ) (t : List Node) (ht : t ∈ groupN κ) (i : Fin 4) :
    (∃ axis b, ∀ x ∈ t.eraseIdx i, OnSide n axis b x) ∨
    ∃ κ' t', KeyValid n κ' ∧ t' ∈ groupN κ' ∧ (κ'.2.1 ≠ κ.2.1 ∨ t' ≠ t) ∧ ∀ x ∈ t.eraseIdx i, x ∈ t' := by
  obtain ⟨cell, axis, kind⟩ := κ
  have hedge : ∀ (c : Idx) (b : Bool) (j : Fin 4), (∀ a, c a < n a) →
      (∀ x ∈ t.eraseIdx i, x = .center c ∨ x = .vert (corner c axis b j) ∨ x = .vert (corner c axis b (j + 1))) →
      ∃ κ' t', KeyValid n κ' ∧ t' ∈ groupN κ' ∧ (κ'.2.1 ≠ axis ∨ t' ≠ t) ∧ ∀ x ∈ t.eraseIdx i, x ∈ t' := by
    intro c b j hc hx
    obtain ⟨κ', hv, hne, t', ht', e1, e2, e3⟩ := edge_shared n c hc axis b j
    refine ⟨κ', t', hv, ht', .inl hne, fun x hxm => ?_⟩
    rcases hx x hxm with rfl | rfl | rfl
    · exact e1
    · exact e2
    · exact e3
  have hpyr : ∀ b : Bool, (∀ a, cell a < n a) → t ∈ pyrN cell axis b → (if b then cell axis + 1 = n axis else cell axis = 0) →
      (∀ t', t' ∈ pyrN cell axis b → ∃ κ', KeyValid n κ' ∧ t' ∈ groupN κ') →
      (∃ axis b, ∀ x ∈ t.eraseIdx i, OnSide n axis b x) ∨
        ∃ κ' t', KeyValid n κ' ∧ t' ∈ groupN κ' ∧ (κ'.2.1 ≠ axis ∨ t' ≠ t) ∧ ∀ x ∈ t.eraseIdx i, x ∈ t' := by
    intro b hc ht hb hother
    have hside : ∀ j : Fin 4, OnSide n axis b (.vert (corner cell axis b j)) := by
      intro j
      refine ⟨_, rfl, ?_⟩
      rw [corner_axis]
      cases b
      · simpa using hb
      · simpa using hb
    have hothers : ∀ t', t' ∈ pyrN cell axis b → t' ≠ t → (∀ x ∈ t.eraseIdx i, x ∈ t') →
        ∃ κ' t', KeyValid n κ' ∧ t' ∈ groupN κ' ∧ (κ'.2.1 ≠ axis ∨ t' ≠ t) ∧ ∀ x ∈ t.eraseIdx i, x ∈ t' := by
      intro t' h1 h2 h3
      obtain ⟨κ', h4, h5⟩ := hother t' h1
      exact ⟨κ', t', h4, h5, .inr h2, h3⟩
    have hne := fun i j h => vert_ne cell axis b i j h
    rw [pyrN_eq] at ht hothers
    simp only at ht hothers
    change _ ∈ (if (cell 0 + cell 1 + cell 2) % 2 = 0 then [[Node.vert (corner cell axis b 0), Node.vert (corner cell axis b 1), Node.vert (corner cell axis b 2), Node.center cell],
      [Node.vert (corner cell axis b 0), Node.vert (corner cell axis b 2), Node.vert (corner cell axis b 3), Node.center cell]] else
      [[Node.vert (corner cell axis b 0), Node.vert (corner cell axis b 1), Node.vert (corner cell axis b 3), Node.center cell],
      [Node.vert (corner cell axis b 1), Node.vert (corner cell axis b 2), Node.vert (corner cell axis b 3), Node.center cell]]) at ht
    change ∀ t', t' ∈ (if (cell 0 + cell 1 + cell 2) % 2 = 0 then [[Node.vert (corner cell axis b 0), Node.vert (corner cell axis b 1), Node.vert (corner cell axis b 2), Node.center cell],
      [Node.vert (corner cell axis b 0), Node.vert (corner cell axis b 2), Node.vert (corner cell axis b 3), Node.center cell]] else
      [[Node.vert (corner cell axis b 0), Node.vert (corner cell axis b 1), Node.vert (corner cell axis b 3), Node.center cell],
      [Node.vert (corner cell axis b 1), Node.vert (corner cell axis b 2), Node.vert (corner cell axis b 3), Node.center cell]]) → _ at hothers
    have h01 := hne 0 1 (by decide)
    have h12 := hne 1 2 (by decide)
    have h23 := hne 2 3 (by decide)
    have h02 := hne 0 2 (by decide)
    have h13 := hne 1 3 (by decide)
    split at ht
    · next hif =>
      rw [if_pos hif] at hothers
      simp only [List.mem_cons, List.not_mem_nil, or_false] at ht
      rcases ht with rfl | rfl
      · fin_cases i
        · exact .inr (hedge cell b 1 hc (by simp))
        · exact .inr (hothers _ (.tail _ (.head _)) (by simp [h12.symm]) (by simp))
        · exact .inr (hedge cell b 0 hc (by simp))
        · exact .inl ⟨axis, b, by simp [hside]⟩
      · fin_cases i
        · exact .inr (hedge cell b 2 hc (by simp))
        · exact .inr (hedge cell b 3 hc (by simp))
        · exact .inr (hothers _ (.head _) (by simp [h12]) (by simp))
        · exact .inl ⟨axis, b, by simp [hside]⟩
    · next hif =>
      rw [if_neg hif] at hothers
      simp only [List.mem_cons, List.not_mem_nil, or_false] at ht
      rcases ht with rfl | rfl
      · fin_cases i
        · exact .inr (hothers _ (.tail _ (.head _)) (by simp [h01.symm]) (by simp))
        · exact .inr (hedge cell b 3 hc (by simp))
        · exact .inr (hedge cell b 0 hc (by simp))
        · exact .inl ⟨axis, b, by simp [hside]⟩
      · fin_cases i
        · exact .inr (hedge cell b 2 hc (by simp))
        · exact .inr (hothers _ (.head _) (by simp [h01]) (by simp))
        · exact .inr (hedge cell b 1 hc (by simp))
        · exact .inl ⟨axis, b, by simp [hside]⟩
  cases kind with
  | neg => exact hpyr false hκ.1 ht (by simpa using hκ.2) fun t' ht' => ⟨(cell, axis, .neg), hκ, ht'⟩
  | pos => exact hpyr true hκ.1 ht (by simpa using hκ.2) fun t' ht' => ⟨(cell, axis, .pos), hκ, ht'⟩
  | conn =>
    obtain ⟨hc, ha⟩ := hκ
    have hc2 : ∀ a, (fun a => cell a + axisDelta axis a : Idx) a < n a := by
      intro a
      have := hc a
      simp only [axisDelta]
      split
      · next h => rw [h]; exact ha
      · omega
    have hlow : ∀ j : Fin 4, (fun a => cell a + (faceDeltas axis).getD j 0 a) = corner (fun a => cell a + axisDelta axis a) axis false (3 - j) := by
      intro j
      rw [corner_false, corner_true]
      have : ∀ j : Fin 4, 3 - (3 - j) = j := by decide
      rw [this]
    have hothers : ∀ t', t' ∈ connN cell axis → t' ≠ t → (∀ x ∈ t.eraseIdx i, x ∈ t') →
        ∃ κ' t', KeyValid n κ' ∧ t' ∈ groupN κ' ∧ (κ'.2.1 ≠ axis ∨ t' ≠ t) ∧ ∀ x ∈ t.eraseIdx i, x ∈ t' :=
      fun t' h1 h2 h3 => ⟨(cell, axis, .conn), t', ⟨hc, ha⟩, h1, .inr h2, h3⟩
    have hup := fun j : Fin 4 => (corner_true cell axis j).symm
    have hne := fun i j h => vert_ne cell axis true i j h
    have h01 := hne 0 1 (by decide)
    have h12 := hne 1 2 (by decide)
    have h23 := hne 2 3 (by decide)
    have h30 := hne 3 0 (by decide)
    right
    rw [groupN, connN_eq] at ht
    rw [connN_eq] at hothers
    have c0 := corner_true cell axis 0
    have c1 := corner_true cell axis 1
    have c2 := corner_true cell axis 2
    have c3 := corner_true cell axis 3
    have l0 := hlow 0
    have l1 := hlow 1
    have l2 := hlow 2
    have l3 := hlow 3
    simp only [Fin.val_zero, Fin.val_one, Fin.val_two, show ((3 : Fin 4) : Nat) = 3 from rfl] at c0 c1 c2 c3 l0 l1 l2 l3 ht hothers
    rw [← c0] at l0 ht hothers
    rw [← c1] at l1 ht hothers
    rw [← c2] at l2 ht hothers
    rw [← c3] at l3 ht hothers
    simp only [List.mem_cons, List.not_mem_nil, or_false] at ht
    rcases ht with rfl | rfl | rfl | rfl
    · fin_cases i
      · exact hedge _ false 2 hc2 (by simp [l0, l1])
      · exact hedge cell true 0 hc (by simp)
      · exact hothers _ (.tail _ (.tail _ (.tail _ (.head _)))) (by simp [h01]) (by simp)
      · exact hothers _ (.tail _ (.head _)) (by simp [h12.symm]) (by simp)
    · fin_cases i
      · exact hedge _ false 1 hc2 (by simp [l2, l1])
      · exact hedge cell true 1 hc (by simp)
      · exact hothers _ (.head _) (by simp [h12]) (by simp)
      · exact hothers _ (.tail _ (.tail _ (.head _))) (by simp [h23.symm]) (by simp)
    · fin_cases i
      · exact hedge _ false 0 hc2 (by simp [l2, l3])
      · exact hedge cell true 2 hc (by simp)
      · exact hothers _ (.tail _ (.head _)) (by simp [h23]) (by simp)
      · exact hothers _ (.tail _ (.tail _ (.tail _ (.head _)))) (by simp [h30.symm]) (by simp)
    · fin_cases i
      · exact hedge _ false 3 hc2 (by simp [l0, l3])
      · exact hedge cell true 3 hc (by simp)
      · exact hothers _ (.tail _ (.tail _ (.head _))) (by simp [h30]) (by simp)
      · exact hothers _ (.head _) (by simp [h01.symm]) (by simp)

end TetGrid
end Fenris
