import Verif.Lemmas.Procedural
import Verif.Spec.Procedural
import Verif.Spec.Refinement
import Mathlib.Tactic.FieldSimp
import Mathlib.Data.Fin.VecNotation
import Mathlib.Tactic.Positivity
import Mathlib.Tactic.LinearCombination
/-! # C17, C18: procedural quadrilateral and hexahedral grids -/
set_option autoImplicit false
set_option linter.unusedSectionVars false

namespace Fenris
open Procedural
variable {K : Type} [Field K]

/-! ## C17 -/

/-- C17.  A zero count gives the empty mesh. -/
theorem C17_zero_count_gives_empty_mesh (L : K) (ux uy n : Nat) (x0 y0 : K)
    (h : n = 0 ∨ ux = 0 ∨ uy = 0) : quadMesh L ux uy n x0 y0 = ⟨[], []⟩ := by
  unfold quadMesh
  rw [if_pos h]

/-- C17.  With positive counts and `h = unit_length / cells_per_unit`, `nx = units_x·cells_per_unit`,
`ny = units_y·cells_per_unit`: the mesh has `(nx+1)(ny+1)` vertices, which are numbered by a
bijection `vid` from grid positions and sit at `(x0 + i h, y0 - j h)`; it has `nx·ny` cells, and cell
`nx·j + i` has as its vertices the four corners of grid square `(i, j)` in counter-clockwise order
starting at the lower left. -/
theorem C17_quad_mesh_is_the_grid (L : K) (ux uy n : Nat) (x0 y0 : K)
    (hn : n ≠ 0) (hux : ux ≠ 0) (huy : uy ≠ 0) :
    ∃ vid : Nat → Nat → Nat,
      (quadMesh L ux uy n x0 y0).vertices.length = (ux * n + 1) * (uy * n + 1) ∧
      (quadMesh L ux uy n x0 y0).cells.length = (ux * n) * (uy * n) ∧
      (∀ i j, i ≤ ux * n → j ≤ uy * n →
        (quadMesh L ux uy n x0 y0).vertices[vid i j]? =
          some ![x0 + i * (L / n), y0 - j * (L / n)]) ∧
      (∀ i j i' j', i ≤ ux * n → i' ≤ ux * n →
        vid i j = vid i' j' → i = i' ∧ j = j') ∧
      (∀ v, v < (quadMesh L ux uy n x0 y0).vertices.length →
        ∃ i j, i ≤ ux * n ∧ j ≤ uy * n ∧ vid i j = v) ∧
      ∀ i j, i < ux * n → j < uy * n →
        (quadMesh L ux uy n x0 y0).cells[(ux * n) * j + i]? =
          some [vid i (j + 1), vid (i + 1) (j + 1), vid (i + 1) j, vid i j] := by
  have hne : ¬ (n = 0 ∨ ux = 0 ∨ uy = 0) := by tauto
  refine ⟨fun i j => (ux * n + 1) * j + i, ?_⟩
  unfold quadMesh
  rw [if_neg hne]
  simp only
  refine ⟨?_, ?_, ?_, ?_, ?_, ?_⟩
  · exact length_flatMap_range _ (by simp)
  · exact length_flatMap_range _ (by simp)
  · intro i j hi hj
    rw [getElem?_flatMap_range (n := ux * n + 1) _ (by simp) (by omega) (by omega)]
    rw [List.getElem?_map, List.getElem?_range (by omega)]
    simp only [Option.map_some, Option.some.injEq]
    funext q
    match q with
    | 0 => simp [pt2]
    | 1 => simp [pt2]; ring
  · intro i j i' j' hi hi' h
    exact mul_add_inj (by omega) (by omega) h
  · intro v hv
    rw [length_flatMap_range (n := ux * n + 1) _ (by simp)] at hv
    obtain ⟨i, j, hi, hj, rfl⟩ := mul_add_decomp hv
    exact ⟨i, j, by omega, by omega, rfl⟩
  · intro i j hi hj
    rw [getElem?_flatMap_range (n := ux * n) _ (by simp) hi hj]
    rw [List.getElem?_map, List.getElem?_range (by omega)]
    rfl

section Ordered
variable [LinearOrder K] [IsStrictOrderedRing K]

/-- Every point of an interval of length `n h` lies in one of its `n` pieces. -/
private theorem piece {h : K} (n : Nat) {x : K} (hn : n ≠ 0) (h0 : 0 ≤ x) (h1 : x ≤ n * h) :
    ∃ i, i < n ∧ (i : K) * h ≤ x ∧ x ≤ (i + 1 : K) * h := by
  induction n with
  | zero => exact absurd rfl hn
  | succ n ih =>
    by_cases hx : (n : K) * h ≤ x
    · refine ⟨n, by omega, hx, ?_⟩
      push_cast at h1
      exact h1
    · have hx := lt_of_not_ge hx
      by_cases hn0 : n = 0
      · subst hn0
        simp at hx
        exact absurd h0 (not_le.2 hx)
      · obtain ⟨i, hi, h2, h3⟩ := ih hn0 hx.le
        exact ⟨i, by omega, h2, h3⟩

private theorem piece_unique {h : K} (hh : 0 < h) {x : K} {i i' : Nat}
    (h1 : (i : K) * h < x) (h2 : x < (i + 1 : K) * h) (h3 : (i' : K) * h < x)
    (h4 : x < (i' + 1 : K) * h) : i = i' := by
  have a : (i : K) < i' + 1 := lt_of_mul_lt_mul_right (h1.trans h4) hh.le
  have b : (i' : K) < i + 1 := lt_of_mul_lt_mul_right (h3.trans h2) hh.le
  have a' : i < i' + 1 := by exact_mod_cast a
  have b' : i' < i + 1 := by exact_mod_cast b
  omega

private theorem squares_cover (L : K) (hL : 0 < L) (ux uy n : Nat) (x0 y0 : K)
    (hn : n ≠ 0) (hux : ux ≠ 0) (huy : uy ≠ 0) (p : Point 2 K) :
    Spec.InBox ![x0, y0 - uy * L] ![x0 + ux * L, y0] p ↔
      ∃ i j : Nat, i < ux * n ∧ j < uy * n ∧
        Spec.InBox ![x0 + i * (L / n), y0 - (j + 1) * (L / n)]
          ![x0 + (i + 1) * (L / n), y0 - j * (L / n)] p := by
  have hnK : (0 : K) < n := by exact_mod_cast Nat.pos_of_ne_zero hn
  have hh : 0 < L / n := div_pos hL hnK
  have hx : (ux : K) * L = ((ux * n : Nat) : K) * (L / n) := by
    push_cast; field_simp
  have hy : (uy : K) * L = ((uy * n : Nat) : K) * (L / n) := by
    push_cast; field_simp
  rw [hx, hy]
  generalize hNx : ux * n = Nx
  generalize hNy : uy * n = Ny
  have hNx0 : Nx ≠ 0 := by rw [← hNx]; exact Nat.mul_ne_zero hux hn
  have hNy0 : Ny ≠ 0 := by rw [← hNy]; exact Nat.mul_ne_zero huy hn
  generalize L / (n : K) = h at hh
  simp only [Spec.InBox, Fin.forall_fin_two, Matrix.cons_val_zero, Matrix.cons_val_one]
  constructor
  · rintro ⟨⟨a1, a2⟩, b1, b2⟩
    obtain ⟨i, hi, i1, i2⟩ := piece (h := h) Nx (x := p 0 - x0) hNx0 (by linarith) (by linarith)
    obtain ⟨j, hj, j1, j2⟩ := piece (h := h) Ny (x := y0 - p 1) hNy0 (by linarith) (by linarith)
    exact ⟨i, j, hi, hj, ⟨by linarith, by linarith⟩, by linarith, by linarith⟩
  · rintro ⟨i, j, hi, hj, ⟨a1, a2⟩, b1, b2⟩
    have e1 : (i + 1 : K) * h ≤ Nx * h := by
      apply mul_le_mul_of_nonneg_right _ hh.le
      exact_mod_cast hi
    have e2 : (j + 1 : K) * h ≤ Ny * h := by
      apply mul_le_mul_of_nonneg_right _ hh.le
      exact_mod_cast hj
    have e3 : 0 ≤ (i : K) * h := by positivity
    have e4 : 0 ≤ (j : K) * h := by positivity
    exact ⟨⟨by linarith, by linarith⟩, by linarith, by linarith⟩

private theorem squares_disjoint (h : K) (hh : 0 < h) (x0 y0 : K) (i j i' j' : Nat) :
    ((∃ p, Spec.InOpenBox ![x0 + i * h, y0 - (j + 1) * h] ![x0 + (i + 1) * h, y0 - j * h] p ∧
      Spec.InOpenBox ![x0 + i' * h, y0 - (j' + 1) * h] ![x0 + (i' + 1) * h, y0 - j' * h] p) →
        i = i' ∧ j = j') ∧
    ((![x0 + i * h, y0 - j * h] : Point 2 K) = ![x0 + i' * h, y0 - j' * h] → i = i' ∧ j = j') := by
  constructor
  · rintro ⟨p, hp, hp'⟩
    simp only [Spec.InOpenBox, Fin.forall_fin_two, Matrix.cons_val_zero, Matrix.cons_val_one]
      at hp hp'
    obtain ⟨⟨a1, a2⟩, b1, b2⟩ := hp
    obtain ⟨⟨c1, c2⟩, d1, d2⟩ := hp'
    exact ⟨piece_unique hh (x := p 0 - x0) (by linarith) (by linarith) (by linarith) (by linarith),
      piece_unique hh (x := y0 - p 1) (by linarith) (by linarith) (by linarith) (by linarith)⟩
  · intro he
    have e0 := congrFun he 0
    have e1 := congrFun he 1
    simp only [Matrix.cons_val_zero, Matrix.cons_val_one] at e0 e1
    have f0 : ((i : K) - i') * h = 0 := by linear_combination e0
    have f1 : ((j : K) - j') * h = 0 := by linear_combination -e1
    have g0 := (mul_eq_zero.1 f0).resolve_right hh.ne'
    have g1 := (mul_eq_zero.1 f1).resolve_right hh.ne'
    constructor
    · have : (i : K) = i' := by linear_combination g0
      exact_mod_cast this
    · have : (j : K) = j' := by linear_combination g1
      exact_mod_cast this

private theorem squares_ccw (h x0 y0 : K) (hh : 0 < h) (i j : Nat) :
    0 < Spec.signedArea ![x0 + i * h, y0 - (j + 1) * h] ![x0 + (i + 1) * h, y0 - (j + 1) * h]
      ![x0 + (i + 1) * h, y0 - j * h] ∧
    0 < Spec.signedArea ![x0 + i * h, y0 - (j + 1) * h] ![x0 + (i + 1) * h, y0 - j * h]
      ![x0 + i * h, y0 - j * h] := by
  simp only [Spec.signedArea, Matrix.cons_val_zero, Matrix.cons_val_one]
  have : 0 < h * h := mul_pos hh hh
  constructor <;> nlinarith

private theorem quad_cell (L : K) (ux uy n : Nat) (x0 y0 : K)
    (hn : n ≠ 0) (hux : ux ≠ 0) (huy : uy ≠ 0) :
    (∀ i j, i < ux * n → j < uy * n → ∃ c, (quadMesh L ux uy n x0 y0).cells[(ux * n) * j + i]? = some c ∧
      Spec.coords (quadMesh L ux uy n x0 y0).vertices c =
        some [![x0 + i * (L / n), y0 - (j + 1) * (L / n)], ![x0 + (i + 1) * (L / n), y0 - (j + 1) * (L / n)],
          ![x0 + (i + 1) * (L / n), y0 - j * (L / n)], ![x0 + i * (L / n), y0 - j * (L / n)]]) ∧
    (∀ t (c : List Nat), (quadMesh L ux uy n x0 y0).cells[t]? = some c →
      ∃ i j, i < ux * n ∧ j < uy * n ∧ t = (ux * n) * j + i) := by
  obtain ⟨vid, _, h2, h3, _, _, h6⟩ := C17_quad_mesh_is_the_grid L ux uy n x0 y0 hn hux huy
  constructor
  · intro i j hi hj
    refine ⟨_, h6 i j hi hj, ?_⟩
    have a1 := h3 i (j + 1) (by omega) (by omega)
    have a2 := h3 (i + 1) (j + 1) (by omega) (by omega)
    have a3 := h3 (i + 1) j (by omega) (by omega)
    have a4 := h3 i j (by omega) (by omega)
    push_cast at a1 a2 a3
    simp [Spec.coords, List.mapM_cons, a1, a2, a3, a4]
  · intro t c ht
    have := (List.getElem?_eq_some_iff.1 ht).1
    rw [h2] at this
    exact mul_add_decomp this

/-- C17.  The cells tile the rectangle with upper left corner `(x0, y0)` and side lengths
`units_x·unit_length`, `units_y·unit_length`.  Every cell is an axis-aligned square of side
`unit_length / cells_per_unit` (lower left `a`, lower right `b`, upper right `c`, upper left `e`) and is
counter-clockwise; a point lies in the rectangle exactly when it lies in some cell; no point is in the
interior of two cells. -/
theorem C17_cells_tile_the_rectangle (L : K) (hL : 0 < L) (ux uy n : Nat) (x0 y0 : K)
    (hn : n ≠ 0) (hux : ux ≠ 0) (huy : uy ≠ 0) :
    let mesh := quadMesh L ux uy n x0 y0
    (∀ cell ∈ mesh.cells, ∃ a b c e, Spec.coords mesh.vertices cell = some [a, b, c, e] ∧
      b = ![a 0 + L / n, a 1] ∧ c = ![a 0 + L / n, a 1 + L / n] ∧ e = ![a 0, a 1 + L / n] ∧
      0 < Spec.signedArea a b c ∧ 0 < Spec.signedArea a c e) ∧
    (∀ p, Spec.InBox ![x0, y0 - uy * L] ![x0 + ux * L, y0] p ↔
      ∃ cell ∈ mesh.cells, ∃ a b c e, Spec.coords mesh.vertices cell = some [a, b, c, e] ∧
        Spec.InBox a c p) ∧
    (∀ (t t' : Nat) cell cell' a b c e a' b' c' e' p, mesh.cells[t]? = some cell → mesh.cells[t']? = some cell' →
      Spec.coords mesh.vertices cell = some [a, b, c, e] →
      Spec.coords mesh.vertices cell' = some [a', b', c', e'] →
      Spec.InOpenBox a c p → Spec.InOpenBox a' c' p → t = t') := by
  obtain ⟨q1, q2⟩ := quad_cell L ux uy n x0 y0 hn hux huy
  have hnK : (0 : K) < n := by exact_mod_cast Nat.pos_of_ne_zero hn
  have hh : 0 < L / n := div_pos hL hnK
  refine ⟨?_, ?_, ?_⟩
  · intro cell hcell
    obtain ⟨t, ht⟩ := List.getElem?_of_mem hcell
    obtain ⟨i, j, hi, hj, rfl⟩ := q2 t cell ht
    obtain ⟨c, hc, hco⟩ := q1 i j hi hj
    rw [ht] at hc
    cases hc
    obtain ⟨s1, s2⟩ := squares_ccw (L / n) x0 y0 hh i j
    refine ⟨_, _, _, _, hco, ?_, ?_, ?_, s1, s2⟩ <;> funext q <;>
      match q with
      | 0 => simp <;> ring
      | 1 => simp <;> ring
  · intro p
    rw [squares_cover L hL ux uy n x0 y0 hn hux huy p]
    constructor
    · rintro ⟨i, j, hi, hj, hp⟩
      obtain ⟨c, hc, hco⟩ := q1 i j hi hj
      exact ⟨c, List.mem_of_getElem? hc, _, _, _, _, hco, hp⟩
    · rintro ⟨cell, hcell, a, b, c, e, hco, hp⟩
      obtain ⟨t, ht⟩ := List.getElem?_of_mem hcell
      obtain ⟨i, j, hi, hj, rfl⟩ := q2 t cell ht
      obtain ⟨c', hc, hco'⟩ := q1 i j hi hj
      rw [ht] at hc
      cases hc
      rw [hco] at hco'
      simp only [Option.some.injEq, List.cons.injEq, and_true] at hco'
      obtain ⟨rfl, rfl, rfl, rfl⟩ := hco'
      exact ⟨i, j, hi, hj, hp⟩
  · intro t t' cell cell' a b c e a' b' c' e' p ht ht' hco hco' hp hp'
    obtain ⟨i, j, hi, hj, rfl⟩ := q2 t cell ht
    obtain ⟨i', j', hi', hj', rfl⟩ := q2 t' cell' ht'
    obtain ⟨_, hc, hcc⟩ := q1 i j hi hj
    obtain ⟨_, hc', hcc'⟩ := q1 i' j' hi' hj'
    rw [ht] at hc; cases hc
    rw [ht'] at hc'; cases hc'
    rw [hco] at hcc
    rw [hco'] at hcc'
    simp only [Option.some.injEq, List.cons.injEq, and_true] at hcc hcc'
    obtain ⟨rfl, rfl, rfl, rfl⟩ := hcc
    obtain ⟨rfl, rfl, rfl, rfl⟩ := hcc'
    obtain ⟨rfl, rfl⟩ := (squares_disjoint (L / n) hh x0 y0 i j i' j').1 ⟨p, hp, hp'⟩
    rfl

/-- C17.  No two vertices coincide. -/
theorem C17_vertices_are_distinct (L : K) (hL : 0 < L) (ux uy n : Nat) (x0 y0 : K) :
    (quadMesh L ux uy n x0 y0).vertices.Nodup := by
  by_cases h0 : n = 0 ∨ ux = 0 ∨ uy = 0
  · rw [C17_zero_count_gives_empty_mesh L ux uy n x0 y0 h0]; exact List.nodup_nil
  · have hn : n ≠ 0 := by tauto
    obtain ⟨vid, h1, _, h3, _, h5, _⟩ := C17_quad_mesh_is_the_grid L ux uy n x0 y0 hn
      (by tauto) (by tauto)
    have hnK : (0 : K) < n := by exact_mod_cast Nat.pos_of_ne_zero hn
    have hh : 0 < L / n := div_pos hL hnK
    rw [List.nodup_iff_pairwise_ne, List.pairwise_iff_getElem]
    intro v w hv hw hvw heq
    obtain ⟨i, j, hi, hj, rfl⟩ := h5 v hv
    obtain ⟨i', j', hi', hj', rfl⟩ := h5 w hw
    have e := h3 i j hi hj
    have e' := h3 i' j' hi' hj'
    rw [List.getElem?_eq_getElem hv] at e
    rw [List.getElem?_eq_getElem hw, ← heq] at e'
    rw [e] at e'
    obtain ⟨rfl, rfl⟩ := (squares_disjoint (L / n) hh x0 y0 i j i' j').2 (Option.some.inj e')
    omega

/-- C17.  `create_unit_square_uniform_quad_mesh_2d`: `n²` squares of side `1 / n` that tile the unit square. -/
theorem C17_unit_square (n : Nat) (hn : n ≠ 0) :
    let mesh := unitSquareQuadMesh (K := K) n
    mesh.cells.length = n * n ∧
    (∀ cell ∈ mesh.cells, ∃ a b c e, Spec.coords mesh.vertices cell = some [a, b, c, e] ∧
      b = ![a 0 + 1 / n, a 1] ∧ c = ![a 0 + 1 / n, a 1 + 1 / n] ∧ e = ![a 0, a 1 + 1 / n]) ∧
    (∀ p : Point 2 K, Spec.InBox ![0, 0] ![1, 1] p ↔
      ∃ cell ∈ mesh.cells, ∃ a b c e, Spec.coords mesh.vertices cell = some [a, b, c, e] ∧ Spec.InBox a c p) ∧
    (∀ (t t' : Nat) cell cell' a b c e a' b' c' e' p, mesh.cells[t]? = some cell → mesh.cells[t']? = some cell' →
      Spec.coords mesh.vertices cell = some [a, b, c, e] → Spec.coords mesh.vertices cell' = some [a', b', c', e'] →
      Spec.InOpenBox a c p → Spec.InOpenBox a' c' p → t = t') := by
  obtain ⟨_, _, h0, _⟩ := C17_quad_mesh_is_the_grid (1 : K) 1 1 n 0 1 hn one_ne_zero one_ne_zero
  obtain ⟨h1, h2, h3⟩ := C17_cells_tile_the_rectangle (1 : K) one_pos 1 1 n 0 1 hn one_ne_zero one_ne_zero
  refine ⟨by rw [unitSquareQuadMesh, h0]; simp, fun cell hc => ?_, fun p => ?_, h3⟩
  · obtain ⟨a, b, c, e, q1, q2, q3, q4, -⟩ := h1 cell hc
    exact ⟨a, b, c, e, q1, q2, q3, q4⟩
  · have := h2 p
    simp only [Nat.cast_one, mul_one, zero_add, sub_self] at this
    exact this

end Ordered

example : (quadMesh (2 : ℚ) 2 1 1 5 7).cells = [[3, 4, 1, 0], [4, 5, 2, 1]] := by decide +kernel
example : (quadMesh (2 : ℚ) 2 1 1 5 7).vertices.length = 6 := by decide +kernel

/-! ## C18 -/

/-- C18.  If any count is zero, there are no cells. -/
theorem C18_zero_count_gives_no_cells (L : K) (ux uy uz n : Nat)
    (h : n = 0 ∨ ux = 0 ∨ uy = 0 ∨ uz = 0) : (hexMesh L ux uy uz n).cells = [] := by
  unfold hexMesh
  split
  · rfl
  · rename_i hne
    have : uz = 0 := by tauto
    subst this
    simp

/-- C18.  A zero in the first three counts gives the empty mesh; but `units_z = 0` alone leaves
vertices that belong to no cell (the emptiness check forgets `units_z`). -/
theorem C18_zero_units_z_leaves_unused_vertices (L : K) (ux uy n : Nat)
    (hn : n ≠ 0) (hux : ux ≠ 0) (huy : uy ≠ 0) :
    (hexMesh L ux uy 0 n).cells = [] ∧
    (hexMesh L ux uy 0 n).vertices.length = (ux * n + 1) * (uy * n + 1) ∧
    ∀ uz, hexMesh L 0 uy uz n = ⟨[], []⟩ ∧ hexMesh L ux 0 uz n = ⟨[], []⟩ ∧
      hexMesh L ux uy uz 0 = ⟨[], []⟩ := by
  refine ⟨C18_zero_count_gives_no_cells L ux uy 0 n (by simp), ?_, ?_⟩
  · unfold hexMesh
    rw [if_neg (by tauto)]
    simp only [Nat.zero_mul]
    rw [length_flatMap_range (n := (ux * n + 1) * (uy * n + 1))]
    · simp
    · intro j _
      exact length_flatMap_range _ (by simp)
  · intro uz
    refine ⟨?_, ?_, ?_⟩ <;> · unfold hexMesh; rw [if_pos (by simp)]

/-- C18.  With positive counts and `h = unit_length / cells_per_unit`, `nx, ny, nz` the numbers of
cells per direction: the mesh has `(nx+1)(ny+1)(nz+1)` vertices, numbered by a bijection `vid` from
lattice positions and sitting at `(i h, j h, k h)`; it has `nx·ny·nz` cells, and cell
`nx·ny·k + nx·j + i` has as its vertices the eight corners of lattice cube `(i, j, k)`, bottom face
then top face, each counter-clockwise seen from above.  (So two cells share exactly the vertices that
their cubes share.) -/
theorem C18_hex_mesh_is_the_grid (L : K) (ux uy uz n : Nat)
    (hn : n ≠ 0) (hux : ux ≠ 0) (huy : uy ≠ 0) :
    ∃ vid : Nat → Nat → Nat → Nat,
      (hexMesh L ux uy uz n).vertices.length = (ux * n + 1) * (uy * n + 1) * (uz * n + 1) ∧
      (hexMesh L ux uy uz n).cells.length = (ux * n) * (uy * n) * (uz * n) ∧
      (∀ i j k, i ≤ ux * n → j ≤ uy * n → k ≤ uz * n →
        (hexMesh L ux uy uz n).vertices[vid i j k]? =
          some ![i * (L / n), j * (L / n), k * (L / n)]) ∧
      (∀ i j k i' j' k', i ≤ ux * n → i' ≤ ux * n → j ≤ uy * n → j' ≤ uy * n →
        vid i j k = vid i' j' k' → i = i' ∧ j = j' ∧ k = k') ∧
      (∀ v, v < (hexMesh L ux uy uz n).vertices.length →
        ∃ i j k, i ≤ ux * n ∧ j ≤ uy * n ∧ k ≤ uz * n ∧ vid i j k = v) ∧
      ∀ i j k, i < ux * n → j < uy * n → k < uz * n →
        (hexMesh L ux uy uz n).cells[(ux * n) * (uy * n) * k + ((ux * n) * j + i)]? =
          some [vid i j k, vid (i + 1) j k, vid (i + 1) (j + 1) k, vid i (j + 1) k,
            vid i j (k + 1), vid (i + 1) j (k + 1), vid (i + 1) (j + 1) (k + 1),
            vid i (j + 1) (k + 1)] := by
  have hne : ¬ (n = 0 ∨ ux = 0 ∨ uy = 0) := by tauto
  refine ⟨fun i j k => ((ux * n + 1) * (uy * n + 1)) * k + (ux * n + 1) * j + i, ?_⟩
  unfold hexMesh
  rw [if_neg hne]
  simp only
  generalize ux * n = nx
  generalize uy * n = ny
  generalize uz * n = nz
  refine ⟨?_, ?_, ?_, ?_, ?_, ?_⟩
  · exact length_flatMap_range _ (fun _ _ => length_flatMap_range _ (by simp))
  · exact length_flatMap_range _ (fun _ _ => length_flatMap_range _ (by simp))
  · intro i j k hi hj hk
    rw [Nat.add_assoc]
    rw [getElem?_flatMap_range (n := (nx + 1) * (ny + 1)) _
      (fun _ _ => length_flatMap_range _ (by simp)) (mul_add_lt (by omega) (by omega)) (by omega)]
    rw [getElem?_flatMap_range (n := nx + 1) _ (by simp) (by omega) (by omega)]
    rw [List.getElem?_map, List.getElem?_range (by omega)]
    simp only [Option.map_some, Option.some.injEq]
    funext q
    match q with
    | 0 => simp [pt3]
    | 1 => simp [pt3]
    | 2 => simp [pt3]
  · intro i j k i' j' k' hi hi' hj hj' h
    simp only [Nat.add_assoc] at h
    obtain ⟨h1, rfl⟩ := mul_add_inj (n := (nx + 1) * (ny + 1)) (mul_add_lt (by omega) (by omega))
      (mul_add_lt (by omega) (by omega)) h
    obtain ⟨rfl, rfl⟩ := mul_add_inj (by omega) (by omega) h1
    exact ⟨rfl, rfl, rfl⟩
  · intro v hv
    rw [length_flatMap_range (n := (nx + 1) * (ny + 1)) _
      (fun _ _ => length_flatMap_range _ (by simp))] at hv
    obtain ⟨q, k, hq, hk, rfl⟩ := mul_add_decomp hv
    obtain ⟨i, j, hi, hj, rfl⟩ := mul_add_decomp hq
    exact ⟨i, j, k, by omega, by omega, by omega, by ring⟩
  · intro i j k hi hj hk
    rw [getElem?_flatMap_range (n := nx * ny) _
      (fun _ _ => length_flatMap_range _ (by simp)) (mul_add_lt (by omega) (by omega)) (by omega)]
    rw [getElem?_flatMap_range (n := nx) _ (by simp) (by omega) (by omega)]
    rw [List.getElem?_map, List.getElem?_range (by omega)]
    rfl

section Ordered
variable [LinearOrder K] [IsStrictOrderedRing K]

private theorem cubes_tile (L : K) (hL : 0 < L) (ux uy uz n : Nat)
    (hn : n ≠ 0) (hux : ux ≠ 0) (huy : uy ≠ 0) (huz : uz ≠ 0) (p : Point 3 K) :
    (Spec.InBox ![0, 0, 0] ![ux * L, uy * L, uz * L] p ↔
      ∃ i j k : Nat, i < ux * n ∧ j < uy * n ∧ k < uz * n ∧
        Spec.InBox ![i * (L / n), j * (L / n), k * (L / n)]
          ![(i + 1) * (L / n), (j + 1) * (L / n), (k + 1) * (L / n)] p) ∧
    ∀ i j k i' j' k' : Nat,
      Spec.InOpenBox ![i * (L / n), j * (L / n), k * (L / n)]
          ![(i + 1) * (L / n), (j + 1) * (L / n), (k + 1) * (L / n)] p →
      Spec.InOpenBox ![i' * (L / n), j' * (L / n), k' * (L / n)]
          ![(i' + 1) * (L / n), (j' + 1) * (L / n), (k' + 1) * (L / n)] p →
      i = i' ∧ j = j' ∧ k = k' := by
  have hnK : (0 : K) < n := by exact_mod_cast Nat.pos_of_ne_zero hn
  have hh : 0 < L / n := div_pos hL hnK
  have hx : ∀ u : Nat, (u : K) * L = ((u * n : Nat) : K) * (L / n) := by
    intro u; push_cast; field_simp
  rw [hx ux, hx uy, hx uz]
  have h0 : ∀ u, u ≠ 0 → u * n ≠ 0 := fun u hu => Nat.mul_ne_zero hu hn
  have hux := h0 ux hux
  have huy := h0 uy huy
  have huz := h0 uz huz
  generalize ux * n = Nx at *
  generalize uy * n = Ny at *
  generalize uz * n = Nz at *
  generalize L / (n : K) = h at *
  simp only [Spec.InBox, Spec.InOpenBox, Fin.forall_fin_succ, IsEmpty.forall_iff, and_true]
  simp
  refine ⟨⟨?_, ?_⟩, ?_⟩
  · rintro ⟨⟨a1, a2⟩, ⟨b1, b2⟩, c1, c2⟩
    obtain ⟨i, hi, i1, i2⟩ := piece (h := h) Nx (x := p 0) hux a1 a2
    obtain ⟨j, hj, j1, j2⟩ := piece (h := h) Ny (x := p 1) huy b1 b2
    obtain ⟨k, hk, k1, k2⟩ := piece (h := h) Nz (x := p 2) huz c1 c2
    exact ⟨i, hi, j, hj, k, hk, ⟨i1, i2⟩, ⟨j1, j2⟩, k1, k2⟩
  · rintro ⟨i, hi, j, hj, k, hk, ⟨a1, a2⟩, ⟨b1, b2⟩, c1, c2⟩
    have e : ∀ i N : Nat, i < N → (i + 1 : K) * h ≤ N * h := by
      intro i N hi
      apply mul_le_mul_of_nonneg_right _ hh.le
      exact_mod_cast hi
    have f : ∀ i : Nat, 0 ≤ (i : K) * h := fun i => by positivity
    exact ⟨⟨(f i).trans a1, a2.trans (e i Nx hi)⟩, ⟨(f j).trans b1, b2.trans (e j Ny hj)⟩,
      (f k).trans c1, c2.trans (e k Nz hk)⟩
  · intro i j k i' j' k' a1 a2 b1 b2 c1 c2 d1 d2 e1 e2 f1 f2
    exact ⟨piece_unique hh a1 a2 d1 d2, piece_unique hh b1 b2 e1 e2, piece_unique hh c1 c2 f1 f2⟩

private theorem hex_cell (L : K) (ux uy uz n : Nat)
    (hn : n ≠ 0) (hux : ux ≠ 0) (huy : uy ≠ 0) :
    (∀ i j k, i < ux * n → j < uy * n → k < uz * n →
      ∃ c, (hexMesh L ux uy uz n).cells[(ux * n) * (uy * n) * k + ((ux * n) * j + i)]? = some c ∧
      Spec.coords (hexMesh L ux uy uz n).vertices c =
        some [![i * (L / n), j * (L / n), k * (L / n)], ![(i + 1) * (L / n), j * (L / n), k * (L / n)],
          ![(i + 1) * (L / n), (j + 1) * (L / n), k * (L / n)],
          ![i * (L / n), (j + 1) * (L / n), k * (L / n)],
          ![i * (L / n), j * (L / n), (k + 1) * (L / n)],
          ![(i + 1) * (L / n), j * (L / n), (k + 1) * (L / n)],
          ![(i + 1) * (L / n), (j + 1) * (L / n), (k + 1) * (L / n)],
          ![i * (L / n), (j + 1) * (L / n), (k + 1) * (L / n)]]) ∧
    (∀ t (c : List Nat), (hexMesh L ux uy uz n).cells[t]? = some c →
      ∃ i j k, i < ux * n ∧ j < uy * n ∧ k < uz * n ∧
        t = (ux * n) * (uy * n) * k + ((ux * n) * j + i)) := by
  obtain ⟨vid, _, h2, h3, _, _, h6⟩ := C18_hex_mesh_is_the_grid L ux uy uz n hn hux huy
  constructor
  · intro i j k hi hj hk
    refine ⟨_, h6 i j k hi hj hk, ?_⟩
    have a1 := h3 i j k (by omega) (by omega) (by omega)
    have a2 := h3 (i + 1) j k (by omega) (by omega) (by omega)
    have a3 := h3 (i + 1) (j + 1) k (by omega) (by omega) (by omega)
    have a4 := h3 i (j + 1) k (by omega) (by omega) (by omega)
    have b1 := h3 i j (k + 1) (by omega) (by omega) (by omega)
    have b2 := h3 (i + 1) j (k + 1) (by omega) (by omega) (by omega)
    have b3 := h3 (i + 1) (j + 1) (k + 1) (by omega) (by omega) (by omega)
    have b4 := h3 i (j + 1) (k + 1) (by omega) (by omega) (by omega)
    push_cast at a1 a2 a3 a4 b1 b2 b3 b4
    simp [Spec.coords, List.mapM_cons, a1, a2, a3, a4, b1, b2, b3, b4]
  · intro t c ht
    have := (List.getElem?_eq_some_iff.1 ht).1
    rw [h2] at this
    obtain ⟨q, k, hq, hk, rfl⟩ := mul_add_decomp this
    obtain ⟨i, j, hi, hj, rfl⟩ := mul_add_decomp hq
    exact ⟨i, j, k, hi, hj, hk, rfl⟩

/-- C18.  The cells tile the box `[0, units_x·u] × [0, units_y·u] × [0, units_z·u]`.  Every cell is an
axis-aligned cube of side `unit_length / cells_per_unit` with its vertices in the reference order
(bottom face counter-clockwise, then top face); a point lies in the box exactly when it lies in some
cell; no point is in the interior of two cells. -/
theorem C18_cells_tile_the_box (L : K) (hL : 0 < L) (ux uy uz n : Nat)
    (hn : n ≠ 0) (hux : ux ≠ 0) (huy : uy ≠ 0) (huz : uz ≠ 0) :
    let mesh := hexMesh L ux uy uz n
    (∀ cell ∈ mesh.cells, ∃ a : Point 3 K, Spec.coords mesh.vertices cell =
      some [a, ![a 0 + L / n, a 1, a 2], ![a 0 + L / n, a 1 + L / n, a 2], ![a 0, a 1 + L / n, a 2],
        ![a 0, a 1, a 2 + L / n], ![a 0 + L / n, a 1, a 2 + L / n],
        ![a 0 + L / n, a 1 + L / n, a 2 + L / n], ![a 0, a 1 + L / n, a 2 + L / n]]) ∧
    (∀ p, Spec.InBox ![0, 0, 0] ![ux * L, uy * L, uz * L] p ↔
      ∃ cell ∈ mesh.cells, ∃ pts a c, Spec.coords mesh.vertices cell = some pts ∧
        pts[0]? = some a ∧ pts[6]? = some c ∧ Spec.InBox a c p) ∧
    (∀ (t t' : Nat) cell cell' pts pts' a c a' c' p,
      mesh.cells[t]? = some cell → mesh.cells[t']? = some cell' →
      Spec.coords mesh.vertices cell = some pts → Spec.coords mesh.vertices cell' = some pts' →
      pts[0]? = some a → pts[6]? = some c → pts'[0]? = some a' → pts'[6]? = some c' →
      Spec.InOpenBox a c p → Spec.InOpenBox a' c' p → t = t') := by
  obtain ⟨q1, q2⟩ := hex_cell L ux uy uz n hn hux huy
  refine ⟨?_, ?_, ?_⟩
  · intro cell hcell
    obtain ⟨t, ht⟩ := List.getElem?_of_mem hcell
    obtain ⟨i, j, k, hi, hj, hk, rfl⟩ := q2 t cell ht
    obtain ⟨c, hc, hco⟩ := q1 i j k hi hj hk
    rw [ht] at hc
    cases hc
    refine ⟨![i * (L / n), j * (L / n), k * (L / n)], hco.trans ?_⟩
    have e : ∀ m : Nat, ((m : K) + 1) * (L / n) = m * (L / n) + L / n := fun m => by ring
    simp [e]
  · intro p
    rw [(cubes_tile L hL ux uy uz n hn hux huy huz p).1]
    constructor
    · rintro ⟨i, j, k, hi, hj, hk, hp⟩
      obtain ⟨c, hc, hco⟩ := q1 i j k hi hj hk
      exact ⟨c, List.mem_of_getElem? hc, _, _, _, hco, rfl, rfl, hp⟩
    · rintro ⟨cell, hcell, pts, a, c, hco, ha, hc6, hp⟩
      obtain ⟨t, ht⟩ := List.getElem?_of_mem hcell
      obtain ⟨i, j, k, hi, hj, hk, rfl⟩ := q2 t cell ht
      obtain ⟨c', hc, hco'⟩ := q1 i j k hi hj hk
      rw [ht] at hc
      cases hc
      rw [hco] at hco'
      cases hco'
      cases ha
      cases hc6
      exact ⟨i, j, k, hi, hj, hk, hp⟩
  · intro t t' cell cell' pts pts' a c a' c' p ht ht' hco hco' ha hc6 ha' hc6' hp hp'
    obtain ⟨i, j, k, hi, hj, hk, rfl⟩ := q2 t cell ht
    obtain ⟨i', j', k', hi', hj', hk', rfl⟩ := q2 t' cell' ht'
    obtain ⟨_, hc, hcc⟩ := q1 i j k hi hj hk
    obtain ⟨_, hc', hcc'⟩ := q1 i' j' k' hi' hj' hk'
    rw [ht] at hc; cases hc
    rw [ht'] at hc'; cases hc'
    rw [hco] at hcc
    rw [hco'] at hcc'
    cases hcc; cases hcc'
    cases ha; cases hc6; cases ha'; cases hc6'
    obtain ⟨rfl, rfl, rfl⟩ := (cubes_tile L hL ux uy uz n hn hux huy huz p).2 i j k i' j' k' hp hp'
    rfl

/-- C18.  `create_unit_box_uniform_hex_mesh_3d`: `n³` cubes of side `1 / n` that tile the unit cube. -/
theorem C18_unit_box (n : Nat) (hn : n ≠ 0) :
    let mesh := unitBoxHexMesh (K := K) n
    mesh.cells.length = n * n * n ∧
    (∀ cell ∈ mesh.cells, ∃ a : Point 3 K, Spec.coords mesh.vertices cell =
      some [a, ![a 0 + 1 / n, a 1, a 2], ![a 0 + 1 / n, a 1 + 1 / n, a 2], ![a 0, a 1 + 1 / n, a 2],
        ![a 0, a 1, a 2 + 1 / n], ![a 0 + 1 / n, a 1, a 2 + 1 / n],
        ![a 0 + 1 / n, a 1 + 1 / n, a 2 + 1 / n], ![a 0, a 1 + 1 / n, a 2 + 1 / n]]) ∧
    (∀ p : Point 3 K, Spec.InBox ![0, 0, 0] ![1, 1, 1] p ↔
      ∃ cell ∈ mesh.cells, ∃ pts a c, Spec.coords mesh.vertices cell = some pts ∧
        pts[0]? = some a ∧ pts[6]? = some c ∧ Spec.InBox a c p) ∧
    (∀ (t t' : Nat) cell cell' pts pts' a c a' c' p,
      mesh.cells[t]? = some cell → mesh.cells[t']? = some cell' →
      Spec.coords mesh.vertices cell = some pts → Spec.coords mesh.vertices cell' = some pts' →
      pts[0]? = some a → pts[6]? = some c → pts'[0]? = some a' → pts'[6]? = some c' →
      Spec.InOpenBox a c p → Spec.InOpenBox a' c' p → t = t') := by
  obtain ⟨_, _, h0, _⟩ := C18_hex_mesh_is_the_grid (1 : K) 1 1 1 n hn one_ne_zero one_ne_zero
  obtain ⟨h1, h2, h3⟩ := C18_cells_tile_the_box (1 : K) one_pos 1 1 1 n hn one_ne_zero one_ne_zero one_ne_zero
  refine ⟨by rw [unitBoxHexMesh, h0]; simp, h1, fun p => ?_, h3⟩
  have := h2 p
  simp only [Nat.cast_one, mul_one] at this
  exact this

end Ordered

example : (hexMesh (2 : ℚ) 2 1 1 1).cells =
    [[0, 1, 4, 3, 6, 7, 10, 9], [1, 2, 5, 4, 7, 8, 11, 10]] := by decide +kernel

end Fenris
