import Verif.Lemmas.TetCover
import Verif.Lemmas.TetConform
import Verif.Props.TetTiling
import Verif.Spec.Procedural
import Verif.Spec.Refinement
import Mathlib.Tactic.Positivity
/-! # C83: uniform tetrahedral meshes of boxes -/
set_option autoImplicit false
set_option linter.unusedSectionVars false

namespace Fenris
namespace TetGrid
open Fenris.Spec Spec
variable {K : Type} [Field K]

/-! ### The mesh in terms of nodes and groups -/

/-- The numbers of cells. -/
private abbrev size (ux uy uz m : Nat) : Idx := ![ux * m, uy * m, uz * m]

private theorem tetMesh_eq (L : K) (ux uy uz m : Nat) (hx : ux ≠ 0) (hy : uy ≠ 0) (hz : uz ≠ 0) (hm : m ≠ 0) :
    tetMesh L ux uy uz m = ⟨verts (size ux uy uz m) (L / m), ((keys (size ux uy uz m)).flatMap groupN).map
      (List.map (nodeIdx (size ux uy uz m)))⟩ := by
  rw [tetMesh, if_neg (by tauto), ← cells_eq]
  rfl

private theorem coords_nodes (n : Idx) (h : K) (t : List Node) (ht : ∀ x ∈ t, x.Valid n) :
    coords (verts n h) (t.map (nodeIdx n)) = some (t.map (nodePos h)) := by
  rw [coords]
  induction t with
  | nil => rfl
  | cons x t ih =>
    rw [List.map_cons, List.mapM_cons, verts_node n h x (ht x (by simp)), ih fun y hy => ht y (by simp [hy])]
    rfl

/-- C83: if some count is zero, the mesh is empty. -/
theorem C83_zero_count (L : K) (ux uy uz m : Nat) (h : ux = 0 ∨ uy = 0 ∨ uz = 0 ∨ m = 0) : tetMesh L ux uy uz m = ⟨[], []⟩ := by
  rw [tetMesh, if_pos h]

/-! ### Numbers -/

private theorem sum_map_add {α : Type} (l : List α) (f g : α → Nat) :
    (l.map fun x => f x + g x).sum = (l.map f).sum + (l.map g).sum := by
  induction l with
  | nil => rfl
  | cons x l ih => simp only [List.map_cons, List.sum_cons, ih]; omega

private theorem sum_const {α : Type} (l : List α) (c : Nat) : (l.map fun _ => c).sum = l.length * c := by
  induction l with
  | nil => simp
  | cons x l ih => simp only [List.map_cons, List.sum_cons, ih, List.length_cons]; ring

private theorem sum_flatMap {α β : Type} (l : List α) (f : α → List β) (g : β → Nat) :
    ((l.flatMap f).map g).sum = (l.map fun x => ((f x).map g).sum).sum := by
  induction l with
  | nil => rfl
  | cons x l ih => simp only [List.flatMap_cons, List.map_append, List.sum_append, List.map_cons, List.sum_cons, ih]

private theorem sum_lattice (n : Idx) (f0 f1 f2 : Nat → Nat) : ((lattice n).map fun q => f0 (q 0) + f1 (q 1) + f2 (q 2)).sum =
    n 1 * n 2 * ((List.range (n 0)).map f0).sum + n 0 * n 2 * ((List.range (n 1)).map f1).sum +
      n 0 * n 1 * ((List.range (n 2)).map f2).sum := by
  rw [lattice, sum_flatMap]
  have h1 : ∀ j k : Nat, ((((List.range (n 0)).map fun (i : Nat) => (![i, j, k] : Idx)).map fun q => f0 (q 0) + f1 (q 1) + f2 (q 2))).sum =
      ((List.range (n 0)).map f0).sum + n 0 * f1 j + n 0 * f2 k := by
    intro j k
    rw [List.map_map]
    show ((List.range (n 0)).map fun i => f0 i + f1 j + f2 k).sum = _
    rw [sum_map_add, sum_map_add, sum_const, sum_const, List.length_range]
  have h2 : ∀ k : Nat, (((List.range (n 1)).flatMap fun (j : Nat) => (List.range (n 0)).map fun (i : Nat) => (![i, j, k] : Idx)).map
      fun q => f0 (q 0) + f1 (q 1) + f2 (q 2)).sum =
      n 1 * ((List.range (n 0)).map f0).sum + n 0 * ((List.range (n 1)).map f1).sum + n 1 * (n 0 * f2 k) := by
    intro k
    rw [sum_flatMap]
    simp only [h1]
    rw [sum_map_add, sum_map_add, sum_const, sum_const, List.length_range]
    congr 2
    induction List.range (n 1) with
    | nil => simp
    | cons x l ih => simp only [List.map_cons, List.sum_cons, ih]; ring
  simp only [h2]
  rw [sum_map_add, sum_map_add, sum_const, sum_const, List.length_range]
  have h3 : ((List.range (n 2)).map fun k => n 1 * (n 0 * f2 k)).sum = n 1 * n 0 * ((List.range (n 2)).map f2).sum := by
    induction List.range (n 2) with
    | nil => simp
    | cons x l ih => simp only [List.map_cons, List.sum_cons, ih]; ring
  rw [h3]
  ring

/-- The number of tetrahedra of a cell in one direction. -/
private def cnt (n i : Nat) : Nat := (if i + 1 < n then 4 else 0) + (if i = 0 then 2 else 0) + if i + 1 = n then 2 else 0

private theorem sum_cnt (n : Nat) (hn : n ≠ 0) : ((List.range n).map (cnt n)).sum = 4 * n := by
  have key : ∀ k, k < n → ((List.range (k + 1)).map (cnt n)).sum = 4 * k + (if k + 1 < n then 4 else 0) + 2 + if k + 1 = n then 2 else 0 := by
    intro k
    induction k with
    | zero =>
      intro h
      simp [cnt, List.range_succ]
    | succ k ih =>
      intro h
      rw [List.range_succ, List.map_append, List.sum_append, ih (by omega), if_pos h, if_neg (show ¬k + 1 = n by omega)]
      simp only [List.map_cons, List.map_nil, List.sum_cons, List.sum_nil, cnt]
      rw [if_neg (show ¬k + 1 = 0 by omega)]
      split_ifs <;> omega
  obtain ⟨k, rfl⟩ := Nat.exists_eq_succ_of_ne_zero hn
  have := key k (by omega)
  rw [this]
  simp
  omega

private theorem length_connN (cell : Idx) (axis : Fin 3) : (connN cell axis).length = 4 := by rw [connN_eq]; rfl

private theorem length_pyrN (cell : Idx) (axis : Fin 3) (b : Bool) : (pyrN cell axis b).length = 2 := by
  rw [pyrN_eq]
  simp only
  split <;> rfl

private theorem length_cellKeys (n cell : Idx) : ((cellKeys n cell).flatMap groupN).length =
    cnt (n 0) (cell 0) + cnt (n 1) (cell 1) + cnt (n 2) (cell 2) := by
  have h : ∀ a : Fin 3, (((if cell a + 1 < n a then [((cell, a, Kind.conn) : Key)] else []) ++
        (if cell a = 0 then [((cell, a, Kind.neg) : Key)] else []) ++ (if cell a + 1 = n a then [((cell, a, Kind.pos) : Key)] else [])).flatMap groupN).length =
      cnt (n a) (cell a) := by
    intro a
    simp only [cnt]
    split_ifs <;> simp [groupN, length_connN, length_pyrN]
  rw [cellKeys]
  simp only [List.flatMap_cons, List.flatMap_nil, List.append_nil, List.flatMap_append, List.length_append]
  simp only [List.flatMap_append, List.length_append] at h
  rw [h 0, h 1, h 2]
  omega

/-- C83: otherwise the vertices are those of the grid followed by the centres of its cells, all numbered, and there are twelve
tetrahedra per cell of the grid. -/
theorem C83_counts (L : K) (ux uy uz m : Nat) (hx : ux ≠ 0) (hy : uy ≠ 0) (hz : uz ≠ 0) (hm : m ≠ 0) :
    (tetMesh L ux uy uz m).cells.length = 12 * ((ux * m) * (uy * m) * (uz * m)) ∧
    (tetMesh L ux uy uz m).vertices.length =
      (ux * m + 1) * (uy * m + 1) * (uz * m + 1) + (ux * m) * (uy * m) * (uz * m) ∧
    (∀ c ∈ (tetMesh L ux uy uz m).cells, c.length = 4 ∧ ∀ v ∈ c, v < (tetMesh L ux uy uz m).vertices.length) ∧
    ∀ p : Point 3 K, p ∈ (tetMesh L ux uy uz m).vertices ↔
      (∃ i j k : Nat, i ≤ ux * m ∧ j ≤ uy * m ∧ k ≤ uz * m ∧ p = ![i * (L / m), j * (L / m), k * (L / m)]) ∨
      ∃ i j k : Nat, i < ux * m ∧ j < uy * m ∧ k < uz * m ∧
        p = ![(i + 1 / 2) * (L / m), (j + 1 / 2) * (L / m), (k + 1 / 2) * (L / m)] := by
  rw [tetMesh_eq L ux uy uz m hx hy hz hm]
  have h0 : ux * m ≠ 0 := Nat.mul_ne_zero hx hm
  have h1 : uy * m ≠ 0 := Nat.mul_ne_zero hy hm
  have h2 : uz * m ≠ 0 := Nat.mul_ne_zero hz hm
  refine ⟨?_, ?_, ?_, ?_⟩
  · rw [List.length_map, keys, List.flatMap_assoc, List.length_flatMap]
    simp only [length_cellKeys]
    rw [sum_lattice (size ux uy uz m) (cnt _) (cnt _) (cnt _)]
    simp only [Matrix.cons_val_zero, Matrix.cons_val_one, Matrix.cons_val]
    rw [sum_cnt _ h0, sum_cnt _ h1, sum_cnt _ h2]
    ring
  · rw [verts_length]
    simp
  · intro c hc
    obtain ⟨t, ht, rfl⟩ := List.mem_map.mp hc
    obtain ⟨κ, hκ, ht⟩ := List.mem_flatMap.mp ht
    obtain ⟨g1, g2⟩ := group_valid _ κ ((mem_keys _ κ).mp hκ) t ht
    refine ⟨by rw [List.length_map, g1], fun v hv => ?_⟩
    obtain ⟨x, hx, rfl⟩ := List.mem_map.mp hv
    exact (List.getElem?_eq_some_iff.mp (verts_node _ (L / m) x (g2 x hx))).1
  · intro p
    rw [verts, List.mem_append, List.mem_map, List.mem_map]
    simp only [mem_lattice]
    constructor
    · rintro (⟨q, hq, rfl⟩ | ⟨q, hq, rfl⟩)
      · have q0 := hq 0
        have q1 := hq 1
        have q2 := hq 2
        simp only [Matrix.cons_val_zero, Matrix.cons_val_one, Matrix.cons_val] at q0 q1 q2
        refine .inl ⟨q 0, q 1, q 2, by omega, by omega, by omega, ?_⟩
        funext a
        fin_cases a <;> simp <;> ring
      · have q0 := hq 0
        have q1 := hq 1
        have q2 := hq 2
        simp only [Matrix.cons_val_zero, Matrix.cons_val_one, Matrix.cons_val] at q0 q1 q2
        refine .inr ⟨q 0, q 1, q 2, by omega, by omega, by omega, ?_⟩
        funext a
        fin_cases a <;> simp <;> ring
    · rintro (⟨i, j, k, hi, hj, hk, rfl⟩ | ⟨i, j, k, hi, hj, hk, rfl⟩)
      · refine .inl ⟨![i, j, k], fun a => ?_, ?_⟩
        · fin_cases a <;> simp <;> omega
        · funext a
          fin_cases a <;> simp <;> ring
      · refine .inr ⟨![i, j, k], fun a => ?_, ?_⟩
        · fin_cases a <;> simp <;> omega
        · funext a
          fin_cases a <;> simp <;> ring

section Ordered
variable [LinearOrder K] [IsStrictOrderedRing K]

/-! ### Groups around their cells -/

private def groupU : Key → List (List (Point 3 K))
  | (_, axis, .conn) => connU axis
  | (cell, axis, .neg) => pyrU axis false (decide ((cell 0 + cell 1 + cell 2) % 2 = 0))
  | (cell, axis, .pos) => pyrU axis true (decide ((cell 0 + cell 1 + cell 2) % 2 = 0))

private theorem group_around (κ : Key) : (groupN κ).map (List.map (around (K := K) κ.1)) = groupU κ := by
  obtain ⟨cell, axis, kind⟩ := κ
  cases kind
  · exact connN_around cell axis
  · exact pyrN_around cell axis false
  · exact pyrN_around cell axis true

private theorem group_pos (h : K) (κ : Key) :
    (groupN κ).map (List.map (nodePos h)) = (groupU κ).map (List.map (place h κ.1)) := by
  rw [← group_around, List.map_map]
  apply List.map_congr_left
  intro t _
  rw [Function.comp, List.map_map]
  apply List.map_congr_left
  intro x _
  exact (place_around h κ.1 x).symm

/-- The position in the coordinates around a cell. -/
private def unplace (h : K) (cell : Idx) (p : Point 3 K) : Point 3 K := fun a => p a / h - (cell a : K) - 1 / 2

private theorem place_unplace (h : K) (hh : h ≠ 0) (cell : Idx) (p : Point 3 K) : place h cell (unplace h cell p) = p := by
  funext a
  simp only [place, unplace]
  field_simp
  ring

private theorem inOpenL_place (h : K) (hh : h ≠ 0) (cell : Idx) (u : List (Point 3 K)) (p : Point 3 K) :
    InOpenL (u.map (place h cell)) p ↔ InOpenL u (unplace h cell p) := by
  rw [← place_unplace h hh cell p]
  generalize unplace h cell p = x
  have hx : unplace h cell (place h cell x) = x := by
    funext a
    simp only [place, unplace]
    field_simp
    ring
  rw [hx]
  constructor
  · rintro ⟨a, b, c, d, e, hp⟩
    match u, e with
    | [a', b', c', d'], e =>
      simp only [List.map_cons, List.map_nil, List.cons.injEq, and_true] at e
      obtain ⟨rfl, rfl, rfl, rfl⟩ := e
      exact ⟨_, _, _, _, rfl, (inOpenTet_place h hh cell _ _ _ _ _).mp hp⟩
  · rintro ⟨a, b, c, d, rfl, hp⟩
    exact ⟨_, _, _, _, rfl, (inOpenTet_place h hh cell _ _ _ _ _).mpr hp⟩

private theorem inL_place (h : K) (hh : h ≠ 0) (cell : Idx) (u : List (Point 3 K)) (p : Point 3 K) :
    InL u (unplace h cell p) → InL (u.map (place h cell)) p := by
  rintro ⟨a, b, c, d, rfl, hp⟩
  have := (inTet_place h hh cell _ _ _ _ _).mpr hp
  rw [place_unplace h hh] at this
  exact ⟨_, _, _, _, rfl, this⟩

/-! ### Groups are disjoint -/

/-- The number of the side of a group in the direction of its axis. -/
private def level : Key → Nat
  | (cell, axis, .conn) => cell axis + 1
  | (cell, axis, .neg) => cell axis
  | (cell, axis, .pos) => cell axis + 1

/-- The points that are nearer to a side than to the other sides. -/
private def Desc (a : Fin 3) (m : Nat) (cell : Idx) (y : Point 3 K) : Prop := ∀ b, b ≠ a →
  y b - (cell b : K) - 1 / 2 < 1 / 2 + (y a - (m : K)) ∧ -(y b - (cell b : K) - 1 / 2) < 1 / 2 + (y a - (m : K)) ∧
  y b - (cell b : K) - 1 / 2 < 1 / 2 - (y a - (m : K)) ∧ -(y b - (cell b : K) - 1 / 2) < 1 / 2 - (y a - (m : K))

private theorem desc_of_inside (h : K) (hh : h ≠ 0) (κ : Key) (t : List (Point 3 K))
    (ht : t ∈ (groupN κ).map (List.map (nodePos h))) (p : Point 3 K) (hp : InOpenL t p) :
    Desc κ.2.1 (level κ) κ.1 fun a => p a / h := by
  rw [group_pos] at ht
  obtain ⟨u, hu, rfl⟩ := List.mem_map.mp ht
  rw [inOpenL_place h hh] at hp
  obtain ⟨cell, axis, kind⟩ := κ
  cases kind with
  | conn =>
    have hn := near_conn axis u hu _ hp
    intro b hb
    obtain ⟨h1, h2, h3, h4⟩ := hn b hb
    simp only [unplace] at h1 h2 h3 h4
    simp only [level, Nat.cast_add, Nat.cast_one]
    refine ⟨?_, ?_, ?_, ?_⟩ <;> linarith
  | neg =>
    have hn := near_neg axis _ u hu _ hp
    intro b hb
    obtain ⟨h1, h2, h3, h4⟩ := hn b hb
    simp only [unplace] at h1 h2 h3 h4
    simp only [level]
    refine ⟨?_, ?_, ?_, ?_⟩ <;> linarith
  | pos =>
    have hn := near_pos axis _ u hu _ hp
    intro b hb
    obtain ⟨h1, h2, h3, h4⟩ := hn b hb
    simp only [unplace] at h1 h2 h3 h4
    simp only [level, Nat.cast_add, Nat.cast_one]
    refine ⟨?_, ?_, ?_, ?_⟩ <;> linarith

private theorem nat_eq {x y : K} {m m' : Nat} (h1 : x - 1 < (m : K)) (h2 : (m : K) < y) (h3 : x - 1 < (m' : K)) (h4 : (m' : K) < y)
    (hxy : y ≤ x) : m = m' := by
  have a : (m : K) < (m' : K) + 1 := by linarith
  have b : (m' : K) < (m : K) + 1 := by linarith
  have a' : m < m' + 1 := by exact_mod_cast a
  have b' : m' < m + 1 := by exact_mod_cast b
  omega

private theorem desc_unique (a a' : Fin 3) (m m' : Nat) (cell cell' : Idx) (y : Point 3 K) (h : Desc a m cell y)
    (h' : Desc a' m' cell' y) : a = a' ∧ m = m' ∧ ∀ b, b ≠ a → cell b = cell' b := by
  by_cases ha : a = a'
  · subst ha
    refine ⟨rfl, ?_, ?_⟩
    · obtain ⟨b, hb⟩ : ∃ b : Fin 3, b ≠ a := by fin_cases a <;> decide
      obtain ⟨h1, h2, h3, h4⟩ := h b hb
      obtain ⟨k1, k2, k3, k4⟩ := h' b hb
      exact nat_eq (x := y a + 1 / 2) (y := y a + 1 / 2) (by linarith) (by linarith) (by linarith) (by linarith) le_rfl
    · intro b hb
      obtain ⟨h1, h2, h3, h4⟩ := h b hb
      obtain ⟨k1, k2, k3, k4⟩ := h' b hb
      exact nat_eq (x := y b) (y := y b) (by linarith) (by linarith) (by linarith) (by linarith) le_rfl
  · exfalso
    have key : ∀ (a a' : Fin 3) (m m' : Nat) (cell cell' : Idx), a ≠ a' → Desc a m cell y → Desc a' m' cell' y →
        (y a - (m : K) < y a' - (m' : K) ∧ -(y a - (m : K)) < y a' - (m' : K)) ∨
        (y a - (m : K) < -(y a' - (m' : K)) ∧ -(y a - (m : K)) < -(y a' - (m' : K))) := by
      intro a a' m m' cell cell' ha h h'
      obtain ⟨h1, h2, h3, h4⟩ := h a' (Ne.symm ha)
      rcases Nat.lt_or_ge (cell a') m' with hlt | hge
      · have : ((cell a' : Nat) : K) + 1 ≤ (m' : K) := by exact_mod_cast hlt
        right
        constructor <;> linarith
      · have : (m' : K) ≤ ((cell a' : Nat) : K) := by exact_mod_cast hge
        left
        constructor <;> linarith
    rcases key a a' m m' cell cell' ha h h' with ⟨h1, h2⟩ | ⟨h1, h2⟩ <;>
      rcases key a' a m' m cell' cell (Ne.symm ha) h' h with ⟨k1, k2⟩ | ⟨k1, k2⟩ <;> linarith

private theorem key_unique (n : Idx) (κ κ' : Key) (hκ : KeyValid n κ) (hκ' : KeyValid n κ') (h1 : κ.2.1 = κ'.2.1)
    (h2 : level κ = level κ') (h3 : ∀ b, b ≠ κ.2.1 → κ.1 b = κ'.1 b) : κ = κ' := by
  obtain ⟨cell, axis, kind⟩ := κ
  obtain ⟨cell', axis', kind'⟩ := κ'
  simp only at h1 h3
  subst h1
  have hcell : cell axis = cell' axis → cell = cell' := by
    intro e
    funext b
    by_cases hb : b = axis
    · rw [hb, e]
    · exact h3 b hb
  cases kind <;> cases kind' <;> simp only [level, KeyValid] at h2 hκ hκ'
  all_goals first
    | (rw [hcell (by omega)]; done)
    | (exfalso; have := hκ.2; have := hκ'.2; omega)

private theorem pairwise_apart (n : Idx) (h : K) (hh : h ≠ 0) :
    (((keys n).flatMap groupN).map (List.map (nodePos h))).Pairwise Apart := by
  rw [List.map_flatMap, List.pairwise_flatMap]
  constructor
  · intro κ _
    rw [group_pos, List.pairwise_map]
    have : (groupU (K := K) κ).Pairwise Apart := by
      obtain ⟨cell, axis, kind⟩ := κ
      cases kind
      · exact apart_conn axis
      · exact apart_pyr axis false _
      · exact apart_pyr axis true _
    refine this.imp fun hab p h1 h2 => ?_
    rw [inOpenL_place h hh] at h1 h2
    exact hab _ h1 h2
  · refine List.Nodup.pairwise_of_forall_ne (nodup_keys n) fun κ hκ κ' hκ' hne => ?_
    intro t ht u hu p h1 h2
    obtain ⟨e1, e2, e3⟩ := desc_unique _ _ _ _ _ _ _ (desc_of_inside h hh κ t ht p h1) (desc_of_inside h hh κ' u hu p h2)
    exact hne (key_unique n κ κ' ((mem_keys n κ).mp hκ) ((mem_keys n κ').mp hκ') e1 e2 e3)

/-! ### The cells are covered -/

private theorem max_axis (x : Point 3 K) : ∃ a : Fin 3, (∀ b, b ≠ a → x b ≤ x a ∧ -x b ≤ x a) ∨ ∀ b, b ≠ a → x b ≤ -x a ∧ -x b ≤ -x a := by
  have habs : ∃ a : Fin 3, ∀ b, |x b| ≤ |x a| := by
    have hall : ∀ a : Fin 3, |x 0| ≤ |x a| → |x 1| ≤ |x a| → |x 2| ≤ |x a| → ∀ b, |x b| ≤ |x a| := by
      intro a h0 h1 h2 b
      fin_cases b
      · exact h0
      · exact h1
      · exact h2
    rcases le_total |x 0| |x 1| with h1 | h1
    · rcases le_total |x 1| |x 2| with h2 | h2
      · exact ⟨2, hall 2 (h1.trans h2) h2 le_rfl⟩
      · exact ⟨1, hall 1 h1 le_rfl h2⟩
    · rcases le_total |x 0| |x 2| with h2 | h2
      · exact ⟨2, hall 2 h2 (h1.trans h2) le_rfl⟩
      · exact ⟨0, hall 0 le_rfl h1 h2⟩
  obtain ⟨a, ha⟩ := habs
  refine ⟨a, ?_⟩
  rcases le_total 0 (x a) with h0 | h0
  · left
    intro b _
    have := ha b
    rw [abs_of_nonneg h0, abs_le] at this
    constructor <;> linarith
  · right
    intro b _
    have := ha b
    rw [abs_of_nonpos h0, abs_le] at this
    constructor <;> linarith

private theorem cover_cell (n : Idx) (h : K) (hh : h ≠ 0) (cell : Idx) (hc : ∀ a, cell a < n a) (p : Point 3 K)
    (hp : ∀ a, (cell a : K) ≤ p a / h ∧ p a / h ≤ (cell a : K) + 1) :
    ∃ t ∈ ((keys n).flatMap groupN).map (List.map (nodePos h)), InL t p := by
  have hx : ∀ a, -1 / 2 ≤ unplace h cell p a ∧ unplace h cell p a ≤ 1 / 2 := by
    intro a
    obtain ⟨h1, h2⟩ := hp a
    simp only [unplace]
    constructor <;> linarith
  have key : ∀ κ : Key, KeyValid n κ → (∃ u ∈ groupU (K := K) κ, InL u (unplace h κ.1 p)) →
      ∃ t ∈ ((keys n).flatMap groupN).map (List.map (nodePos h)), InL t p := by
    rintro κ hκ ⟨u, hu, hup⟩
    refine ⟨u.map (place h κ.1), ?_, inL_place h hh κ.1 u p hup⟩
    rw [List.map_flatMap]
    refine List.mem_flatMap.mpr ⟨κ, (mem_keys n κ).mpr hκ, ?_⟩
    rw [group_pos]
    exact List.mem_map_of_mem hu
  obtain ⟨a, ha | ha⟩ := max_axis (unplace h cell p)
  · by_cases hlast : cell a + 1 < n a
    · refine key (cell, a, .conn) ⟨hc, hlast⟩ (cover_conn a _ fun b hb => ?_)
      obtain ⟨h1, h2⟩ := ha b hb
      have := hx a
      exact ⟨h1, h2, by linarith, by linarith⟩
    · have := hc a
      exact key (cell, a, .pos) ⟨hc, by omega⟩ (cover_pos a _ _ (hx a).2 ha)
  · by_cases hfirst : cell a = 0
    · exact key (cell, a, .neg) ⟨hc, hfirst⟩ (cover_neg a _ _ (by have := hx a; linarith) ha)
    · have hval : ∀ b, (fun b => if b = a then cell b - 1 else cell b : Idx) b < n b := by
        intro b
        have := hc b
        simp only
        split <;> omega
      refine key (fun b => if b = a then cell b - 1 else cell b, a, .conn) ⟨hval, ?_⟩ (cover_conn a _ fun b hb => ?_)
      · have := hc a
        simp only [if_true]
        omega
      · obtain ⟨h1, h2⟩ := ha b hb
        have hxa := hx a
        have e1 : unplace h (fun b => if b = a then cell b - 1 else cell b) p b = unplace h cell p b := by
          simp only [unplace, if_neg hb]
        have e2 : unplace h (fun b => if b = a then cell b - 1 else cell b) p a = unplace h cell p a + 1 := by
          simp only [unplace, if_true]
          rw [Nat.cast_sub (by omega)]
          push_cast
          ring
        simp only [e1, e2]
        exact ⟨by linarith, by linarith, by linarith, by linarith⟩

private theorem piece {y : K} (n : Nat) (hn : n ≠ 0) (h0 : 0 ≤ y) (h1 : y ≤ n) : ∃ i, i < n ∧ (i : K) ≤ y ∧ y ≤ (i : K) + 1 := by
  induction n with
  | zero => exact absurd rfl hn
  | succ n ih =>
    by_cases hx : (n : K) ≤ y
    · exact ⟨n, by omega, hx, by push_cast at h1; exact h1⟩
    · have hx := lt_of_not_ge hx
      by_cases hn0 : n = 0
      · subst hn0
        simp at hx
        exact absurd h0 (not_le.2 hx)
      · obtain ⟨i, hi, h2, h3⟩ := ih hn0 hx.le
        exact ⟨i, by omega, h2, h3⟩

private theorem node_in_box (n : Idx) (h : K) (hh : 0 < h) (x : Node) (hx : x.Valid n) (a : Fin 3) :
    0 ≤ nodePos h x a ∧ nodePos h x a ≤ h * (n a : K) := by
  cases x with
  | vert q =>
    have h1 : ((q a : Nat) : K) ≤ n a := by exact_mod_cast hx a
    have h2 : (0 : K) ≤ q a := Nat.cast_nonneg _
    simp only [nodePos]
    constructor
    · positivity
    · exact mul_le_mul_of_nonneg_left h1 hh.le
  | center q =>
    have h1 : ((q a : Nat) : K) + 1 ≤ n a := by exact_mod_cast hx a
    have h2 : (0 : K) ≤ q a := Nat.cast_nonneg _
    simp only [nodePos]
    constructor
    · positivity
    · exact mul_le_mul_of_nonneg_left (by linarith) hh.le

/-! ### The theorems -/

private theorem size_pos {ux uy uz m : Nat} (hx : ux ≠ 0) (hy : uy ≠ 0) (hz : uz ≠ 0) (hm : m ≠ 0) (a : Fin 3) :
    size ux uy uz m a ≠ 0 := by
  fin_cases a
  · exact Nat.mul_ne_zero hx hm
  · exact Nat.mul_ne_zero hy hm
  · exact Nat.mul_ne_zero hz hm

private theorem size_box (L : K) {ux uy uz m : Nat} (hm : m ≠ 0) (a : Fin 3) :
    (L / m) * (size ux uy uz m a : K) = (![ux * L, uy * L, uz * L] : Point 3 K) a := by
  have : (m : K) ≠ 0 := by exact_mod_cast hm
  fin_cases a <;> simp <;> field_simp

private theorem mem_cells (L : K) (ux uy uz m : Nat) (hx : ux ≠ 0) (hy : uy ≠ 0) (hz : uz ≠ 0) (hm : m ≠ 0) (c : List Nat)
    (hc : c ∈ (tetMesh L ux uy uz m).cells) : ∃ t ∈ (keys (size ux uy uz m)).flatMap groupN, t.length = 4 ∧
      (∀ x ∈ t, x.Valid (size ux uy uz m)) ∧ c = t.map (nodeIdx (size ux uy uz m)) ∧
      coords (tetMesh L ux uy uz m).vertices c = some (t.map (nodePos (L / m))) := by
  rw [tetMesh_eq L ux uy uz m hx hy hz hm] at hc ⊢
  obtain ⟨t, ht, rfl⟩ := List.mem_map.mp hc
  obtain ⟨κ, hκ, htκ⟩ := List.mem_flatMap.mp ht
  obtain ⟨g1, g2⟩ := group_valid _ κ ((mem_keys _ κ).mp hκ) t htκ
  exact ⟨t, ht, g1, g2, rfl, coords_nodes _ _ _ g2⟩

private theorem coords_get (vs : List (Point 3 K)) (v : Nat) (x : Point 3 K) (h : vs[v]? = some x) : Surface.Spec.coords vs v = x := by
  rw [Surface.Spec.coords, List.getD_eq_getElem?_getD, h]
  rfl

private theorem coords_four (vs : List (Point 3 K)) (cell : List Nat) (a b c d : Point 3 K) (h : coords vs cell = some [a, b, c, d]) :
    Surface.Spec.coords vs (cell.getD 0 0) = a ∧ Surface.Spec.coords vs (cell.getD 1 0) = b ∧
      Surface.Spec.coords vs (cell.getD 2 0) = c ∧ Surface.Spec.coords vs (cell.getD 3 0) = d := by
  have key : ∀ (cell : List Nat) (x : Point 3 K) (l : List (Point 3 K)), coords vs cell = some (x :: l) →
      ∃ i r, cell = i :: r ∧ Surface.Spec.coords vs i = x ∧ coords vs r = some l := by
    intro cell x l h
    match cell with
    | [] => simp [coords] at h
    | i :: r =>
      rw [coords, List.mapM_cons, Option.bind_eq_bind, Option.bind_eq_some_iff] at h
      obtain ⟨x', e1, h⟩ := h
      rw [Option.bind_eq_bind, Option.bind_eq_some_iff] at h
      obtain ⟨l', e2, h⟩ := h
      cases h
      exact ⟨i, r, rfl, coords_get vs i x e1, e2⟩
  obtain ⟨i, r, rfl, e0, h⟩ := key _ _ _ h
  obtain ⟨j, r, rfl, e1, h⟩ := key _ _ _ h
  obtain ⟨k, r, rfl, e2, h⟩ := key _ _ _ h
  obtain ⟨l, r, rfl, e3, h⟩ := key _ _ _ h
  exact ⟨e0, e1, e2, e3⟩

/-- C83: all tetrahedra are positively oriented and have the same volume `h³ / 12` for cells of size `h`; together they have the
volume of the box. -/
theorem C83_volumes (L : K) (hL : 0 < L) (ux uy uz m : Nat) (hx : ux ≠ 0) (hy : uy ≠ 0) (hz : uz ≠ 0) (hm : m ≠ 0) :
    (∀ cell ∈ (tetMesh L ux uy uz m).cells, ∃ a b c d, coords (tetMesh L ux uy uz m).vertices cell = some [a, b, c, d] ∧
      Surface.Spec.tetVol6 a b c d / 6 = (L / m) ^ 3 / 12 ∧ 0 < Surface.Spec.tetVol6 a b c d) ∧
    ((tetMesh L ux uy uz m).cells.map fun cell => Surface.Spec.cellVol6 (tetMesh L ux uy uz m).vertices cell / 6).sum =
      (ux * L) * (uy * L) * (uz * L) := by
  have hmK : (0 : K) < m := by exact_mod_cast Nat.pos_of_ne_zero hm
  have hh : 0 < L / m := div_pos hL hmK
  have hvol : ∀ cell ∈ (tetMesh L ux uy uz m).cells, ∃ a b c d, coords (tetMesh L ux uy uz m).vertices cell = some [a, b, c, d] ∧
      Surface.Spec.tetVol6 a b c d / 6 = (L / m) ^ 3 / 12 ∧ 0 < Surface.Spec.tetVol6 a b c d := by
    intro cell hcell
    obtain ⟨t, ht, h4, -, -, hco⟩ := mem_cells L ux uy uz m hx hy hz hm cell hcell
    obtain ⟨κ, -, htκ⟩ := List.mem_flatMap.mp ht
    have hmem : t.map (nodePos (L / m)) ∈ (groupU κ).map (List.map (place (L / m) κ.1)) := by
      rw [← group_pos]
      exact List.mem_map_of_mem htκ
    obtain ⟨u, hu, e⟩ := List.mem_map.mp hmem
    have hv : vol6L u = 1 / 2 := by
      obtain ⟨cell, axis, kind⟩ := κ
      cases kind
      · exact vol6_conn axis u hu
      · exact vol6_pyr axis false _ u hu
      · exact vol6_pyr axis true _ u hu
    have hlen : u.length = 4 := by
      have := congrArg List.length e
      simpa [h4] using this
    rw [← e] at hco
    match u, hlen with
    | [a, b, c, d], _ =>
      refine ⟨_, _, _, _, hco, ?_, ?_⟩
      · rw [vol6_place]
        have : Surface.Spec.tetVol6 a b c d = 1 / 2 := hv
        rw [this]
        ring
      · rw [vol6_place]
        have : Surface.Spec.tetVol6 a b c d = 1 / 2 := hv
        rw [this]
        positivity
  refine ⟨hvol, ?_⟩
  have hconst : ((tetMesh L ux uy uz m).cells.map fun cell => Surface.Spec.cellVol6 (tetMesh L ux uy uz m).vertices cell / 6) =
      (tetMesh L ux uy uz m).cells.map fun _ => (L / m) ^ 3 / 12 := by
    apply List.map_congr_left
    intro cell hcell
    obtain ⟨a, b, c, d, hco, h1, -⟩ := hvol cell hcell
    obtain ⟨e0, e1, e2, e3⟩ := coords_four _ _ _ _ _ _ hco
    rw [Surface.Spec.cellVol6, e0, e1, e2, e3, h1]
  rw [hconst, List.map_const', List.sum_replicate, (C83_counts L ux uy uz m hx hy hz hm).1, nsmul_eq_mul]
  push_cast
  field_simp

/-- C83: the tetrahedra tile the box with a corner at the origin: a point lies in the box exactly if it lies in some tetrahedron, and
no point is in the interior of two of them. -/
theorem C83_tiles_the_box (L : K) (hL : 0 < L) (ux uy uz m : Nat) (hx : ux ≠ 0) (hy : uy ≠ 0) (hz : uz ≠ 0) (hm : m ≠ 0) :
    (∀ p, InBox ![0, 0, 0] ![ux * L, uy * L, uz * L] p ↔ ∃ cell ∈ (tetMesh L ux uy uz m).cells, ∃ a b c d,
      coords (tetMesh L ux uy uz m).vertices cell = some [a, b, c, d] ∧ InTet a b c d p) ∧
    ∀ (t t' : Nat) cell cell' a b c d a' b' c' d' p, (tetMesh L ux uy uz m).cells[t]? = some cell →
      (tetMesh L ux uy uz m).cells[t']? = some cell' → coords (tetMesh L ux uy uz m).vertices cell = some [a, b, c, d] →
      coords (tetMesh L ux uy uz m).vertices cell' = some [a', b', c', d'] → InOpenTet a b c d p → InOpenTet a' b' c' d' p → t = t' := by
  have hmK : (0 : K) < m := by exact_mod_cast Nat.pos_of_ne_zero hm
  have hh : 0 < L / m := div_pos hL hmK
  have hzero : ∀ a : Fin 3, (![0, 0, 0] : Point 3 K) a = 0 := by
    intro a
    fin_cases a <;> rfl
  refine ⟨fun p => ⟨fun hp => ?_, ?_⟩, ?_⟩
  · have hpiece : ∀ a : Fin 3, ∃ i, i < size ux uy uz m a ∧ (i : K) ≤ p a / (L / m) ∧ p a / (L / m) ≤ (i : K) + 1 := by
      intro a
      obtain ⟨h1, h2⟩ := hp a
      rw [hzero] at h1
      rw [← size_box L hm] at h2
      refine piece _ (size_pos hx hy hz hm a) (div_nonneg h1 hh.le) ?_
      rw [div_le_iff₀ hh]
      linarith
    choose cell hc h1 using hpiece
    obtain ⟨t, ht, hpt⟩ := cover_cell (size ux uy uz m) (L / m) hh.ne' cell hc p h1
    obtain ⟨u, hu, rfl⟩ := List.mem_map.mp ht
    obtain ⟨a, b, c, d, e, hin⟩ := hpt
    obtain ⟨κ, hκ, huκ⟩ := List.mem_flatMap.mp hu
    refine ⟨u.map (nodeIdx (size ux uy uz m)), ?_, a, b, c, d, ?_, hin⟩
    · rw [tetMesh_eq L ux uy uz m hx hy hz hm]
      exact List.mem_map_of_mem hu
    · rw [tetMesh_eq L ux uy uz m hx hy hz hm, coords_nodes _ _ _ (group_valid _ κ ((mem_keys _ κ).mp hκ) u huκ).2, e]
  · rintro ⟨cell, hcell, a, b, c, d, hco, α, β, γ, δ, h1, h2, h3, h4, h5, h6⟩ i
    obtain ⟨t, -, -, hval, -, hco'⟩ := mem_cells L ux uy uz m hx hy hz hm cell hcell
    rw [hco, Option.some.injEq] at hco'
    have hbox : ∀ x ∈ [a, b, c, d], 0 ≤ x i ∧ x i ≤ (L / m) * (size ux uy uz m i : K) := by
      intro x hx
      rw [hco'] at hx
      obtain ⟨y, hy, rfl⟩ := List.mem_map.mp hx
      exact node_in_box _ _ hh y (hval y hy) i
    obtain ⟨a1, a2⟩ := hbox a (by simp)
    obtain ⟨b1, b2⟩ := hbox b (by simp)
    obtain ⟨c1, c2⟩ := hbox c (by simp)
    obtain ⟨d1, d2⟩ := hbox d (by simp)
    rw [hzero, ← size_box L hm, h6 i]
    constructor
    · positivity
    · have e : (L / m) * (size ux uy uz m i : K) = α * ((L / m) * (size ux uy uz m i : K)) + β * ((L / m) * (size ux uy uz m i : K)) +
          γ * ((L / m) * (size ux uy uz m i : K)) + δ * ((L / m) * (size ux uy uz m i : K)) := by
        rw [← add_mul, ← add_mul, ← add_mul, h5, one_mul]
      rw [e]
      gcongr
  · intro t t' cell cell' a b c d a' b' c' d' p ht ht' hco hco' hp hp'
    have hpw := pairwise_apart (size ux uy uz m) (L / m) hh.ne'
    have hpos : ∀ (t : Nat) cell a b c d, (tetMesh L ux uy uz m).cells[t]? = some cell →
        coords (tetMesh L ux uy uz m).vertices cell = some [a, b, c, d] →
        (((keys (size ux uy uz m)).flatMap groupN).map (List.map (nodePos (L / m))))[t]? = some [a, b, c, d] := by
      intro t cell a b c d ht hco
      rw [tetMesh_eq L ux uy uz m hx hy hz hm] at ht hco
      rw [List.getElem?_map, Option.map_eq_some_iff] at ht
      obtain ⟨u, hu, rfl⟩ := ht
      obtain ⟨κ, hκ, huκ⟩ := List.mem_flatMap.mp (List.mem_of_getElem? hu)
      rw [coords_nodes _ _ _ (group_valid _ κ ((mem_keys _ κ).mp hκ) u huκ).2, Option.some.injEq] at hco
      rw [List.getElem?_map, hu, Option.map_some, hco]
    have g := hpos t cell a b c d ht hco
    have g' := hpos t' cell' a' b' c' d' ht' hco'
    rw [List.getElem?_eq_some_iff] at g g'
    obtain ⟨l, g⟩ := g
    obtain ⟨l', g'⟩ := g'
    rw [List.pairwise_iff_getElem] at hpw
    rcases Nat.lt_trichotomy t t' with hlt | heq | hgt
    · have := hpw t t' l l' hlt
      rw [g, g'] at this
      exact absurd ⟨_, _, _, _, rfl, hp'⟩ (this p ⟨_, _, _, _, rfl, hp⟩)
    · exact heq
    · have := hpw t' t l' l hgt
      rw [g, g'] at this
      exact absurd ⟨_, _, _, _, rfl, hp⟩ (this p ⟨_, _, _, _, rfl, hp'⟩)

/-- C83: `create_unit_box_uniform_tet_mesh_3d` tiles the unit cube. -/
theorem C83_unit_box (m : Nat) (hm : m ≠ 0) :
    (∀ p : Point 3 K, InBox ![0, 0, 0] ![1, 1, 1] p ↔ ∃ cell ∈ (unitBoxTetMesh (K := K) m).cells, ∃ a b c d,
      coords (unitBoxTetMesh (K := K) m).vertices cell = some [a, b, c, d] ∧ InTet a b c d p) ∧
    ∀ (t t' : Nat) cell cell' a b c d a' b' c' d' p, (unitBoxTetMesh (K := K) m).cells[t]? = some cell →
      (unitBoxTetMesh (K := K) m).cells[t']? = some cell' → coords (unitBoxTetMesh (K := K) m).vertices cell = some [a, b, c, d] →
      coords (unitBoxTetMesh (K := K) m).vertices cell' = some [a', b', c', d'] → InOpenTet a b c d p → InOpenTet a' b' c' d' p → t = t' := by
  obtain ⟨h1, h2⟩ := C83_tiles_the_box (1 : K) one_pos 1 1 1 m one_ne_zero one_ne_zero one_ne_zero hm
  refine ⟨fun p => ?_, h2⟩
  have := h1 p
  simp only [Nat.cast_one, mul_one] at this
  exact this

/-- C83: the mesh is a tetrahedral mesh in the sense of C79: two tetrahedra with a common face lie on different sides of it, and
there are never three of them. -/
theorem C83_is_tet_mesh (L : K) (hL : 0 < L) (ux uy uz m : Nat) : Surface.Spec.TetMesh (tetMesh L ux uy uz m) := by
  by_cases h : ux = 0 ∨ uy = 0 ∨ uz = 0 ∨ m = 0
  · rw [C83_zero_count L ux uy uz m h]
    refine ⟨by simp, by simp, ?_⟩
    rintro c l f c' l' f' ⟨cell, h, -⟩
    simp at h
  push Not at h
  obtain ⟨hx, hy, hz, hm⟩ := h
  refine Surface.C79_disjoint_cells _ (fun c hc => ((C83_counts L ux uy uz m hx hy hz hm).2.2.1 c hc).1) ?_ ?_
  · intro cell hcell
    obtain ⟨a, b, c, d, hco, -, hpos⟩ := (C83_volumes L hL ux uy uz m hx hy hz hm).1 cell hcell
    obtain ⟨e0, e1, e2, e3⟩ := coords_four _ _ _ _ _ _ hco
    rw [Surface.Spec.cellVol6, e0, e1, e2, e3]
    exact hpos
  · intro t t' cell cell' p ht ht' hp hp'
    obtain ⟨a, b, c, d, hco, -⟩ := (C83_volumes L hL ux uy uz m hx hy hz hm).1 cell (List.mem_of_getElem? ht)
    obtain ⟨a', b', c', d', hco', -⟩ := (C83_volumes L hL ux uy uz m hx hy hz hm).1 cell' (List.mem_of_getElem? ht')
    obtain ⟨e0, e1, e2, e3⟩ := coords_four _ _ _ _ _ _ hco
    obtain ⟨f0, f1, f2, f3⟩ := coords_four _ _ _ _ _ _ hco'
    rw [e0, e1, e2, e3] at hp
    rw [f0, f1, f2, f3] at hp'
    exact (C83_tiles_the_box L hL ux uy uz m hx hy hz hm).2 t t' cell cell' a b c d a' b' c' d' p ht ht' hco hco' hp hp'

/-- C83: the faces on the surface of the mesh enclose the volume of the box. -/
theorem C83_surface_volume (L : K) (hL : 0 < L) (ux uy uz m : Nat) (hx : ux ≠ 0) (hy : uy ≠ 0) (hz : uz ≠ 0) (hm : m ≠ 0) :
    ∃ fs, Mesh.findBoundaryFaces (Surface.facesOf .tet4) (tetMesh L ux uy uz m) = some fs ∧
      (fs.map fun x => Surface.Spec.faceVol6 (tetMesh L ux uy uz m).vertices x.1).sum / 6 = (ux * L) * (uy * L) * (uz * L) := by
  obtain ⟨fs, h1, -, h2⟩ := Surface.C79_volume (tetMesh L ux uy uz m) (Surface.C79_tet_mesh_consistent _ (C83_is_tet_mesh L hL ux uy uz m))
  refine ⟨fs, h1, ?_⟩
  rw [← h2, ← (C83_volumes L hL ux uy uz m hx hy hz hm).2]
  generalize (tetMesh L ux uy uz m).cells = cells
  induction cells with
  | nil => simp
  | cons c l ih => simp only [List.map_cons, List.sum_cons, add_div, ih]

private theorem face_of_subset (cell f : List Nat) (hl : cell.length = 4) (hf : f.length = 3) (hnd : f.Nodup) (hsub : ∀ v ∈ f, v ∈ cell) :
    ∃ (l : Nat) (g : List Nat), (Surface.facesOf .tet4 cell)[l]? = some g ∧ g.Perm f := by
  match cell, hl with
  | [a, b, c, d], _ =>
    have hmiss : a ∉ f ∨ b ∉ f ∨ c ∉ f ∨ d ∉ f ∨ ¬[a, b, c, d].Nodup := by
      by_contra hcon
      push Not at hcon
      obtain ⟨h1, h2, h3, h4, h5⟩ := hcon
      have : [a, b, c, d].Subperm f := h5.subperm (by
        intro x hx
        simp only [List.mem_cons, List.not_mem_nil, or_false] at hx
        rcases hx with rfl | rfl | rfl | rfl <;> assumption)
      have := this.length_le
      rw [hf] at this
      simp at this
    have key : ∀ g : List Nat, g.length = 3 → (∀ v ∈ f, v ∈ g) → g.Perm f := fun g hg hs =>
      ((hnd.subperm hs).perm_of_length_le (by rw [hg, hf])).symm
    have h4 : ∀ v ∈ f, v = a ∨ v = b ∨ v = c ∨ v = d := by
      intro v hv
      simpa using hsub v hv
    by_cases ha : ∀ v ∈ f, v ∈ [b, c, d]
    · exact ⟨2, [b, c, d], rfl, key _ rfl ha⟩
    by_cases hb : ∀ v ∈ f, v ∈ [a, d, c]
    · exact ⟨3, [a, d, c], rfl, key _ rfl hb⟩
    by_cases hc : ∀ v ∈ f, v ∈ [a, b, d]
    · exact ⟨1, [a, b, d], rfl, key _ rfl hc⟩
    by_cases hd : ∀ v ∈ f, v ∈ [a, c, b]
    · exact ⟨0, [a, c, b], rfl, key _ rfl hd⟩
    exfalso
    have hin : ∀ (g : List Nat) (w : Nat), (¬∀ v ∈ f, v ∈ g) → (∀ v, v = a ∨ v = b ∨ v = c ∨ v = d → v ∈ g ∨ v = w) → w ∈ f ∧ w ∉ g := by
      intro g w h1 h2
      push Not at h1
      obtain ⟨v, hv, hvg⟩ := h1
      rcases h2 v (h4 v hv) with h | rfl
      · exact absurd h hvg
      · exact ⟨hv, hvg⟩
    have ha := hin _ a ha (by intro v; simp only [List.mem_cons, List.not_mem_nil, or_false]; tauto)
    have hb := hin _ b hb (by intro v; simp only [List.mem_cons, List.not_mem_nil, or_false]; tauto)
    have hc := hin _ c hc (by intro v; simp only [List.mem_cons, List.not_mem_nil, or_false]; tauto)
    have hd := hin _ d hd (by intro v; simp only [List.mem_cons, List.not_mem_nil, or_false]; tauto)
    rcases hmiss with h | h | h | h | h
    · exact h ha.1
    · exact h hb.1
    · exact h hc.1
    · exact h hd.1
    · apply h
      have h1 := ha.2
      have h2 := hb.2
      have h3 := hc.2
      simp only [List.mem_cons, List.not_mem_nil, or_false, not_or] at h1 h2 h3
      simp only [List.nodup_cons, List.mem_cons, List.not_mem_nil, or_false, not_or, List.nodup_nil, and_true, not_false_eq_true]
      exact ⟨⟨h1.1, h1.2.1, h1.2.2⟩, ⟨h2.2.2, h2.2.1⟩, h3.2.2⟩

private theorem key_of_tet (n : Idx) (κ κ' : Key) (hκ : KeyValid n κ) (hκ' : KeyValid n κ') (t : List Node) (ht : t ∈ groupN κ)
    (ht' : t ∈ groupN κ') : κ = κ' := by
  have h4 := (group_valid n κ hκ t ht).1
  match t, h4 with
  | [a, b, c, d], _ =>
    have hp : InOpenL ([a, b, c, d].map (nodePos (1 : ℚ)))
        (fun i => 1 / 4 * nodePos 1 a i + 1 / 4 * nodePos 1 b i + 1 / 4 * nodePos 1 c i + 1 / 4 * nodePos 1 d i) :=
      ⟨_, _, _, _, rfl, 1 / 4, 1 / 4, 1 / 4, 1 / 4, by norm_num, by norm_num, by norm_num, by norm_num, by norm_num, fun _ => rfl⟩
    obtain ⟨e1, e2, e3⟩ := desc_unique _ _ _ _ _ _ _ (desc_of_inside 1 one_ne_zero κ _ (List.mem_map_of_mem ht) _ hp)
      (desc_of_inside 1 one_ne_zero κ' _ (List.mem_map_of_mem ht') _ hp)
    exact key_unique n κ κ' hκ hκ' e1 e2 e3

private theorem map_inj (n : Idx) (t u : List Node) (ht : ∀ x ∈ t, x.Valid n) (hu : ∀ x ∈ u, x.Valid n)
    (h : t.map (nodeIdx n) = u.map (nodeIdx n)) : t = u := by
  induction t generalizing u with
  | nil =>
    cases u with
    | nil => rfl
    | cons y u => simp at h
  | cons x t ih =>
    cases u with
    | nil => simp at h
    | cons y u =>
      simp only [List.map_cons, List.cons.injEq] at h
      rw [nodeIdx_inj n x y (ht x (by simp)) (hu y (by simp)) h.1,
        ih u (fun z hz => ht z (by simp [hz])) (fun z hz => hu z (by simp [hz])) h.2]

/-- C83: the mesh is conforming: the boundary faces are exactly the faces that lie in one of the six sides of the box, that is, every
other face belongs to two tetrahedra. -/
theorem C83_boundary (L : K) (hL : 0 < L) (ux uy uz m : Nat) (hx : ux ≠ 0) (hy : uy ≠ 0) (hz : uz ≠ 0) (hm : m ≠ 0) :
    ∃ fs, Mesh.findBoundaryFaces (Surface.facesOf .tet4) (tetMesh L ux uy uz m) = some fs ∧
      ∀ f c l, (f, c, l) ∈ fs ↔ IsFace (Surface.facesOf .tet4) (tetMesh L ux uy uz m).cells c l f ∧
        ∃ axis, (∀ v ∈ f, Surface.Spec.coords (tetMesh L ux uy uz m).vertices v axis = 0) ∨
          ∀ v ∈ f, Surface.Spec.coords (tetMesh L ux uy uz m).vertices v axis = (![ux * L, uy * L, uz * L] : Point 3 K) axis := by
  have hmK : (0 : K) < m := by exact_mod_cast Nat.pos_of_ne_zero hm
  have hh : 0 < L / m := div_pos hL hmK
  obtain ⟨fs, h1, -, h3⟩ := C14_boundary_faces_exact (Surface.facesOf .tet4) (tetMesh L ux uy uz m)
  have hmesh := C83_is_tet_mesh L hL ux uy uz m
  refine ⟨fs, h1, fun f c l => ?_⟩
  rw [h3]
  have hnode : ∀ x : Node, x.Valid (size ux uy uz m) →
      Surface.Spec.coords (tetMesh L ux uy uz m).vertices (nodeIdx (size ux uy uz m) x) = nodePos (L / m) x := by
    intro x hx'
    apply coords_get
    rw [tetMesh_eq L ux uy uz m hx hy hz hm]
    exact verts_node _ _ x hx'
  constructor
  · rintro ⟨hface, huniq⟩
    refine ⟨hface, ?_⟩
    obtain ⟨cell, hc, hl⟩ := hface
    have hmem := List.mem_of_getElem? hc
    obtain ⟨hnd, hl4, hf3, -⟩ := Surface.face_has_apex _ cell (hmesh.nodes _ hmem) (hmesh.positive _ hmem) l f hl
    obtain ⟨t, ht, h4, hval, hct, -⟩ := mem_cells L ux uy uz m hx hy hz hm cell hmem
    obtain ⟨κ, hκ, htκ⟩ := List.mem_flatMap.mp ht
    have hκ := (mem_keys _ κ).mp hκ
    have hfe : ∃ i : Fin 4, ∀ v ∈ f, ∃ x ∈ t.eraseIdx i, v = nodeIdx (size ux uy uz m) x := by
      match t, h4 with
      | [a, b, c, d], _ =>
        subst hct
        have hk : l = 0 ∨ l = 1 ∨ l = 2 ∨ l = 3 := by omega
        rcases hk with rfl | rfl | rfl | rfl
        · obtain rfl := Option.some.inj hl
          exact ⟨3, by simp⟩
        · obtain rfl := Option.some.inj hl
          exact ⟨2, by simp⟩
        · obtain rfl := Option.some.inj hl
          exact ⟨0, by simp⟩
        · obtain rfl := Option.some.inj hl
          exact ⟨1, by simp⟩
    obtain ⟨i, hfe⟩ := hfe
    have hvalid : ∀ x ∈ t.eraseIdx i, x.Valid (size ux uy uz m) := fun x hx' => hval x (List.mem_of_mem_eraseIdx hx')
    rcases face_shared _ κ hκ t htκ i with ⟨axis, b, hs⟩ | ⟨κ', t', hκ', ht', hne, hsub⟩
    · refine ⟨axis, ?_⟩
      cases b
      · left
        intro v hv
        obtain ⟨x, hxt, rfl⟩ := hfe v hv
        obtain ⟨q, rfl, hq⟩ := hs x hxt
        rw [hnode _ (hvalid _ hxt)]
        simp only [nodePos, hq]
        simp
      · right
        intro v hv
        obtain ⟨x, hxt, rfl⟩ := hfe v hv
        obtain ⟨q, rfl, hq⟩ := hs x hxt
        rw [hnode _ (hvalid _ hxt), ← size_box L hm]
        simp only [nodePos, hq]
        simp
    · exfalso
      have hcell' : t'.map (nodeIdx (size ux uy uz m)) ∈ (tetMesh L ux uy uz m).cells := by
        rw [tetMesh_eq L ux uy uz m hx hy hz hm]
        exact List.mem_map_of_mem (List.mem_flatMap.mpr ⟨κ', (mem_keys _ κ').mpr hκ', ht'⟩)
      obtain ⟨c', hc'⟩ := List.mem_iff_getElem?.mp hcell'
      obtain ⟨hv4, hval'⟩ := group_valid _ κ' hκ' t' ht'
      have hfnd : f.Nodup := by
        obtain ⟨a, b, d, e, rfl⟩ : ∃ a b d e, cell = [a, b, d, e] := by
          match cell, hmesh.nodes _ hmem with
          | [a, b, d, e], _ => exact ⟨a, b, d, e, rfl⟩
        simp only [List.nodup_cons, List.mem_cons, List.not_mem_nil, or_false, not_or, List.nodup_nil, and_true, not_false_eq_true] at hnd
        have hk : l = 0 ∨ l = 1 ∨ l = 2 ∨ l = 3 := by omega
        rcases hk with rfl | rfl | rfl | rfl
        all_goals
          obtain rfl := Option.some.inj hl
          simp only [List.map_cons, List.map_nil, List.getD_cons_zero, List.getD_cons_succ]
          simp
          omega
      obtain ⟨l', g, hg, hperm⟩ := face_of_subset (t'.map (nodeIdx (size ux uy uz m))) f (by simpa using hv4) hf3 hfnd (by
        intro v hv
        obtain ⟨x, hxt, rfl⟩ := hfe v hv
        exact List.mem_map_of_mem (hsub x hxt))
      obtain ⟨rfl, -⟩ := huniq c' l' g ⟨_, hc', hg⟩ hperm
      rw [hc] at hc'
      have hcell := (Option.some.inj hc').symm
      rw [hct] at hcell
      have htt : t' = t := map_inj _ t' t hval' hval hcell
      rcases hne with hne | hne
      · subst htt
        exact hne (by rw [key_of_tet _ κ κ' hκ hκ' t' htκ ht'])
      · exact hne htt
  · rintro ⟨hface, axis, hside⟩
    refine ⟨hface, ?_⟩
    intro c' l' f' hface' hperm
    by_contra hcon
    have hne : (c', l') ≠ (c, l) := by
      intro e
      cases e
      exact hcon ⟨rfl, rfl⟩
    have hs := (hmesh.shared c l f c' l' f' hface hface' hne hperm).2
    obtain ⟨cell, hc, hl⟩ := hface
    obtain ⟨cell', hc', hl'⟩ := hface'
    have hmem := List.mem_of_getElem? hc
    have hmem' := List.mem_of_getElem? hc'
    obtain ⟨-, -, hf3, v, hv, hvf⟩ := Surface.face_has_apex _ cell (hmesh.nodes _ hmem) (hmesh.positive _ hmem) l f hl
    obtain ⟨-, -, -, v', hv', hvf'⟩ := Surface.face_has_apex _ cell' (hmesh.nodes _ hmem') (hmesh.positive _ hmem') l' f' hl'
    have hprod := hs cell cell' hc hc' v v' hv hvf hv' (fun h => hvf' (hperm.mem_iff.mpr h))
    have hbox : ∀ (cell : List Nat), cell ∈ (tetMesh L ux uy uz m).cells → ∀ v ∈ cell,
        0 ≤ Surface.Spec.coords (tetMesh L ux uy uz m).vertices v axis ∧
        Surface.Spec.coords (tetMesh L ux uy uz m).vertices v axis ≤ (![ux * L, uy * L, uz * L] : Point 3 K) axis := by
      intro cell hcell v hv
      obtain ⟨t, -, -, hval, rfl, -⟩ := mem_cells L ux uy uz m hx hy hz hm cell hcell
      obtain ⟨x, hxt, rfl⟩ := List.mem_map.mp hv
      rw [hnode x (hval x hxt), ← size_box L hm]
      exact node_in_box _ _ hh x (hval x hxt) axis
    have hb := hbox cell hmem v hv
    have hb' := hbox cell' hmem' v' hv'
    match f, hf3 with
    | [x, y, z], _ =>
      simp only [List.getD_cons_zero, List.getD_cons_succ] at hprod
      generalize Surface.Spec.coords (tetMesh L ux uy uz m).vertices = co at *
      have hvol : ∀ s : K, co x axis = s → co y axis = s → co z axis = s → ∃ M : K, ∀ w : Point 3 K,
          Surface.Spec.tetVol6 (co x) (co y) (co z) w = (w axis - s) * M := by
        intro s e1 e2 e3
        clear hprod hb hb' hbox hnode
        fin_cases axis
        · refine ⟨(co y 1 - co x 1) * (co z 2 - co x 2) - (co y 2 - co x 2) * (co z 1 - co x 1), fun w => ?_⟩
          simp only [Fin.zero_eta] at e1 e2 e3 ⊢
          simp only [Surface.Spec.tetVol6, Surface.Spec.det3, e1, e2, e3]
          ring
        · refine ⟨-((co y 0 - co x 0) * (co z 2 - co x 2) - (co y 2 - co x 2) * (co z 0 - co x 0)), fun w => ?_⟩
          simp only [Fin.mk_one] at e1 e2 e3 ⊢
          simp only [Surface.Spec.tetVol6, Surface.Spec.det3, e1, e2, e3]
          ring
        · refine ⟨(co y 0 - co x 0) * (co z 1 - co x 1) - (co y 1 - co x 1) * (co z 0 - co x 0), fun w => ?_⟩
          simp only [Fin.reduceFinMk] at e1 e2 e3 ⊢
          simp only [Surface.Spec.tetVol6, Surface.Spec.det3, e1, e2, e3]
          ring
      rcases hside with hside | hside
      · obtain ⟨M, hM⟩ := hvol 0 (hside x (by simp)) (hside y (by simp)) (hside z (by simp))
        rw [hM, hM] at hprod
        nlinarith [mul_nonneg (mul_nonneg hb.1 hb'.1) (mul_self_nonneg M)]
      · obtain ⟨M, hM⟩ := hvol _ (hside x (by simp)) (hside y (by simp)) (hside z (by simp))
        rw [hM, hM] at hprod
        nlinarith [mul_nonneg (mul_nonneg (sub_nonneg.mpr hb.2) (sub_nonneg.mpr hb'.2)) (mul_self_nonneg M)]

end Ordered

/-! ## Examples -/

/-- Two units with one cell each: two neighbouring cells share four tetrahedra, the other ten sides have two each. -/
example : (tetMesh (1 : ℚ) 2 1 1 1).cells.length = 24 ∧ (tetMesh (1 : ℚ) 2 1 1 1).vertices.length = 14 := by
  have h := C83_counts (1 : ℚ) 2 1 1 1 (by norm_num) (by norm_num) (by norm_num) (by norm_num)
  exact ⟨h.1, h.2.1⟩

/-- The mesh of the code for two cells. -/
example : ((tetMesh (1 : ℚ) 2 1 1 1).cells.take 2, (tetMesh (1 : ℚ) 2 1 1 1).vertices.drop 12) =
    ([[12, 13, 10, 7], [12, 13, 4, 10]], [![1 / 2, 1 / 2, 1 / 2], ![3 / 2, 1 / 2, 1 / 2]]) := by decide +kernel

example : Surface.Spec.TetMesh (tetMesh (1 / 2 : ℚ) 2 3 1 4) := C83_is_tet_mesh _ (by norm_num) 2 3 1 4

end TetGrid
end Fenris
