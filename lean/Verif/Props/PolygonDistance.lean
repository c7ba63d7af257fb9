import Verif.Props.Triangle
import Mathlib.Analysis.Real.Sqrt
import Mathlib.Tactic.IntervalCases
/-! # C53: closest edges of polygons and the polygon-segment test -/
set_option autoImplicit false
set_option linter.unusedSectionVars false

namespace Fenris.Geometry
open Fenris.Spec Fenris.Clip
variable {K : Type} [Field K] [LinearOrder K] [IsStrictOrderedRing K] {d : Nat}

/-! ### Cyclic indices -/

private theorem vertex_mod (V : List (Point d K)) (i : Nat) :
    SimplePolygon.vertex V (i % V.length) = SimplePolygon.vertex V i := by
  simp [SimplePolygon.vertex]

private theorem vertex_mod_add (V : List (Point d K)) (i k : Nat) :
    SimplePolygon.vertex V (i % V.length + k) = SimplePolygon.vertex V (i + k) := by
  simp [SimplePolygon.vertex, Nat.mod_add_mod]

private theorem vertex_add_len (V : List (Point d K)) (i : Nat) :
    SimplePolygon.vertex V (i + V.length) = SimplePolygon.vertex V i := by
  simp [SimplePolygon.vertex]

theorem getEdge_eq (V : List (Point 2 K)) (i : Nat) (hi : i < V.length) :
    SimplePolygon.getEdge V i = some ⟨SimplePolygon.vertex V i, SimplePolygon.vertex V (i + 1)⟩ := by
  have hm : (i + 1) % V.length < V.length := Nat.mod_lt _ (by omega)
  rw [SimplePolygon.getEdge, List.getElem?_eq_getElem hi, List.getElem?_eq_getElem hm]
  simp only [vertex_eq V i hi]
  rw [← vertex_mod V (i + 1), vertex_eq V _ hm]

private theorem idx1 {α : Type} (V : List α) (i : Nat) (hi : i < V.length) : [V[i]].Sublist V :=
  List.singleton_sublist.mpr (List.getElem_mem hi)

private theorem idx2 {α : Type} (V : List α) (i j : Nat) (hij : i < j) (hj : j < V.length) :
    [V[i]'(hij.trans hj), V[j]].Sublist V := by
  induction V generalizing i j with
  | nil => simp at hj
  | cons a V ih =>
    obtain ⟨j, rfl⟩ : ∃ j', j = j' + 1 := ⟨j - 1, by omega⟩
    cases i with
    | zero => exact (idx1 V j (by simpa using hj)).cons_cons a
    | succ i => exact (ih i j (by omega) (by simpa using hj)).cons a

private theorem idx3 {α : Type} (V : List α) (i j k : Nat) (hij : i < j) (hjk : j < k) (hk : k < V.length) :
    [V[i]'(by omega), V[j]'(by omega), V[k]].Sublist V := by
  induction V generalizing i j k with
  | nil => simp at hk
  | cons a V ih =>
    obtain ⟨j, rfl⟩ : ∃ j', j = j' + 1 := ⟨j - 1, by omega⟩
    obtain ⟨k, rfl⟩ : ∃ k', k = k' + 1 := ⟨k - 1, by omega⟩
    cases i with
    | zero => exact (idx2 V j k (by omega) (by simpa using hk)).cons_cons a
    | succ i => exact (ih i j k (by omega) (by omega) (by simpa using hk)).cons a

/-- Three consecutive vertices of a strictly convex polygon turn left. -/
private theorem consec (V : List (Point 2 K)) (hV : StrictlyConvexCcw V) (lV : 3 ≤ V.length) (i : Nat) :
    0 < orient2 (SimplePolygon.vertex V i) (SimplePolygon.vertex V (i + 1)) (SimplePolygon.vertex V (i + 2)) := by
  rw [← vertex_mod V i, ← vertex_mod_add V i 1, ← vertex_mod_add V i 2]
  have hm : i % V.length < V.length := Nat.mod_lt _ (by omega)
  generalize i % V.length = j at hm
  by_cases h2 : j + 2 < V.length
  · rw [vertex_eq V j (by omega), vertex_eq V (j + 1) (by omega), vertex_eq V (j + 2) h2]
    exact hV _ _ _ (idx3 V j (j + 1) (j + 2) (by omega) (by omega) h2)
  · by_cases h1 : j + 1 < V.length
    · have e : j + 2 = 0 + V.length := by omega
      rw [e, vertex_add_len, vertex_eq V j (by omega), vertex_eq V (j + 1) (by omega), vertex_eq V 0 (by omega),
        ← orient2_orient.cyc]
      exact hV _ _ _ (idx3 V 0 j (j + 1) (by omega) (by omega) h1)
    · have e1 : j + 1 = 0 + V.length := by omega
      have e2 : j + 2 = 1 + V.length := by omega
      rw [e1, e2, vertex_add_len, vertex_add_len, vertex_eq V j (by omega), vertex_eq V 0 (by omega),
        vertex_eq V 1 (by omega), orient2_orient.cyc]
      exact hV _ _ _ (idx3 V 0 1 j (by omega) (by omega) (by omega))

/-- The points of a strictly convex polygon, by index. -/
private theorem mem_hull_iff (V : List (Point 2 K)) (hV : StrictlyConvexCcw V) (lV : 3 ≤ V.length) (x : Point 2 K) :
    x ∈ hull V ↔ ∀ i < V.length, 0 ≤ orient2 (SimplePolygon.vertex V i) (SimplePolygon.vertex V (i + 1)) x := by
  rw [← mem_hull_iff_edges V hV lV, edges_eq_cyclicPairs, ← range_edges]
  simp [List.mem_map]

private theorem left_all (V : List (Point 2 K)) (hV : StrictlyConvexCcw V) (lV : 3 ≤ V.length) (x : Point 2 K)
    (hx : x ∈ hull V) (i : Nat) :
    0 ≤ orient2 (SimplePolygon.vertex V i) (SimplePolygon.vertex V (i + 1)) x := by
  rw [← vertex_mod V i, ← vertex_mod_add V i 1]
  exact (mem_hull_iff V hV lV x).mp hx _ (Nat.mod_lt _ (by omega))

private theorem vertex_mem_hull (V : List (Point 2 K)) (lV : 3 ≤ V.length) (i : Nat) :
    SimplePolygon.vertex V i ∈ hull V := by
  rw [← vertex_mod V i, vertex_eq V _ (Nat.mod_lt _ (by omega))]
  exact subset_convexHull K {v | v ∈ V} (List.getElem_mem _)

private theorem lerp_mem_hull (V : List (Point 2 K)) (x y : Point 2 K) (hx : x ∈ hull V) (hy : y ∈ hull V)
    (s : K) (s0 : 0 ≤ s) (s1 : s ≤ 1) : lerp x y s ∈ hull V := by
  have := (convex_convexHull K {v | v ∈ V}) hx hy (a := 1 - s) (b := s) (by linarith) s0 (by ring)
  exact this

/-! ### Plane geometry -/

/-- A point on the line through two different points. -/
private theorem on_line (a b z : Point 2 K) (hab : a ≠ b) (h : orient2 a b z = 0) : ∃ s, z = lerp a b s := by
  have hm : (b 0 - a 0) ^ 2 + (b 1 - a 1) ^ 2 ≠ 0 := by
    intro e
    apply hab
    have h0 := sq_nonneg (b 0 - a 0)
    have h1 := sq_nonneg (b 1 - a 1)
    have e0 : b 0 - a 0 = 0 := pow_eq_zero_iff two_ne_zero |>.mp (by linarith)
    have e1 : b 1 - a 1 = 0 := pow_eq_zero_iff two_ne_zero |>.mp (by linarith)
    funext i
    fin_cases i
    · show a 0 = b 0
      linarith
    · show a 1 = b 1
      linarith
  refine ⟨((z 0 - a 0) * (b 0 - a 0) + (z 1 - a 1) * (b 1 - a 1)) / ((b 0 - a 0) ^ 2 + (b 1 - a 1) ^ 2), ?_⟩
  simp only [orient2] at h
  have e0 : z 0 = (1 - ((z 0 - a 0) * (b 0 - a 0) + (z 1 - a 1) * (b 1 - a 1)) / ((b 0 - a 0) ^ 2 + (b 1 - a 1) ^ 2)) * a 0 +
      ((z 0 - a 0) * (b 0 - a 0) + (z 1 - a 1) * (b 1 - a 1)) / ((b 0 - a 0) ^ 2 + (b 1 - a 1) ^ 2) * b 0 := by
    field_simp
    linear_combination (-(b 1 - a 1)) * h
  have e1 : z 1 = (1 - ((z 0 - a 0) * (b 0 - a 0) + (z 1 - a 1) * (b 1 - a 1)) / ((b 0 - a 0) ^ 2 + (b 1 - a 1) ^ 2)) * a 1 +
      ((z 0 - a 0) * (b 0 - a 0) + (z 1 - a 1) * (b 1 - a 1)) / ((b 0 - a 0) ^ 2 + (b 1 - a 1) ^ 2) * b 1 := by
    field_simp
    linear_combination (b 0 - a 0) * h
  funext i
  fin_cases i
  · exact e0
  · exact e1

private theorem ne_of_orient {a b c : Point 2 K} (h : 0 < orient2 a b c) : a ≠ b := by
  rintro rfl
  rw [orient2_orient.self] at h
  exact lt_irrefl _ h

private theorem orient_lerp (a b c : Point 2 K) (p q : Point 2 K) (s : K) (hp : c = lerp a b s) :
    orient2 p q c = (1 - s) * orient2 p q a + s * orient2 p q b := by
  subst hp
  simp only [orient2, lerp]
  ring

/-- A point of a strictly convex polygon on the line of an edge lies on the edge. -/
private theorem on_edge_poly (V : List (Point 2 K)) (hV : StrictlyConvexCcw V) (lV : 3 ≤ V.length) (z : Point 2 K)
    (hz : z ∈ hull V) (i : Nat)
    (h : orient2 (SimplePolygon.vertex V i) (SimplePolygon.vertex V (i + 1)) z = 0) :
    OnSegment ⟨SimplePolygon.vertex V i, SimplePolygon.vertex V (i + 1)⟩ z := by
  have c1 := consec V hV lV i
  have c0 := consec V hV lV (i + V.length - 1)
  have l1 := left_all V hV lV z hz (i + 1)
  have l0 := left_all V hV lV z hz (i + V.length - 1)
  have e1 : SimplePolygon.vertex V (i + V.length - 1 + 1) = SimplePolygon.vertex V i := by
    rw [show i + V.length - 1 + 1 = i + V.length by omega, vertex_add_len]
  have e2 : SimplePolygon.vertex V (i + V.length - 1 + 2) = SimplePolygon.vertex V (i + 1) := by
    rw [show i + V.length - 1 + 2 = i + 1 + V.length by omega, vertex_add_len]
  rw [e1, e2] at c0
  rw [e1] at l0
  rw [show i + 1 + 1 = i + 2 by omega] at l1
  obtain ⟨s, hs⟩ := on_line _ _ z (ne_of_orient c1) h
  generalize SimplePolygon.vertex V i = a at *
  generalize SimplePolygon.vertex V (i + 1) = b at *
  generalize SimplePolygon.vertex V (i + 2) = c at *
  generalize SimplePolygon.vertex V (i + V.length - 1) = u at *
  rw [orient_lerp a b z _ _ s hs] at l0 l1
  rw [orient2_orient.self', mul_zero, add_zero, ← orient2_orient.cyc a b c] at l1
  rw [orient2_orient.self'', mul_zero, zero_add] at l0
  refine ⟨s, ?_, ?_, hs⟩
  · by_contra hneg
    push Not at hneg
    have := mul_neg_of_neg_of_pos hneg c0
    linarith
  · by_contra hneg
    push Not at hneg
    have := mul_neg_of_neg_of_pos (by linarith : 1 - s < 0) c1
    linarith

/-- Between a point outside and a point inside lies a point of an edge. -/
private theorem boundary_between (V : List (Point 2 K)) (hV : StrictlyConvexCcw V) (lV : 3 ≤ V.length)
    (x y : Point 2 K) (hx : x ∉ hull V) (hy : y ∈ hull V) :
    ∃ s, 0 ≤ s ∧ s ≤ 1 ∧ ∃ i < V.length,
      OnSegment ⟨SimplePolygon.vertex V i, SimplePolygon.vertex V (i + 1)⟩ (lerp x y s) := by
  rw [mem_hull_iff V hV lV] at hx
  push Not at hx
  obtain ⟨i₀, hi₀, hneg⟩ := hx
  obtain ⟨s, s0, s1, hall, g, hg, hz⟩ := exit_point
    ((List.range V.length).map fun i => orient2 (SimplePolygon.vertex V i) (SimplePolygon.vertex V (i + 1)))
    (by
      intro g hg
      obtain ⟨i, -, rfl⟩ := List.mem_map.mp hg
      exact orient2_orient.affine3 _ _) x y
    (by
      intro g hg
      obtain ⟨i, -, rfl⟩ := List.mem_map.mp hg
      exact left_all V hV lV y hy i)
    ⟨_, List.mem_map.mpr ⟨i₀, List.mem_range.mpr hi₀, rfl⟩, hneg⟩
  obtain ⟨i, hi, rfl⟩ := List.mem_map.mp hg
  refine ⟨s, s0, s1, i, List.mem_range.mp hi, ?_⟩
  apply on_edge_poly V hV lV _ _ i hz
  rw [mem_hull_iff V hV lV]
  intro j hj
  exact hall _ (List.mem_map.mpr ⟨j, List.mem_range.mpr hj, rfl⟩)

/-- The variational inequality for a closest point of a convex set. -/
private theorem closest_obtuse (x p y : Point 2 K)
    (h : ∀ s, 0 ≤ s → s ≤ 1 → dist2 p x ≤ dist2 (lerp p y s) x) :
    (x 0 - p 0) * (y 0 - p 0) + (x 1 - p 1) * (y 1 - p 1) ≤ 0 := by
  by_contra hc
  push Not at hc
  have hexp : ∀ s, dist2 (lerp p y s) x = dist2 p x - 2 * s * ((x 0 - p 0) * (y 0 - p 0) + (x 1 - p 1) * (y 1 - p 1)) +
      s ^ 2 * ((y 0 - p 0) ^ 2 + (y 1 - p 1) ^ 2) := by
    intro s
    simp only [dist2, lerp, Fin.sum_univ_two]
    ring
  have hm : 0 ≤ (y 0 - p 0) ^ 2 + (y 1 - p 1) ^ 2 := add_nonneg (sq_nonneg _) (sq_nonneg _)
  generalize (x 0 - p 0) * (y 0 - p 0) + (x 1 - p 1) * (y 1 - p 1) = c at *
  generalize (y 0 - p 0) ^ 2 + (y 1 - p 1) ^ 2 = m at *
  by_cases hmc : m ≤ c
  · have := h 1 zero_le_one le_rfl
    rw [hexp] at this
    linarith
  · push Not at hmc
    have hmp : 0 < m := by linarith
    have := h (c / m) (div_nonneg hc.le hm) ((div_le_one hmp).mpr hmc.le)
    rw [hexp] at this
    have e : 2 * (c / m) * c = 2 * (c ^ 2 / m) := by ring
    have e2 : (c / m) ^ 2 * m = c ^ 2 / m := by
      field_simp
    rw [e, e2] at this
    have : 0 < c ^ 2 / m := by positivity
    linarith

/-! ### The sign test -/

private theorem dot_normalize (norm : Point 2 K → K) (u w : Point 2 K) :
    dot u (normalize norm w) = dot u w / norm w := by
  simp only [dot, normalize, Fin.sum_univ_two]
  ring

private theorem isNorm_pos (norm : Point 2 K → K) (hn : IsNorm norm) (v : Point 2 K) (hv : v ≠ 0) : 0 < norm v := by
  obtain ⟨h0, h2⟩ := hn v
  rcases h0.lt_or_eq with h | h
  · exact h
  · exfalso
    apply hv
    rw [← h, zero_pow two_ne_zero, Fin.sum_univ_two] at h2
    have a0 := sq_nonneg (v 0)
    have a1 := sq_nonneg (v 1)
    funext i
    fin_cases i
    · exact pow_eq_zero_iff two_ne_zero |>.mp (by linarith : v 0 ^ 2 = 0)
    · exact pow_eq_zero_iff two_ne_zero |>.mp (by linarith : v 1 ^ 2 = 0)

private theorem normalDir_ne {a b : Point 2 K} (hab : a ≠ b) : (⟨a, b⟩ : Segment 2 K).normalDir ≠ 0 := by
  intro e
  apply hab
  have e0 := congrFun e 0
  have e1 := congrFun e 1
  simp only [Segment.normalDir, Segment.tangentDir, Matrix.cons_val_zero, Matrix.cons_val_one, Pi.zero_apply] at e0 e1
  funext i
  fin_cases i
  · show a 0 = b 0
    linarith
  · show a 1 = b 1
    linarith

/-- The averaged normal at a corner `u v w` that turns left. -/
private def cornerNormal (norm : Point 2 K → K) (u v w : Point 2 K) : Point 2 K := fun k =>
  (normalize norm (⟨u, v⟩ : Segment 2 K).normalDir k + normalize norm (⟨v, w⟩ : Segment 2 K).normalDir k) / 2

private theorem corner_dot (norm : Point 2 K → K) (u v w x : Point 2 K) :
    dot (fun k => x k - v k) (cornerNormal norm u v w) =
      -(orient2 u v x / norm (⟨u, v⟩ : Segment 2 K).normalDir + orient2 v w x / norm (⟨v, w⟩ : Segment 2 K).normalDir) / 2 := by
  simp only [dot, cornerNormal, normalize, Fin.sum_univ_two]
  generalize norm (⟨u, v⟩ : Segment 2 K).normalDir = N₁
  generalize norm (⟨v, w⟩ : Segment 2 K).normalDir = N₂
  simp only [Segment.normalDir, Segment.tangentDir, Matrix.cons_val_zero, Matrix.cons_val_one, orient2]
  ring

private theorem corner_ne (norm : Point 2 K → K) (hn : IsNorm norm) (u v w : Point 2 K) (ho : 0 < orient2 u v w) :
    0 < norm (cornerNormal norm u v w) := by
  apply isNorm_pos norm hn
  intro e
  have hvw : v ≠ w := ne_of_orient (a := v) (b := w) (c := u) (by rw [← orient2_orient.cyc]; exact ho)
  have N2 := isNorm_pos norm hn _ (normalDir_ne hvw)
  have := corner_dot norm u v w u
  rw [e] at this
  have z : dot (fun k => u k - v k) (0 : Point 2 K) = 0 := by simp [dot]
  rw [z, orient2_orient.self', ← orient2_orient.cyc u v w] at this
  have : 0 < orient2 u v w / norm (⟨v, w⟩ : Segment 2 K).normalDir := div_pos ho N2
  rw [zero_div, zero_add] at *
  linarith

private theorem corner_in (norm : Point 2 K → K) (hn : IsNorm norm) (u v w x : Point 2 K) (ho : 0 < orient2 u v w)
    (h1 : 0 ≤ orient2 u v x) (h2 : 0 ≤ orient2 v w x) :
    dot (fun k => x k - v k) (cornerNormal norm u v w) ≤ 0 ∧
    (dot (fun k => x k - v k) (cornerNormal norm u v w) = 0 → x = v) := by
  have huv : u ≠ v := ne_of_orient ho
  have hvw : v ≠ w := ne_of_orient (a := v) (b := w) (c := u) (by rw [← orient2_orient.cyc]; exact ho)
  have N1 := isNorm_pos norm hn _ (normalDir_ne huv)
  have N2 := isNorm_pos norm hn _ (normalDir_ne hvw)
  rw [corner_dot]
  have a1 := div_nonneg h1 N1.le
  have a2 := div_nonneg h2 N2.le
  refine ⟨by linarith, fun h => ?_⟩
  have z1 : orient2 u v x / norm (⟨u, v⟩ : Segment 2 K).normalDir = 0 := by linarith
  have z2 : orient2 v w x / norm (⟨v, w⟩ : Segment 2 K).normalDir = 0 := by linarith
  have o1 : orient2 u v x = 0 := (div_eq_zero_iff.mp z1).resolve_right N1.ne'
  have o2 : orient2 v w x = 0 := (div_eq_zero_iff.mp z2).resolve_right N2.ne'
  obtain ⟨s, hs⟩ := on_line v w x hvw o2
  rw [orient_lerp v w x u v s hs, orient2_orient.self'', mul_zero, zero_add] at o1
  have s0 : s = 0 := (mul_eq_zero.mp o1).resolve_right ho.ne'
  rw [hs, s0]
  funext i
  simp [lerp]

private theorem corner_out (norm : Point 2 K → K) (hn : IsNorm norm) (u v w x : Point 2 K) (ho : 0 < orient2 u v w)
    (h1 : (x 0 - v 0) * (u 0 - v 0) + (x 1 - v 1) * (u 1 - v 1) ≤ 0)
    (h2 : (x 0 - v 0) * (w 0 - v 0) + (x 1 - v 1) * (w 1 - v 1) ≤ 0) (hx : x ≠ v) :
    0 < dot (fun k => x k - v k) (cornerNormal norm u v w) := by
  have huv : u ≠ v := ne_of_orient ho
  have hvw : v ≠ w := ne_of_orient (a := v) (b := w) (c := u) (by rw [← orient2_orient.cyc]; exact ho)
  have N1 := isNorm_pos norm hn _ (normalDir_ne huv)
  have N2 := isNorm_pos norm hn _ (normalDir_ne hvw)
  have q1 := (hn (⟨u, v⟩ : Segment 2 K).normalDir).2
  have q2 := (hn (⟨v, w⟩ : Segment 2 K).normalDir).2
  rw [corner_dot]
  generalize norm (⟨u, v⟩ : Segment 2 K).normalDir = M at *
  generalize norm (⟨v, w⟩ : Segment 2 K).normalDir = N at *
  simp only [Segment.normalDir, Segment.tangentDir, Matrix.cons_val_zero, Matrix.cons_val_one, Fin.sum_univ_two] at q1 q2
  -- coordinates relative to `v`: `p = v - u`, `q = w - v`, `e = x - v`
  obtain ⟨p0, hp0⟩ : ∃ p0, p0 = v 0 - u 0 := ⟨_, rfl⟩
  obtain ⟨p1, hp1⟩ : ∃ p1, p1 = v 1 - u 1 := ⟨_, rfl⟩
  obtain ⟨r0, hr0⟩ : ∃ r0, r0 = w 0 - v 0 := ⟨_, rfl⟩
  obtain ⟨r1, hr1⟩ : ∃ r1, r1 = w 1 - v 1 := ⟨_, rfl⟩
  obtain ⟨e0, he0⟩ : ∃ e0, e0 = x 0 - v 0 := ⟨_, rfl⟩
  obtain ⟨e1, he1⟩ : ∃ e1, e1 = x 1 - v 1 := ⟨_, rfl⟩
  have ho' : orient2 u v w = p0 * r1 - p1 * r0 := by
    simp only [orient2, hp0, hp1, hr0, hr1]
    ring
  have o1 : orient2 u v x = p0 * e1 - p1 * e0 := by
    simp only [orient2, hp0, hp1, he0, he1]
    ring
  have o2 : orient2 v w x = r0 * e1 - r1 * e0 := by
    simp only [orient2, hr0, hr1, he0, he1]
  have g1 : 0 ≤ e0 * p0 + e1 * p1 := by
    have : e0 * p0 + e1 * p1 = -((x 0 - v 0) * (u 0 - v 0) + (x 1 - v 1) * (u 1 - v 1)) := by
      rw [hp0, hp1, he0, he1]
      ring
    rw [this]
    linarith
  have g2 : e0 * r0 + e1 * r1 ≤ 0 := by
    rw [hr0, hr1, he0, he1]
    exact h2
  have k1 : M ^ 2 = p0 ^ 2 + p1 ^ 2 := by
    rw [q1, hp0, hp1]
    ring
  have k2 : N ^ 2 = r0 ^ 2 + r1 ^ 2 := by
    rw [q2, hr0, hr1]
    ring
  have hne : e0 ≠ 0 ∨ e1 ≠ 0 := by
    by_contra hno
    push Not at hno
    apply hx
    funext i
    fin_cases i
    · show x 0 = v 0
      linarith [hno.1]
    · show x 1 = v 1
      linarith [hno.2]
  rw [ho'] at ho
  rw [o1, o2]
  clear hp0 hp1 hr0 hr1 he0 he1 ho' o1 o2 h1 h2 q1 q2 hx huv hvw
  -- `o e = α (r1, -r0) + β (p1, -p0)` with `α = e·p`, `β = -e·r`
  obtain ⟨o, hoo⟩ : ∃ o, o = p0 * r1 - p1 * r0 := ⟨_, rfl⟩
  obtain ⟨α, hα⟩ : ∃ α, α = e0 * p0 + e1 * p1 := ⟨_, rfl⟩
  obtain ⟨β, hβ⟩ : ∃ β, β = -(e0 * r0 + e1 * r1) := ⟨_, rfl⟩
  rw [← hoo] at ho
  have hα0 : 0 ≤ α := by rw [hα]; exact g1
  have hβ0 : 0 ≤ β := by rw [hβ]; linarith
  have x0 : o * e0 = α * r1 + β * p1 := by rw [hoo, hα, hβ]; ring
  have x1 : o * e1 = -(α * r0) - β * p0 := by rw [hoo, hα, hβ]; ring
  have hsum : 0 < α + β := by
    rcases (add_nonneg hα0 hβ0).lt_or_eq with h | h
    · exact h
    · exfalso
      have a0 : α = 0 := by linarith
      have b0 : β = 0 := by linarith
      rw [a0, b0] at x0 x1
      rcases hne with h | h
      · apply h
        have : o * e0 = 0 := by rw [x0]; ring
        exact (mul_eq_zero.mp this).resolve_left ho.ne'
      · apply h
        have : o * e1 = 0 := by rw [x1]; ring
        exact (mul_eq_zero.mp this).resolve_left ho.ne'
  -- strict Cauchy-Schwarz
  have hcs : 0 < M * N + (p0 * r0 + p1 * r1) := by
    have hsq : (p0 * r0 + p1 * r1) ^ 2 < (M * N) ^ 2 := by
      rw [mul_pow, k1, k2]
      have : 0 < o ^ 2 := by positivity
      rw [hoo] at this
      nlinarith
    have := abs_lt_of_sq_lt_sq hsq (by positivity)
    rw [abs_lt] at this
    linarith [this.1]
  have key : -((p0 * e1 - p1 * e0) / M + (r0 * e1 - r1 * e0) / N) / 2 =
      (α * N + β * M) * (M * N + (p0 * r0 + p1 * r1)) / (2 * (o * (M * N))) := by
    have i1 : o * (p0 * e1 - p1 * e0) = -(α * (p0 * r0 + p1 * r1)) - β * M ^ 2 := by
      rw [k1]
      linear_combination p0 * x1 - p1 * x0
    have i2 : o * (r0 * e1 - r1 * e0) = -(α * N ^ 2) - β * (p0 * r0 + p1 * r1) := by
      rw [k2]
      linear_combination r0 * x1 - r1 * x0
    have hM := N1.ne'
    have hN := N2.ne'
    have hO := ho.ne'
    rw [eq_div_iff (by positivity)]
    have : -((p0 * e1 - p1 * e0) / M + (r0 * e1 - r1 * e0) / N) / 2 * (2 * (o * (M * N))) =
        -(o * (p0 * e1 - p1 * e0) * N + o * (r0 * e1 - r1 * e0) * M) := by
      field_simp
    rw [this, i1, i2]
    ring
  rw [key]
  apply div_pos _ (by positivity)
  apply mul_pos _ hcs
  rcases hα0.lt_or_eq with h | h
  · have := mul_pos h N2
    have := mul_nonneg hβ0 N1.le
    linarith
  · have hb : 0 < β := by linarith
    have := mul_pos hb N1
    rw [← h, zero_mul, zero_add]
    exact this

/-- The vector used by the sign test. -/
private def off (V : List (Point 2 K)) (x : Point 2 K) (i : Nat) : Point 2 K := fun k =>
  x k - (⟨SimplePolygon.vertex V i, SimplePolygon.vertex V (i + 1)⟩ : Segment 2 K).closestPoint x k

private theorem clamp_interior (a b x : Point 2 K) (hab : a ≠ b)
    (h0 : (⟨a, b⟩ : Segment 2 K).closestPointParametric x ≠ 0)
    (h1 : (⟨a, b⟩ : Segment 2 K).closestPointParametric x ≠ 1) :
    (x 0 - (⟨a, b⟩ : Segment 2 K).closestPoint x 0) * (b 0 - a 0) +
      (x 1 - (⟨a, b⟩ : Segment 2 K).closestPoint x 1) * (b 1 - a 1) = 0 := by
  have hm : (b 0 - a 0) ^ 2 + (b 1 - a 1) ^ 2 ≠ 0 := by
    intro e
    apply hab
    have h0 := sq_nonneg (b 0 - a 0)
    have h1 := sq_nonneg (b 1 - a 1)
    have e0 : b 0 - a 0 = 0 := pow_eq_zero_iff two_ne_zero |>.mp (by linarith)
    have e1 : b 1 - a 1 = 0 := pow_eq_zero_iff two_ne_zero |>.mp (by linarith)
    funext i
    fin_cases i
    · show a 0 = b 0
      linarith
    · show a 1 = b 1
      linarith
  have hns : normSq (⟨a, b⟩ : Segment 2 K).toLine.dir = (b 0 - a 0) ^ 2 + (b 1 - a 1) ^ 2 := by
    simp only [normSq, Segment.toLine, Segment.tangentDir, Fin.sum_univ_two]
    try ring
  have hpp : (⟨a, b⟩ : Segment 2 K).toLine.projectPointParametric x =
      ((x 0 - a 0) * (b 0 - a 0) + (x 1 - a 1) * (b 1 - a 1)) / ((b 0 - a 0) ^ 2 + (b 1 - a 1) ^ 2) := by
    rw [Line.projectPointParametric, hns, if_neg hm]
    simp only [dot, Segment.toLine, Segment.tangentDir, Fin.sum_univ_two]
  have ht : (⟨a, b⟩ : Segment 2 K).closestPointParametric x =
      ((x 0 - a 0) * (b 0 - a 0) + (x 1 - a 1) * (b 1 - a 1)) / ((b 0 - a 0) ^ 2 + (b 1 - a 1) ^ 2) := by
    rw [Segment.closestPointParametric, clamp] at h0 h1 ⊢
    split
    · rename_i c
      rw [if_pos c] at h0 h1
      split
      · exact hpp
      · rename_i c2
        rw [if_neg c2] at h1
        exact absurd rfl h1
    · rename_i c
      rw [if_neg c] at h0
      exact absurd rfl h0
  have hcp := (C47_closest_point (⟨a, b⟩ : Segment 2 K) x).2.2.1
  rw [hcp, ht]
  simp only [lerp]
  field_simp
  ring

private theorem closest_at (a b x : Point 2 K) :
    ((⟨a, b⟩ : Segment 2 K).closestPointParametric x = 0 → (⟨a, b⟩ : Segment 2 K).closestPoint x = a) ∧
    ((⟨a, b⟩ : Segment 2 K).closestPointParametric x = 1 → (⟨a, b⟩ : Segment 2 K).closestPoint x = b) := by
  have hcp := (C47_closest_point (⟨a, b⟩ : Segment 2 K) x).2.2.1
  constructor
  · intro h
    rw [hcp, h]
    funext i
    simp [lerp]
  · intro h
    rw [hcp, h]
    funext i
    simp [lerp]

/-- The sign test at a closest edge of a strictly convex polygon. -/
private theorem side_test (norm : Point 2 K → K) (hn : IsNorm norm) (V : List (Point 2 K)) (hV : StrictlyConvexCcw V)
    (lV : 3 ≤ V.length) (x : Point 2 K) (i : Nat) (hi : i < V.length)
    (hmin : ∀ j < V.length, dist2 ((⟨SimplePolygon.vertex V i, SimplePolygon.vertex V (i + 1)⟩ : Segment 2 K).closestPoint x) x ≤
      dist2 ((⟨SimplePolygon.vertex V j, SimplePolygon.vertex V (j + 1)⟩ : Segment 2 K).closestPoint x) x) :
    ∃ n, SimplePolygon.pseudonormalOnEdge norm V i
        ((⟨SimplePolygon.vertex V i, SimplePolygon.vertex V (i + 1)⟩ : Segment 2 K).closestPointParametric x) = some n ∧
      (x ∈ hull V → dot (off V x i) n ≤ 0 ∧ (dot (off V x i) n = 0 → off V x i = 0)) ∧
      (x ∉ hull V → 0 < dot (off V x i) n) := by
  have c1 := consec V hV lV i
  have c0 := consec V hV lV (i + V.length - 1)
  have e1 : SimplePolygon.vertex V (i + V.length - 1 + 1) = SimplePolygon.vertex V i := by
    rw [show i + V.length - 1 + 1 = i + V.length by omega, vertex_add_len]
  have e2 : SimplePolygon.vertex V (i + V.length - 1 + 2) = SimplePolygon.vertex V (i + 1) := by
    rw [show i + V.length - 1 + 2 = i + 1 + V.length by omega, vertex_add_len]
  have l0 := fun hx => left_all V hV lV x hx (i + V.length - 1)
  have l1 := fun hx => left_all V hV lV x hx i
  have l2 := fun hx => left_all V hV lV x hx (i + 1)
  have hprev : SimplePolygon.getEdge V ((i + V.length - 1) % V.length) =
      some ⟨SimplePolygon.vertex V (i + V.length - 1), SimplePolygon.vertex V i⟩ := by
    rw [getEdge_eq V _ (Nat.mod_lt _ (by omega)), vertex_mod, vertex_mod_add, e1]
  have hnext : SimplePolygon.getEdge V ((i + 1) % V.length) =
      some ⟨SimplePolygon.vertex V (i + 1), SimplePolygon.vertex V (i + 2)⟩ := by
    rw [getEdge_eq V _ (Nat.mod_lt _ (by omega)), vertex_mod, vertex_mod_add]
  rw [e1, e2] at c0
  rw [e1] at l0
  -- the closest point is closest in the whole polygon
  have hout : x ∉ hull V → ∀ y ∈ hull V,
      (x 0 - (⟨SimplePolygon.vertex V i, SimplePolygon.vertex V (i + 1)⟩ : Segment 2 K).closestPoint x 0) *
        (y 0 - (⟨SimplePolygon.vertex V i, SimplePolygon.vertex V (i + 1)⟩ : Segment 2 K).closestPoint x 0) +
      (x 1 - (⟨SimplePolygon.vertex V i, SimplePolygon.vertex V (i + 1)⟩ : Segment 2 K).closestPoint x 1) *
        (y 1 - (⟨SimplePolygon.vertex V i, SimplePolygon.vertex V (i + 1)⟩ : Segment 2 K).closestPoint x 1) ≤ 0 := by
    intro hx y hy
    have hpm : (⟨SimplePolygon.vertex V i, SimplePolygon.vertex V (i + 1)⟩ : Segment 2 K).closestPoint x ∈ hull V := by
      obtain ⟨s0, s1, s2, -⟩ := C47_closest_point (⟨SimplePolygon.vertex V i, SimplePolygon.vertex V (i + 1)⟩ : Segment 2 K) x
      rw [s2]
      exact lerp_mem_hull V _ _ (vertex_mem_hull V lV i) (vertex_mem_hull V lV (i + 1)) _ s0 s1
    apply closest_obtuse
    intro s s0 s1
    obtain ⟨r, r0, r1, j, hj, hon⟩ := boundary_between V hV lV x _ hx (lerp_mem_hull V _ y hpm hy s s0 s1)
    exact ((hmin j hj).trans ((C47_closest_point _ x).2.2.2 _ hon)).trans (dist2_lerp_le x _ r r0 r1)
  have hne : x ∉ hull V → off V x i ≠ 0 := by
    intro hx e
    apply hx
    have hp : (⟨SimplePolygon.vertex V i, SimplePolygon.vertex V (i + 1)⟩ : Segment 2 K).closestPoint x = x := by
      funext k
      have := congrFun e k
      simp only [off, Pi.zero_apply] at this
      exact (sub_eq_zero.mp this).symm
    obtain ⟨s0, s1, s2, -⟩ := C47_closest_point (⟨SimplePolygon.vertex V i, SimplePolygon.vertex V (i + 1)⟩ : Segment 2 K) x
    rw [← hp, s2]
    exact lerp_mem_hull V _ _ (vertex_mem_hull V lV i) (vertex_mem_hull V lV (i + 1)) _ s0 s1
  have hu := fun hx => hout hx _ (vertex_mem_hull V lV (i + V.length - 1))
  have ha := fun hx => hout hx _ (vertex_mem_hull V lV i)
  have hb := fun hx => hout hx _ (vertex_mem_hull V lV (i + 1))
  have hc := fun hx => hout hx _ (vertex_mem_hull V lV (i + 2))
  have hdn := dot_normal (SimplePolygon.vertex V i) (SimplePolygon.vertex V (i + 1)) x
  rw [SimplePolygon.pseudonormalOnEdge, getEdge_eq V i hi]
  simp only [hprev, hnext]
  rw [show i + 1 + 1 = i + 2 by omega] at l2
  unfold off at hne ⊢
  clear hout hmin e1 e2 hprev hnext
  generalize SimplePolygon.vertex V i = a at *
  generalize SimplePolygon.vertex V (i + 1) = b at *
  generalize SimplePolygon.vertex V (i + 2) = c at *
  generalize SimplePolygon.vertex V (i + V.length - 1) = u at *
  have hab : a ≠ b := ne_of_orient c1
  have hN := isNorm_pos norm hn _ (normalDir_ne hab)
  by_cases t0 : (⟨a, b⟩ : Segment 2 K).closestPointParametric x = 0
  · have hp := (closest_at a b x).1 t0
    rw [hp] at hu ha hb hc hne ⊢
    rw [if_pos t0]
    refine ⟨_, rfl, ?_, ?_⟩
    · intro hx
      have hcn : (normalize norm fun k => (normalize norm (⟨u, a⟩ : Segment 2 K).normalDir k +
          normalize norm (⟨a, b⟩ : Segment 2 K).normalDir k) / 2) = normalize norm (cornerNormal norm u a b) := rfl
      obtain ⟨h1, h2⟩ := corner_in norm hn u a b x c0 (l0 hx) (l1 hx)
      have hpos := corner_ne norm hn u a b c0
      rw [hcn, dot_normalize]
      refine ⟨div_nonpos_of_nonpos_of_nonneg h1 hpos.le, fun h => ?_⟩
      have := h2 ((div_eq_zero_iff.mp h).resolve_right hpos.ne')
      rw [this]
      funext k
      simp
    · intro hx
      have hcn : (normalize norm fun k => (normalize norm (⟨u, a⟩ : Segment 2 K).normalDir k +
          normalize norm (⟨a, b⟩ : Segment 2 K).normalDir k) / 2) = normalize norm (cornerNormal norm u a b) := rfl
      rw [hcn, dot_normalize]
      apply div_pos _ (corner_ne norm hn u a b c0)
      apply corner_out norm hn u a b x c0 (hu hx) (hb hx)
      intro e
      apply hne hx
      rw [e]
      funext k
      simp
  · rw [if_neg t0]
    by_cases t1 : (⟨a, b⟩ : Segment 2 K).closestPointParametric x = 1
    · have hp := (closest_at a b x).2 t1
      rw [hp] at hu ha hb hc hne ⊢
      rw [if_pos t1]
      have hcn : (normalize norm fun k => (normalize norm (⟨b, c⟩ : Segment 2 K).normalDir k +
          normalize norm (⟨a, b⟩ : Segment 2 K).normalDir k) / 2) = normalize norm (cornerNormal norm a b c) := by
        congr 1
        funext k
        rw [cornerNormal, add_comm]
      refine ⟨_, rfl, ?_, ?_⟩
      · intro hx
        obtain ⟨h1, h2⟩ := corner_in norm hn a b c x c1 (l1 hx) (l2 hx)
        have hpos := corner_ne norm hn a b c c1
        rw [hcn, dot_normalize]
        refine ⟨div_nonpos_of_nonpos_of_nonneg h1 hpos.le, fun h => ?_⟩
        have := h2 ((div_eq_zero_iff.mp h).resolve_right hpos.ne')
        rw [this]
        funext k
        simp
      · intro hx
        rw [hcn, dot_normalize]
        apply div_pos _ (corner_ne norm hn a b c c1)
        apply corner_out norm hn a b c x c1 (ha hx) (hc hx)
        intro e
        apply hne hx
        rw [e]
        funext k
        simp
    · rw [if_neg t1]
      have hperp := clamp_interior a b x hab t0 t1
      refine ⟨_, rfl, ?_, ?_⟩
      · intro hx
        rw [dot_normalize, hdn]
        refine ⟨div_nonpos_of_nonpos_of_nonneg (by linarith [l1 hx]) hN.le, fun h => ?_⟩
        have ho : orient2 a b x = 0 := by
          have := (div_eq_zero_iff.mp h).resolve_right hN.ne'
          linarith
        have hdn' : (x 0 - (⟨a, b⟩ : Segment 2 K).closestPoint x 0) * (b 1 - a 1) +
            (x 1 - (⟨a, b⟩ : Segment 2 K).closestPoint x 1) * -(b 0 - a 0) = -orient2 a b x := by
          rw [← hdn]
          simp only [dot, Fin.sum_univ_two, Segment.normalDir, Segment.tangentDir, Matrix.cons_val_zero,
            Matrix.cons_val_one]
        rw [ho, neg_zero] at hdn'
        have hm : (b 0 - a 0) ^ 2 + (b 1 - a 1) ^ 2 ≠ 0 := by
          intro e
          apply hab
          have h0 := sq_nonneg (b 0 - a 0)
          have h1 := sq_nonneg (b 1 - a 1)
          have e0 : b 0 - a 0 = 0 := pow_eq_zero_iff two_ne_zero |>.mp (by linarith)
          have e1 : b 1 - a 1 = 0 := pow_eq_zero_iff two_ne_zero |>.mp (by linarith)
          funext i
          fin_cases i
          · show a 0 = b 0
            linarith
          · show a 1 = b 1
            linarith
        generalize (⟨a, b⟩ : Segment 2 K).closestPoint x = p at *
        funext k
        fin_cases k
        · show x 0 - p 0 = 0
          refine (mul_eq_zero.mp (?_ : ((b 0 - a 0) ^ 2 + (b 1 - a 1) ^ 2) * (x 0 - p 0) = 0)).resolve_left hm
          linear_combination (b 0 - a 0) * hperp + (b 1 - a 1) * hdn'
        · show x 1 - p 1 = 0
          refine (mul_eq_zero.mp (?_ : ((b 0 - a 0) ^ 2 + (b 1 - a 1) ^ 2) * (x 1 - p 1) = 0)).resolve_left hm
          linear_combination (b 1 - a 1) * hperp - (b 0 - a 0) * hdn'
      · intro hx
        rw [dot_normalize]
        apply div_pos _ hN
        rw [hdn]
        -- otherwise the third vertex would be closer
        by_contra hle
        push Not at hle
        have hdn' : (x 0 - (⟨a, b⟩ : Segment 2 K).closestPoint x 0) * (b 1 - a 1) +
            (x 1 - (⟨a, b⟩ : Segment 2 K).closestPoint x 1) * -(b 0 - a 0) = -orient2 a b x := by
          rw [← hdn]
          simp only [dot, Fin.sum_univ_two, Segment.normalDir, Segment.tangentDir, Matrix.cons_val_zero,
            Matrix.cons_val_one]
        have hcx := hc hx
        have hnx := hne hx
        have hcp := (C47_closest_point (⟨a, b⟩ : Segment 2 K) x).2.2.1
        generalize (⟨a, b⟩ : Segment 2 K).closestPointParametric x = t at *
        generalize (⟨a, b⟩ : Segment 2 K).closestPoint x = p at *
        have hm : 0 < (b 0 - a 0) ^ 2 + (b 1 - a 1) ^ 2 := by
          rcases (add_nonneg (sq_nonneg (b 0 - a 0)) (sq_nonneg (b 1 - a 1))).lt_or_eq with h | h
          · exact h
          · exfalso
            apply hab
            have h0 := sq_nonneg (b 0 - a 0)
            have h1 := sq_nonneg (b 1 - a 1)
            have e0 : b 0 - a 0 = 0 := pow_eq_zero_iff two_ne_zero |>.mp (by linarith)
            have e1 : b 1 - a 1 = 0 := pow_eq_zero_iff two_ne_zero |>.mp (by linarith)
            funext i
            fin_cases i
            · show a 0 = b 0
              linarith
            · show a 1 = b 1
              linarith
        have hco : orient2 a b c = (b 0 - a 0) * (c 1 - p 1) - (b 1 - a 1) * (c 0 - p 0) := by
          rw [hcp]
          simp only [orient2, lerp]
          ring
        have ho0 : 0 ≤ orient2 a b x := by linarith
        -- `|b - a|² (x - p)·(c - p) = orient x · orient c`
        have hprod : ((b 0 - a 0) ^ 2 + (b 1 - a 1) ^ 2) *
            ((x 0 - p 0) * (c 0 - p 0) + (x 1 - p 1) * (c 1 - p 1)) = orient2 a b x * orient2 a b c := by
          rw [hco]
          have hx' : orient2 a b x = (x 1 - p 1) * (b 0 - a 0) - (x 0 - p 0) * (b 1 - a 1) := by linarith
          rw [hx']
          linear_combination ((b 0 - a 0) * (c 0 - p 0) + (b 1 - a 1) * (c 1 - p 1)) * hperp
        have hle2 : orient2 a b x * orient2 a b c ≤ 0 := by
          rw [← hprod]
          exact mul_nonpos_of_nonneg_of_nonpos hm.le hcx
        have ho : orient2 a b x = 0 := by
          rcases ho0.lt_or_eq with h | h
          · have := mul_pos h c1
            linarith
          · exact h.symm
        rw [ho, neg_zero] at hdn'
        apply hnx
        funext k
        fin_cases k
        · show x 0 - p 0 = 0
          refine (mul_eq_zero.mp (?_ : ((b 0 - a 0) ^ 2 + (b 1 - a 1) ^ 2) * (x 0 - p 0) = 0)).resolve_left hm.ne'
          linear_combination (b 0 - a 0) * hperp + (b 1 - a 1) * hdn'
        · show x 1 - p 1 = 0
          refine (mul_eq_zero.mp (?_ : ((b 0 - a 0) ^ 2 + (b 1 - a 1) ^ 2) * (x 1 - p 1) = 0)).resolve_left hm.ne'
          linear_combination (b 1 - a 1) * hperp - (b 0 - a 0) * hdn'

/-! ### The closest edge -/

/-- Edge `i` of a polygon: from vertex `i` to its successor. -/
private abbrev edge (V : List (Point 2 K)) (i : Nat) : Segment 2 K :=
  ⟨SimplePolygon.vertex V i, SimplePolygon.vertex V (i + 1)⟩

private theorem closestLoop_spec (V : List (Point 2 K)) (x : Point 2 K) (hV : V ≠ []) :
    ∃ i, i < V.length ∧ SimplePolygon.closestLoop V x = some (i, SimplePolygon.edgeDist2 x (edge V i)) ∧
      ∀ j < V.length, SimplePolygon.edgeDist2 x (edge V i) ≤ SimplePolygon.edgeDist2 x (edge V j) := by
  have key : ∀ m, m ≤ V.length → m ≠ 0 → ∃ i, i < m ∧
      (List.range m).foldl (fun best i =>
        match SimplePolygon.getEdge V i with
        | none => best
        | some e => if SimplePolygon.below (SimplePolygon.edgeDist2 x e) (best.map Prod.snd) then
            some (i, SimplePolygon.edgeDist2 x e) else best) none =
        some (i, SimplePolygon.edgeDist2 x (edge V i)) ∧
      ∀ j < m, SimplePolygon.edgeDist2 x (edge V i) ≤ SimplePolygon.edgeDist2 x (edge V j) := by
    intro m
    induction m with
    | zero => intro _ h; exact absurd rfl h
    | succ m ih =>
      intro hm _
      rw [List.range_succ, List.foldl_append, List.foldl_cons, List.foldl_nil]
      simp only [getEdge_eq V m (by omega)]
      by_cases m0 : m = 0
      · subst m0
        refine ⟨0, by omega, by simp [SimplePolygon.below], fun j hj => ?_⟩
        obtain rfl : j = 0 := by omega
        exact le_rfl
      · obtain ⟨i, hi, he, hmin⟩ := ih (by omega) m0
        rw [he]
        by_cases h : SimplePolygon.edgeDist2 x (edge V m) < SimplePolygon.edgeDist2 x (edge V i)
        · refine ⟨m, by omega, by simp [SimplePolygon.below, h], fun j hj => ?_⟩
          rcases Nat.lt_succ_iff_lt_or_eq.mp hj with h' | rfl
          · exact h.le.trans (hmin j h')
          · exact le_rfl
        · refine ⟨i, by omega, by simp [SimplePolygon.below, h], fun j hj => ?_⟩
          rcases Nat.lt_succ_iff_lt_or_eq.mp hj with h' | rfl
          · exact hmin j h'
          · exact not_lt.mp h
  exact key V.length le_rfl (by simpa using hV)

private theorem pseudonormal_some (norm : Point 2 K → K) (V : List (Point 2 K)) (i : Nat) (hi : i < V.length) (t : K) :
    ∃ n, SimplePolygon.pseudonormalOnEdge norm V i t = some n := by
  rw [SimplePolygon.pseudonormalOnEdge, getEdge_eq V i hi]
  simp only [getEdge_eq V ((i + V.length - 1) % V.length) (Nat.mod_lt _ (by omega)),
    getEdge_eq V ((i + 1) % V.length) (Nat.mod_lt _ (by omega))]
  split
  · exact ⟨_, rfl⟩
  · split
    · exact ⟨_, rfl⟩
    · exact ⟨_, rfl⟩

private theorem edgeDist2_eq (x : Point 2 K) (e : Segment 2 K) :
    SimplePolygon.edgeDist2 x e = dist2 (e.closestPoint x) x := normSq_sub_eq x _

private theorem closestEdge_eq (norm : Point 2 K → K) (signum : K → K) (V : List (Point 2 K)) (x : Point 2 K)
    (hV : V ≠ []) :
    ∃ i n, i < V.length ∧
      SimplePolygon.pseudonormalOnEdge norm V i ((edge V i).closestPointParametric x) = some n ∧
      SimplePolygon.closestEdge norm signum V x = some (some
        ⟨signum (dot (off V x i) n) * norm (off V x i), (edge V i).closestPointParametric x,
          (edge V i).closestPoint x, i⟩) ∧
      ∀ j < V.length, dist2 ((edge V i).closestPoint x) x ≤ dist2 ((edge V j).closestPoint x) x := by
  obtain ⟨i, hi, he, hmin⟩ := closestLoop_spec V x hV
  obtain ⟨n, hn⟩ := pseudonormal_some norm V i hi ((edge V i).closestPointParametric x)
  refine ⟨i, n, hi, hn, ?_, ?_⟩
  · rw [SimplePolygon.closestEdge, he]
    simp only [getEdge_eq V i hi, hn]
    rfl
  · intro j hj
    simpa only [edgeDist2_eq] using hmin j hj

private theorem dist2_nonneg' (x y : Point d K) : 0 ≤ dist2 x y := Finset.sum_nonneg fun _ _ => sq_nonneg _

private theorem norm_off_sq (norm : Point 2 K → K) (hn : IsNorm norm) (V : List (Point 2 K)) (x : Point 2 K) (i : Nat) :
    norm (off V x i) ^ 2 = dist2 ((edge V i).closestPoint x) x := by
  rw [(hn _).2, ← normSq_sub_eq]
  simp only [off, normSq, sq]

/-- C53: for any polygon with a vertex, `closest_edge` never panics and finds an edge.  The edge point
lies on the edge named by the index at the parameter returned, no point of any edge is closer, and the
square of the signed distance is the squared distance to the edge point. -/
theorem C53_closest_edge (norm : Point 2 K → K) (hn : IsNorm norm) (signum : K → K)
    (hs : ∀ y, signum y = 1 ∨ signum y = -1) (V : List (Point 2 K)) (hV : V ≠ []) (x : Point 2 K) :
    ∃ c, SimplePolygon.closestEdge norm signum V x = some (some c) ∧
      (∃ s, (cyclicPairs V)[c.edgeIndex]? = some s ∧ 0 ≤ c.edgeParameter ∧ c.edgeParameter ≤ 1 ∧
        c.edgePoint = lerp s.1 s.2 c.edgeParameter) ∧
      (∀ s ∈ cyclicPairs V, ∀ y, OnSegment ⟨s.1, s.2⟩ y → dist2 c.edgePoint x ≤ dist2 y x) ∧
      c.signedDistance ^ 2 = dist2 c.edgePoint x := by
  obtain ⟨i, n, hi, -, he, hmin⟩ := closestEdge_eq norm signum V x hV
  refine ⟨_, he, ?_, ?_, ?_⟩
  · obtain ⟨s0, s1, s2, -⟩ := C47_closest_point (edge V i) x
    refine ⟨(SimplePolygon.vertex V i, SimplePolygon.vertex V (i + 1)), ?_, s0, s1, s2⟩
    rw [← range_edges]
    simp [hi]
  · intro s hs' y hy
    rw [← range_edges] at hs'
    obtain ⟨j, hj, rfl⟩ := List.mem_map.mp hs'
    exact (hmin j (List.mem_range.mp hj)).trans ((C47_closest_point _ x).2.2.2 y hy)
  · have h1 : (signum (dot (off V x i) n)) ^ 2 = 1 := by
      rcases hs (dot (off V x i) n) with h | h
      · rw [h]; ring
      · rw [h]; ring
    show (_ * _) ^ 2 = _
    rw [mul_pow, h1, one_mul, norm_off_sq norm hn]

/-- C53: for a strictly convex counter-clockwise polygon the signed distance to the closest edge is at
most zero exactly for the points of the polygon, whatever the sign of zero is taken to be. -/
theorem C53_convex_signed_distance (norm : Point 2 K → K) (hn : IsNorm norm) (signum : K → K) (hs : IsSignum signum)
    (V : List (Point 2 K)) (hV : StrictlyConvexCcw V) (lV : 3 ≤ V.length) (x : Point 2 K) :
    ∃ c, SimplePolygon.closestEdge norm signum V x = some (some c) ∧
      (c.signedDistance ≤ 0 ↔ x ∈ hull V) ∧
      c.signedDistance ^ 2 = dist2 c.edgePoint x := by
  obtain ⟨i, n, hi, hpn, he, hmin⟩ := closestEdge_eq norm signum V x (by rintro rfl; simp at lV)
  obtain ⟨n', hpn', hin, hout⟩ := side_test norm hn V hV lV x i hi hmin
  obtain rfl : n = n' := Option.some.inj (hpn.symm.trans hpn')
  have hoff := norm_off_sq norm hn V x i
  have hnn := (hn (off V x i)).1
  refine ⟨_, he, ?_, ?_⟩
  · constructor
    · intro hle
      by_contra hx
      have hd := hout hx
      have hz : off V x i ≠ 0 := by
        intro e
        rw [e] at hd
        simp [dot] at hd
      have hp := isNorm_pos norm hn _ hz
      simp only [hs.1 _ hd, one_mul] at hle
      linarith
    · intro hx
      obtain ⟨h1, h2⟩ := hin hx
      show _ * _ ≤ (0 : K)
      rcases h1.lt_or_eq with h | h
      · rw [hs.2 _ h]
        linarith
      · have e := h2 h
        have : norm (off V x i) = 0 := by
          have := (hn (off V x i)).2
          rw [e] at this
          simp only [Pi.zero_apply, ne_eq, OfNat.ofNat_ne_zero, not_false_eq_true, zero_pow, Finset.sum_const_zero] at this
          rw [e]
          exact pow_eq_zero_iff two_ne_zero |>.mp this
        rw [this, mul_zero]
  · show (_ * _) ^ 2 = _
    by_cases hx : x ∈ hull V
    · obtain ⟨h1, h2⟩ := hin hx
      rcases h1.lt_or_eq with h | h
      · rw [hs.2 _ h, ← hoff]
        ring
      · rw [mul_pow, hoff]
        have e := h2 h
        have hz : dist2 ((edge V i).closestPoint x) x = 0 := by
          rw [← normSq_sub_eq]
          show normSq (off V x i) = 0
          rw [e]
          simp [normSq]
        rw [hz, mul_zero]
    · rw [hs.1 _ (hout hx), ← hoff]
      ring

/-- C53: the distance of a point to a strictly convex counter-clockwise polygon is zero for points of
the polygon; for other points it is the distance to some point of the polygon, and no point of the
polygon is closer. -/
theorem C53_convex_distance (norm : Point 2 K → K) (hn : IsNorm norm) (signum : K → K) (hs : IsSignum signum)
    (V : List (Point 2 K)) (hV : StrictlyConvexCcw V) (lV : 3 ≤ V.length) (x : Point 2 K) :
    ∃ r, SimplePolygon.distance norm signum V x = some r ∧ 0 ≤ r ∧
      (∃ y ∈ hull V, r ^ 2 = dist2 y x) ∧ ∀ y ∈ hull V, r ^ 2 ≤ dist2 y x := by
  obtain ⟨i, n, hi, hpn, he, hmin⟩ := closestEdge_eq norm signum V x (by rintro rfl; simp at lV)
  obtain ⟨c, hc, hsign, hsq⟩ := C53_convex_signed_distance norm hn signum hs V hV lV x
  refine ⟨max c.signedDistance 0, ?_, le_max_right _ _, ?_⟩
  · rw [SimplePolygon.distance, hc]
  rw [he] at hc
  have hcp : c.edgePoint = (edge V i).closestPoint x := by
    rw [← Option.some.inj (Option.some.inj hc)]
  rw [hcp] at hsq
  by_cases hx : x ∈ hull V
  · rw [max_eq_right (hsign.mpr hx)]
    refine ⟨⟨x, hx, ?_⟩, fun y _ => ?_⟩
    · simp [dist2]
    · rw [zero_pow two_ne_zero]
      exact dist2_nonneg' _ _
  · have h0 : 0 < c.signedDistance := by
      by_contra h
      exact hx (hsign.mp (not_lt.mp h))
    rw [max_eq_left h0.le, hsq]
    refine ⟨⟨_, ?_, rfl⟩, fun y hy => ?_⟩
    · obtain ⟨s0, s1, s2, -⟩ := C47_closest_point (edge V i) x
      rw [s2]
      exact lerp_mem_hull V _ _ (vertex_mem_hull V lV i) (vertex_mem_hull V lV (i + 1)) _ s0 s1
    · obtain ⟨r, r0, r1, j, hj, hon⟩ := boundary_between V hV lV x y hx hy
      exact ((hmin j hj).trans ((C47_closest_point _ x).2.2.2 _ hon)).trans (dist2_lerp_le x _ r r0 r1)

/-! ### The segment test -/

/-- The state of the segment loop for one end point. -/
private theorem segmentLoop_spec (V : List (Point 2 K)) (s : Segment 2 K) (hV : V ≠ []) :
    (SimplePolygon.segmentLoop V s).2.1.1 < V.length ∧ (SimplePolygon.segmentLoop V s).2.2.1 < V.length ∧
    ((∀ j < V.length, (edge V j).intersectSegmentParametric s = none) →
      (∀ j < V.length, SimplePolygon.edgeDist2 s.start (edge V (SimplePolygon.segmentLoop V s).2.1.1) ≤
        SimplePolygon.edgeDist2 s.start (edge V j)) ∧
      (∀ j < V.length, SimplePolygon.edgeDist2 s.stop (edge V (SimplePolygon.segmentLoop V s).2.2.1) ≤
        SimplePolygon.edgeDist2 s.stop (edge V j))) := by
  have hlen : 0 < V.length := List.length_pos_iff.mpr hV
  -- invariant for one end point
  let Inv := fun (p : Point 2 K) (m : Nat) (b : Nat × Option K) =>
    b.1 < V.length ∧ ((∀ j < V.length, (edge V j).intersectSegmentParametric s = none) →
      (m = 0 ∧ b.2 = none) ∨ (b.2 = some (SimplePolygon.edgeDist2 p (edge V b.1)) ∧
        ∀ j < m, SimplePolygon.edgeDist2 p (edge V b.1) ≤ SimplePolygon.edgeDist2 p (edge V j)))
  have upd : ∀ p m b, m < V.length → Inv p m b →
      Inv p (m + 1) (if SimplePolygon.below (SimplePolygon.edgeDist2 p (edge V m)) b.2 then
        (m, some (SimplePolygon.edgeDist2 p (edge V m))) else b) := by
    rintro p m ⟨k, o⟩ hm ⟨h1, h2⟩
    by_cases hb : SimplePolygon.below (SimplePolygon.edgeDist2 p (edge V m)) o = true
    · rw [if_pos hb]
      refine ⟨hm, fun hno => Or.inr ⟨rfl, fun j hj => ?_⟩⟩
      rcases Nat.lt_succ_iff_lt_or_eq.mp hj with h' | rfl
      · rcases h2 hno with ⟨rfl, -⟩ | ⟨e, hmin⟩
        · omega
        · simp only at e
          rw [e] at hb
          simp only [SimplePolygon.below, decide_eq_true_eq] at hb
          exact hb.le.trans (hmin j h')
      · exact le_rfl
    · rw [if_neg hb]
      refine ⟨h1, fun hno => Or.inr ?_⟩
      rcases h2 hno with ⟨-, e⟩ | ⟨e, hmin⟩
      · simp only at e
        rw [e] at hb
        simp [SimplePolygon.below] at hb
      · refine ⟨e, fun j hj => ?_⟩
        rcases Nat.lt_succ_iff_lt_or_eq.mp hj with h' | rfl
        · exact hmin j h'
        · simp only at e
          rw [e] at hb
          simp only [SimplePolygon.below, decide_eq_true_eq] at hb
          exact not_lt.mp hb
  have key : ∀ m, m ≤ V.length →
      Inv s.start m ((List.range m).foldl (fun (st : Bool × (Nat × Option K) × (Nat × Option K)) i =>
        match SimplePolygon.getEdge V i with
        | none => st
        | some e =>
          if (e.intersectSegmentParametric s).isSome then (true, st.2)
          else
            let upd := fun (p : Point 2 K) (best : Nat × Option K) =>
              if SimplePolygon.below (SimplePolygon.edgeDist2 p e) best.2 then
                (i, some (SimplePolygon.edgeDist2 p e)) else best
            (st.1, upd s.start st.2.1, upd s.stop st.2.2)) (false, (0, none), (0, none))).2.1 ∧
      Inv s.stop m ((List.range m).foldl (fun (st : Bool × (Nat × Option K) × (Nat × Option K)) i =>
        match SimplePolygon.getEdge V i with
        | none => st
        | some e =>
          if (e.intersectSegmentParametric s).isSome then (true, st.2)
          else
            let upd := fun (p : Point 2 K) (best : Nat × Option K) =>
              if SimplePolygon.below (SimplePolygon.edgeDist2 p e) best.2 then
                (i, some (SimplePolygon.edgeDist2 p e)) else best
            (st.1, upd s.start st.2.1, upd s.stop st.2.2)) (false, (0, none), (0, none))).2.2 := by
    intro m
    induction m with
    | zero => intro _; exact ⟨⟨hlen, fun _ => Or.inl ⟨rfl, rfl⟩⟩, ⟨hlen, fun _ => Or.inl ⟨rfl, rfl⟩⟩⟩
    | succ m ih =>
      intro hm
      obtain ⟨i1, i2⟩ := ih (by omega)
      rw [List.range_succ, List.foldl_append, List.foldl_cons, List.foldl_nil]
      generalize (List.range m).foldl _ _ = st at i1 i2 ⊢
      simp only [getEdge_eq V m (by omega)]
      by_cases hc : ((edge V m).intersectSegmentParametric s).isSome = true
      · rw [if_pos hc]
        have habs : ¬ ∀ j < V.length, (edge V j).intersectSegmentParametric s = none := by
          intro h
          rw [h m (by omega)] at hc
          simp at hc
        exact ⟨⟨i1.1, fun h => absurd h habs⟩, ⟨i2.1, fun h => absurd h habs⟩⟩
      · rw [if_neg hc]
        exact ⟨upd _ m _ (by omega) i1, upd _ m _ (by omega) i2⟩
  obtain ⟨k1, k2⟩ := key V.length le_rfl
  refine ⟨k1.1, k2.1, fun hno => ⟨?_, ?_⟩⟩
  · rcases k1.2 hno with ⟨h, -⟩ | ⟨-, h⟩
    · omega
    · exact h
  · rcases k2.2 hno with ⟨h, -⟩ | ⟨-, h⟩
    · omega
    · exact h

private theorem endpointInside_eq (norm : Point 2 K → K) (V : List (Point 2 K)) (p : Point 2 K) (i : Nat)
    (hi : i < V.length) : ∃ n, SimplePolygon.pseudonormalOnEdge norm V i ((edge V i).closestPointParametric p) = some n ∧
      SimplePolygon.endpointInside norm V p i = some (decide (dot (off V p i) n ≤ 0)) := by
  obtain ⟨n, hn⟩ := pseudonormal_some norm V i hi ((edge V i).closestPointParametric p)
  refine ⟨n, hn, ?_⟩
  rw [SimplePolygon.endpointInside, getEdge_eq V i hi]
  simp only [hn]
  rfl

/-- C53: `intersects_segment` never panics, and is false for the polygon without vertices. -/
theorem C53_segment_total (norm : Point 2 K → K) (V : List (Point 2 K)) (s : Segment 2 K) :
    ∃ b, SimplePolygon.intersectsSegment norm V s = some b ∧ (V = [] → b = false) := by
  rw [SimplePolygon.intersectsSegment]
  by_cases hV : V = []
  · rw [if_pos (by simp [hV])]
    exact ⟨false, rfl, fun _ => rfl⟩
  · rw [if_neg (by simpa using hV)]
    obtain ⟨h1, h2, -⟩ := segmentLoop_spec V s hV
    obtain ⟨n1, -, e1⟩ := endpointInside_eq norm V s.start _ h1
    obtain ⟨n2, -, e2⟩ := endpointInside_eq norm V s.stop _ h2
    rw [e1, e2]
    by_cases hd : dot (off V s.start (SimplePolygon.segmentLoop V s).2.1.1) n1 ≤ 0
    · simp only [hd, decide_true]
      exact ⟨true, rfl, fun h => absurd h hV⟩
    · simp only [hd, decide_false]
      exact ⟨_, rfl, fun h => absurd h hV⟩

private theorem inside_iff (norm : Point 2 K → K) (hn : IsNorm norm) (V : List (Point 2 K)) (hV : StrictlyConvexCcw V)
    (lV : 3 ≤ V.length) (p : Point 2 K) (i : Nat) (hi : i < V.length)
    (hmin : ∀ j < V.length, SimplePolygon.edgeDist2 p (edge V i) ≤ SimplePolygon.edgeDist2 p (edge V j)) :
    ∃ b, SimplePolygon.endpointInside norm V p i = some b ∧ (b = true ↔ p ∈ hull V) := by
  obtain ⟨n, hpn, e⟩ := endpointInside_eq norm V p i hi
  obtain ⟨n', hpn', hin, hout⟩ := side_test norm hn V hV lV p i hi
    (fun j hj => by simpa only [edgeDist2_eq] using hmin j hj)
  obtain rfl : n = n' := Option.some.inj (hpn.symm.trans hpn')
  refine ⟨_, e, ?_⟩
  rw [decide_eq_true_iff]
  constructor
  · intro h
    by_contra hx
    exact absurd (hout hx) (not_lt.mpr h)
  · exact fun h => (hin h).1

/-- If both ends are outside and no edge is reported crossed, the segment misses the polygon. -/
private theorem misses (V : List (Point 2 K)) (hV : StrictlyConvexCcw V) (lV : 3 ≤ V.length) (s : Segment 2 K)
    (hno : ∀ j < V.length, (edge V j).intersectSegmentParametric s = none)
    (h1 : s.start ∉ hull V) (h2 : s.stop ∉ hull V) (y : Point 2 K) (hy : OnSegment s y) : y ∉ hull V := by
  intro hyV
  -- crossings that are not parallel are reported
  have hrep : ∀ (i : Nat) (z : Point 2 K), OnSegment s z → OnSegment (edge V i) z →
      cross (edge V i).tangentDir s.tangentDir = 0 := by
    intro i z hz ⟨t, t0, t1, ht⟩
    by_contra hc
    have hm : (edge V (i % V.length)) = edge V i := by
      simp only [edge, vertex_mod, vertex_mod_add]
    have := hno (i % V.length) (Nat.mod_lt _ (by omega))
    rw [hm, (C47_segments_meet _ s hc t).mpr ⟨t0, t1, ht ▸ hz⟩] at this
    simp at this
  obtain ⟨t, t0, t1, rfl⟩ := hy
  obtain ⟨r, r0, r1, i, hi, hon⟩ := boundary_between V hV lV s.start _ h1 hyV
  have hz : lerp s.start (lerp s.start s.stop t) r = lerp s.start s.stop (r * t) := by
    funext k
    simp only [lerp]
    ring
  rw [hz] at hon
  have q0 : 0 ≤ r * t := mul_nonneg r0 t0
  have q1 : r * t ≤ 1 := mul_le_one₀ r1 t0 t1
  generalize r * t = q at *
  have hpar := hrep i _ ⟨q, q0, q1, rfl⟩ hon
  have c1 := consec V hV lV i
  have hab := ne_of_orient c1
  -- the edge's end points and the segment's end points are on one line
  have inE : ∀ σ, 0 ≤ σ → σ ≤ 1 → lerp (SimplePolygon.vertex V i) (SimplePolygon.vertex V (i + 1)) σ ∈ hull V :=
    fun σ a b => lerp_mem_hull V _ _ (vertex_mem_hull V lV i) (vertex_mem_hull V lV (i + 1)) σ a b
  have hrb := hrep (i + 1) (SimplePolygon.vertex V (i + 1))
  obtain ⟨ζ, ζ0, ζ1, hζ⟩ := hon
  simp only [edge] at hpar hrb hζ
  rw [show i + 1 + 1 = i + 2 by omega] at hrb
  generalize SimplePolygon.vertex V i = a at *
  generalize SimplePolygon.vertex V (i + 1) = b at *
  generalize SimplePolygon.vertex V (i + 2) = c at *
  obtain ⟨p, w⟩ := s
  simp only [cross, Segment.tangentDir] at hpar hζ h1 h2 hrb
  have z0 := congrFun hζ 0
  have z1 := congrFun hζ 1
  simp only [lerp] at z0 z1
  have o1 : orient2 a b p = 0 := by
    simp only [orient2]
    linear_combination (b 0 - a 0) * z1 - (b 1 - a 1) * z0 - q * hpar
  have o2 : orient2 a b w = 0 := by
    simp only [orient2]
    linear_combination (b 0 - a 0) * z1 - (b 1 - a 1) * z0 + (1 - q) * hpar
  obtain ⟨σ, hσ⟩ := on_line a b p hab o1
  obtain ⟨τ, hτ⟩ := on_line a b w hab o2
  have hζq : ζ = (1 - q) * σ + q * τ := by
    have hh : ∀ k, (ζ - ((1 - q) * σ + q * τ)) * (b k - a k) = 0 := by
      intro k
      have e := congrFun hζ k
      have e1 := congrFun hσ k
      have e2 := congrFun hτ k
      simp only [lerp] at e e1 e2
      rw [e1, e2] at e
      linear_combination -e
    by_contra hne
    apply hab
    funext k
    have := (mul_eq_zero.mp (hh k)).resolve_left (sub_ne_zero.mpr hne)
    exact (sub_eq_zero.mp this).symm
  have nσ : ¬ (0 ≤ σ ∧ σ ≤ 1) := fun h => h1 (hσ ▸ inE σ h.1 h.2)
  have nτ : ¬ (0 ≤ τ ∧ τ ≤ 1) := fun h => h2 (hτ ▸ inE τ h.1 h.2)
  -- hence the end `b` of the edge is on the segment
  have hb : OnSegment (⟨p, w⟩ : Segment 2 K) b := by
    have hd : (σ < 0 ∧ 1 < τ) ∨ (1 < σ ∧ τ < 0) := by
      have q1' : 0 ≤ 1 - q := by linarith
      rcases lt_or_ge σ 0 with s0 | s0
      · rcases lt_or_ge τ 0 with t0 | t0
        · exfalso
          rcases q0.lt_or_eq with h | h
          · have := mul_neg_of_pos_of_neg h t0
            have := mul_nonpos_of_nonneg_of_nonpos q1' s0.le
            linarith
          · rw [← h] at hζq
            linarith
        · left
          refine ⟨s0, ?_⟩
          by_contra h
          exact nτ ⟨t0, not_lt.mp h⟩
      · have s1 : 1 < σ := by
          by_contra h
          exact nσ ⟨s0, not_lt.mp h⟩
        right
        refine ⟨s1, ?_⟩
        by_contra h
        push Not at h
        have t1 : 1 < τ := by
          by_contra h'
          exact nτ ⟨h, not_lt.mp h'⟩
        have e : ζ - 1 = (1 - q) * (σ - 1) + q * (τ - 1) := by
          rw [hζq]
          ring
        rcases q0.lt_or_eq with h | h
        · have := mul_pos h (by linarith : 0 < τ - 1)
          have := mul_nonneg q1' (by linarith : 0 ≤ σ - 1)
          linarith
        · rw [← h] at e
          linarith
    have hne : τ - σ ≠ 0 := by
      rcases hd with h | h
      · intro e
        linarith
      · intro e
        linarith
    refine ⟨(1 - σ) / (τ - σ), ?_, ?_, ?_⟩
    · rcases hd with h | h
      · exact div_nonneg (by linarith) (by linarith)
      · exact div_nonneg_of_nonpos (by linarith) (by linarith)
    · rcases hd with h | h
      · exact (div_le_one (by linarith)).mpr (by linarith)
      · rw [div_le_one_of_neg (by linarith)]
        linarith
    · funext k
      have e1 := congrFun hσ k
      have e2 := congrFun hτ k
      simp only [lerp] at e1 e2 ⊢
      rw [e1, e2]
      field_simp
      ring
  have hbc := hrb hb ⟨0, le_rfl, zero_le_one, by funext k; simp [lerp]⟩
  -- but then the next edge is parallel to this one
  have hwp : ∀ k, w k - p k = (τ - σ) * (b k - a k) := by
    intro k
    have e1 := congrFun hσ k
    have e2 := congrFun hτ k
    simp only [lerp] at e1 e2
    rw [e1, e2]
    ring
  rw [hwp 0, hwp 1] at hbc
  have hbc' : (τ - σ) * orient2 a b c = 0 := by
    simp only [orient2]
    linear_combination -hbc
  rcases mul_eq_zero.mp hbc' with h | h
  · have : σ = τ := by linarith
    subst this
    have : ζ = σ := by rw [hζq]; ring
    exact nσ ⟨this ▸ ζ0, this ▸ ζ1⟩
  · exact c1.ne' h

private theorem edge_sub_hull (V : List (Point 2 K)) (lV : 3 ≤ V.length) (i : Nat) (z : Point 2 K)
    (hz : OnSegment (edge V i) z) : z ∈ hull V := by
  obtain ⟨t, t0, t1, rfl⟩ := hz
  exact lerp_mem_hull V _ _ (vertex_mem_hull V lV i) (vertex_mem_hull V lV (i + 1)) _ t0 t1

/-- C53, the part that holds, for strictly convex counter-clockwise polygons: if no edge is reported as
crossed by the segment, then `intersects_segment` returns true exactly if some point of the segment lies
in the polygon.

Missing: the full property is that this holds for every segment.  It is false when an edge is crossed, see
`C53_crossing_not_reported`.  Polygons that are not convex are not treated. -/
theorem C53_no_crossing_partial (norm : Point 2 K → K) (hn : IsNorm norm) (V : List (Point 2 K))
    (hV : StrictlyConvexCcw V) (lV : 3 ≤ V.length) (s : Segment 2 K)
    (hno : ∀ e ∈ cyclicPairs V, (⟨e.1, e.2⟩ : Segment 2 K).intersectSegmentParametric s = none) :
    SimplePolygon.intersectsSegment norm V s = some true ↔ ∃ y, OnSegment s y ∧ y ∈ hull V := by
  have hne : V ≠ [] := by rintro rfl; simp at lV
  have hno' : ∀ j < V.length, (edge V j).intersectSegmentParametric s = none := by
    intro j hj
    refine hno (SimplePolygon.vertex V j, SimplePolygon.vertex V (j + 1)) ?_
    rw [← range_edges]
    exact List.mem_map.mpr ⟨j, List.mem_range.mpr hj, rfl⟩
  obtain ⟨i1, i2, hm⟩ := segmentLoop_spec V s hne
  obtain ⟨m1, m2⟩ := hm hno'
  obtain ⟨b1, e1, f1⟩ := inside_iff norm hn V hV lV s.start _ i1 m1
  obtain ⟨b2, e2, f2⟩ := inside_iff norm hn V hV lV s.stop _ i2 m2
  rw [SimplePolygon.intersectsSegment, if_neg (by omega), e1, e2]
  have hstart : OnSegment s s.start := ⟨0, le_rfl, zero_le_one, by funext k; simp [lerp]⟩
  have hstop : OnSegment s s.stop := ⟨1, zero_le_one, le_rfl, by funext k; simp [lerp]⟩
  cases b1 with
  | true => exact ⟨fun _ => ⟨_, hstart, f1.mp rfl⟩, fun _ => rfl⟩
  | false =>
    cases b2 with
    | true => exact ⟨fun _ => ⟨_, hstop, f2.mp rfl⟩, fun _ => rfl⟩
    | false =>
      refine ⟨fun h => by simp at h, ?_⟩
      rintro ⟨y, hy, hyV⟩
      exact absurd hyV (misses V hV lV s hno' (fun h => by simpa using f1.mpr h) (fun h => by simpa using f2.mpr h) y hy)

/-- C53: the answer `true` is always right for strictly convex counter-clockwise polygons. -/
theorem C53_true_sound (norm : Point 2 K → K) (hn : IsNorm norm) (V : List (Point 2 K))
    (hV : StrictlyConvexCcw V) (lV : 3 ≤ V.length) (s : Segment 2 K)
    (h : SimplePolygon.intersectsSegment norm V s = some true) : ∃ y, OnSegment s y ∧ y ∈ hull V := by
  by_cases hno : ∀ e ∈ cyclicPairs V, (⟨e.1, e.2⟩ : Segment 2 K).intersectSegmentParametric s = none
  · exact (C53_no_crossing_partial norm hn V hV lV s hno).mp h
  · push Not at hno
    obtain ⟨e, he, hx⟩ := hno
    rw [← range_edges] at he
    obtain ⟨i, hi, rfl⟩ := List.mem_map.mp he
    obtain ⟨t, ht⟩ := Option.ne_none_iff_exists'.mp hx
    have hc : cross (edge V i).tangentDir s.tangentDir ≠ 0 := fun h0 => hx (C47_segments_parallel _ s h0)
    obtain ⟨t0, t1, hon⟩ := (C47_segments_meet _ s hc t).mp ht
    exact ⟨_, hon, edge_sub_hull V lV i _ ⟨t, t0, t1, rfl⟩⟩

/-! ### Crossing segments -/

private noncomputable def unitSquare : List (Point 2 ℝ) := [![0, 0], ![1, 0], ![1, 1], ![0, 1]]

private noncomputable def bar : Segment 2 ℝ := ⟨![-1, 1 / 2], ![2, 1 / 2]⟩

private theorem unitSquare_convex : StrictlyConvexCcw unitSquare := by
  intro a b c h
  have : [a, b, c] ∈ unitSquare.sublists := List.mem_sublists.mpr h
  simp [unitSquare, List.sublists, List.foldr] at this
  rcases this with ⟨rfl, rfl, rfl⟩ | ⟨rfl, rfl, rfl⟩ | ⟨rfl, rfl, rfl⟩ | ⟨rfl, rfl, rfl⟩ <;> norm_num [orient2]

private theorem bar_loop : (SimplePolygon.segmentLoop unitSquare bar).2.1.1 = 0 ∧
    (SimplePolygon.segmentLoop unitSquare bar).2.2.1 = 0 := by
  have x0 : (⟨![0, 0], ![1, 0]⟩ : Segment 2 ℝ).intersectSegmentParametric bar = none :=
    C47_segments_parallel _ _ (by norm_num [cross, Segment.tangentDir, bar])
  have x2 : (⟨![1, 1], ![0, 1]⟩ : Segment 2 ℝ).intersectSegmentParametric bar = none :=
    C47_segments_parallel _ _ (by norm_num [cross, Segment.tangentDir, bar])
  have x1 : (⟨![1, 0], ![1, 1]⟩ : Segment 2 ℝ).intersectSegmentParametric bar = some (1 / 2) := by
    rw [C47_segments_meet _ _ (by norm_num [cross, Segment.tangentDir, bar])]
    refine ⟨by norm_num, by norm_num, 2 / 3, by norm_num, by norm_num, ?_⟩
    funext k
    fin_cases k <;> norm_num [lerp, bar]
  have x3 : (⟨![0, 1], ![0, 0]⟩ : Segment 2 ℝ).intersectSegmentParametric bar = some (1 / 2) := by
    rw [C47_segments_meet _ _ (by norm_num [cross, Segment.tangentDir, bar])]
    refine ⟨by norm_num, by norm_num, 1 / 3, by norm_num, by norm_num, ?_⟩
    funext k
    fin_cases k <;> norm_num [lerp, bar]
  have g0 : SimplePolygon.getEdge unitSquare 0 = some ⟨![0, 0], ![1, 0]⟩ := rfl
  have g1 : SimplePolygon.getEdge unitSquare 1 = some ⟨![1, 0], ![1, 1]⟩ := rfl
  have g2 : SimplePolygon.getEdge unitSquare 2 = some ⟨![1, 1], ![0, 1]⟩ := rfl
  have g3 : SimplePolygon.getEdge unitSquare 3 = some ⟨![0, 1], ![0, 0]⟩ := rfl
  have d0 : SimplePolygon.edgeDist2 bar.start ⟨![0, 0], ![1, 0]⟩ = 5 / 4 := by
    norm_num [SimplePolygon.edgeDist2, normSq, Segment.closestPoint, Segment.pointFromParameter,
      Segment.closestPointParametric, clamp, Line.projectPointParametric, Segment.toLine, Segment.tangentDir, dot, bar,
      Fin.sum_univ_two]
  have d2 : SimplePolygon.edgeDist2 bar.start ⟨![1, 1], ![0, 1]⟩ = 5 / 4 := by
    norm_num [SimplePolygon.edgeDist2, normSq, Segment.closestPoint, Segment.pointFromParameter,
      Segment.closestPointParametric, clamp, Line.projectPointParametric, Segment.toLine, Segment.tangentDir, dot, bar,
      Fin.sum_univ_two]
  have f0 : SimplePolygon.edgeDist2 bar.stop ⟨![0, 0], ![1, 0]⟩ = 5 / 4 := by
    norm_num [SimplePolygon.edgeDist2, normSq, Segment.closestPoint, Segment.pointFromParameter,
      Segment.closestPointParametric, clamp, Line.projectPointParametric, Segment.toLine, Segment.tangentDir, dot, bar,
      Fin.sum_univ_two]
  have f2 : SimplePolygon.edgeDist2 bar.stop ⟨![1, 1], ![0, 1]⟩ = 5 / 4 := by
    norm_num [SimplePolygon.edgeDist2, normSq, Segment.closestPoint, Segment.pointFromParameter,
      Segment.closestPointParametric, clamp, Line.projectPointParametric, Segment.toLine, Segment.tangentDir, dot, bar,
      Fin.sum_univ_two]
  have hl : unitSquare.length = 4 := rfl
  rw [SimplePolygon.segmentLoop, hl]
  simp only [List.range_succ, List.range_zero, List.nil_append, List.cons_append, List.foldl_cons, List.foldl_nil,
    g0, g1, g2, g3, x0, x1, x2, x3, d0, d2, f0, f2, SimplePolygon.below, Option.isSome_none, Option.isSome_some]
  simp

/-- C53, finding: a segment that passes through the whole polygon is reported as not intersecting it.  The
flag set for crossed edges is never read, and the crossed edges are left out of the search for the edge
closest to an end point, so that a wrong edge decides on which side the end point lies.  Here the
segment from `(-1, 1/2)` to `(2, 1/2)` and the unit square. -/
theorem C53_crossing_not_reported (norm : Point 2 ℝ → ℝ) (hn : IsNorm norm) :
    ∃ (V : List (Point 2 ℝ)) (s : Segment 2 ℝ), StrictlyConvexCcw V ∧ V.length = 4 ∧
      (∃ y, OnSegment s y ∧ y ∈ hull V) ∧ SimplePolygon.intersectsSegment norm V s = some false := by
  refine ⟨unitSquare, bar, unitSquare_convex, rfl, ⟨![0, 1 / 2], ?_, ?_⟩, ?_⟩
  · refine ⟨1 / 3, by norm_num, by norm_num, ?_⟩
    funext k
    fin_cases k <;> norm_num [lerp, bar]
  · refine edge_sub_hull unitSquare (by simp [unitSquare]) 3 _ ⟨1 / 2, by norm_num, by norm_num, ?_⟩
    funext k
    fin_cases k <;> norm_num [lerp, edge, SimplePolygon.vertex, unitSquare]
  · obtain ⟨h1, h2⟩ := bar_loop
    rw [SimplePolygon.intersectsSegment, if_neg (by simp [unitSquare]), h1, h2]
    have unit : ∀ v : Point 2 ℝ, v 0 ^ 2 + v 1 ^ 2 = 1 → norm v = 1 := by
      intro v hv
      obtain ⟨a, b⟩ := hn v
      rw [Fin.sum_univ_two, hv] at b
      nlinarith
    have u30 : norm (⟨![0, 1], ![0, 0]⟩ : Segment 2 ℝ).normalDir = 1 :=
      unit _ (by norm_num [Segment.normalDir, Segment.tangentDir])
    have u01 : norm (⟨![0, 0], ![1, 0]⟩ : Segment 2 ℝ).normalDir = 1 :=
      unit _ (by norm_num [Segment.normalDir, Segment.tangentDir])
    have u12 : norm (⟨![1, 0], ![1, 1]⟩ : Segment 2 ℝ).normalDir = 1 :=
      unit _ (by norm_num [Segment.normalDir, Segment.tangentDir])
    have g0 : SimplePolygon.getEdge unitSquare 0 = some ⟨![0, 0], ![1, 0]⟩ := rfl
    have g1 : SimplePolygon.getEdge unitSquare ((0 + 1) % unitSquare.length) = some ⟨![1, 0], ![1, 1]⟩ := rfl
    have g3 : SimplePolygon.getEdge unitSquare ((0 + unitSquare.length - 1) % unitSquare.length) =
      some ⟨![0, 1], ![0, 0]⟩ := rfl
    have t0 : (⟨![0, 0], ![1, 0]⟩ : Segment 2 ℝ).closestPointParametric bar.start = 0 := by
      norm_num [Segment.closestPointParametric, clamp, Line.projectPointParametric, Segment.toLine, Segment.tangentDir,
        dot, normSq, bar, Fin.sum_univ_two]
    have t1 : (⟨![0, 0], ![1, 0]⟩ : Segment 2 ℝ).closestPointParametric bar.stop = 1 := by
      norm_num [Segment.closestPointParametric, clamp, Line.projectPointParametric, Segment.toLine, Segment.tangentDir,
        dot, normSq, bar, Fin.sum_univ_two]
    have p0 : (⟨![0, 0], ![1, 0]⟩ : Segment 2 ℝ).pointFromParameter 0 = ![0, 0] := by
      funext k
      fin_cases k <;> norm_num [Segment.pointFromParameter, Segment.tangentDir]
    have p1 : (⟨![0, 0], ![1, 0]⟩ : Segment 2 ℝ).pointFromParameter 1 = ![1, 0] := by
      funext k
      fin_cases k <;> norm_num [Segment.pointFromParameter, Segment.tangentDir]
    have e1 : SimplePolygon.endpointInside norm unitSquare bar.start 0 = some false := by
      have hpos := corner_ne norm hn ![0, 1] ![0, 0] ![1, 0] (by norm_num [orient2])
      rw [SimplePolygon.endpointInside, g0]
      simp only [t0, SimplePolygon.pseudonormalOnEdge, g0, g3, if_true, p0]
      rw [Option.some.injEq, decide_eq_false_iff_not, not_le]
      show 0 < dot _ (normalize norm (cornerNormal norm ![0, 1] ![0, 0] ![1, 0]))
      rw [dot_normalize, corner_dot, u30, u01]
      apply div_pos _ hpos
      norm_num [orient2, bar]
    have e2 : SimplePolygon.endpointInside norm unitSquare bar.stop 0 = some false := by
      have hpos := corner_ne norm hn ![0, 0] ![1, 0] ![1, 1] (by norm_num [orient2])
      have hcn : (normalize norm fun k => (normalize norm (⟨![1, 0], ![1, 1]⟩ : Segment 2 ℝ).normalDir k +
          normalize norm (⟨![0, 0], ![1, 0]⟩ : Segment 2 ℝ).normalDir k) / 2) =
          normalize norm (cornerNormal norm ![0, 0] ![1, 0] ![1, 1]) := by
        congr 1
        funext k
        rw [cornerNormal, add_comm]
      rw [SimplePolygon.endpointInside, g0]
      simp only [t1, SimplePolygon.pseudonormalOnEdge, g0, g1, one_ne_zero, if_false, if_true, p1, hcn]
      rw [Option.some.injEq, decide_eq_false_iff_not, not_le, dot_normalize, corner_dot, u12, u01]
      apply div_pos _ hpos
      norm_num [orient2, bar]
    rw [e1]
    exact e2

/-! ### The hypotheses can be met -/

private theorem euclid : IsNorm (fun v : Point 2 ℝ => Real.sqrt (∑ i, v i ^ 2)) := fun v =>
  ⟨Real.sqrt_nonneg _, Real.sq_sqrt (Finset.sum_nonneg fun _ _ => sq_nonneg _)⟩

private theorem rustSignum : IsSignum (fun y : ℝ => if y < 0 then -1 else 1) :=
  ⟨fun x hx => if_neg hx.le.not_gt, fun x hx => if_pos hx⟩

/-- The sign function of floating-point numbers (positive zero counts as positive). -/
example : ∀ y : ℝ, (if y < 0 then (-1 : ℝ) else 1) = 1 ∨ (if y < 0 then (-1 : ℝ) else 1) = -1 := by
  intro y
  split
  · exact Or.inr rfl
  · exact Or.inl rfl

/-- The distance of the unit square to the point `(4, 5)` is five. -/
example : SimplePolygon.distance (fun v : Point 2 ℝ => Real.sqrt (∑ i, v i ^ 2)) (fun y => if y < 0 then -1 else 1)
    [![0, 0], ![1, 0], ![1, 1], ![0, 1]] ![4, 5] = some 5 := by
  obtain ⟨r, h, h0, ⟨y, hy, e⟩, hmin⟩ := C53_convex_distance _ euclid _ rustSignum unitSquare unitSquare_convex
    (by simp [unitSquare]) ![4, 5]
  have hmin' := hmin ![1, 1] (vertex_mem_hull unitSquare (by simp [unitSquare]) 2)
  have b1 := left_all unitSquare unitSquare_convex (by simp [unitSquare]) y hy 1
  have b2 := left_all unitSquare unitSquare_convex (by simp [unitSquare]) y hy 2
  norm_num [SimplePolygon.vertex, unitSquare, orient2] at b1 b2
  have q1 : r ^ 2 ≤ 25 := by
    refine hmin'.trans ?_
    norm_num [dist2, Fin.sum_univ_two]
  have q2 : 25 ≤ r ^ 2 := by
    rw [e]
    simp only [dist2, Fin.sum_univ_two, Matrix.cons_val_zero, Matrix.cons_val_one]
    nlinarith
  have : r = 5 := by nlinarith
  rw [this] at h
  exact h

/-- A segment inside the square crosses no edge and is reported. -/
example : SimplePolygon.intersectsSegment (fun v : Point 2 ℝ => Real.sqrt (∑ i, v i ^ 2)) unitSquare
    ⟨![1 / 4, 1 / 4], ![1 / 2, 1 / 2]⟩ = some true := by
  rw [C53_no_crossing_partial _ euclid unitSquare unitSquare_convex (by simp [unitSquare])]
  · refine ⟨![1 / 4, 1 / 4], ⟨0, le_rfl, zero_le_one, by funext k; simp [lerp]⟩, ?_⟩
    rw [mem_hull_iff unitSquare unitSquare_convex (by simp [unitSquare])]
    intro i hi
    have : i < 4 := hi
    interval_cases i <;> norm_num [orient2, SimplePolygon.vertex, unitSquare]
  · intro e he
    have hc : cross (⟨e.1, e.2⟩ : Segment 2 ℝ).tangentDir
        (⟨![1 / 4, 1 / 4], ![1 / 2, 1 / 2]⟩ : Segment 2 ℝ).tangentDir ≠ 0 := by
      simp [cyclicPairs, unitSquare, List.rotate] at he
      rcases he with rfl | rfl | rfl | rfl <;> norm_num [cross, Segment.tangentDir]
    by_contra hx
    obtain ⟨t, ht⟩ := Option.ne_none_iff_exists'.mp hx
    obtain ⟨t0, t1, q, q0, q1, hq⟩ := (C47_segments_meet _ _ hc t).mp ht
    have h0 := congrFun hq 0
    have h1 := congrFun hq 1
    simp [cyclicPairs, unitSquare, List.rotate] at he
    rcases he with rfl | rfl | rfl | rfl <;> norm_num [lerp] at h0 h1 <;> linarith

end Fenris.Geometry
