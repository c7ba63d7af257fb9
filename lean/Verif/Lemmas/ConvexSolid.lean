import Verif.Spec.Polyhedron
import Verif.Props.ClosestPoint
import Verif.Props.PolygonArea
/-! # Convex polygons in space and convex polyhedra -/
set_option autoImplicit false
set_option linter.unusedSectionVars false

namespace Fenris.Geometry
open Fenris.Spec
variable {K : Type} [Field K] [LinearOrder K] [IsStrictOrderedRing K]

namespace Solid3

/-! ### Affine functions -/

/-- Functions that respect affine combinations. -/
def Aff (φ : Point 3 K → K) : Prop := ∀ (x y : Point 3 K) (a b : K), a + b = 1 → φ (a • x + b • y) = a * φ x + b * φ y

/-- The height of `x` over the plane through `v` with normal `N`. -/
def lev (N v x : Point 3 K) : K := dot N fun i => x i - v i

theorem lev_aff (N v : Point 3 K) : Aff (lev N v) := by
  intro x y a b h
  obtain rfl : b = 1 - a := by linear_combination h
  simp only [lev, dot, Fin.sum_univ_three, Pi.add_apply, Pi.smul_apply, smul_eq_mul]
  ring

theorem orient_aff (N v w : Point 3 K) : Aff (orient3 N v w) := by
  intro x y a b h
  obtain rfl : b = 1 - a := by linear_combination h
  simp only [orient3, dot, cross3, Fin.sum_univ_three, Pi.add_apply, Pi.smul_apply, smul_eq_mul,
    Matrix.cons_val_zero, Matrix.cons_val_one, Matrix.cons_val]
  ring

theorem aff_convex {φ : Point 3 K → K} (h : Aff φ) : Convex K {x | 0 ≤ φ x} := by
  intro x hx y hy a b ha hb hab
  simp only [Set.mem_ofPred_eq] at hx hy ⊢
  rw [h x y a b hab]
  positivity

theorem aff_zero_convex {φ : Point 3 K → K} (h : Aff φ) : Convex K {x | φ x = 0} := by
  intro x hx y hy a b ha hb hab
  simp only [Set.mem_ofPred_eq] at hx hy ⊢
  rw [h x y a b hab, hx, hy]
  simp

/-- A convex set with the vertices contains the hull. -/
theorem hull_min (V : List (Point 3 K)) (S : Set (Point 3 K)) (hS : Convex K S) (h : ∀ v ∈ V, v ∈ S) (x : Point 3 K)
    (hx : x ∈ hull V) : x ∈ S := convexHull_min (fun v hv => h v hv) hS hx

theorem vertex_mem_hull (V : List (Point 3 K)) (v : Point 3 K) (hv : v ∈ V) : v ∈ hull V :=
  subset_convexHull K _ hv

theorem hull_mono {V W : List (Point 3 K)} (h : ∀ v ∈ V, v ∈ W) : hull V ⊆ hull W :=
  convexHull_mono fun v hv => h v hv

theorem hull_convex (V : List (Point 3 K)) : Convex K (hull V) := convex_convexHull K _

/-- The points of a hull where a function that is not negative on the vertices vanishes. -/
theorem hull_face (V W : List (Point 3 K)) {φ : Point 3 K → K} (hφ : Aff φ)
    (hpos : ∀ v ∈ V, v ∈ W ∨ 0 < φ v) (hW : ∀ v ∈ W, φ v = 0) (x : Point 3 K) (hx : x ∈ hull V) (h0 : φ x = 0) :
    x ∈ hull W := by
  have key : x ∈ {x | 0 < φ x ∨ φ x = 0 ∧ x ∈ hull W} := by
    refine hull_min V _ ?_ ?_ x hx
    · intro x hx y hy a b ha hb hab
      simp only [Set.mem_ofPred_eq] at hx hy ⊢
      rw [hφ x y a b hab]
      rcases eq_or_lt_of_le ha with rfl | ha'
      · have hb1 : b = 1 := by linear_combination hab
        subst hb1
        simpa using hy
      rcases eq_or_lt_of_le hb with rfl | hb'
      · have ha1 : a = 1 := by linear_combination hab
        subst ha1
        simpa using hx
      rcases hx with hx | ⟨hx, hx'⟩
      · left
        rcases hy with hy | ⟨hy, -⟩
        · positivity
        · rw [hy]
          have := mul_pos ha' hx
          linarith
      · rcases hy with hy | ⟨hy, hy'⟩
        · left
          rw [hx]
          have := mul_pos hb' hy
          linarith
        · right
          exact ⟨by rw [hx, hy]; ring, hull_convex W hx' hy' ha hb hab⟩
    · intro v hv
      rcases hpos v hv with h | h
      · exact .inr ⟨hW v h, vertex_mem_hull W v h⟩
      · exact .inl h
  rcases key with h | h
  · exact absurd h0 h.ne'
  · exact h.2

/-- Where a segment leaves a set given by inequalities. -/
theorem exit_aux (φs : List (Point 3 K → K)) (haff : ∀ φ ∈ φs, Aff φ) (x y : Point 3 K) (hx : ∀ φ ∈ φs, 0 ≤ φ x) :
    (∀ φ ∈ φs, 0 ≤ φ y) ∨ ∃ s : K, 0 ≤ s ∧ s ≤ 1 ∧ (∀ φ ∈ φs, 0 ≤ φ ((1 - s) • x + s • y)) ∧
      ∃ φ ∈ φs, φ ((1 - s) • x + s • y) = 0 := by
  induction φs with
  | nil => exact .inl (by simp)
  | cons φ φs ih =>
    have hφ := haff φ (by simp)
    have hφx := hx φ (by simp)
    -- between `x` and a good point everything stays good
    have mid : ∀ s s' : K, 0 ≤ s' → s' ≤ s → 0 < s → (∀ ψ ∈ φs, 0 ≤ ψ ((1 - s) • x + s • y)) →
        ∀ ψ ∈ φs, 0 ≤ ψ ((1 - s') • x + s' • y) := by
      intro s s' h0 h1 hs h ψ hψ
      have ha := haff ψ (by simp [hψ])
      have h2 := h ψ hψ
      have h3 := hx ψ (by simp [hψ])
      rw [ha _ _ _ _ (by ring)] at h2 ⊢
      have e : (1 - s') * ψ x + s' * ψ y = (1 - s' / s) * ψ x + s' / s * ((1 - s) * ψ x + s * ψ y) := by
        field_simp
        ring
      rw [e]
      have h4 : 0 ≤ s' / s := by positivity
      have h5 : 0 ≤ 1 - s' / s := by rw [sub_nonneg, div_le_one hs]; exact h1
      positivity
    rcases ih (fun ψ h => haff ψ (by simp [h])) (fun ψ h => hx ψ (by simp [h])) with h | ⟨s, h0, h1, h2, ψ, hψ, h3⟩
    · by_cases hy : 0 ≤ φ y
      · left
        intro ψ hψ
        rcases List.mem_cons.mp hψ with rfl | hψ
        · exact hy
        · exact h ψ hψ
      · right
        push Not at hy
        have hd : 0 < φ x - φ y := by linarith
        have hz : φ ((1 - φ x / (φ x - φ y)) • x + (φ x / (φ x - φ y)) • y) = 0 := by
          rw [hφ _ _ _ _ (by ring)]
          field_simp
          ring
        have hs1 : φ x / (φ x - φ y) ≤ 1 := by rw [div_le_one hd]; linarith
        refine ⟨φ x / (φ x - φ y), by positivity, hs1, ?_, φ, by simp, hz⟩
        intro ψ hψ
        rcases List.mem_cons.mp hψ with rfl | hψ
        · exact hz.ge
        · exact mid 1 _ (by positivity) hs1 one_pos (by simpa using h) ψ hψ
    · right
      by_cases hy : 0 ≤ φ ((1 - s) • x + s • y)
      · refine ⟨s, h0, h1, ?_, ψ, by simp [hψ], h3⟩
        intro ψ hψ
        rcases List.mem_cons.mp hψ with rfl | hψ
        · exact hy
        · exact h2 ψ hψ
      · push Not at hy
        have e : φ ((1 - s) • x + s • y) = φ x - s * (φ x - φ y) := by
          rw [hφ _ _ _ _ (by ring)]
          ring
        rw [e] at hy
        have hd : 0 < φ x - φ y := by
          by_contra hc
          push Not at hc
          have : s * (φ x - φ y) ≤ 0 := mul_nonpos_of_nonneg_of_nonpos h0 hc
          linarith
        have hz : φ ((1 - φ x / (φ x - φ y)) • x + (φ x / (φ x - φ y)) • y) = 0 := by
          rw [hφ _ _ _ _ (by ring)]
          field_simp
          ring
        have hs1 : φ x / (φ x - φ y) ≤ s := by
          rw [div_le_iff₀ hd]
          linarith
        have hs : 0 < s := by
          rcases eq_or_lt_of_le h0 with rfl | h
          · simp at hy; linarith
          · exact h
        refine ⟨φ x / (φ x - φ y), by positivity, by linarith, ?_, φ, by simp, hz⟩
        intro ψ hψ
        rcases List.mem_cons.mp hψ with rfl | hψ
        · exact hz.ge
        · exact mid s _ (by positivity) hs1 hs h2 ψ hψ

/-! ### Triangles in a plane -/

theorem orient_swap (N a b x : Point 3 K) : orient3 N b a x = -orient3 N a b x := by
  simp only [orient3, dot, cross3, Fin.sum_univ_three, Matrix.cons_val_zero, Matrix.cons_val_one, Matrix.cons_val]
  ring

theorem orient_cycle (N a b x : Point 3 K) : orient3 N b x a = orient3 N a b x := by
  simp only [orient3, dot, cross3, Fin.sum_univ_three, Matrix.cons_val_zero, Matrix.cons_val_one, Matrix.cons_val]
  ring

theorem orient_self (N a x : Point 3 K) : orient3 N a x a = 0 := by
  simp only [orient3, dot, cross3, Fin.sum_univ_three, Matrix.cons_val_zero, Matrix.cons_val_one, Matrix.cons_val]
  ring

theorem orient_self' (N a x : Point 3 K) : orient3 N a x x = 0 := by
  simp only [orient3, dot, cross3, Fin.sum_univ_three, Matrix.cons_val_zero, Matrix.cons_val_one, Matrix.cons_val]
  ring

theorem comb_div (D x α β γ a b c : K) (hD : D ≠ 0) (h : D * x = α * a + β * b + γ * c) :
    x = α / D * a + β / D * b + γ / D * c := by
  field_simp
  linear_combination h

theorem orient_sum (N a b c x : Point 3 K) :
    orient3 N b c x + orient3 N c a x + orient3 N a b x = orient3 N a b c := by
  simp only [orient3, dot, cross3, Fin.sum_univ_three, Matrix.cons_val_zero, Matrix.cons_val_one, Matrix.cons_val]
  ring

/-- Barycentric coordinates in a plane. -/
theorem plane_coords (N a b c x : Point 3 K) (hb : lev N a b = 0) (hc : lev N a c = 0) (hx : lev N a x = 0)
    (hN : N ≠ 0) (i : Fin 3) :
    orient3 N a b c * x i = orient3 N b c x * a i + orient3 N c a x * b i + orient3 N a b x * c i := by
  obtain ⟨k, hk⟩ : ∃ k, N k ≠ 0 := by
    by_contra h
    push Not at h
    exact hN (funext h)
  -- the triple product of three vectors in the plane vanishes
  have hdet : dot (fun i => x i - a i) (cross3 (fun i => b i - a i) fun i => c i - a i) = 0 := by
    apply (mul_eq_zero.mp _).resolve_right hk
    simp only [lev, dot, Fin.sum_univ_three] at hb hc hx
    simp only [dot, cross3, Fin.sum_univ_three, Matrix.cons_val_zero, Matrix.cons_val_one, Matrix.cons_val]
    fin_cases k <;> simp only [Fin.zero_eta, Fin.mk_one, Fin.reduceFinMk]
    · linear_combination
        ((c 1 - a 1) * (x 2 - a 2) - (c 2 - a 2) * (x 1 - a 1)) * hb + ((x 1 - a 1) * (b 2 - a 2) - (x 2 - a 2) * (b 1 - a 1)) * hc
        + ((b 1 - a 1) * (c 2 - a 2) - (b 2 - a 2) * (c 1 - a 1)) * hx
    · linear_combination
        ((c 2 - a 2) * (x 0 - a 0) - (c 0 - a 0) * (x 2 - a 2)) * hb + ((x 2 - a 2) * (b 0 - a 0) - (x 0 - a 0) * (b 2 - a 2)) * hc
        + ((b 2 - a 2) * (c 0 - a 0) - (b 0 - a 0) * (c 2 - a 2)) * hx
    · linear_combination
        ((c 0 - a 0) * (x 1 - a 1) - (c 1 - a 1) * (x 0 - a 0)) * hb + ((x 0 - a 0) * (b 1 - a 1) - (x 1 - a 1) * (b 0 - a 0)) * hc
        + ((b 0 - a 0) * (c 1 - a 1) - (b 1 - a 1) * (c 0 - a 0)) * hx
  simp only [dot, cross3, Fin.sum_univ_three, Matrix.cons_val_zero, Matrix.cons_val_one, Matrix.cons_val] at hdet
  simp only [orient3, dot, cross3, Fin.sum_univ_three, Matrix.cons_val_zero, Matrix.cons_val_one, Matrix.cons_val]
  fin_cases i <;> simp only [Fin.zero_eta, Fin.mk_one, Fin.reduceFinMk]
  · linear_combination N 0 * hdet
  · linear_combination N 1 * hdet
  · linear_combination N 2 * hdet

/-! ### Polygons -/

theorem mem_cyclic (V : List (Point 3 K)) (i : Nat) (hi : i < V.length) :
    (SimplePolygon.vertex V i, SimplePolygon.vertex V (i + 1)) ∈ cyclicPairs V := by
  rw [← range_edges]
  exact List.mem_map.mpr ⟨i, List.mem_range.mpr hi, rfl⟩

theorem of_mem_cyclic (V : List (Point 3 K)) (e : Point 3 K × Point 3 K) (he : e ∈ cyclicPairs V) :
    ∃ i < V.length, e = (SimplePolygon.vertex V i, SimplePolygon.vertex V (i + 1)) := by
  rw [← range_edges] at he
  obtain ⟨i, hi, rfl⟩ := List.mem_map.mp he
  exact ⟨i, List.mem_range.mp hi, rfl⟩

theorem vertex_mem (V : List (Point 3 K)) (h : 0 < V.length) (i : Nat) : SimplePolygon.vertex V i ∈ V := by
  have hm : i % V.length < V.length := Nat.mod_lt _ h
  rw [SimplePolygon.vertex, List.getD_eq_getElem?_getD, List.getElem?_eq_getElem hm, Option.getD_some]
  exact List.getElem_mem hm

theorem vertex_ne (V : List (Point 3 K)) (hn : V.Nodup) (i j : Nat) (h : i % V.length ≠ j % V.length) (h0 : 0 < V.length) :
    SimplePolygon.vertex V i ≠ SimplePolygon.vertex V j := by
  have hi : i % V.length < V.length := Nat.mod_lt _ h0
  have hj : j % V.length < V.length := Nat.mod_lt _ h0
  rw [SimplePolygon.vertex, SimplePolygon.vertex, List.getD_eq_getElem?_getD, List.getD_eq_getElem?_getD,
    List.getElem?_eq_getElem hi, List.getElem?_eq_getElem hj, Option.getD_some, Option.getD_some]
  intro e
  exact h ((List.Nodup.getElem_inj_iff hn).mp e)

theorem sign_change (g : Nat → K) (n : Nat) (hn : 3 ≤ n) (h1 : 0 ≤ g 1) (h2 : g (n - 1) ≤ 0) :
    ∃ i, 1 ≤ i ∧ i + 1 < n ∧ 0 ≤ g i ∧ g (i + 1) ≤ 0 := by
  have step : ∀ k, k + 2 < n → (∃ i, 1 ≤ i ∧ i + 1 < n ∧ 0 ≤ g i ∧ g (i + 1) ≤ 0) ∨ 0 ≤ g (k + 1) := by
    intro k
    induction k with
    | zero => exact fun _ => .inr h1
    | succ k ih =>
      intro hk
      rcases ih (by omega) with h | h
      · exact .inl h
      · rcases le_total (g (k + 1 + 1)) 0 with h' | h'
        · exact .inl ⟨k + 1, by omega, by omega, h, h'⟩
        · exact .inr h'
  rcases step (n - 3) (by omega) with h | h
  · exact h
  · exact ⟨n - 3 + 1, by omega, by omega, h, by rwa [show n - 3 + 1 + 1 = n - 1 by omega]⟩

section face
variable {N : Point 3 K} {V : List (Point 3 K)} (hV : ConvexFace N V)
include hV

theorem face_pos : 0 < V.length := by have := hV.three; omega

/-- The fan triangles have a positive area. -/
theorem face_fan (i : Nat) (h1 : 1 ≤ i) (h2 : i + 1 < V.length) :
    0 < orient3 N (SimplePolygon.vertex V 0) (SimplePolygon.vertex V i) (SimplePolygon.vertex V (i + 1)) := by
  have h0 := face_pos hV
  have e0 : 0 % V.length = 0 := Nat.zero_mod _
  have e1 : i % V.length = i := Nat.mod_eq_of_lt (by omega)
  have e2 : (i + 1) % V.length = i + 1 := Nat.mod_eq_of_lt h2
  rcases hV.left (SimplePolygon.vertex V i, SimplePolygon.vertex V (i + 1)) (mem_cyclic V i (by omega)) _ (vertex_mem V h0 0) with h | h | h
  · exact absurd h (vertex_ne V hV.nodup _ _ (by omega) h0)
  · exact absurd h (vertex_ne V hV.nodup _ _ (by omega) h0)
  · have := orient_cycle N (SimplePolygon.vertex V 0) (SimplePolygon.vertex V i) (SimplePolygon.vertex V (i + 1))
    simp only at h
    rwa [this] at h

theorem face_ne : N ≠ 0 := by
  rintro rfl
  have := face_fan hV 1 le_rfl hV.three
  simp [orient3, dot] at this

/-- Every edge has a vertex strictly on its left. -/
theorem face_third (e : Point 3 K × Point 3 K) (he : e ∈ cyclicPairs V) : ∃ w ∈ V, 0 < orient3 N e.1 e.2 w := by
  obtain ⟨i, hi, rfl⟩ := of_mem_cyclic V e he
  have h0 := face_pos hV
  have h3 := hV.three
  have a1 : (i + 2) % V.length ≠ i % V.length := by
    intro h
    have := Nat.sub_mod_eq_zero_of_mod_eq h
    rw [Nat.add_sub_cancel_left] at this
    rw [Nat.mod_eq_of_lt (by omega)] at this
    omega
  have a2 : (i + 2) % V.length ≠ (i + 1) % V.length := by
    intro h
    have := Nat.sub_mod_eq_zero_of_mod_eq h
    rw [show i + 2 - (i + 1) = 1 by omega, Nat.mod_eq_of_lt (by omega)] at this
    omega
  refine ⟨SimplePolygon.vertex V (i + 2), vertex_mem V h0 _, ?_⟩
  rcases hV.left _ he _ (vertex_mem V h0 (i + 2)) with h | h | h
  · exact absurd h (vertex_ne V hV.nodup _ _ a1 h0)
  · exact absurd h (vertex_ne V hV.nodup _ _ a2 h0)
  · exact h

theorem edge_mem (e : Point 3 K × Point 3 K) (he : e ∈ cyclicPairs V) : e.1 ∈ V ∧ e.2 ∈ V := by
  obtain ⟨i, hi, rfl⟩ := of_mem_cyclic V e he
  exact ⟨vertex_mem V (face_pos hV) _, vertex_mem V (face_pos hV) _⟩

theorem hull_plane (v : Point 3 K) (hv : v ∈ V) (x : Point 3 K) (hx : x ∈ hull V) : lev N v x = 0 :=
  hull_min V {x | lev N v x = 0} (aff_zero_convex (lev_aff N v)) (fun w hw => hV.plane v hv w hw) x hx

theorem hull_left (e : Point 3 K × Point 3 K) (he : e ∈ cyclicPairs V) (x : Point 3 K) (hx : x ∈ hull V) :
    0 ≤ orient3 N e.1 e.2 x := by
  refine hull_min V {x | 0 ≤ orient3 N e.1 e.2 x} (aff_convex (orient_aff N _ _)) (fun w hw => ?_) x hx
  rcases hV.left e he w hw with rfl | rfl | h
  · exact (orient_self N _ _).ge
  · exact (orient_self' N _ _).ge
  · exact h.le

/-- The polygon is cut out of its plane by its edges. -/
theorem mem_hull_of (x : Point 3 K) (hx : ∀ v ∈ V, lev N v x = 0)
    (hl : ∀ e ∈ cyclicPairs V, 0 ≤ orient3 N e.1 e.2 x) : x ∈ hull V := by
  have h0 := face_pos hV
  have h3 := hV.three
  have hedge : ∀ i < V.length, 0 ≤ orient3 N (SimplePolygon.vertex V i) (SimplePolygon.vertex V (i + 1)) x :=
    fun i hi => hl (SimplePolygon.vertex V i, SimplePolygon.vertex V (i + 1)) (mem_cyclic V i hi)
  have hwrap : SimplePolygon.vertex V (V.length - 1 + 1) = SimplePolygon.vertex V 0 := by
    simp only [SimplePolygon.vertex, Nat.sub_add_cancel h0, Nat.mod_self, Nat.zero_mod]
  have hm := fun k => vertex_mem V h0 k
  have hfan := face_fan hV
  generalize SimplePolygon.vertex V = v at hedge hwrap hm hfan
  have hlast : orient3 N (v 0) (v (V.length - 1)) x ≤ 0 := by
    have h := hedge (V.length - 1) (by omega)
    rw [hwrap, orient_swap] at h
    exact neg_nonneg.mp h
  obtain ⟨i, h1, h2, hi, hi'⟩ := sign_change (fun i => orient3 N (v 0) (v i) x) V.length h3 (hedge 0 h0) hlast
  have hD := hfan i h1 h2
  have hc := plane_coords N (v 0) (v i) (v (i + 1)) x (hV.plane _ (hm 0) _ (hm i)) (hV.plane _ (hm 0) _ (hm (i + 1)))
    (hx _ (hm 0)) (face_ne hV)
  have hs := hedge i (by omega)
  have hs' : 0 ≤ orient3 N (v (i + 1)) (v 0) x := by rw [orient_swap]; linarith
  refine hull_mono (V := [v 0, v i, v (i + 1)]) ?_ ((Closest.mem_hull3 _ _ _ _).mpr
    ⟨orient3 N (v i) (v (i + 1)) x / orient3 N (v 0) (v i) (v (i + 1)),
      orient3 N (v (i + 1)) (v 0) x / orient3 N (v 0) (v i) (v (i + 1)),
      orient3 N (v 0) (v i) x / orient3 N (v 0) (v i) (v (i + 1)),
      div_nonneg hs hD.le, div_nonneg hs' hD.le, div_nonneg hi hD.le, ?_, ?_⟩)
  · intro w hw
    simp only [List.mem_cons, List.not_mem_nil, or_false] at hw
    rcases hw with rfl | rfl | rfl <;> exact hm _
  · rw [← add_div, ← add_div, div_eq_one_iff_eq hD.ne']
    exact orient_sum N _ _ _ x
  · exact funext fun k => comb_div _ _ _ _ _ _ _ _ hD.ne' (hc k)

/-- The points of the polygon on the line of an edge are on the edge. -/
theorem edge_of_zero (e : Point 3 K × Point 3 K) (he : e ∈ cyclicPairs V) (x : Point 3 K) (hx : x ∈ hull V)
    (h0 : orient3 N e.1 e.2 x = 0) : x ∈ hull [e.1, e.2] := by
  refine hull_face V [e.1, e.2] (orient_aff N e.1 e.2) ?_ ?_ x hx h0
  · intro w hw
    rcases hV.left e he w hw with h | h | h
    · exact .inl (by simp [h])
    · exact .inl (by simp [h])
    · exact .inr h
  · intro w hw
    simp only [List.mem_cons, List.not_mem_nil, or_false] at hw
    rcases hw with rfl | rfl
    · exact orient_self N _ _
    · exact orient_self' N _ _

theorem face_scale (c : K) (hc : 0 < c) : ConvexFace (c • N) V := by
  have h : ∀ a b x, orient3 (c • N) a b x = c * orient3 N a b x := by
    intro a b x
    simp only [orient3, dot, Fin.sum_univ_three, Pi.smul_apply, smul_eq_mul]
    ring
  refine ⟨hV.three, hV.nodup, fun v hv w hw => ?_, fun e he w hw => ?_⟩
  · have := hV.plane v hv w hw
    simp only [dot, Fin.sum_univ_three, Pi.smul_apply, smul_eq_mul] at this ⊢
    linear_combination c * this
  · rcases hV.left e he w hw with h' | h' | h'
    · exact .inl h'
    · exact .inr (.inl h')
    · exact .inr (.inr (by rw [h]; positivity))

/-- The normal of a triangle in the plane. -/
theorem normal_parallel (a b c : Point 3 K) (ha : a ∈ V) (hb : b ∈ V) (hc : c ∈ V) :
    (dot N N) • cross3 (fun i => b i - a i) (fun i => c i - a i) = orient3 N a b c • N := by
  have h1 := hV.plane a ha b hb
  have h2 := hV.plane a ha c hc
  simp only [dot, Fin.sum_univ_three] at h1 h2
  funext i
  simp only [orient3, dot, cross3, Fin.sum_univ_three, Matrix.cons_val_zero, Matrix.cons_val_one, Matrix.cons_val,
    Pi.smul_apply, smul_eq_mul]
  fin_cases i <;> simp only [Fin.zero_eta, Fin.mk_one, Fin.reduceFinMk, Matrix.cons_val_zero, Matrix.cons_val_one, Matrix.cons_val]
  · linear_combination (N 1 * (c 2 - a 2) - N 2 * (c 1 - a 1)) * h1 - (N 1 * (b 2 - a 2) - N 2 * (b 1 - a 1)) * h2
  · linear_combination (N 2 * (c 0 - a 0) - N 0 * (c 2 - a 2)) * h1 - (N 2 * (b 0 - a 0) - N 0 * (b 2 - a 2)) * h2
  · linear_combination (N 0 * (c 1 - a 1) - N 1 * (c 0 - a 0)) * h1 - (N 0 * (b 1 - a 1) - N 1 * (b 0 - a 0)) * h2

theorem dot_self_pos : 0 < dot N N := by
  obtain ⟨k, hk⟩ : ∃ k, N k ≠ 0 := by
    by_contra h
    push Not at h
    exact face_ne hV (funext h)
  rw [dot]
  exact Finset.sum_pos' (fun i _ => mul_self_nonneg _) ⟨k, Finset.mem_univ k, mul_self_pos.mpr hk⟩

/-- The area vector points along the normal. -/
theorem area_parallel : ∃ c : K, 0 < c ∧ SimplePolygon.computeAreaVector V = some (c • N) := by
  have h3 := hV.three
  have hd := dot_self_pos hV
  have hm := fun k => vertex_mem V (face_pos hV) k
  have key : ∀ (l : List Nat) (c0 : K), (∀ i ∈ l, 1 ≤ i ∧ i + 1 < V.length) →
      l.foldl (fun acc i => acc + (1 / 2 : K) • cross3 (fun k => V.getD i 0 k - V.getD 0 0 k)
        (fun k => V.getD (i + 1) 0 k - V.getD 0 0 k)) (c0 • N) =
      (c0 + (l.map fun i => 1 / 2 * orient3 N (SimplePolygon.vertex V 0) (SimplePolygon.vertex V i)
        (SimplePolygon.vertex V (i + 1)) / dot N N).sum) • N := by
    intro l
    induction l with
    | nil => intro c0 _; simp
    | cons i l ih =>
      intro c0 hl
      obtain ⟨h1, h2⟩ := hl i (by simp)
      have e : ∀ j, j < V.length → V.getD j 0 = SimplePolygon.vertex V j := by
        intro j hj
        rw [vertex_eq V j hj, List.getD_eq_getElem?_getD, List.getElem?_eq_getElem hj, Option.getD_some]
      have hp := normal_parallel hV _ _ _ (hm 0) (hm i) (hm (i + 1))
      have hp' : cross3 (fun k => SimplePolygon.vertex V i k - SimplePolygon.vertex V 0 k)
          (fun k => SimplePolygon.vertex V (i + 1) k - SimplePolygon.vertex V 0 k) =
          (orient3 N (SimplePolygon.vertex V 0) (SimplePolygon.vertex V i) (SimplePolygon.vertex V (i + 1)) / dot N N) • N := by
        rw [div_eq_inv_mul, mul_smul, ← hp, smul_smul, inv_mul_cancel₀ hd.ne', one_smul]
      rw [List.foldl_cons, e 0 (by omega), e i (by omega), e (i + 1) (by omega), hp', smul_smul, ← add_smul]
      have := ih (c0 + 1 / 2 * (orient3 N (SimplePolygon.vertex V 0) (SimplePolygon.vertex V i)
        (SimplePolygon.vertex V (i + 1)) / dot N N)) (fun j hj => hl j (by simp [hj]))
      rw [e 0 (by omega)] at this
      rw [this, List.map_cons, List.sum_cons]
      congr 1
      ring
  have hk := key (List.range' 1 (V.length - 1 - 1)) 0 (by
    intro i hi
    have := List.mem_range'_1.mp hi
    omega)
  rw [zero_smul, zero_add] at hk
  refine ⟨_, ?_, by rw [SimplePolygon.computeAreaVector, if_pos h3, hk]⟩
  · obtain ⟨m, hm'⟩ : ∃ m, V.length - 1 - 1 = m + 1 := ⟨V.length - 3, by omega⟩
    apply List.sum_pos
    · intro y hy
      obtain ⟨i, hi, rfl⟩ := List.mem_map.mp hy
      have := List.mem_range'_1.mp hi
      have := face_fan hV i (by omega) (by omega)
      positivity
    · simp [hm', List.range'_succ]

/-- The normal computed by the code. -/
theorem normal_spec (norm : Point 3 K → K) (hn : IsNorm norm) :
    ∃ n, Polygon3.normal norm V = some n ∧ ConvexFace n V ∧ dot n n = 1 ∧ ∃ c : K, 0 < c ∧ n = c • N := by
  obtain ⟨c, hc, h⟩ := area_parallel hV
  have hA := face_scale hV c hc
  have hne := face_ne hA
  have hpos : 0 < norm (c • N) := by
    obtain ⟨h0, h2⟩ := hn (c • N)
    rcases eq_or_lt_of_le h0 with h | h
    · exfalso
      rw [← h] at h2
      have hd := dot_self_pos hA
      simp only [dot, Fin.sum_univ_three] at hd
      simp only [Fin.sum_univ_three] at h2
      nlinarith [hd, h2]
    · exact h
  have e : normalize norm (c • N) = (1 / norm (c • N)) • (c • N) := by
    funext i
    simp only [normalize, Pi.smul_apply, smul_eq_mul]
    ring
  refine ⟨normalize norm (c • N), by rw [Polygon3.normal, h]; rfl, ?_, ?_, 1 / norm (c • N) * c, by positivity, ?_⟩
  · rw [e]
    exact face_scale hA _ (by positivity)
  · have h2 := (hn (c • N)).2
    simp only [Fin.sum_univ_three] at h2
    simp only [dot, normalize, Fin.sum_univ_three]
    field_simp
    linear_combination -h2
  · rw [e, smul_smul]

end face

/-! ### Polyhedra -/

theorem lev_shift (N v w x : Point 3 K) : lev N v x = lev N v w + lev N w x := by
  simp only [lev, dot, Fin.sum_univ_three]
  ring

theorem lev_self (N v : Point 3 K) : lev N v v = 0 := by simp [lev, dot]

theorem lev_add (N v x u : Point 3 K) (t : K) : lev N v (x + t • u) = lev N v x + t * dot N u := by
  simp only [lev, dot, Fin.sum_univ_three, Pi.add_apply, Pi.smul_apply, smul_eq_mul]
  ring

theorem dot_aff (c : Point 3 K) : Aff (dot c) := by
  intro x y a b _
  simp only [dot, Fin.sum_univ_three, Pi.add_apply, Pi.smul_apply, smul_eq_mul]
  ring

theorem dot_add (c x u : Point 3 K) (t : K) : dot c (x + t • u) = dot c x + t * dot c u := by
  simp only [dot, Fin.sum_univ_three, Pi.add_apply, Pi.smul_apply, smul_eq_mul]
  ring

theorem dot_pos_of_ne (u : Point 3 K) (hu : u ≠ 0) : 0 < dot u u := by
  obtain ⟨k, hk⟩ : ∃ k, u k ≠ 0 := by
    by_contra h
    push Not at h
    exact hu (funext h)
  rw [dot]
  exact Finset.sum_pos' (fun i _ => mul_self_nonneg _) ⟨k, Finset.mem_univ k, mul_self_pos.mpr hk⟩

theorem exists_bound {α : Type} (l : List α) (f : α → K) : ∃ M, ∀ a ∈ l, f a ≤ M := by
  induction l with
  | nil => exact ⟨0, by simp⟩
  | cons a l ih =>
    obtain ⟨M, h⟩ := ih
    refine ⟨max M (f a), fun b hb => ?_⟩
    rcases List.mem_cons.mp hb with rfl | hb
    · exact le_max_right _ _
    · exact (h b hb).trans (le_max_left _ _)

/-- Far enough along increasing functions all are non-negative. -/
theorem exists_far {α : Type} (l : List α) (f g : α → K) (hg : ∀ a ∈ l, 0 < g a) :
    ∃ s : K, ∀ a ∈ l, 0 ≤ f a + s * g a := by
  obtain ⟨M, h⟩ := exists_bound l fun a => -f a / g a
  refine ⟨M, fun a ha => ?_⟩
  have := h a ha
  rw [div_le_iff₀ (hg a ha)] at this
  linarith

theorem hull_bound (V : List (Point 3 K)) (c : Point 3 K) (M : K) (h : ∀ v ∈ V, dot c v ≤ M) (x : Point 3 K)
    (hx : x ∈ hull V) : dot c x ≤ M := by
  refine hull_min V {x | dot c x ≤ M} ?_ h x hx
  intro x hx y hy a b ha hb hab
  simp only [Set.mem_ofPred_eq] at hx hy ⊢
  rw [dot_aff c x y a b hab]
  have h1 := mul_le_mul_of_nonneg_left hx ha
  have h2 := mul_le_mul_of_nonneg_left hy hb
  have : a * M + b * M = M := by rw [← add_mul, hab, one_mul]
  linarith

section solid
variable {faces : List (List (Point 3 K))} {nf : List (Point 3 K) → Point 3 K}

/-- The intersection of the half-spaces of the faces. -/
def Region (nf : List (Point 3 K) → Point 3 K) (faces : List (List (Point 3 K))) (x : Point 3 K) : Prop :=
  ∀ f ∈ faces, ∀ v ∈ f, 0 ≤ lev (nf f) v x

/-- The normals of a convex polyhedron. -/
structure Good (nf : List (Point 3 K) → Point 3 K) (faces : List (List (Point 3 K))) : Prop where
  face : ∀ f ∈ faces, ConvexFace (nf f) f
  inside : ∀ f ∈ faces, ∀ g ∈ faces, ∀ w ∈ g, w ∈ f ∨ ∀ v ∈ f, 0 < lev (nf f) v w

variable (hG : Good nf faces) (hS : ConvexSolid faces)
include hG

theorem region_vertex (g : List (Point 3 K)) (hg : g ∈ faces) (w : Point 3 K) (hw : w ∈ g) : Region nf faces w := by
  intro f hf v hv
  rcases hG.inside f hf g hg w hw with h | h
  · exact ((hG.face f hf).plane v hv w h).ge
  · exact (h v hv).le

theorem region_of_solid (x : Point 3 K) (hx : x ∈ solid faces) : Region nf faces x := by
  intro f hf v hv
  refine hull_min faces.flatten {x | 0 ≤ lev (nf f) v x} (aff_convex (lev_aff _ _)) (fun w hw => ?_) x hx
  obtain ⟨g, hg, hw⟩ := List.mem_flatten.mp hw
  exact region_vertex hG g hg w hw f hf v hv

include hS

/-- The points of the region in the plane of a face are the points of the face. -/
theorem facet (x : Point 3 K) (hx : Region nf faces x) (f : List (Point 3 K)) (hf : f ∈ faces) (v : Point 3 K) (hv : v ∈ f)
    (h0 : lev (nf f) v x = 0) : x ∈ hull f := by
  have hF := hG.face f hf
  have hplane : ∀ v' ∈ f, lev (nf f) v' x = 0 := by
    intro v' hv'
    rw [lev_shift _ v' v, h0]
    have := hF.plane v' hv' v hv
    simpa [lev] using this
  refine mem_hull_of hF x hplane ?_
  intro e he
  obtain ⟨g, hg, ha, hb, w, hw, hwg⟩ := hS.closed f hf e he
  obtain ⟨hae, hbe⟩ := edge_mem hF e he
  have hD : 0 < orient3 (nf f) e.1 e.2 w := by
    rcases hF.left e he w hw with h | h | h
    · exact absurd (h ▸ ha) hwg
    · exact absurd (h ▸ hb) hwg
    · exact h
  have hlw : 0 < lev (nf g) e.1 w := ((hG.inside g hg f hf w hw).resolve_left hwg) e.1 ha
  have hlb : lev (nf g) e.1 e.2 = 0 := (hG.face g hg).plane e.1 ha e.2 hb
  have hlx : 0 ≤ lev (nf g) e.1 x := hx g hg e.1 ha
  have hc := plane_coords (nf f) e.1 e.2 w x (hF.plane _ hae _ hbe) (hF.plane _ hae _ hw) (hplane _ hae) (face_ne hF)
  have hs := orient_sum (nf f) e.1 e.2 w x
  have key : orient3 (nf f) e.1 e.2 w * lev (nf g) e.1 x = orient3 (nf f) e.1 e.2 x * lev (nf g) e.1 w := by
    have h0 := hc 0
    have h1 := hc 1
    have h2 := hc 2
    simp only [lev, dot, Fin.sum_univ_three] at hlb ⊢
    linear_combination nf g 0 * h0 + nf g 1 * h1 + nf g 2 * h2 + orient3 (nf f) w e.1 x * hlb
      + (nf g 0 * e.1 0 + nf g 1 * e.1 1 + nf g 2 * e.1 2) * hs
  by_contra hneg
  push Not at hneg
  have h1 : 0 ≤ orient3 (nf f) e.1 e.2 w * lev (nf g) e.1 x := mul_nonneg hD.le hlx
  have h2 := mul_neg_of_neg_of_pos hneg hlw
  linarith

/-- Where a segment from the region to a point outside leaves the region. -/
theorem region_exit (x y : Point 3 K) (hx : Region nf faces x) (hy : ¬ Region nf faces y) :
    ∃ s : K, 0 ≤ s ∧ s ≤ 1 ∧ ∃ f ∈ faces, (1 - s) • x + s • y ∈ hull f := by
  have hv0 : ∀ f ∈ faces, SimplePolygon.vertex f 0 ∈ f := fun f hf => vertex_mem f (face_pos (hG.face f hf)) 0
  have hreg : ∀ z, Region nf faces z ↔
      ∀ φ ∈ faces.map (fun f => lev (nf f) (SimplePolygon.vertex f 0)), 0 ≤ φ z := by
    intro z
    constructor
    · intro h φ hφ
      obtain ⟨f, hf, rfl⟩ := List.mem_map.mp hφ
      exact h f hf _ (hv0 f hf)
    · intro h f hf v hv
      have := h _ (List.mem_map.mpr ⟨f, hf, rfl⟩)
      rw [lev_shift _ v (SimplePolygon.vertex f 0)]
      have h0 : lev (nf f) v (SimplePolygon.vertex f 0) = 0 := (hG.face f hf).plane v hv _ (hv0 f hf)
      linarith
  rcases exit_aux (faces.map (fun f => lev (nf f) (SimplePolygon.vertex f 0)))
      (by intro φ hφ; obtain ⟨f, -, rfl⟩ := List.mem_map.mp hφ; exact lev_aff _ _) x y ((hreg x).mp hx)
    with h | ⟨s, h0, h1, h2, φ, hφ, h3⟩
  · exact absurd ((hreg y).mpr h) hy
  · obtain ⟨f, hf, rfl⟩ := List.mem_map.mp hφ
    exact ⟨s, h0, h1, f, hf, facet hG hS _ ((hreg _).mpr h2) f hf _ (hv0 f hf) h3⟩

/-- The region is bounded in every direction. -/
theorem bounded (u : Point 3 K) (hu : u ≠ 0) : ∃ f ∈ faces, dot (nf f) u < 0 := by
  by_contra hall
  push Not at hall
  have huu := dot_pos_of_ne u hu
  by_cases hz : ∃ f ∈ faces, dot (nf f) u = 0
  · obtain ⟨f, hf, h0⟩ := hz
    have hv := vertex_mem f (face_pos (hG.face f hf)) 0
    generalize SimplePolygon.vertex f 0 = v at hv
    obtain ⟨M, hM⟩ := exists_bound f (dot u)
    have hMv := hM v hv
    set t := (M - dot u v + 1) / dot u u with ht
    have htp : 0 ≤ t := by
      rw [ht]
      apply div_nonneg _ huu.le
      linarith
    have hin : v + t • u ∈ hull f := by
      refine facet hG hS _ ?_ f hf v hv ?_
      · intro g hg w hw
        rw [lev_add]
        have h1 := region_vertex hG f hf v hv g hg w hw
        have h2 := mul_nonneg htp (hall g hg)
        linarith
      · rw [lev_add, h0, lev_self]
        ring
    have := hull_bound f u M hM _ hin
    rw [dot_add] at this
    have e : t * dot u u = M - dot u v + 1 := by
      rw [ht]
      field_simp
    linarith
  · push Not at hz
    have hpos : ∀ f ∈ faces, 0 < dot (nf f) u := fun f hf => lt_of_le_of_ne (hall f hf) (hz f hf).symm
    obtain ⟨c, hc, hcu⟩ : ∃ c : Point 3 K, c ≠ 0 ∧ dot c u = 0 := by
      by_cases h : u 0 = 0
      · refine ⟨![1, 0, 0], fun h' => ?_, by simp [dot, Fin.sum_univ_three, h]⟩
        have := congrFun h' 0
        simp at this
      · refine ⟨![-u 1, u 0, 0], fun h' => ?_, by simp [dot, Fin.sum_univ_three]; ring⟩
        have := congrFun h' 1
        simp at this
        exact h this
    have hcc := dot_pos_of_ne c hc
    obtain ⟨M, hM⟩ := exists_bound faces.flatten (dot c)
    set y0 : Point 3 K := ((M + 1) / dot c c) • c with hy0
    have hy : dot c y0 = M + 1 := by
      have : dot c y0 = (M + 1) / dot c c * dot c c := by
        have := dot_add c 0 c ((M + 1) / dot c c)
        rw [zero_add] at this
        rw [hy0, this]
        simp [dot]
      rw [this]
      field_simp
    have hv0 : ∀ f ∈ faces, SimplePolygon.vertex f 0 ∈ f := fun f hf => vertex_mem f (face_pos (hG.face f hf)) 0
    obtain ⟨s, hs⟩ := exists_far faces (fun f => lev (nf f) (SimplePolygon.vertex f 0) y0) (fun f => dot (nf f) u) hpos
    obtain ⟨f0, hf0⟩ := List.exists_mem_of_ne_nil _ hS.nonempty
    obtain ⟨s', hs'⟩ : ∃ s' : K, lev (nf f0) (SimplePolygon.vertex f0 0) y0 + s' * dot (nf f0) u < 0 := by
      refine ⟨-(lev (nf f0) (SimplePolygon.vertex f0 0) y0 + 1) / dot (nf f0) u, ?_⟩
      rw [div_mul_cancel₀ _ (hpos f0 hf0).ne']
      linarith
    obtain ⟨r, -, -, f, hf, hz'⟩ := region_exit hG hS (y0 + s • u) (y0 + s' • u) (by
        intro f hf v hv
        rw [lev_shift _ v (SimplePolygon.vertex f 0), lev_add]
        have h0 : lev (nf f) v (SimplePolygon.vertex f 0) = 0 := (hG.face f hf).plane v hv _ (hv0 f hf)
        have := hs f hf
        linarith) (by
        intro h
        have := h f0 hf0 _ (hv0 f0 hf0)
        rw [lev_add] at this
        linarith)
    have h1 := hull_bound f c M (fun v hv => hM v (List.mem_flatten.mpr ⟨f, hf, hv⟩)) _ hz'
    rw [dot_aff c _ _ _ _ (by ring), dot_add, dot_add, hcu, hy] at h1
    have : (1 - r) * (M + 1 + s * 0) + r * (M + 1 + s' * 0) = M + 1 := by ring
    linarith

theorem exit_ray (x u : Point 3 K) (hx : Region nf faces x) (hu : u ≠ 0) :
    ∃ t : K, 0 ≤ t ∧ ∃ f ∈ faces, x + t • u ∈ hull f := by
  obtain ⟨f, hf, hneg⟩ := bounded hG hS u hu
  have hv := vertex_mem f (face_pos (hG.face f hf)) 0
  set T := (lev (nf f) (SimplePolygon.vertex f 0) x + 1) / -dot (nf f) u with hT
  have hTp : 0 ≤ T := by
    have := hx f hf _ hv
    rw [hT]
    apply div_nonneg <;> linarith
  obtain ⟨s, h0, h1, g, hg, hz⟩ := region_exit hG hS x (x + T • u) hx (by
    intro h
    have := h f hf _ hv
    rw [lev_add] at this
    have e : T * dot (nf f) u = -(lev (nf f) (SimplePolygon.vertex f 0) x + 1) := by
      rw [hT, div_neg, neg_mul, div_mul_cancel₀ _ hneg.ne]
    linarith)
  refine ⟨s * T, by positivity, g, hg, ?_⟩
  have e : (1 - s) • x + s • (x + T • u) = x + (s * T) • u := by
    funext i
    simp only [Pi.add_apply, Pi.smul_apply, smul_eq_mul]
    ring
  rwa [e] at hz

/-- The region is the convex hull of the vertices. -/
theorem solid_iff_region (x : Point 3 K) : x ∈ solid faces ↔ Region nf faces x := by
  refine ⟨region_of_solid hG x, fun hx => ?_⟩
  have hu : (![1, 0, 0] : Point 3 K) ≠ 0 := by
    intro h
    have := congrFun h 0
    simp at this
  have hu' : -(![1, 0, 0] : Point 3 K) ≠ 0 := neg_ne_zero.mpr hu
  have hsub : ∀ f ∈ faces, hull f ⊆ solid faces :=
    fun f hf => hull_mono fun v hv => List.mem_flatten.mpr ⟨f, hf, hv⟩
  obtain ⟨t1, h1, f1, hf1, hz1⟩ := exit_ray hG hS x _ hx hu
  obtain ⟨t2, h2, f2, hf2, hz2⟩ := exit_ray hG hS x _ hx hu'
  have hz1' := hsub f1 hf1 hz1
  have hz2' := hsub f2 hf2 hz2
  generalize (![1, 0, 0] : Point 3 K) = u at hz1' hz2'
  rcases eq_or_lt_of_le (add_nonneg h1 h2) with h | h
  · have : t1 = 0 := by linarith
    subst this
    simpa using hz1'
  · have := hull_convex faces.flatten hz1' hz2' (a := t2 / (t1 + t2)) (b := t1 / (t1 + t2)) (by positivity) (by positivity)
      (by field_simp; ring)
    have e : (t2 / (t1 + t2)) • (x + t1 • u) + (t1 / (t1 + t2)) • (x + t2 • -u) = x := by
      funext i
      simp only [Pi.add_apply, Pi.smul_apply, smul_eq_mul, Pi.neg_apply]
      field_simp
      ring
    rwa [e] at this

end solid

end Solid3
end Fenris.Geometry
