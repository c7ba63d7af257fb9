import Verif.Spec.Polygon
import Verif.Lemmas.Clip
import Mathlib.Analysis.Convex.Combination
import Verif.Props.Lines
import Mathlib.Analysis.Real.Sqrt
/-! # C49: clipping convex polygons -/
set_option autoImplicit false
set_option linter.unusedSectionVars false

namespace Fenris.Geometry
open Fenris.Spec Fenris.Clip
variable {K : Type} [Field K] [LinearOrder K] [IsStrictOrderedRing K] {d : Nat}

private theorem height_affine (h : HalfSpace d K) : IsAffine (height h) := by
  intro x y a b hab
  simp only [height, Pi.add_apply, Pi.smul_apply, smul_eq_mul, Finset.mul_sum,
    ← Finset.sum_add_distrib]
  refine Finset.sum_congr rfl fun i _ => ?_
  linear_combination h.point i * h.normal i * hab

theorem orient2_orient : IsOrient (orient2 : Point 2 K → Point 2 K → Point 2 K → K) where
  affine := by
    intro p q x y a b hab
    simp only [orient2, Pi.add_apply, Pi.smul_apply, smul_eq_mul]
    linear_combination (p 0 * q 1 - p 1 * q 0) * (-hab)
  cyc := by
    intro x y z
    simp only [orient2]
    ring
  swap := by
    intro x y z
    simp only [orient2]
    ring

private theorem contains_iff (h : HalfSpace d K) (x : Point d K) :
    h.containsPoint x = true ↔ height h x ≤ 0 := (C47_half_space h x).1

private theorem surface_intersect (norm : Point 2 K → K) (hn : PosNorm norm) (h : HalfSpace 2 K)
    (a b : Point 2 K) (hab : height h a ≠ height h b) :
    h.surface.intersect ⟨a, normalize norm fun i => b i - a i⟩ = some (cr (height h) a b) := by
  have hne : (fun i => b i - a i) ≠ (0 : Point 2 K) := by
    intro e
    apply hab
    have : a = b := by
      funext i
      have := congrFun e i
      simp only [Pi.zero_apply] at this
      linarith
    rw [this]
  have hN : norm (fun i => b i - a i) ≠ 0 := (hn _ hne).ne'
  have hD : height h b - height h a ≠ 0 := sub_ne_zero.mpr hab.symm
  have hdot : h.normal 0 * (b 0 - a 0) + h.normal 1 * (b 1 - a 1) = height h b - height h a := by
    simp only [height, Fin.sum_univ_two]
    ring
  have hnn : h.normal 0 ^ 2 + h.normal 1 ^ 2 ≠ 0 := by
    intro e
    have h0 : h.normal 0 = 0 := by nlinarith [sq_nonneg (h.normal 0), sq_nonneg (h.normal 1)]
    have h1 : h.normal 1 = 0 := by nlinarith [sq_nonneg (h.normal 0), sq_nonneg (h.normal 1)]
    apply hD
    rw [← hdot, h0, h1]
    ring
  rw [C47_line_intersect]
  · constructor
    · have hz := f_cr (height_affine h) a b hab
      generalize cr (height h) a b = x at hz
      simp only [height, Fin.sum_univ_two] at hz
      refine ⟨((x 0 - h.point 0) * h.normal 1 - (x 1 - h.point 1) * h.normal 0) /
        (h.normal 0 ^ 2 + h.normal 1 ^ 2), ?_⟩
      have e0 : x 0 = h.point 0 + ((x 0 - h.point 0) * h.normal 1 - (x 1 - h.point 1) * h.normal 0) /
          (h.normal 0 ^ 2 + h.normal 1 ^ 2) * h.normal 1 := by
        field_simp
        linear_combination h.normal 0 * hz
      have e1 : x 1 = h.point 1 + ((x 0 - h.point 0) * h.normal 1 - (x 1 - h.point 1) * h.normal 0) /
          (h.normal 0 ^ 2 + h.normal 1 ^ 2) * -h.normal 0 := by
        field_simp
        linear_combination h.normal 1 * hz
      funext i
      fin_cases i
      · exact e0
      · exact e1
    · refine ⟨norm (fun i => b i - a i) * (-height h a / (height h b - height h a)), ?_⟩
      funext i
      simp only [cr, normalize, Pi.add_apply, Pi.smul_apply, smul_eq_mul]
      field_simp
      ring
  · simp only [cross, HalfSpace.surface, normalize, Matrix.cons_val_zero, Matrix.cons_val_one]
    have : h.normal 1 * ((b 1 - a 1) / norm fun i => b i - a i) -
        -h.normal 0 * ((b 0 - a 0) / norm fun i => b i - a i) =
        (height h b - height h a) / norm fun i => b i - a i := by
      rw [← hdot]
      ring
    rw [this]
    exact div_ne_zero hD hN

private theorem clipEdge_eq (norm : Point 2 K → K) (hn : PosNorm norm) (h : HalfSpace 2 K)
    (e : Point 2 K × Point 2 K) :
    ConvexPolygon.clipEdge norm h e = some ((if height h e.1 ≤ 0 then [e.1] else []) ++
      if (height h e.1 ≤ 0 ∧ ¬height h e.2 ≤ 0) ∨ (¬height h e.1 ≤ 0 ∧ height h e.2 ≤ 0)
      then [cr (height h) e.1 e.2] else []) := by
  have h1 := contains_iff h e.1
  have h2 := contains_iff h e.2
  have hs : height h e.1 ≠ height h e.2 → h.surface.intersect ⟨e.1, normalize norm fun i => e.2 i - e.1 i⟩ =
      some (cr (height h) e.1 e.2) := surface_intersect norm hn h e.1 e.2
  have hd : ((height h e.1 ≤ 0 ∧ ¬height h e.2 ≤ 0) ∨ (¬height h e.1 ≤ 0 ∧ height h e.2 ≤ 0)) →
      height h e.1 ≠ height h e.2 := by
    intro hh he
    rw [he] at hh
    tauto
  rw [ConvexPolygon.clipEdge]
  cases c1 : h.containsPoint e.1 <;> cases c2 : h.containsPoint e.2 <;> rw [c1] at h1 <;> rw [c2] at h2 <;>
    simp only [Bool.false_eq_true, true_iff, false_iff] at h1 h2
  · simp [h1, h2]
  · rw [hs (hd (Or.inr ⟨h1, h2⟩))]
    simp [h1, h2]
  · rw [hs (hd (Or.inl ⟨h1, h2⟩))]
    simp [h1, h2]
  · simp [h1, h2]

private theorem mapM_some_map {α β : Type} (g : α → Option β) (k : α → β) (l : List α)
    (h : ∀ x, g x = some (k x)) : l.mapM g = some (l.map k) := by
  induction l with
  | nil => rfl
  | cons a l ih => rw [List.mapM_cons, h, ih]; rfl

/-- Clipping never panics and computes the abstract clipping. -/
private theorem intersectHalfplane_eq (norm : Point 2 K → K) (hn : PosNorm norm) (V : List (Point 2 K))
    (h : HalfSpace 2 K) :
    ConvexPolygon.intersectHalfplane norm V h = some (clipRef (height h) V) := by
  rw [ConvexPolygon.intersectHalfplane]
  split
  · rename_i hl
    obtain ⟨v, rfl⟩ := List.length_eq_one_iff.mp hl
    have hv := contains_iff h v
    rw [clipRef]
    simp only [List.take_succ_cons, List.take_zero, List.cons_append, List.nil_append, pairs_cons_cons,
      pairs_single, List.flatMap_cons, List.flatMap_nil, List.append_nil]
    cases c : h.containsPoint v <;> rw [c] at hv <;>
      simp only [Bool.false_eq_true, true_iff, false_iff] at hv <;> simp [c, hv]
  · rw [mapM_some_map _ _ _ (clipEdge_eq norm hn h)]
    simp only [Option.map_some, clipRef, List.flatMap, ConvexPolygon.edges, windows2, pairs]

private theorem inj2 (h : HalfSpace 2 K) (u w p q : Point 2 K) (huw : height h u ≠ height h w)
    (hpq : height h p = height h q) (ho : orient2 u w p = orient2 u w q) : p = q := by
  simp only [height, Fin.sum_univ_two, orient2] at *
  have hD : h.normal 0 * (w 0 - u 0) + h.normal 1 * (w 1 - u 1) ≠ 0 := by
    intro e
    apply huw
    linear_combination -e
  have e0 : p 0 = q 0 := by
    apply sub_eq_zero.mp
    apply (mul_eq_zero.mp (?_ : (h.normal 0 * (w 0 - u 0) + h.normal 1 * (w 1 - u 1)) * (p 0 - q 0) = 0)).resolve_left hD
    linear_combination (w 0 - u 0) * hpq - h.normal 1 * ho
  have e1 : p 1 = q 1 := by
    apply sub_eq_zero.mp
    apply (mul_eq_zero.mp (?_ : (h.normal 0 * (w 0 - u 0) + h.normal 1 * (w 1 - u 1)) * (p 1 - q 1) = 0)).resolve_left hD
    linear_combination (w 1 - u 1) * hpq + h.normal 0 * ho
  funext i
  fin_cases i
  · exact e0
  · exact e1

private theorem clipRef_hull2 (h : HalfSpace 2 K) (V : List (Point 2 K)) (hV : ConvexCcw V)
    (x : Point 2 K) : x ∈ hull (clipRef (height h) V) ↔ x ∈ hull V ∧ InHalfSpace h x :=
  clipRef_hull (height_affine h) orient2_orient Set.univ convex_univ
    (fun u _ w _ p _ q _ => inj2 h u w p q) V (fun _ _ => Set.mem_univ _) hV x

/-- C49: clipping a convex polygon (with any number of vertices, also degenerate) with a half-plane
never panics; the result is again a convex polygon in counter-clockwise order, and its points are
exactly the points of the polygon in the half-plane. -/
theorem C49_clip (norm : Point 2 K → K) (hn : PosNorm norm) (V : List (Point 2 K)) (h : HalfSpace 2 K)
    (hV : ConvexCcw V) :
    ∃ R, ConvexPolygon.intersectHalfplane norm V h = some R ∧ ConvexCcw R ∧
      ∀ x, x ∈ hull R ↔ x ∈ hull V ∧ InHalfSpace h x :=
  ⟨_, intersectHalfplane_eq norm hn V h, clipRef_convex3 orient2_orient (height_affine h) V hV,
    clipRef_hull2 h V hV⟩

/-- C49: whatever the polygon, even a non-convex one, the vertices of the result lie in the hull of
the polygon and in the half-plane, and every vertex of the polygon in the half-plane is kept. -/
theorem C49_clip_vertices (norm : Point 2 K → K) (hn : PosNorm norm) (V : List (Point 2 K))
    (h : HalfSpace 2 K) :
    ∃ R, ConvexPolygon.intersectHalfplane norm V h = some R ∧
      (∀ x ∈ R, x ∈ hull V ∧ InHalfSpace h x) ∧ ∀ v ∈ V, InHalfSpace h v → v ∈ R :=
  ⟨_, intersectHalfplane_eq norm hn V h, fun x hx => clipRef_subset (height_affine h) V x hx,
    fun v hv hh => (mem_clipRef (height_affine h) V v).mpr (Or.inl ⟨hv, hh⟩)⟩

private theorem clipAll (norm : Point 2 K → K) (hn : PosNorm norm) (H : List (HalfSpace 2 K))
    (V : List (Point 2 K)) (hV : ConvexCcw V) :
    ∃ R, H.foldlM (fun r h => ConvexPolygon.intersectHalfplane norm r h) V = some R ∧ ConvexCcw R ∧
      ∀ x, x ∈ hull R ↔ x ∈ hull V ∧ ∀ h ∈ H, InHalfSpace h x := by
  induction H generalizing V with
  | nil => exact ⟨V, rfl, hV, fun x => by simp⟩
  | cons h H ih =>
    obtain ⟨R₁, e₁, c₁, h₁⟩ := C49_clip norm hn V h hV
    obtain ⟨R, e, c, h₂⟩ := ih R₁ c₁
    refine ⟨R, ?_, c, fun x => ?_⟩
    · rw [List.foldlM_cons, e₁]
      exact e
    · rw [h₂, h₁]
      simp only [List.mem_cons, forall_eq_or_imp]
      tauto

/-- The half-planes of a polygon are the left sides of its edges. -/
private theorem mem_halfPlanes (norm : Point 2 K → K) (hn : PosNorm norm) (W : List (Point 2 K))
    (x : Point 2 K) :
    (∀ h ∈ ConvexPolygon.halfPlanes norm W, InHalfSpace h x) ↔
      ∀ e ∈ ConvexPolygon.edges W, 0 ≤ orient2 e.1 e.2 x := by
  have key (a b : Point 2 K) (hab : a ≠ b) :
      InHalfSpace ⟨a, normalize norm ![b 1 - a 1, -(b 0 - a 0)]⟩ x ↔ 0 ≤ orient2 a b x := by
    have hne : (![b 1 - a 1, -(b 0 - a 0)] : Point 2 K) ≠ 0 := by
      intro e
      apply hab
      have e0 := congrFun e 0
      have e1 := congrFun e 1
      simp only [Matrix.cons_val_zero, Matrix.cons_val_one, Pi.zero_apply] at e0 e1
      funext i
      fin_cases i
      · show a 0 = b 0
        linarith
      · show a 1 = b 1
        linarith
    have hN := hn _ hne
    simp only [InHalfSpace, height, normalize, Fin.sum_univ_two, Matrix.cons_val_zero,
      Matrix.cons_val_one]
    generalize norm ![b 1 - a 1, -(b 0 - a 0)] = N at hN ⊢
    have : (x 0 - a 0) * ((b 1 - a 1) / N) + (x 1 - a 1) * (-(b 0 - a 0) / N) = -orient2 a b x / N := by
      simp only [orient2]
      field_simp
      ring
    rw [this, div_le_iff₀ hN, zero_mul, neg_nonpos]
  constructor
  · intro hh e he
    by_cases hab : e.1 = e.2
    · rw [hab, orient2]
      simp
    · rw [← key e.1 e.2 hab]
      apply hh
      rw [ConvexPolygon.halfPlanes, List.mem_filterMap]
      exact ⟨e, he, by rw [if_pos hab]⟩
  · intro hh h hmem
    rw [ConvexPolygon.halfPlanes, List.mem_filterMap] at hmem
    obtain ⟨e, he, heq⟩ := hmem
    split at heq
    · rename_i hab
      cases heq
      exact (key e.1 e.2 hab).mpr (hh e he)
    · cases heq

theorem edges_nonneg (W : List (Point 2 K)) (hW : ConvexCcw W) (e : Point 2 K × Point 2 K)
    (he : e ∈ ConvexPolygon.edges W) (x : Point 2 K) (hx : x ∈ hull W) : 0 ≤ orient2 e.1 e.2 x := by
  have hsub : ∀ v ∈ W, 0 ≤ orient2 e.1 e.2 v := by
    intro v hv
    cases W with
    | nil => exact absurd hv List.not_mem_nil
    | cons w W =>
      -- an edge is either inside the list or the closing edge
      have hcase : (∃ A B, w :: W = A ++ e.1 :: e.2 :: B) ∨ (∃ A, w :: W = A ++ [e.1]) ∧ e.2 = w := by
        have hgen : ∀ (L : List (Point 2 K)) (z : Point 2 K), e ∈ pairs (L ++ [z]) →
            (∃ A B, L = A ++ e.1 :: e.2 :: B) ∨ (∃ A, L = A ++ [e.1]) ∧ e.2 = z := by
          intro L z hL
          induction L with
          | nil => exact absurd hL List.not_mem_nil
          | cons a L ih =>
            cases L with
            | nil =>
              rw [List.cons_append, List.nil_append, pairs_cons_cons, pairs_single] at hL
              rw [List.mem_singleton] at hL
              subst hL
              exact Or.inr ⟨⟨[], rfl⟩, rfl⟩
            | cons b l =>
              rw [List.cons_append, List.cons_append, pairs_cons_cons] at hL
              rcases List.mem_cons.mp hL with rfl | hL
              · exact Or.inl ⟨[], l, rfl⟩
              · rcases ih hL with ⟨A, B, e'⟩ | ⟨⟨A, e'⟩, e''⟩
                · exact Or.inl ⟨a :: A, B, by rw [e']; rfl⟩
                · exact Or.inr ⟨⟨a :: A, by rw [e']; rfl⟩, e''⟩
        exact hgen (w :: W) w he
      rcases hcase with ⟨A, B, hAB⟩ | ⟨⟨A, hA⟩, hw⟩
      · rw [hAB] at hv hW
        rcases List.mem_append.mp hv with hv | hv
        · rw [← orient2_orient.cyc]
          apply hW
          have h1 : [v].Sublist A := List.singleton_sublist.mpr hv
          exact h1.append (((List.nil_sublist B).cons_cons e.2).cons_cons e.1)
        · rcases List.mem_cons.mp hv with rfl | hv
          · rw [orient2_orient.self']
          · rcases List.mem_cons.mp hv with rfl | hv
            · rw [orient2_orient.self'']
            · apply hW
              have h1 : [v].Sublist B := List.singleton_sublist.mpr hv
              exact ((h1.cons_cons e.2).cons_cons e.1).trans (List.sublist_append_right _ _)
      · rw [hw, orient2_orient.cyc]
        cases A with
        | nil =>
          rw [List.nil_append] at hA
          rw [hA] at hv
          rw [List.mem_singleton.mp hv, orient2_orient.self'']
        | cons a A =>
          rw [List.cons_append] at hA
          obtain ⟨rfl, rfl⟩ := List.cons.inj hA
          rcases List.mem_cons.mp hv with rfl | hv
          · rw [orient2_orient.self]
          · rcases List.mem_append.mp hv with hv | hv
            · apply hW
              have h1 : [v].Sublist A := List.singleton_sublist.mpr hv
              exact (h1.append (List.Sublist.refl [e.1])).cons_cons w
            · rw [List.mem_singleton.mp hv, orient2_orient.self'']
  exact (convexHull_min (fun v hv => hsub v hv)
    (convex_nonneg_of_affine (orient2_orient.affine3 e.1 e.2))) hx

/-- A consecutive pair is a sublist. -/
theorem pairs_sublist {α : Type} {l : List α} {e : α × α} (h : e ∈ pairs l) : [e.1, e.2].Sublist l := by
  induction l with
  | nil => exact absurd h List.not_mem_nil
  | cons a l ih =>
    cases l with
    | nil => exact absurd h List.not_mem_nil
    | cons b l =>
      rw [pairs_cons_cons] at h
      rcases List.mem_cons.mp h with rfl | h
      · exact ((List.nil_sublist l).cons_cons b).cons_cons a
      · exact (ih h).cons a

/-- A point on the left of every edge lies on the left of the sides of one fan triangle. -/
theorem fan_find (v x w : Point 2 K) (W' : List (Point 2 K)) (hne : W' ≠ [])
    (he : ∀ e ∈ pairs (w :: (W' ++ [v])), 0 ≤ orient2 e.1 e.2 x) (h0 : 0 ≤ orient2 v w x) :
    ∃ e ∈ pairs (w :: W'), 0 ≤ orient2 v e.1 x ∧ 0 ≤ orient2 e.1 e.2 x ∧ 0 ≤ orient2 e.2 v x := by
  induction W' generalizing w with
  | nil => exact absurd rfl hne
  | cons b l ih =>
    by_cases hb : 0 ≤ orient2 v b x
    · cases l with
      | nil =>
        refine ⟨(w, b), List.mem_cons_self, h0, he (w, b) List.mem_cons_self, ?_⟩
        exact he (b, v) (List.mem_cons_of_mem _ List.mem_cons_self)
      | cons c l =>
        obtain ⟨e, hs, h1, h2, h3⟩ := ih b (by simp)
          (fun e h => he e (List.mem_cons_of_mem _ h)) hb
        exact ⟨e, List.mem_cons_of_mem _ hs, h1, h2, h3⟩
    · refine ⟨(w, b), List.mem_cons_self, h0, he (w, b) List.mem_cons_self, ?_⟩
      push Not at hb
      have : orient2 b v x = -orient2 v b x := orient2_orient.swap v b x
      show 0 ≤ orient2 b v x
      rw [this]
      linarith

/-- C49: intersecting two convex polygons with at least three vertices each never panics, yields a
convex polygon, and its points are exactly the points of the first polygon that are on the left of
every edge of the second one, i.e. that `contains_point` of the second one accepts. -/
theorem C49_intersect_polygon (norm : Point 2 K → K) (hn : PosNorm norm) (V W : List (Point 2 K))
    (hV : ConvexCcw V) (lV : 3 ≤ V.length) (lW : 3 ≤ W.length) :
    ∃ R, ConvexPolygon.intersectPolygon norm V W = some R ∧ ConvexCcw R ∧
      ∀ x, x ∈ hull R ↔ x ∈ hull V ∧ ConvexPolygon.containsPoint norm W x = some true := by
  obtain ⟨R, e, c, hR⟩ := clipAll norm hn (ConvexPolygon.halfPlanes norm W) V hV
  refine ⟨R, ?_, c, fun x => ?_⟩
  · match V, W, lV, lW with
    | a :: b :: p :: V', a' :: b' :: p' :: W', _, _ =>
      rw [ConvexPolygon.intersectPolygon, if_neg (by simp)]
      · exact e
      · simp
      · simp
  · rw [hR, ConvexPolygon.containsPoint, if_neg (by omega), if_neg (by omega)]
    simp only [Option.some.injEq, List.all_eq_true, contains_iff, InHalfSpace]

/-- The points of a strictly convex polygon are the points on the left of all its edges. -/
theorem mem_hull_iff_edges (W : List (Point 2 K)) (hW : StrictlyConvexCcw W) (lW : 3 ≤ W.length)
    (x : Point 2 K) : (∀ e ∈ ConvexPolygon.edges W, 0 ≤ orient2 e.1 e.2 x) ↔ x ∈ hull W := by
  constructor
  · intro hx
    match W, lW with
    | v :: w :: W', lW =>
      -- look for the fan triangle containing `x`
      have hx' : ∀ e ∈ pairs (v :: w :: (W' ++ [v])), 0 ≤ orient2 e.1 e.2 x := hx
      have hfirst : 0 ≤ orient2 v w x := hx' (v, w) List.mem_cons_self
      obtain ⟨⟨b, c⟩, hbc, h1, h2, h3⟩ := fan_find v x w W' (by
        rintro rfl
        simp at lW) (fun e h => hx' e (List.mem_cons_of_mem _ h)) hfirst
      have hs : [b, c].Sublist (w :: W') := pairs_sublist hbc
      have hpos : 0 < orient2 v b c := hW v b c (hs.cons_cons v)
      have hmem : ∀ y ∈ [v, b, c], y ∈ v :: w :: W' := (hs.cons_cons v).subset
      have hsum : orient2 b c x + orient2 c v x + orient2 v b x = orient2 v b c := by
        simp only [orient2]
        ring
      -- barycentric coordinates
      have hx3 : x = (orient2 b c x / orient2 v b c) • v + (orient2 c v x / orient2 v b c) • b +
          (orient2 v b x / orient2 v b c) • c := by
        have e0 : x 0 * orient2 v b c = orient2 b c x * v 0 + orient2 c v x * b 0 + orient2 v b x * c 0 := by
          simp only [orient2]
          ring
        have e1 : x 1 * orient2 v b c = orient2 b c x * v 1 + orient2 c v x * b 1 + orient2 v b x * c 1 := by
          simp only [orient2]
          ring
        have hne := hpos.ne'
        funext i
        simp only [Pi.add_apply, Pi.smul_apply, smul_eq_mul]
        fin_cases i
        · show x 0 = _ * v 0 + _ * b 0 + _ * c 0
          field_simp
          linear_combination e0
        · show x 1 = _ * v 1 + _ * b 1 + _ * c 1
          field_simp
          linear_combination e1
      have hcv := convex_convexHull K {y | y ∈ v :: w :: W'}
      have sub := subset_convexHull K {y | y ∈ v :: w :: W'}
      have := Convex.sum_mem hcv (t := Finset.univ) (w := ![orient2 b c x / orient2 v b c,
        orient2 c v x / orient2 v b c, orient2 v b x / orient2 v b c]) (z := ![v, b, c]) (by
          intro i _
          fin_cases i
          · exact div_nonneg h2 hpos.le
          · exact div_nonneg h3 hpos.le
          · exact div_nonneg h1 hpos.le) (by
          simp only [Fin.sum_univ_three, Matrix.cons_val_zero, Matrix.cons_val_one, Matrix.cons_val_two,
            Matrix.head_cons, Matrix.tail_cons]
          rw [← add_div, ← add_div, hsum, div_self hpos.ne']) (by
          intro i _
          fin_cases i
          · exact sub (hmem v (by simp))
          · exact sub (hmem b (by simp))
          · exact sub (hmem c (by simp)))
      simp only [Fin.sum_univ_three, Matrix.cons_val_zero, Matrix.cons_val_one, Matrix.cons_val_two,
        Matrix.head_cons, Matrix.tail_cons] at this
      rw [← hx3] at this
      exact this
  · intro hx e he
    exact edges_nonneg W (fun a b c habc => (hW a b c habc).le) e he x hx

/-- C49: a strictly convex polygon with at least three vertices contains (according to
`contains_point`) exactly the points of its convex hull. -/
theorem C49_contains_point (norm : Point 2 K → K) (hn : PosNorm norm) (W : List (Point 2 K))
    (hW : StrictlyConvexCcw W) (lW : 3 ≤ W.length) (x : Point 2 K) :
    ConvexPolygon.containsPoint norm W x = some true ↔ x ∈ hull W := by
  rw [ConvexPolygon.containsPoint, if_neg (by omega), if_neg (by omega)]
  simp only [Option.some.injEq, List.all_eq_true, contains_iff]
  have := mem_halfPlanes norm hn W x
  simp only [InHalfSpace] at this
  rw [this, mem_hull_iff_edges W hW lW]

/-- C49: the intersection of a convex polygon with a strictly convex one is their set-theoretic
intersection. -/
theorem C49_intersect_strict (norm : Point 2 K → K) (hn : PosNorm norm) (V W : List (Point 2 K))
    (hV : ConvexCcw V) (hW : StrictlyConvexCcw W) (lV : 3 ≤ V.length) (lW : 3 ≤ W.length) :
    ∃ R, ConvexPolygon.intersectPolygon norm V W = some R ∧ ∀ x, x ∈ hull R ↔ x ∈ hull V ∧ x ∈ hull W := by
  obtain ⟨R, e, -, hR⟩ := C49_intersect_polygon norm hn V W hV lV lW
  exact ⟨R, e, fun x => by rw [hR, C49_contains_point norm hn W hW lW]⟩

private theorem mem_hull_pair (a b x : Point 2 K) : x ∈ hull [a, b] ↔ OnSegment ⟨a, b⟩ x := by
  have : {v | v ∈ [a, b]} = ({a, b} : Set (Point 2 K)) := by
    ext v
    simp
  rw [hull, this, convexHull_pair]
  constructor
  · rintro ⟨s, t, hs, ht, hst, rfl⟩
    refine ⟨t, ht, by linarith, ?_⟩
    funext i
    simp only [lerp, Pi.add_apply, Pi.smul_apply, smul_eq_mul]
    rw [← hst]
    ring
  · rintro ⟨t, h0, h1, rfl⟩
    refine ⟨1 - t, t, by linarith, h0, by ring, ?_⟩
    funext i
    simp only [lerp, Pi.add_apply, Pi.smul_apply, smul_eq_mul]

private theorem segmentIntersect_spec (H : List (HalfSpace 2 K)) (s : Segment 2 K) :
    match H.foldlM (fun r h => Segment.intersectHalfPlane r h) s with
    | none => ∀ x, OnSegment s x → ¬∀ h ∈ H, InHalfSpace h x
    | some r => ∀ x, OnSegment r x ↔ OnSegment s x ∧ ∀ h ∈ H, InHalfSpace h x := by
  induction H generalizing s with
  | nil =>
    intro x
    simp
  | cons h H ih =>
    rw [List.foldlM_cons]
    have h1 := C47_half_plane s h
    cases hc : s.intersectHalfPlane h with
    | none =>
      rw [hc] at h1
      simp only [Option.bind_eq_bind, Option.bind_none] at h1 ⊢
      intro x hx hh
      exact h1 x hx (hh h List.mem_cons_self)
    | some r₁ =>
      rw [hc] at h1
      simp only at h1
      have h2 := ih r₁
      simp only [Option.bind_eq_bind, Option.bind_some]
      cases hr : H.foldlM (fun r h => Segment.intersectHalfPlane r h) r₁ with
      | none =>
        rw [hr] at h2
        simp only at h2 ⊢
        intro x hx hh
        exact h2 x ((h1 x).mpr ⟨hx, hh h List.mem_cons_self⟩) fun k hk => hh k (List.mem_cons_of_mem _ hk)
      | some r =>
        rw [hr] at h2
        simp only at h2 ⊢
        intro x
        rw [h2, h1]
        simp only [List.mem_cons, forall_eq_or_imp]
        tauto

private theorem segmentBranch_spec (norm : Point 2 K → K) (a b : Point 2 K)
    (W : List (Point 2 K)) (lW : 3 ≤ W.length) (x : Point 2 K) :
    x ∈ hull (ConvexPolygon.segmentBranch norm a b W) ↔
      x ∈ hull [a, b] ∧ ConvexPolygon.containsPoint norm W x = some true := by
  have h := segmentIntersect_spec (ConvexPolygon.halfPlanes norm W) ⟨a, b⟩
  rw [ConvexPolygon.segmentBranch, ConvexPolygon.segmentIntersect, mem_hull_pair,
    ConvexPolygon.containsPoint, if_neg (by omega), if_neg (by omega)]
  simp only [Option.some.injEq, List.all_eq_true, contains_iff]
  simp only [InHalfSpace] at h
  cases hr : (ConvexPolygon.halfPlanes norm W).foldlM (fun r h => Segment.intersectHalfPlane r h)
      (⟨a, b⟩ : Segment 2 K) with
  | none =>
    rw [hr] at h
    simp only at h ⊢
    constructor
    · intro hx
      simp [hull] at hx
    · rintro ⟨h1, h2⟩
      exact absurd h2 (h x h1)
  | some r =>
    rw [hr] at h
    simp only at h ⊢
    rw [mem_hull_pair]
    exact h x

/-- C49: a segment intersected with a strictly convex polygon, in either order of the arguments,
yields exactly their common points. -/
theorem C49_intersect_segment (norm : Point 2 K → K) (hn : PosNorm norm) (a b : Point 2 K)
    (W : List (Point 2 K)) (hW : StrictlyConvexCcw W) (lW : 3 ≤ W.length) :
    (∃ R, ConvexPolygon.intersectPolygon norm [a, b] W = some R ∧
      ∀ x, x ∈ hull R ↔ x ∈ hull [a, b] ∧ x ∈ hull W) ∧
    ∃ R, ConvexPolygon.intersectPolygon norm W [a, b] = some R ∧
      ∀ x, x ∈ hull R ↔ x ∈ hull [a, b] ∧ x ∈ hull W := by
  have h1 : ¬([a, b].length = 1 ∨ W.length = 1) := by
    simp only [List.length_cons, List.length_nil]
    omega
  constructor
  · refine ⟨ConvexPolygon.segmentBranch norm a b W, ?_, fun x => ?_⟩
    · rw [ConvexPolygon.intersectPolygon, if_neg h1]
    · rw [segmentBranch_spec norm a b W lW, C49_contains_point norm hn W hW lW]
  · refine ⟨ConvexPolygon.segmentBranch norm a b W, ?_, fun x => ?_⟩
    · match W, lW with
      | _ :: _ :: _ :: _, _ =>
        rw [ConvexPolygon.intersectPolygon, if_neg (by simp)]
        simp
    · rw [segmentBranch_spec norm a b W lW, C49_contains_point norm hn W hW lW]

/-- C49, finding: intersecting with an empty polygon (which clipping produces for disjoint inputs)
returns the other polygon unchanged instead of the empty polygon. -/
theorem C49_intersect_empty (norm : Point 2 K → K) (V : List (Point 2 K)) (lV : 3 ≤ V.length) :
    ConvexPolygon.intersectPolygon norm V [] = some V := by
  match V, lV with
  | _ :: _ :: _ :: _, _ =>
    rw [ConvexPolygon.intersectPolygon, if_neg (by simp)]
    · rfl
    · simp
    · simp

/-- C49, finding: an empty polygon reports that it contains every point. -/
theorem C49_empty_contains (norm : Point 2 K → K) (x : Point 2 K) :
    ConvexPolygon.containsPoint norm [] x = some true := rfl

/-- C49, finding: for two segments the second is treated as a whole line, so that disjoint collinear
segments "intersect" in the first one. -/
theorem C49_collinear_segments (norm : Point 2 K → K) (hn : PosNorm norm) :
    ∃ R, ConvexPolygon.intersectPolygon norm [![0, 0], ![1, 0]] [![2, 0], ![3, 0]] = some R ∧
      (![0, 0] : Point 2 K) ∈ hull R ∧ ∀ x : Point 2 K, ¬(x ∈ hull [![0, 0], ![1, 0]] ∧ x ∈ hull [![2, 0], ![3, 0]]) := by
  refine ⟨ConvexPolygon.segmentBranch norm ![0, 0] ![1, 0] [![2, 0], ![3, 0]], ?_, ?_, ?_⟩
  · rw [ConvexPolygon.intersectPolygon, if_neg (by simp)]
  · have h := segmentIntersect_spec (ConvexPolygon.halfPlanes norm [![(2 : K), 0], ![3, 0]])
      ⟨![0, 0], ![1, 0]⟩
    have hin : ∀ h ∈ ConvexPolygon.halfPlanes norm [![(2 : K), 0], ![3, 0]],
        InHalfSpace h (![0, 0] : Point 2 K) := by
      rw [mem_halfPlanes norm hn]
      intro e he
      have : e ∈ [((![2, 0] : Point 2 K), (![3, 0] : Point 2 K)), (![3, 0], ![2, 0])] := he
      simp only [List.mem_cons, List.not_mem_nil, or_false] at this
      rcases this with rfl | rfl
      · simp [orient2]
      · simp [orient2]
    have hon : OnSegment (⟨![0, 0], ![1, 0]⟩ : Segment 2 K) ![0, 0] := by
      refine ⟨0, le_refl _, zero_le_one, ?_⟩
      funext i
      fin_cases i <;> simp [lerp]
    rw [ConvexPolygon.segmentBranch, ConvexPolygon.segmentIntersect]
    cases hr : (ConvexPolygon.halfPlanes norm [![(2 : K), 0], ![3, 0]]).foldlM
        (fun r h => Segment.intersectHalfPlane r h) (⟨![0, 0], ![1, 0]⟩ : Segment 2 K) with
    | none =>
      rw [hr] at h
      exact absurd hin (h _ hon)
    | some r =>
      rw [hr] at h
      simp only at h ⊢
      rw [mem_hull_pair]
      exact (h _).mpr ⟨hon, hin⟩
  · rintro x ⟨h1, h2⟩
    obtain ⟨t, -, t1, rfl⟩ := (mem_hull_pair _ _ _).mp h1
    obtain ⟨u, u0, -, e⟩ := (mem_hull_pair _ _ _).mp h2
    have := congrFun e 0
    simp only [lerp, Matrix.cons_val_zero] at this
    linarith

/-! ### Polygons in space -/

private theorem orient3_orient (N : Point 3 K) : IsOrient (orient3 N) where
  affine := by
    intro p q x y a b hab
    simp only [orient3, dot, cross3, Fin.sum_univ_three, Pi.add_apply, Pi.smul_apply, smul_eq_mul,
      Matrix.cons_val_zero, Matrix.cons_val_one, Matrix.cons_val_two, Matrix.head_cons,
      Matrix.tail_cons]
    have hb : b = 1 - a := by linarith
    subst hb
    ring
  cyc := by
    intro x y z
    simp only [orient3, dot, cross3, Fin.sum_univ_three, Matrix.cons_val_zero, Matrix.cons_val_one,
      Matrix.cons_val_two, Matrix.head_cons, Matrix.tail_cons]
    ring
  swap := by
    intro x y z
    simp only [orient3, dot, cross3, Fin.sum_univ_three, Matrix.cons_val_zero, Matrix.cons_val_one,
      Matrix.cons_val_two, Matrix.head_cons, Matrix.tail_cons]
    ring

private theorem inj3 (N o : Point 3 K) (hN : N ≠ 0) (h : HalfSpace 3 K) (u w p q : Point 3 K)
    (hu : dot N (fun i => u i - o i) = 0) (hw : dot N (fun i => w i - o i) = 0)
    (hp : dot N (fun i => p i - o i) = 0) (hq : dot N (fun i => q i - o i) = 0)
    (huw : height h u ≠ height h w) (hpq : height h p = height h q)
    (ho : orient3 N u w p = orient3 N u w q) : p = q := by
  have hNN : N 0 ^ 2 + N 1 ^ 2 + N 2 ^ 2 ≠ 0 := by
    intro e
    apply hN
    have h0 := sq_nonneg (N 0)
    have h1 := sq_nonneg (N 1)
    have h2 := sq_nonneg (N 2)
    funext i
    fin_cases i
    · exact pow_eq_zero_iff (two_ne_zero) |>.mp (by linarith : N 0 ^ 2 = 0)
    · exact pow_eq_zero_iff (two_ne_zero) |>.mp (by linarith : N 1 ^ 2 = 0)
    · exact pow_eq_zero_iff (two_ne_zero) |>.mp (by linarith : N 2 ^ 2 = 0)
  simp only [orient3, dot, cross3, Fin.sum_univ_three, Matrix.cons_val_zero, Matrix.cons_val_one,
    Matrix.cons_val_two, Matrix.head_cons, Matrix.tail_cons, height] at *
  -- `D = w - u`, `Δ = p - q`; both are orthogonal to `N` and `N · (D × Δ) = 0`
  obtain ⟨D, hD⟩ : ∃ D : Fin 3 → K, ∀ i, D i = w i - u i := ⟨_, fun _ => rfl⟩
  obtain ⟨E, hE⟩ : ∃ E : Fin 3 → K, ∀ i, E i = p i - q i := ⟨_, fun _ => rfl⟩
  have n1 : N 0 * D 0 + N 1 * D 1 + N 2 * D 2 = 0 := by
    simp only [hD]
    linear_combination hw - hu
  have n2 : N 0 * E 0 + N 1 * E 1 + N 2 * E 2 = 0 := by
    simp only [hE]
    linear_combination hp - hq
  have n3 : N 0 * (D 1 * E 2 - D 2 * E 1) + N 1 * (D 2 * E 0 - D 0 * E 2) +
      N 2 * (D 0 * E 1 - D 1 * E 0) = 0 := by
    simp only [hD, hE]
    linear_combination ho
  have n4 : h.normal 0 * E 0 + h.normal 1 * E 1 + h.normal 2 * E 2 = 0 := by
    simp only [hE]
    linear_combination hpq
  have n5 : h.normal 0 * D 0 + h.normal 1 * D 1 + h.normal 2 * D 2 ≠ 0 := by
    intro e
    apply huw
    simp only [hD] at e
    linear_combination -e
  -- `D × E = 0`, because it is parallel and orthogonal to `N`
  have c0 : D 1 * E 2 - D 2 * E 1 = 0 := by
    refine (mul_eq_zero.mp (?_ : (N 0 ^ 2 + N 1 ^ 2 + N 2 ^ 2) * (D 1 * E 2 - D 2 * E 1) = 0)).resolve_left hNN
    linear_combination N 0 * n3 - (N 2 * E 1 - N 1 * E 2) * n1 + (N 2 * D 1 - N 1 * D 2) * n2
  have c1 : D 2 * E 0 - D 0 * E 2 = 0 := by
    refine (mul_eq_zero.mp (?_ : (N 0 ^ 2 + N 1 ^ 2 + N 2 ^ 2) * (D 2 * E 0 - D 0 * E 2) = 0)).resolve_left hNN
    linear_combination N 1 * n3 - (N 0 * E 2 - N 2 * E 0) * n1 + (N 0 * D 2 - N 2 * D 0) * n2
  have c2 : D 0 * E 1 - D 1 * E 0 = 0 := by
    refine (mul_eq_zero.mp (?_ : (N 0 ^ 2 + N 1 ^ 2 + N 2 ^ 2) * (D 0 * E 1 - D 1 * E 0) = 0)).resolve_left hNN
    linear_combination N 2 * n3 - (N 1 * E 0 - N 0 * E 1) * n1 + (N 1 * D 0 - N 0 * D 1) * n2
  have z0 : E 0 = 0 := by
    refine (mul_eq_zero.mp (?_ : (h.normal 0 * D 0 + h.normal 1 * D 1 + h.normal 2 * D 2) * E 0 = 0)).resolve_left n5
    linear_combination D 0 * n4 - h.normal 1 * c2 + h.normal 2 * c1
  have z1 : E 1 = 0 := by
    refine (mul_eq_zero.mp (?_ : (h.normal 0 * D 0 + h.normal 1 * D 1 + h.normal 2 * D 2) * E 1 = 0)).resolve_left n5
    linear_combination D 1 * n4 + h.normal 0 * c2 - h.normal 2 * c0
  have z2 : E 2 = 0 := by
    refine (mul_eq_zero.mp (?_ : (h.normal 0 * D 0 + h.normal 1 * D 1 + h.normal 2 * D 2) * E 2 = 0)).resolve_left n5
    linear_combination D 2 * n4 - h.normal 0 * c1 + h.normal 1 * c0
  funext i
  fin_cases i
  · exact sub_eq_zero.mp ((hE 0).symm.trans z0)
  · exact sub_eq_zero.mp ((hE 1).symm.trans z1)
  · exact sub_eq_zero.mp ((hE 2).symm.trans z2)

private theorem clipEdge3_eq (h : HalfSpace 3 K) (e : Point 3 K × Point 3 K) :
    SimplePolygon.clipEdge h e = (if height h e.1 ≤ 0 then [e.1] else []) ++
      if (height h e.1 ≤ 0 ∧ ¬height h e.2 ≤ 0) ∨ (¬height h e.1 ≤ 0 ∧ height h e.2 ≤ 0)
      then [cr (height h) e.1 e.2] else [] := by
  have h1 := contains_iff h e.1
  have h2 := contains_iff h e.2
  have key : ((height h e.1 ≤ 0 ∧ ¬height h e.2 ≤ 0) ∨ (¬height h e.1 ≤ 0 ∧ height h e.2 ≤ 0)) →
      (⟨e.1, e.2⟩ : Segment 3 K).pointFromParameter
        ((((⟨e.1, e.2⟩ : Segment 3 K).toLine.intersectPlaneParametric h).map fun t => clamp t 0 1).getD 0) =
        cr (height h) e.1 e.2 := by
    intro hs
    have hne : height h e.1 ≠ height h e.2 := by
      intro he
      rw [he] at hs
      tauto
    have hD : height h e.2 - height h e.1 ≠ 0 := sub_ne_zero.mpr hne.symm
    have hdot : dot (⟨e.1, e.2⟩ : Segment 3 K).toLine.dir h.normal = height h e.2 - height h e.1 := by
      simp only [dot, height, Segment.toLine, Segment.tangentDir, Fin.sum_univ_three]
      ring
    have hb : dot (fun i => e.1 i - h.point i) h.normal = height h e.1 := rfl
    have hpar : (⟨e.1, e.2⟩ : Segment 3 K).toLine.intersectPlaneParametric h =
        some (-height h e.1 / (height h e.2 - height h e.1)) := by
      rw [Line.intersectPlaneParametric, hdot, if_pos hD]
      exact congrArg some (by rw [← hb]; rfl)
    have h0 : 0 ≤ -height h e.1 / (height h e.2 - height h e.1) := by
      rcases hs with ⟨a, b⟩ | ⟨a, b⟩
      · push Not at b
        exact div_nonneg (by linarith) (by linarith)
      · push Not at a
        exact div_nonneg_of_nonpos (by linarith) (by linarith)
    have h1' : -height h e.1 / (height h e.2 - height h e.1) ≤ 1 := by
      rcases hs with ⟨a, b⟩ | ⟨a, b⟩
      · push Not at b
        rw [div_le_one (by linarith)]
        linarith
      · push Not at a
        rw [div_le_one_of_neg (by linarith)]
        linarith
    have hc : clamp (-height h e.1 / (height h e.2 - height h e.1)) 0 1 =
        -height h e.1 / (height h e.2 - height h e.1) := by
      rw [clamp]
      split
      · split
        · rfl
        · exact le_antisymm (not_lt.mp ‹_›) h1'
      · exact le_antisymm h0 (not_lt.mp ‹_›)
    rw [hpar, Option.map_some, Option.getD_some, hc]
    funext i
    simp only [Segment.pointFromParameter, Segment.tangentDir, cr, Pi.add_apply, Pi.smul_apply,
      smul_eq_mul]
    field_simp
    ring
  rw [SimplePolygon.clipEdge]
  cases c1 : h.containsPoint e.1 <;> cases c2 : h.containsPoint e.2 <;> rw [c1] at h1 <;> rw [c2] at h2 <;>
    simp only [Bool.false_eq_true, true_iff, false_iff] at h1 h2
  · simp [h1, h2]
  · simp only [key (Or.inr ⟨h1, h2⟩)]
    simp [h1, h2]
  · simp only [key (Or.inl ⟨h1, h2⟩)]
    simp [h1, h2]
  · simp [h1, h2]

/-- C49: clipping a planar convex polygon in space with a half-space yields a planar convex polygon
with the same orientation, whose points are exactly the points of the polygon in the half-space. -/
theorem C49_clip_space (N o : Point 3 K) (hN : N ≠ 0) (V : List (Point 3 K)) (h : HalfSpace 3 K)
    (hV : PlanarConvexCcw N o V) :
    PlanarConvexCcw N o (SimplePolygon.intersectHalfSpace V h) ∧
    ∀ x, x ∈ hull (SimplePolygon.intersectHalfSpace V h) ↔ x ∈ hull V ∧ InHalfSpace h x := by
  have e : SimplePolygon.intersectHalfSpace V h = clipRef (height h) V := by
    rw [SimplePolygon.intersectHalfSpace, clipRef, windows2, pairs]
    congr 1
    funext e
    exact clipEdge3_eq h e
  have hplane : IsAffine fun v : Point 3 K => dot N (fun i => v i - o i) := by
    intro x y a b hab
    simp only [dot, Pi.add_apply, Pi.smul_apply, smul_eq_mul, Finset.mul_sum, ← Finset.sum_add_distrib]
    refine Finset.sum_congr rfl fun i _ => ?_
    linear_combination N i * o i * hab
  have hS : Convex K {v : Point 3 K | dot N (fun i => v i - o i) = 0} := by
    intro x hx y hy a b _ _ hab
    have := hplane x y a b hab
    simp only at this
    show dot N _ = 0
    have hx' : dot N (fun i => x i - o i) = 0 := hx
    have hy' : dot N (fun i => y i - o i) = 0 := hy
    rw [this, hx', hy']
    ring
  rw [e]
  refine ⟨⟨fun v hv => ?_, clipRef_convex3 (orient3_orient N) (height_affine h) V hV.2⟩, fun x => ?_⟩
  · have := (clipRef_subset (height_affine h) V v hv).1
    exact convexHull_min (fun w hw => hV.1 w hw) hS this
  · exact clipRef_hull (height_affine h) (orient3_orient N) _ hS
      (fun u hu w hw p hp q hq => inj3 N o hN h u w p q hu hw hp hq) V hV.1 hV.2 x

/-! ### The hypotheses are met by concrete cases -/

/-- The sum of absolute values is positive on non-zero vectors. -/
private theorem posNorm_example : PosNorm (fun v : Point 2 ℚ => |v 0| + |v 1|) := by
  intro v hv
  by_contra h
  push Not at h
  apply hv
  have a0 := abs_nonneg (v 0)
  have a1 := abs_nonneg (v 1)
  funext i
  fin_cases i
  · exact abs_eq_zero.mp (by linarith : |v 0| = 0)
  · exact abs_eq_zero.mp (by linarith : |v 1| = 0)

/-- The Euclidean norm itself is an instance. -/
example : PosNorm (fun v : Point 2 ℝ => Real.sqrt (v 0 ^ 2 + v 1 ^ 2)) := by
  intro v hv
  apply Real.sqrt_pos.mpr
  by_contra h
  push Not at h
  apply hv
  have a0 := sq_nonneg (v 0)
  have a1 := sq_nonneg (v 1)
  funext i
  fin_cases i
  · exact pow_eq_zero_iff (two_ne_zero) |>.mp (by linarith : v 0 ^ 2 = 0)
  · exact pow_eq_zero_iff (two_ne_zero) |>.mp (by linarith : v 1 ^ 2 = 0)

example : IsSqrt Real.sqrt := fun x hx => ⟨Real.sqrt_nonneg x, Real.sq_sqrt hx⟩

private def square : List (Point 2 ℚ) := [![0, 0], ![2, 0], ![2, 2], ![0, 2]]

example : StrictlyConvexCcw square := by
  intro a b c h
  have : [a, b, c] ∈ square.sublists := List.mem_sublists.mpr h
  have h2 : [a, b, c] ∈ square.sublists.filter fun l => l.length = 3 := by
    rw [List.mem_filter]
    exact ⟨this, by simp⟩
  have h3 : ∀ l ∈ square.sublists.filter (fun l => l.length = 3),
      0 < orient2 (l.getD 0 0) (l.getD 1 0) (l.getD 2 0) := by decide +kernel
  exact h3 _ h2

/-- Clipping the square to `x ≤ 1`. -/
example : ConvexPolygon.intersectHalfplane (fun v : Point 2 ℚ => |v 0| + |v 1|) square ⟨![1, 0], ![1, 0]⟩ =
    some [![0, 0], ![1, 0], ![1, 2], ![0, 2]] := by decide +kernel

end Fenris.Geometry
