import Verif.Lemmas.ConvexSolid
import Mathlib.Analysis.Real.Sqrt
/-! # C75: closest points of convex polygons in space, and convex polyhedra -/
set_option autoImplicit false
set_option linter.unusedSectionVars false

namespace Fenris.Geometry
open Fenris.Spec Solid3
variable {K : Type} [Field K] [LinearOrder K] [IsStrictOrderedRing K]

/-! ### The closest point of a polygon -/

theorem normal_pos {norm : Point 3 K → K} (hn : IsNorm norm) (v : Point 3 K) (hv : v ≠ 0) : 0 < norm v := by
  obtain ⟨h0, h2⟩ := hn v
  rcases eq_or_lt_of_le h0 with h | h
  · exfalso
    rw [← h] at h2
    have hd := dot_pos_of_ne v hv
    simp only [dot, Fin.sum_univ_three] at hd
    simp only [Fin.sum_univ_three] at h2
    nlinarith [hd, h2]
  · exact h

theorem containsPoint_iff (h : HalfSpace 3 K) (p : Point 3 K) :
    h.containsPoint p = true ↔ dot h.normal (fun k => p k - h.point k) ≤ 0 := by
  rw [HalfSpace.containsPoint, decide_eq_true_iff]
  rfl

private theorem prismSide_iff {norm : Point 3 K → K} (hn : IsNorm norm) (V : List (Point 3 K)) (n : Point 3 K)
    (hV : ConvexFace n V) (i : Nat) (hi : i < V.length) (p : Point 3 K) :
    (Polygon3.prismSide norm V n i).containsPoint p = true ↔
      0 ≤ orient3 n (SimplePolygon.vertex V i) (SimplePolygon.vertex V (i + 1)) p := by
  obtain ⟨w, -, hw⟩ := face_third hV (SimplePolygon.vertex V i, SimplePolygon.vertex V (i + 1)) (mem_cyclic V i hi)
  rw [containsPoint_iff, Polygon3.prismSide]
  simp only at hw ⊢
  generalize SimplePolygon.vertex V i = a at *
  generalize SimplePolygon.vertex V (i + 1) = b at *
  have hne : cross3 (fun k => b k - a k) n ≠ 0 := by
    intro h
    have h0 := congrFun h 0
    have h1 := congrFun h 1
    have h2 := congrFun h 2
    simp only [cross3, Matrix.cons_val_zero, Matrix.cons_val_one, Matrix.cons_val, Pi.zero_apply] at h0 h1 h2
    simp only [orient3, dot, cross3, Fin.sum_univ_three, Matrix.cons_val_zero, Matrix.cons_val_one, Matrix.cons_val] at hw
    have : n 0 * ((b 1 - a 1) * (w 2 - a 2) - (b 2 - a 2) * (w 1 - a 1)) +
        n 1 * ((b 2 - a 2) * (w 0 - a 0) - (b 0 - a 0) * (w 2 - a 2)) +
        n 2 * ((b 0 - a 0) * (w 1 - a 1) - (b 1 - a 1) * (w 0 - a 0)) = 0 := by
      linear_combination -(w 0 - a 0) * h0 - (w 1 - a 1) * h1 - (w 2 - a 2) * h2
    linarith
  have hpos := normal_pos hn _ hne
  have e : dot (normalize norm (cross3 (fun k => b k - a k) n)) (fun k => p k - a k) =
      -orient3 n a b p / norm (cross3 (fun k => b k - a k) n) := by
    unfold normalize
    generalize norm (cross3 (fun k => b k - a k) n) = c at hpos
    simp only [orient3, dot, cross3, Fin.sum_univ_three, Matrix.cons_val_zero, Matrix.cons_val_one, Matrix.cons_val]
    ring
  rw [e, div_nonpos_iff]
  constructor
  · rintro (⟨-, h⟩ | ⟨h, -⟩)
    · exact absurd h (not_le.mpr hpos)
    · linarith
  · intro h
    exact .inr ⟨by linarith, hpos.le⟩

private theorem insidePrism_iff {norm : Point 3 K → K} (hn : IsNorm norm) (V : List (Point 3 K)) (n : Point 3 K)
    (hV : ConvexFace n V) (p : Point 3 K) :
    Polygon3.insidePrism norm V n p = true ↔ ∀ e ∈ cyclicPairs V, 0 ≤ orient3 n e.1 e.2 p := by
  rw [Polygon3.insidePrism, List.all_eq_true]
  constructor
  · intro h e he
    obtain ⟨i, hi, rfl⟩ := of_mem_cyclic V e he
    exact (prismSide_iff hn V n hV i hi p).mp (h i (List.mem_range.mpr hi))
  · intro h i hi
    have hi := List.mem_range.mp hi
    exact (prismSide_iff hn V n hV i hi p).mpr
      (h (SimplePolygon.vertex V i, SimplePolygon.vertex V (i + 1)) (mem_cyclic V i hi))

/-- The search over the edges. -/
private theorem edge_fold (V : List (Point 3 K)) (p : Point 3 K) (l : List Nat) (best : Option (K × Point 3 K)) :
    (l.foldl (Polygon3.edgeStep V p) best = none → l = [] ∧ best = none) ∧
    ∀ b, l.foldl (Polygon3.edgeStep V p) best = some b →
      (best = some b ∨ ∃ i ∈ l, b.2 = Segment.closestPoint ⟨SimplePolygon.vertex V i, SimplePolygon.vertex V (i + 1)⟩ p ∧
        b.1 = dist2 b.2 p) ∧
      (∀ b0, best = some b0 → b.1 ≤ b0.1) ∧
      ∀ i ∈ l, b.1 ≤ dist2 (Segment.closestPoint ⟨SimplePolygon.vertex V i, SimplePolygon.vertex V (i + 1)⟩ p) p := by
  have hd : ∀ q : Point 3 K, (normSq fun k => p k - q k) = dist2 q p := by
    intro q
    simp only [normSq, dist2, Fin.sum_univ_three]
    ring
  induction l generalizing best with
  | nil =>
    refine ⟨fun h => ⟨rfl, h⟩, fun b h => ⟨.inl h, fun b0 h0 => ?_, by simp⟩⟩
    rw [List.foldl_nil] at h
    rw [h] at h0
    cases h0
    exact le_rfl
  | cons i l ih =>
    obtain ⟨ih1, ih2⟩ := ih (Polygon3.edgeStep V p best i)
    have hstep : ∃ b', Polygon3.edgeStep V p best i = some b' ∧
        (best = some b' ∨ (b'.2 = Segment.closestPoint ⟨SimplePolygon.vertex V i, SimplePolygon.vertex V (i + 1)⟩ p ∧
          b'.1 = dist2 b'.2 p)) ∧
        (∀ b0, best = some b0 → b'.1 ≤ b0.1) ∧
        b'.1 ≤ dist2 (Segment.closestPoint ⟨SimplePolygon.vertex V i, SimplePolygon.vertex V (i + 1)⟩ p) p := by
      simp only [Polygon3.edgeStep, hd]
      cases best with
      | none => exact ⟨_, by simp [SimplePolygon.below]; rfl, .inr ⟨rfl, rfl⟩, by simp, le_rfl⟩
      | some b0 =>
        simp only [SimplePolygon.below, Option.map_some, decide_eq_true_eq]
        by_cases h : dist2 (Segment.closestPoint ⟨SimplePolygon.vertex V i, SimplePolygon.vertex V (i + 1)⟩ p) p < b0.1
        · rw [if_pos h]
          exact ⟨_, rfl, .inr ⟨rfl, rfl⟩, fun b1 h1 => by cases h1; exact h.le, le_rfl⟩
        · rw [if_neg h]
          exact ⟨_, rfl, .inl rfl, fun b1 h1 => by cases h1; exact le_rfl, not_lt.mp h⟩
    obtain ⟨b', hb', hc, hle, hi⟩ := hstep
    refine ⟨fun h => ?_, fun b h => ?_⟩
    · rw [List.foldl_cons] at h
      have := (ih1 h).2
      rw [hb'] at this
      exact absurd this (by simp)
    · rw [List.foldl_cons] at h
      obtain ⟨h1, h2, h3⟩ := ih2 b h
      have hbb' := h2 b' hb'
      refine ⟨?_, fun b0 h0 => hbb'.trans (hle b0 h0), ?_⟩
      · rcases h1 with h1 | ⟨j, hj, h1⟩
        · rw [hb'] at h1
          cases h1
          rcases hc with hc | hc
          · exact .inl hc
          · exact .inr ⟨i, by simp, hc⟩
        · exact .inr ⟨j, by simp [hj], h1⟩
      · intro j hj
        rcases List.mem_cons.mp hj with rfl | hj
        · exact hbb'.trans hi
        · exact h3 j hj

theorem mem_hull2 (a b x : Point 3 K) : x ∈ hull [a, b] ↔ OnSegment ⟨a, b⟩ x := by
  have e : {v | v ∈ [a, b]} = ({a, b} : Set (Point 3 K)) := by
    ext v
    simp
  rw [hull, e, convexHull_pair]
  constructor
  · rintro ⟨s, t, hs, ht, hst, rfl⟩
    refine ⟨t, ht, by linarith, ?_⟩
    obtain rfl : s = 1 - t := by linarith
    funext i
    simp [lerp]
  · rintro ⟨t, h0, h1, rfl⟩
    exact ⟨1 - t, t, by linarith, h0, by ring, by funext i; simp [lerp]⟩

/-- Distances from a point and from its projection onto a plane. -/
private theorem pythagoras (n v p x : Point 3 K) (h1 : dot n n = 1) (hx : lev n v x = 0) :
    dist2 x p = dist2 x (fun k => p k - n k * lev n v p) + lev n v p ^ 2 := by
  simp only [lev, dot, dist2, Fin.sum_univ_three] at *
  generalize hs : n 0 * (p 0 - v 0) + n 1 * (p 1 - v 1) + n 2 * (p 2 - v 2) = s
  have : n 0 * (x 0 - p 0) + n 1 * (x 1 - p 1) + n 2 * (x 2 - p 2) = -s := by linear_combination hx - hs
  linear_combination -2 * s * this - s ^ 2 * h1

/-- C75: for a strictly convex polygon in space, `closest_point` returns a point of the polygon that no other point of
the polygon beats, with its distance. -/
theorem C75_polygon_closest_point (norm : Point 3 K → K) (hn : IsNorm norm) (sqrt : K → K) (hs : IsSqrt sqrt)
    (N : Point 3 K) (V : List (Point 3 K)) (hV : ConvexFace N V) (p : Point 3 K) :
    ∃ r, Polygon3.closestPoint norm sqrt V p = some r ∧ r.point ∈ hull V ∧ 0 ≤ r.distance ∧
      r.distance ^ 2 = dist2 r.point p ∧ ∀ x ∈ hull V, dist2 r.point p ≤ dist2 x p := by
  obtain ⟨n, hnorm, hF, h1, -⟩ := normal_spec hV norm hn
  have hv0 := vertex_mem V (face_pos hV) 0
  rw [Polygon3.closestPoint, hnorm, Option.bind_some]
  have hq : ∀ a b : Point 3 K, orient3 n a b (fun k => p k - n k * lev n (SimplePolygon.vertex V 0) p) = orient3 n a b p := by
    intro a b
    generalize lev n (SimplePolygon.vertex V 0) p = s
    simp only [orient3, dot, cross3, Fin.sum_univ_three, Matrix.cons_val_zero, Matrix.cons_val_one, Matrix.cons_val]
    ring
  have hqp : lev n (SimplePolygon.vertex V 0) (fun k => p k - n k * lev n (SimplePolygon.vertex V 0) p) = 0 := by
    generalize hc : lev n (SimplePolygon.vertex V 0) p = s
    simp only [lev, dot, Fin.sum_univ_three] at *
    linear_combination hc - s * h1
  have hpy : ∀ x ∈ hull V, dist2 x p = dist2 x (fun k => p k - n k * lev n (SimplePolygon.vertex V 0) p) +
      lev n (SimplePolygon.vertex V 0) p ^ 2 := fun x hx => pythagoras n _ p x h1 (hull_plane hF _ hv0 x hx)
  by_cases hin : Polygon3.insidePrism norm V n p = true
  · rw [if_pos hin]
    have hin' := (insidePrism_iff hn V n hF p).mp hin
    have hmem : (fun k => p k - n k * lev n (SimplePolygon.vertex V 0) p) ∈ hull V := by
      refine mem_hull_of hF _ (fun v hv => ?_) (fun e he => ?_)
      · rw [lev_shift _ v (SimplePolygon.vertex V 0), hqp, add_zero]
        exact hF.plane v hv _ hv0
      · rw [hq]
        exact hin' e he
    have hself : dist2 (fun k => p k - n k * lev n (SimplePolygon.vertex V 0) p) p =
        lev n (SimplePolygon.vertex V 0) p ^ 2 := by
      rw [hpy _ hmem]
      simp [dist2]
    refine ⟨_, rfl, hmem, abs_nonneg _, ?_, fun x hx => ?_⟩
    · rw [sq_abs]
      exact hself.symm
    · have h : 0 ≤ dist2 x (fun k => p k - n k * lev n (SimplePolygon.vertex V 0) p) :=
        Finset.sum_nonneg fun i _ => sq_nonneg _
      have h2 := hpy x hx
      have h3 := hself
      simp only [lev] at h h2 h3 ⊢
      linarith
  · rw [if_neg hin]
    obtain ⟨f1, f2⟩ := edge_fold V p (List.range V.length) none
    cases hb : (List.range V.length).foldl (Polygon3.edgeStep V p) none with
    | none =>
      have h := (f1 hb).1
      have h0 := face_pos hV
      rw [List.range_eq_nil] at h
      omega
    | some b =>
      obtain ⟨hc, -, hmin⟩ := f2 b hb
      obtain ⟨i, hi, hb2, hb1⟩ := hc.resolve_left (by simp)
      have hi := List.mem_range.mp hi
      have hnn : 0 ≤ b.1 := by
        rw [hb1]
        exact Finset.sum_nonneg fun i _ => sq_nonneg _
      obtain ⟨hs0, hs2⟩ := hs b.1 hnn
      refine ⟨⟨b.2, sqrt b.1⟩, rfl, ?_, hs0, by rw [hs2, hb1], fun x hx => ?_⟩
      · obtain ⟨h0, h1', h2, -⟩ := C47_closest_point ⟨SimplePolygon.vertex V i, SimplePolygon.vertex V (i + 1)⟩ p
        have hseg : b.2 ∈ hull [SimplePolygon.vertex V i, SimplePolygon.vertex V (i + 1)] := by
          rw [mem_hull2, hb2]
          exact ⟨_, h0, h1', h2⟩
        refine hull_mono (fun v hv => ?_) hseg
        simp only [List.mem_cons, List.not_mem_nil, or_false] at hv
        rcases hv with rfl | rfl <;> exact vertex_mem V (face_pos hV) _
      · -- the segment from `x` to the projection of `p` leaves the polygon through an edge
        have hx0 : ∀ φ ∈ (cyclicPairs V).map (fun e => orient3 n e.1 e.2), 0 ≤ φ x := by
          intro φ hφ
          obtain ⟨e, he, rfl⟩ := List.mem_map.mp hφ
          exact hull_left hF e he x hx
        rcases exit_aux ((cyclicPairs V).map fun e => orient3 n e.1 e.2)
            (by intro φ hφ; obtain ⟨e, -, rfl⟩ := List.mem_map.mp hφ; exact orient_aff _ _ _) x
            (fun k => p k - n k * lev n (SimplePolygon.vertex V 0) p) hx0 with h | ⟨s, h0, h1', h2, φ, hφ, h3⟩
        · exfalso
          apply hin
          rw [insidePrism_iff hn V n hF]
          intro e he
          rw [← hq]
          exact h _ (List.mem_map.mpr ⟨e, he, rfl⟩)
        · obtain ⟨e, he, rfl⟩ := List.mem_map.mp hφ
          obtain ⟨q, hqdef⟩ : ∃ q : Point 3 K, q = fun k => p k - n k * lev n (SimplePolygon.vertex V 0) p := ⟨_, rfl⟩
          rw [← hqdef] at h2 h3 hqp
          have hz : (1 - s) • x + s • q ∈ hull V := by
            refine mem_hull_of hF _ (fun v hv => ?_) (fun e he => h2 _ (List.mem_map.mpr ⟨e, he, rfl⟩))
            rw [lev_aff n v _ _ _ _ (by ring), hull_plane hF v hv x hx, lev_shift n v (SimplePolygon.vertex V 0), hqp]
            have : lev n v (SimplePolygon.vertex V 0) = 0 := hF.plane v hv _ hv0
            rw [this]
            ring
          have hzseg := (mem_hull2 _ _ _).mp (edge_of_zero hF e he _ hz h3)
          obtain ⟨j, hj, rfl⟩ := of_mem_cyclic V e he
          have hcl := (C47_closest_point ⟨SimplePolygon.vertex V j, SimplePolygon.vertex V (j + 1)⟩ p).2.2.2 _ hzseg
          have hmj := hmin j (List.mem_range.mpr hj)
          have hpz := hpy _ hz
          have hpx := hpy _ hx
          rw [← hqdef] at hpz hpx
          have hsh : dist2 ((1 - s) • x + s • q) q = (1 - s) ^ 2 * dist2 x q := by
            simp only [dist2, Fin.sum_univ_three, Pi.add_apply, Pi.smul_apply, smul_eq_mul]
            ring
          have hnx : 0 ≤ dist2 x q := Finset.sum_nonneg fun i _ => sq_nonneg _
          have hs1 : (1 - s) ^ 2 * dist2 x q ≤ dist2 x q := by
            have : (1 - s) ^ 2 ≤ 1 := by nlinarith
            nlinarith
          simp only
          rw [← hb1]
          linarith

/-! ### Convex polyhedra -/

/-- The normals that the code computes. -/
private theorem good_normals {norm : Point 3 K → K} (hn : IsNorm norm) {faces : List (List (Point 3 K))}
    (hS : ConvexSolid faces) :
    ∃ nf : List (Point 3 K) → Point 3 K, Good nf faces ∧ ∀ f ∈ faces, Polygon3.normal norm f = some (nf f) := by
  refine ⟨fun f => (Polygon3.normal norm f).getD 0, ⟨?_, ?_⟩, ?_⟩
  · intro f hf
    obtain ⟨N, hN, -⟩ := hS.convex f hf
    obtain ⟨n, h, hn', -⟩ := normal_spec hN norm hn
    simpa only [h, Option.getD_some] using hn'
  · intro f hf g hg w hw
    obtain ⟨N, hN, hin⟩ := hS.convex f hf
    obtain ⟨n, h, -, -, c, hc, rfl⟩ := normal_spec hN norm hn
    rcases hin g hg w hw with h' | h'
    · exact .inl h'
    · refine .inr fun v hv => ?_
      simp only [h, Option.getD_some]
      have e : lev (c • N) v w = c * dot N fun i => w i - v i := by
        simp only [lev, dot, Fin.sum_univ_three, Pi.smul_apply, smul_eq_mul]
        ring
      rw [e]
      exact mul_pos hc (h' v hv)
  · intro f hf
    obtain ⟨N, hN, -⟩ := hS.convex f hf
    obtain ⟨n, h, -⟩ := normal_spec hN norm hn
    simp only [h, Option.getD_some]

private theorem dot_neg' (n y : Point 3 K) : dot (fun k => -n k) y ≤ 0 ↔ 0 ≤ dot n y := by
  have : dot (fun k => -n k) y = -dot n y := by
    simp only [dot, Fin.sum_univ_three]
    ring
  rw [this]
  constructor <;> intro h <;> linarith

private theorem contains_loop {norm : Point 3 K → K} {nf : List (Point 3 K) → Point 3 K} (faces : List (List (Point 3 K)))
    (hnf : ∀ f ∈ faces, Polygon3.normal norm f = some (nf f)) (p : Point 3 K) :
    ∃ b, Polyhedron.containsPoint norm faces p = some b ∧
      (b = true ↔ ∀ f ∈ faces, 0 ≤ lev (nf f) (SimplePolygon.vertex f 0) p) := by
  induction faces with
  | nil => exact ⟨true, rfl, by simp⟩
  | cons f fs ih =>
    obtain ⟨b, hb, hiff⟩ := ih fun g hg => hnf g (by simp [hg])
    rw [Polyhedron.containsPoint, hnf f (by simp), Option.bind_some]
    by_cases h : (⟨SimplePolygon.vertex f 0, fun k => -nf f k⟩ : HalfSpace 3 K).containsPoint p = true
    · refine ⟨b, by rw [if_pos h, hb], ?_⟩
      rw [containsPoint_iff, dot_neg'] at h
      rw [hiff, List.forall_mem_cons]
      exact ⟨fun h' => ⟨h, h'⟩, fun h' => h'.2⟩
    · refine ⟨false, by rw [if_neg h], ?_⟩
      rw [containsPoint_iff, dot_neg'] at h
      rw [List.forall_mem_cons]
      exact ⟨fun h' => (by cases h'), fun h' => absurd h'.1 h⟩

private theorem region_iff {nf : List (Point 3 K) → Point 3 K} {faces : List (List (Point 3 K))} (hG : Good nf faces)
    (p : Point 3 K) : Region nf faces p ↔ ∀ f ∈ faces, 0 ≤ lev (nf f) (SimplePolygon.vertex f 0) p := by
  constructor
  · exact fun h f hf => h f hf _ (vertex_mem f (face_pos (hG.face f hf)) 0)
  · intro h f hf v hv
    have h0 : lev (nf f) v (SimplePolygon.vertex f 0) = 0 :=
      (hG.face f hf).plane v hv _ (vertex_mem f (face_pos (hG.face f hf)) 0)
    have := h f hf
    rw [lev_shift _ v (SimplePolygon.vertex f 0)]
    linarith

/-- C75: `contains_point` decides for every point whether it lies in a convex polyhedron, the convex hull of its
vertices. -/
theorem C75_contains_point (norm : Point 3 K → K) (hn : IsNorm norm) (faces : List (List (Point 3 K)))
    (hS : ConvexSolid faces) (p : Point 3 K) :
    ∃ b, Polyhedron.containsPoint norm faces p = some b ∧ (b = true ↔ p ∈ solid faces) := by
  obtain ⟨nf, hG, hnf⟩ := good_normals hn hS
  obtain ⟨b, hb, h⟩ := contains_loop faces hnf p
  exact ⟨b, hb, by rw [h, solid_iff_region hG hS, region_iff hG]⟩

/-- C75: a convex polyhedron is the intersection of the half-spaces that `compute_half_space` returns for its faces. -/
theorem C75_half_spaces (norm : Point 3 K → K) (hn : IsNorm norm) (faces : List (List (Point 3 K)))
    (hS : ConvexSolid faces) (p : Point 3 K) :
    p ∈ solid faces ↔ ∀ f ∈ faces, ∃ h, Polygon3.halfSpace norm f = some h ∧ InHalfSpace h p := by
  obtain ⟨nf, hG, hnf⟩ := good_normals hn hS
  rw [solid_iff_region hG hS, region_iff hG]
  refine forall₂_congr fun f hf => ?_
  rw [Polygon3.halfSpace, hnf f hf, Option.map_some]
  simp only [Option.some.injEq, exists_eq_left']
  have e : height (⟨SimplePolygon.vertex f 0, fun i => -nf f i⟩ : HalfSpace 3 K) p = -lev (nf f) (SimplePolygon.vertex f 0) p := by
    simp only [height, lev, dot, Fin.sum_univ_three]
    ring
  rw [InHalfSpace, e, neg_nonpos]

/-- The loop over the faces. -/
private theorem signed_loop {norm : Point 3 K → K} (hn : IsNorm norm) {sqrt : K → K} (hs : IsSqrt sqrt)
    {nf : List (Point 3 K) → Point 3 K} (p : Point 3 K)
    (faces : List (List (Point 3 K))) (hF : ∀ f ∈ faces, ConvexFace (nf f) f)
    (hnf : ∀ f ∈ faces, Polygon3.normal norm f = some (nf f)) (i : Nat) (inside : Bool)
    (best : Option (K × Nat × Point 3 K)) :
    ∃ inside' best', Polyhedron.signedLoop norm sqrt p faces i inside best = some (inside', best') ∧
      (inside' = true ↔ inside = true ∧ ∀ f ∈ faces, 0 ≤ lev (nf f) (SimplePolygon.vertex f 0) p) ∧
      (best' = none → best = none ∧ faces = []) ∧
      ∀ b, best' = some b → (best = some b ∨ (0 ≤ b.1 ∧ b.1 ^ 2 = dist2 b.2.2 p ∧
          ∃ j f, faces[j]? = some f ∧ b.2.1 = i + j ∧ b.2.2 ∈ hull f)) ∧
        (∀ b0, best = some b0 → b.1 ≤ b0.1) ∧
        ∀ f ∈ faces, ∀ x ∈ hull f, ∃ c, b.1 ≤ c ∧ 0 ≤ c ∧ c ^ 2 ≤ dist2 x p := by
  induction faces generalizing i inside best with
  | nil =>
    refine ⟨inside, best, rfl, by simp, fun h => ⟨h, rfl⟩, fun b hb => ⟨.inl hb, fun b0 h0 => ?_, by simp⟩⟩
    rw [hb] at h0
    cases h0
    exact le_rfl
  | cons f fs ih =>
    have hFf := hF f (by simp)
    obtain ⟨r, hr, hmem, hd0, hd2, hmin⟩ := C75_polygon_closest_point norm hn sqrt hs (nf f) f hFf p
    have hplane : lev (nf f) (SimplePolygon.vertex f 0) r.point = 0 :=
      hull_plane hFf _ (vertex_mem f (face_pos hFf) 0) _ hmem
    have hhalf : (⟨r.point, fun k => -nf f k⟩ : HalfSpace 3 K).containsPoint p = true ↔
        0 ≤ lev (nf f) (SimplePolygon.vertex f 0) p := by
      rw [containsPoint_iff, dot_neg', lev_shift (nf f) (SimplePolygon.vertex f 0) r.point, hplane, zero_add]
      rfl
    rw [Polyhedron.signedLoop, hr, Option.bind_some, hnf f (by simp), Option.bind_some]
    simp only
    obtain ⟨inside', best', h1, h2, h3, h4⟩ := ih (fun g hg => hF g (by simp [hg])) (fun g hg => hnf g (by simp [hg])) (i + 1)
      (if (⟨r.point, fun k => -nf f k⟩ : HalfSpace 3 K).containsPoint p then inside else false)
      (if SimplePolygon.below r.distance (best.map Prod.fst) then some (r.distance, i, r.point) else best)
    have hstep : ∃ b', (if SimplePolygon.below r.distance (best.map Prod.fst) then some (r.distance, i, r.point) else best)
        = some b' ∧ (best = some b' ∨ b' = (r.distance, i, r.point)) ∧ (∀ b0, best = some b0 → b'.1 ≤ b0.1) ∧
        b'.1 ≤ r.distance := by
      cases best with
      | none => exact ⟨_, by simp [SimplePolygon.below], .inr rfl, by simp, le_rfl⟩
      | some b0 =>
        simp only [SimplePolygon.below, Option.map_some, decide_eq_true_eq]
        by_cases h : r.distance < b0.1
        · rw [if_pos h]
          exact ⟨_, rfl, .inr rfl, fun b1 e => by cases e; exact h.le, le_rfl⟩
        · rw [if_neg h]
          exact ⟨_, rfl, .inl rfl, fun b1 e => by cases e; exact le_rfl, not_lt.mp h⟩
    obtain ⟨b', hb', hc, hle, hri⟩ := hstep
    refine ⟨inside', best', h1, ?_, ?_, ?_⟩
    · rw [h2, List.forall_mem_cons]
      by_cases h : (⟨r.point, fun k => -nf f k⟩ : HalfSpace 3 K).containsPoint p = true
      · rw [if_pos h]
        exact ⟨fun ⟨a, b⟩ => ⟨a, hhalf.mp h, b⟩, fun ⟨a, _, b⟩ => ⟨a, b⟩⟩
      · rw [if_neg h]
        exact ⟨fun ⟨a, _⟩ => (by cases a), fun ⟨_, a, _⟩ => absurd (hhalf.mpr a) h⟩
    · intro h
      have := (h3 h).1
      rw [hb'] at this
      cases this
    · intro b hb
      obtain ⟨g1, g2, g3⟩ := h4 b hb
      have hbb' := g2 b' hb'
      refine ⟨?_, fun b0 h0 => hbb'.trans (hle b0 h0), ?_⟩
      · rcases g1 with g1 | ⟨g0, g1, j, g, hj, e, hg⟩
        · rw [hb'] at g1
          cases g1
          rcases hc with hc | rfl
          · exact .inl hc
          · exact .inr ⟨hd0, hd2, 0, f, rfl, rfl, hmem⟩
        · exact .inr ⟨g0, g1, j + 1, g, by simpa using hj, by omega, hg⟩
      · intro g hg x hx
        rcases List.mem_cons.mp hg with rfl | hg
        · exact ⟨r.distance, hbb'.trans hri, hd0, by rw [hd2]; exact hmin x hx⟩
        · exact g3 g hg x hx

private theorem dist2_lerp (y p : Point 3 K) (s : K) : dist2 ((1 - s) • y + s • p) p = (1 - s) ^ 2 * dist2 y p := by
  simp only [dist2, Fin.sum_univ_three, Pi.add_apply, Pi.smul_apply, smul_eq_mul]
  ring

private theorem solid_exit {nf : List (Point 3 K) → Point 3 K} {faces : List (List (Point 3 K))} (hG : Good nf faces)
    (hS : ConvexSolid faces) (p y : Point 3 K) (hp : p ∉ solid faces) (hy : y ∈ solid faces) :
    ∃ z ∈ surface faces, dist2 z p ≤ dist2 y p := by
  obtain ⟨s, h0, h1, f, hf, hz⟩ := region_exit hG hS y p ((solid_iff_region hG hS y).mp hy)
    (fun h => hp ((solid_iff_region hG hS p).mpr h))
  refine ⟨_, ⟨f, hf, hz⟩, ?_⟩
  rw [dist2_lerp]
  have hnn : 0 ≤ dist2 y p := Finset.sum_nonneg fun i _ => sq_nonneg _
  have : (1 - s) ^ 2 ≤ 1 := by nlinarith
  nlinarith

private theorem eq_of_dist2 (x y : Point 3 K) (h : dist2 x y = 0) : x = y := by
  rw [dist2, Finset.sum_eq_zero_iff_of_nonneg fun i _ => sq_nonneg _] at h
  funext i
  have := h i (Finset.mem_univ i)
  have := pow_eq_zero_iff (two_ne_zero) |>.mp this
  linarith

/-- C75: `compute_signed_distance` for a convex polyhedron with at least four faces. -/
theorem C75_signed_distance (norm : Point 3 K → K) (hn : IsNorm norm) (sqrt : K → K) (hs : IsSqrt sqrt)
    (faces : List (List (Point 3 K))) (hS : ConvexSolid faces) (h4 : 4 ≤ faces.length) (p : Point 3 K) :
    ∃ r, Polyhedron.signedDistance norm sqrt faces p = some r ∧ IsSignedDistance faces p r := by
  obtain ⟨nf, hG, hnf⟩ := good_normals hn hS
  obtain ⟨inside, best, h1, h2, h3, hb⟩ := signed_loop hn hs p faces hG.face hnf 0 true none
  rw [Polyhedron.signedDistance, if_neg (by omega), h1, Option.bind_some]
  cases best with
  | none => exact absurd (h3 rfl).2 hS.nonempty
  | some b =>
    obtain ⟨hc, -, hmin⟩ := hb b rfl
    obtain ⟨hb0, hb2, j, f, hj, hidx, hmem⟩ := hc.resolve_left (by simp)
    have hin : inside = true ↔ p ∈ solid faces := by
      rw [h2, solid_iff_region hG hS, region_iff hG]
      simp
    have hclose : ∀ x ∈ surface faces, dist2 b.2.2 p ≤ dist2 x p := by
      rintro x ⟨g, hg, hx⟩
      obtain ⟨c, hc, hc0, hc2⟩ := hmin g hg x hx
      rw [← hb2]
      have : b.1 ^ 2 ≤ c ^ 2 := by nlinarith
      linarith
    have hfs : f ∈ faces := List.mem_of_getElem? hj
    refine ⟨_, rfl, ⟨⟨f, ?_, hmem⟩, ?_, hclose, ?_, ?_⟩⟩
    · simp only [hidx, Nat.zero_add, hj]
    · simp only
      rw [← hb2]
      cases inside <;> simp
    · simp only
      rw [← hin]
      cases inside with
      | true => simpa using hb0
      | false =>
        simp only [Bool.false_eq_true, if_false, one_mul, iff_false, not_le]
        rcases eq_or_lt_of_le hb0 with h | h
        · exfalso
          rw [← h] at hb2
          have e := eq_of_dist2 b.2.2 p (by rw [← hb2]; ring)
          have : p ∈ solid faces := by
            rw [← e]
            exact hull_mono (fun v hv => List.mem_flatten.mpr ⟨f, hfs, hv⟩) hmem
          have := hin.mpr this
          cases this
        · exact h
    · intro hp x hx
      obtain ⟨z, hz, hle⟩ := solid_exit hG hS p x hp hx
      exact (hclose z hz).trans hle

/-- C75: `distance` of a hexahedron with plane faces is the distance to the convex hull of its vertices. -/
theorem C75_hexahedron_distance (norm : Point 3 K → K) (hn : IsNorm norm) (sqrt : K → K) (hs : IsSqrt sqrt)
    (V : Fin 8 → Point 3 K) (hS : ConvexSolid (Hexahedron.faces V)) (p : Point 3 K) :
    ∃ D, Hexahedron.distance norm sqrt V p = some D ∧ 0 ≤ D ∧
      (∃ y ∈ hull (List.ofFn V), D ^ 2 = dist2 y p) ∧ ∀ y ∈ hull (List.ofFn V), D ^ 2 ≤ dist2 y p := by
  have hV : hull (List.ofFn V) = solid (Hexahedron.faces V) := by
    apply Set.Subset.antisymm <;> apply hull_mono <;> intro v hv
    · obtain ⟨i, rfl⟩ := List.mem_ofFn.mp hv
      fin_cases i <;> simp [Hexahedron.faces]
    · simp only [Hexahedron.faces, List.flatten_cons, List.flatten_nil, List.cons_append, List.nil_append, List.append_nil,
        List.mem_cons, List.not_mem_nil, or_false] at hv
      apply List.mem_ofFn.mpr
      rcases hv with h | h | h | h | h | h | h | h | h | h | h | h | h | h | h | h | h | h | h | h | h | h | h | h <;>
        exact ⟨_, h.symm⟩
  rw [hV]
  obtain ⟨r, hr, h⟩ := C75_signed_distance norm hn sqrt hs _ hS (by simp [Hexahedron.faces]) p
  refine ⟨max r.signedDistance 0, by rw [Hexahedron.distance, hr]; rfl, le_max_right _ _, ?_, ?_⟩
  · by_cases hp : p ∈ solid (Hexahedron.faces V)
    · rw [max_eq_right (h.sign.mpr hp)]
      exact ⟨p, hp, by simp [dist2]⟩
    · have := fun h' => hp (h.sign.mp h')
      rw [max_eq_left (not_le.mp this).le]
      obtain ⟨f, hf, hm⟩ := h.on_face
      exact ⟨r.point, hull_mono (fun v hv => List.mem_flatten.mpr ⟨f, List.mem_of_getElem? hf, hv⟩) hm, h.dist⟩
  · intro y hy
    by_cases hp : p ∈ solid (Hexahedron.faces V)
    · rw [max_eq_right (h.sign.mpr hp), zero_pow two_ne_zero]
      exact Finset.sum_nonneg fun i _ => sq_nonneg _
    · have := fun h' => hp (h.sign.mp h')
      rw [max_eq_left (not_le.mp this).le, h.dist]
      exact h.outside hp y hy

/-! ### Tetrahedra -/

/-- A triangle that is not degenerate. -/
private theorem tri_face' (a b c : Point 3 K) (hN : cross3 (fun i => b i - a i) (fun i => c i - a i) ≠ 0) :
    ConvexFace (cross3 (fun i => b i - a i) fun i => c i - a i) [a, b, c] := by
  have hb : dot (cross3 (fun i => b i - a i) fun i => c i - a i) (fun i => b i - a i) = 0 := by
    simp only [dot, cross3, Fin.sum_univ_three, Matrix.cons_val_zero, Matrix.cons_val_one, Matrix.cons_val]
    ring
  have hc : dot (cross3 (fun i => b i - a i) fun i => c i - a i) (fun i => c i - a i) = 0 := by
    simp only [dot, cross3, Fin.sum_univ_three, Matrix.cons_val_zero, Matrix.cons_val_one, Matrix.cons_val]
    ring
  have hpos : 0 < orient3 (cross3 (fun i => b i - a i) fun i => c i - a i) a b c := dot_pos_of_ne _ hN
  generalize cross3 (fun i => b i - a i) (fun i => c i - a i) = N at *
  have hab : a ≠ b := by
    rintro rfl
    have := orient_self N a c
    rw [orient_cycle] at this
    rw [orient_swap] at hpos
    have e : orient3 N a a c = -orient3 N a a c := orient_swap N a a c
    linarith
  have hbc : b ≠ c := by
    rintro rfl
    rw [orient_self'] at hpos
    exact lt_irrefl _ hpos
  have hac : a ≠ c := by
    rintro rfl
    rw [orient_self] at hpos
    exact lt_irrefl _ hpos
  have sub : ∀ x y z : Point 3 K, (dot N fun i => x i - y i) = (dot N fun i => x i - z i) - dot N fun i => y i - z i := by
    intro x y z
    simp only [dot, Fin.sum_univ_three]
    ring
  have hplane : ∀ v ∈ [a, b, c], (dot N fun i => v i - a i) = 0 := by
    intro v hv
    simp only [List.mem_cons, List.not_mem_nil, or_false] at hv
    rcases hv with rfl | rfl | rfl
    · simp [dot]
    · exact hb
    · exact hc
  refine ⟨le_rfl, by simp [hab, hbc, hac], fun v hv w hw => ?_, fun e he w hw => ?_⟩
  · rw [sub w v a, hplane v hv, hplane w hw, sub_zero]
  · simp only [cyclicPairs, List.rotate_cons_succ, List.rotate_zero, List.cons_append, List.nil_append, List.zip_cons_cons,
      List.zip_nil_right, List.mem_cons, List.not_mem_nil, or_false] at he hw
    rcases he with rfl | rfl | rfl <;> rcases hw with rfl | rfl | rfl <;>
      first
        | exact .inl rfl
        | exact .inr (.inl rfl)
        | exact .inr (.inr hpos)
        | exact .inr (.inr (by rw [orient_cycle]; exact hpos))
        | exact .inr (.inr (by rw [orient_cycle, orient_cycle]; exact hpos))

/-- A triangle with a point on the positive side. -/
private theorem tri_face (a b c d : Point 3 K)
    (h : 0 < dot (cross3 (fun i => b i - a i) fun i => c i - a i) fun i => d i - a i) :
    ConvexFace (cross3 (fun i => b i - a i) fun i => c i - a i) [a, b, c] ∧
      ∀ v ∈ [a, b, c], 0 < dot (cross3 (fun i => b i - a i) fun i => c i - a i) fun i => d i - v i := by
  have hF := tri_face' a b c (by
    intro e
    rw [e] at h
    simp [dot] at h)
  refine ⟨hF, fun v hv => ?_⟩
  have := hF.plane v hv a (by simp)
  have e := lev_shift (cross3 (fun i => b i - a i) fun i => c i - a i) v a d
  simp only [lev] at e
  rw [e, this, zero_add]
  exact h

private theorem det_perm (V : Fin 4 → Point 3 K) :
    (dot (cross3 (fun i => V 3 i - V 0 i) fun i => V 1 i - V 0 i) fun i => V 2 i - V 0 i) = tetDet V ∧
    (dot (cross3 (fun i => V 3 i - V 1 i) fun i => V 2 i - V 1 i) fun i => V 0 i - V 1 i) = tetDet V ∧
    (dot (cross3 (fun i => V 2 i - V 0 i) fun i => V 3 i - V 0 i) fun i => V 1 i - V 0 i) = tetDet V := by
  simp only [tetDet, dot, cross3, Fin.sum_univ_three, Matrix.cons_val_zero, Matrix.cons_val_one, Matrix.cons_val]
  refine ⟨?_, ?_, ?_⟩ <;> ring

/-- C75: the faces of a positively oriented tetrahedron bound a convex polyhedron. -/
theorem C75_tetrahedron_solid (V : Fin 4 → Point 3 K) (h : 0 < tetDet V) :
    ConvexSolid (Tetrahedron.faces V) ∧ solid (Tetrahedron.faces V) = hull [V 0, V 1, V 2, V 3] := by
  obtain ⟨e1, e2, e3⟩ := det_perm V
  obtain ⟨f0, g0⟩ := tri_face (V 0) (V 1) (V 2) (V 3) h
  obtain ⟨f1, g1⟩ := tri_face (V 0) (V 3) (V 1) (V 2) (e1 ▸ h)
  obtain ⟨f2, g2⟩ := tri_face (V 1) (V 3) (V 2) (V 0) (e2 ▸ h)
  obtain ⟨f3, g3⟩ := tri_face (V 0) (V 2) (V 3) (V 1) (e3 ▸ h)
  have n0 := f0.nodup
  have n1 := f1.nodup
  have n2 := f2.nodup
  have n3 := f3.nodup
  simp only [List.nodup_cons, List.mem_cons, List.not_mem_nil, or_false, not_or, List.nodup_nil, not_false_eq_true,
    and_true] at n0 n1 n2 n3
  have hall : ∀ g ∈ Tetrahedron.faces V, ∀ w ∈ g, w = V 0 ∨ w = V 1 ∨ w = V 2 ∨ w = V 3 := by
    intro g hg w hw
    simp only [Tetrahedron.faces, List.mem_cons, List.not_mem_nil, or_false] at hg
    rcases hg with rfl | rfl | rfl | rfl <;>
      simp only [List.mem_cons, List.not_mem_nil, or_false] at hw <;> tauto
  refine ⟨⟨by simp [Tetrahedron.faces], ?_, ?_⟩, ?_⟩
  · intro f hf
    simp only [Tetrahedron.faces, List.mem_cons, List.not_mem_nil, or_false] at hf
    rcases hf with rfl | rfl | rfl | rfl
    · refine ⟨_, f0, fun g hg w hw => ?_⟩
      rcases hall g hg w hw with rfl | rfl | rfl | rfl
      · simp
      · simp
      · simp
      · exact .inr g0
    · refine ⟨_, f1, fun g hg w hw => ?_⟩
      rcases hall g hg w hw with rfl | rfl | rfl | rfl
      · simp
      · simp
      · exact .inr g1
      · simp
    · refine ⟨_, f2, fun g hg w hw => ?_⟩
      rcases hall g hg w hw with rfl | rfl | rfl | rfl
      · exact .inr g2
      · simp
      · simp
      · simp
    · refine ⟨_, f3, fun g hg w hw => ?_⟩
      rcases hall g hg w hw with rfl | rfl | rfl | rfl
      · simp
      · exact .inr g3
      · simp
      · simp
  · intro f hf e he
    have m : ∀ g, g = [V 0, V 1, V 2] ∨ g = [V 0, V 3, V 1] ∨ g = [V 1, V 3, V 2] ∨ g = [V 0, V 2, V 3] →
        g ∈ Tetrahedron.faces V := by
      intro g hg
      simpa only [Tetrahedron.faces, List.mem_cons, List.not_mem_nil, or_false] using hg
    simp only [Tetrahedron.faces, List.mem_cons, List.not_mem_nil, or_false] at hf
    rcases hf with rfl | rfl | rfl | rfl <;>
      simp only [cyclicPairs, List.rotate_cons_succ, List.rotate_zero, List.cons_append, List.nil_append, List.zip_cons_cons,
        List.zip_nil_right, List.mem_cons, List.not_mem_nil, or_false] at he <;>
      rcases he with rfl | rfl | rfl
    · exact ⟨_, m [V 0, V 3, V 1] (by simp), by simp, by simp, V 2, by simp, by simp; tauto⟩
    · exact ⟨_, m [V 1, V 3, V 2] (by simp), by simp, by simp, V 0, by simp, by simp; tauto⟩
    · exact ⟨_, m [V 0, V 2, V 3] (by simp), by simp, by simp, V 1, by simp, by simp; tauto⟩
    · exact ⟨_, m [V 0, V 2, V 3] (by simp), by simp, by simp, V 1, by simp, by simp; tauto⟩
    · exact ⟨_, m [V 1, V 3, V 2] (by simp), by simp, by simp, V 0, by simp, by simp; tauto⟩
    · exact ⟨_, m [V 0, V 1, V 2] (by simp), by simp, by simp, V 3, by simp, by simp; tauto⟩
    · exact ⟨_, m [V 0, V 3, V 1] (by simp), by simp, by simp, V 2, by simp, by simp; tauto⟩
    · exact ⟨_, m [V 0, V 2, V 3] (by simp), by simp, by simp, V 1, by simp, by simp; tauto⟩
    · exact ⟨_, m [V 0, V 1, V 2] (by simp), by simp, by simp, V 3, by simp, by simp; tauto⟩
    · exact ⟨_, m [V 0, V 1, V 2] (by simp), by simp, by simp, V 3, by simp, by simp; tauto⟩
    · exact ⟨_, m [V 1, V 3, V 2] (by simp), by simp, by simp, V 0, by simp, by simp; tauto⟩
    · exact ⟨_, m [V 0, V 3, V 1] (by simp), by simp, by simp, V 2, by simp, by simp; tauto⟩
  · apply Set.Subset.antisymm <;> apply hull_mono <;> intro v hv
    · obtain ⟨g, hg, hv⟩ := List.mem_flatten.mp hv
      simpa only [List.mem_cons, List.not_mem_nil, or_false] using hall g hg v hv
    · simp only [List.mem_cons, List.not_mem_nil, or_false] at hv
      rcases hv with rfl | rfl | rfl | rfl <;> simp [Tetrahedron.faces]

/-- C75: `contains_point` for a positively oriented tetrahedron decides membership in the convex hull of the four
vertices. -/
theorem C75_tetrahedron_contains_point (norm : Point 3 K → K) (hn : IsNorm norm) (V : Fin 4 → Point 3 K) (h : 0 < tetDet V)
    (p : Point 3 K) :
    ∃ b, Polyhedron.containsPoint norm (Tetrahedron.faces V) p = some b ∧ (b = true ↔ p ∈ hull [V 0, V 1, V 2, V 3]) := by
  obtain ⟨hS, e⟩ := C75_tetrahedron_solid V h
  rw [← e]
  exact C75_contains_point norm hn _ hS p

/-- C75: `compute_signed_distance` for a positively oriented tetrahedron. -/
theorem C75_tetrahedron_signed_distance (norm : Point 3 K → K) (hn : IsNorm norm) (sqrt : K → K) (hs : IsSqrt sqrt)
    (V : Fin 4 → Point 3 K) (h : 0 < tetDet V) (p : Point 3 K) :
    ∃ r, Polyhedron.signedDistance norm sqrt (Tetrahedron.faces V) p = some r ∧
      IsSignedDistance (Tetrahedron.faces V) p r :=
  C75_signed_distance norm hn sqrt hs _ (C75_tetrahedron_solid V h).1 (by simp [Tetrahedron.faces]) p

private theorem orientation_iff {norm : Point 3 K → K} (hn : IsNorm norm) (t : Tri 3 K) (ht : t.normalDir ≠ 0) (p : Point 3 K) :
    Tetrahedron.pointOrientation norm t p = .positive ↔ 0 < dot t.normalDir fun k => p k - t.a k := by
  have hpos := normal_pos hn _ ht
  have e : dot (normalize norm t.normalDir) (fun k => p k - t.a k) =
      (dot t.normalDir fun k => p k - t.a k) / norm t.normalDir := by
    simp only [normalize, dot, Fin.sum_univ_three]
    ring
  simp only [Tetrahedron.pointOrientation, e]
  by_cases h : 0 < dot t.normalDir fun k => p k - t.a k
  · simp [div_pos h hpos, h]
  · have h' : ¬ 0 < (dot t.normalDir fun k => p k - t.a k) / norm t.normalDir := by
      intro hc
      rw [div_pos_iff_of_pos_right hpos] at hc
      exact h hc
    rw [if_neg h']
    constructor
    · intro hc
      split at hc <;> cases hc
    · intro hc
      exact absurd hc h

private theorem distance_loop {norm : Point 3 K → K} (hn : IsNorm norm) {sqrt : K → K} (hs : IsSqrt sqrt) (p : Point 3 K)
    (ts : List (Tri 3 K)) (ht : ∀ t ∈ ts, t.normalDir ≠ 0) (inside : Bool) (best : Option K) :
    ∃ inside' best', Tetrahedron.distanceLoop norm sqrt p ts inside best = some (inside', best') ∧
      (inside' = true ↔ inside = true ∧ ∀ t ∈ ts, (dot t.normalDir fun k => p k - t.a k) ≤ 0) ∧
      (best' = none → best = none ∧ ts = []) ∧
      ∀ b, best' = some b → (best = some b ∨ (0 ≤ b ∧ ∃ t ∈ ts, ∃ y ∈ hull [t.a, t.b, t.c], b ^ 2 = dist2 y p)) ∧
        (∀ b0, best = some b0 → b ≤ b0) ∧
        ∀ t ∈ ts, ∀ x ∈ hull [t.a, t.b, t.c], ∃ c, b ≤ c ∧ 0 ≤ c ∧ c ^ 2 ≤ dist2 x p := by
  induction ts generalizing inside best with
  | nil =>
    refine ⟨inside, best, rfl, by simp, fun h => ⟨h, rfl⟩, fun b hb => ⟨.inl hb, fun b0 h0 => ?_, by simp⟩⟩
    rw [hb] at h0
    cases h0
    exact le_rfl
  | cons t ts ih =>
    have hN := ht t (by simp)
    obtain ⟨r, hr, hmem, hd0, hd2, hmin⟩ := C75_polygon_closest_point norm hn sqrt hs t.normalDir [t.a, t.b, t.c]
      (tri_face' t.a t.b t.c hN) p
    rw [Tetrahedron.distanceLoop, hr, Option.bind_some]
    obtain ⟨inside', best', h1, h2, h3, h4⟩ := ih (fun g hg => ht g (by simp [hg]))
      (if Tetrahedron.pointOrientation norm t p = .positive then false else inside)
      (some (best.elim r.distance fun b => min b r.distance))
    have hstep : (best = some (best.elim r.distance fun b => min b r.distance) ∨
          (best.elim r.distance fun b => min b r.distance) = r.distance) ∧
        (∀ b0, best = some b0 → (best.elim r.distance fun b => min b r.distance) ≤ b0) ∧
        (best.elim r.distance fun b => min b r.distance) ≤ r.distance := by
      cases best with
      | none => exact ⟨.inr rfl, by simp, le_rfl⟩
      | some b0 =>
        simp only [Option.elim_some, Option.some.injEq]
        refine ⟨?_, fun b1 e => by rw [← e]; exact min_le_left _ _, min_le_right _ _⟩
        rcases min_choice b0 r.distance with h | h
        · exact .inl h.symm
        · exact .inr h
    generalize (best.elim r.distance fun b => min b r.distance) = m at *
    obtain ⟨hc, hle, hri⟩ := hstep
    refine ⟨inside', best', h1, ?_, ?_, ?_⟩
    · rw [h2, List.forall_mem_cons]
      by_cases h : Tetrahedron.pointOrientation norm t p = .positive
      · rw [if_pos h]
        have := (orientation_iff hn t hN p).mp h
        exact ⟨fun ⟨a, _⟩ => (by cases a), fun ⟨_, a, _⟩ => absurd a (not_le.mpr this)⟩
      · rw [if_neg h]
        have := mt (orientation_iff hn t hN p).mpr h
        exact ⟨fun ⟨a, b⟩ => ⟨a, not_lt.mp this, b⟩, fun ⟨a, _, b⟩ => ⟨a, b⟩⟩
    · intro h
      exact absurd (h3 h).1 (by simp)
    · intro b hb
      obtain ⟨g1, g2, g3⟩ := h4 b hb
      have hbm := g2 m rfl
      refine ⟨?_, fun b0 h0 => hbm.trans (hle b0 h0), ?_⟩
      · rcases g1 with g1 | ⟨g0, t', ht', y, hy, e⟩
        · cases g1
          rcases hc with hc | rfl
          · exact .inl hc
          · exact .inr ⟨hd0, t, by simp, r.point, hmem, hd2⟩
        · exact .inr ⟨g0, t', by simp [ht'], y, hy, e⟩
      · intro t' ht' x hx
        rcases List.mem_cons.mp ht' with rfl | ht'
        · exact ⟨r.distance, hbm.trans hri, hd0, by rw [hd2]; exact hmin x hx⟩
        · exact g3 t' ht' x hx

/-- The normals of triangles. -/
private def triNormal : List (Point 3 K) → Point 3 K
  | [a, b, c] => cross3 (fun i => b i - a i) fun i => c i - a i
  | _ => 0

private theorem tet_good (V : Fin 4 → Point 3 K) (h : 0 < tetDet V) : Good triNormal (Tetrahedron.faces V) := by
  obtain ⟨hS, -⟩ := C75_tetrahedron_solid V h
  obtain ⟨e1, e2, e3⟩ := det_perm V
  obtain ⟨f0, g0⟩ := tri_face (V 0) (V 1) (V 2) (V 3) h
  obtain ⟨f1, g1⟩ := tri_face (V 0) (V 3) (V 1) (V 2) (e1 ▸ h)
  obtain ⟨f2, g2⟩ := tri_face (V 1) (V 3) (V 2) (V 0) (e2 ▸ h)
  obtain ⟨f3, g3⟩ := tri_face (V 0) (V 2) (V 3) (V 1) (e3 ▸ h)
  refine ⟨?_, ?_⟩
  · intro f hf
    simp only [Tetrahedron.faces, List.mem_cons, List.not_mem_nil, or_false] at hf
    rcases hf with rfl | rfl | rfl | rfl
    · exact f0
    · exact f1
    · exact f2
    · exact f3
  · intro f hf g hg w hw
    have hw' : w = V 0 ∨ w = V 1 ∨ w = V 2 ∨ w = V 3 := by
      simp only [Tetrahedron.faces, List.mem_cons, List.not_mem_nil, or_false] at hg
      rcases hg with rfl | rfl | rfl | rfl <;>
        simp only [List.mem_cons, List.not_mem_nil, or_false] at hw <;> tauto
    simp only [Tetrahedron.faces, List.mem_cons, List.not_mem_nil, or_false] at hf
    rcases hf with rfl | rfl | rfl | rfl <;> rcases hw' with rfl | rfl | rfl | rfl <;>
      first
        | exact .inr g0
        | exact .inr g1
        | exact .inr g2
        | exact .inr g3
        | exact .inl (by simp)

/-- C75: `distance` of a positively oriented tetrahedron is the distance to the convex hull of its vertices, zero for
points in it. -/
theorem C75_tetrahedron_distance (norm : Point 3 K → K) (hn : IsNorm norm) (sqrt : K → K) (hs : IsSqrt sqrt)
    (V : Fin 4 → Point 3 K) (h : 0 < tetDet V) (p : Point 3 K) :
    ∃ D, Tetrahedron.distance norm sqrt V p = some D ∧ 0 ≤ D ∧
      (∃ y ∈ hull [V 0, V 1, V 2, V 3], D ^ 2 = dist2 y p) ∧
      ∀ y ∈ hull [V 0, V 1, V 2, V 3], D ^ 2 ≤ dist2 y p := by
  obtain ⟨hS, hsolid⟩ := C75_tetrahedron_solid V h
  have hG := tet_good V h
  have hne : ∀ t ∈ Tetrahedron.outward V, t.normalDir ≠ 0 := by
    intro t ht e
    have e0 := congrFun e 0
    have e1 := congrFun e 1
    have e2 := congrFun e 2
    apply h.ne'
    simp only [Tetrahedron.outward, List.mem_cons, List.not_mem_nil, or_false] at ht
    rcases ht with rfl | rfl | rfl | rfl <;>
      simp only [tetDet, Tri.normalDir, dot, cross3, Fin.sum_univ_three, Matrix.cons_val_zero, Matrix.cons_val_one,
        Matrix.cons_val, Pi.zero_apply] at e0 e1 e2 ⊢
    · linear_combination -(V 3 0 - V 0 0) * e0 - (V 3 1 - V 0 1) * e1 - (V 3 2 - V 0 2) * e2
    · linear_combination -(V 0 0 - V 1 0) * e0 - (V 0 1 - V 1 1) * e1 - (V 0 2 - V 1 2) * e2
    · linear_combination -(V 2 0 - V 0 0) * e0 - (V 2 1 - V 0 1) * e1 - (V 2 2 - V 0 2) * e2
    · linear_combination -(V 1 0 - V 0 0) * e0 - (V 1 1 - V 0 1) * e1 - (V 1 2 - V 0 2) * e2
  obtain ⟨inside, best, h1, h2, h3, h4⟩ := distance_loop hn hs p (Tetrahedron.outward V) hne true none
  have hin : inside = true ↔ p ∈ hull [V 0, V 1, V 2, V 3] := by
    rw [h2, ← hsolid, solid_iff_region hG hS, region_iff hG]
    simp only [Tetrahedron.outward, Tetrahedron.faces, List.mem_cons, List.not_mem_nil, or_false, true_and,
      forall_eq_or_imp, forall_eq, triNormal, SimplePolygon.vertex, lev, Tri.normalDir]
    simp only [List.length_cons, List.length_nil, Nat.zero_mod, List.getD_cons_zero]
    have q0 : (dot (cross3 (fun i => V 1 i - V 2 i) fun i => V 0 i - V 2 i) fun k => p k - V 2 k) =
        -(dot (cross3 (fun i => V 1 i - V 0 i) fun i => V 2 i - V 0 i) fun k => p k - V 0 k) := by
      simp only [dot, cross3, Fin.sum_univ_three, Matrix.cons_val_zero, Matrix.cons_val_one, Matrix.cons_val]
      ring
    have q1 : (dot (cross3 (fun i => V 2 i - V 1 i) fun i => V 3 i - V 1 i) fun k => p k - V 1 k) =
        -(dot (cross3 (fun i => V 3 i - V 1 i) fun i => V 2 i - V 1 i) fun k => p k - V 1 k) := by
      simp only [dot, cross3, Fin.sum_univ_three, Matrix.cons_val_zero, Matrix.cons_val_one, Matrix.cons_val]
      ring
    have q2 : (dot (cross3 (fun i => V 1 i - V 0 i) fun i => V 3 i - V 0 i) fun k => p k - V 0 k) =
        -(dot (cross3 (fun i => V 3 i - V 0 i) fun i => V 1 i - V 0 i) fun k => p k - V 0 k) := by
      simp only [dot, cross3, Fin.sum_univ_three, Matrix.cons_val_zero, Matrix.cons_val_one, Matrix.cons_val]
      ring
    have q3 : (dot (cross3 (fun i => V 0 i - V 2 i) fun i => V 3 i - V 2 i) fun k => p k - V 2 k) =
        -(dot (cross3 (fun i => V 2 i - V 0 i) fun i => V 3 i - V 0 i) fun k => p k - V 0 k) := by
      simp only [dot, cross3, Fin.sum_univ_three, Matrix.cons_val_zero, Matrix.cons_val_one, Matrix.cons_val]
      ring
    rw [q0, q1, q2, q3]
    simp only [neg_nonpos]
    tauto
  have hsub : ∀ t ∈ Tetrahedron.outward V, hull [t.a, t.b, t.c] ⊆ hull [V 0, V 1, V 2, V 3] := by
    intro t ht
    apply hull_mono
    simp only [Tetrahedron.outward, List.mem_cons, List.not_mem_nil, or_false] at ht
    rcases ht with rfl | rfl | rfl | rfl <;> intro v hv <;>
      simp only [List.mem_cons, List.not_mem_nil, or_false] at hv ⊢ <;> tauto
  have hsurf : ∀ f ∈ Tetrahedron.faces V, ∃ t ∈ Tetrahedron.outward V, hull f ⊆ hull [t.a, t.b, t.c] := by
    intro f hf
    simp only [Tetrahedron.faces, List.mem_cons, List.not_mem_nil, or_false] at hf
    rcases hf with rfl | rfl | rfl | rfl
    · exact ⟨⟨V 2, V 1, V 0⟩, by simp [Tetrahedron.outward], hull_mono fun v hv => by
        simp only [List.mem_cons, List.not_mem_nil, or_false] at hv ⊢; tauto⟩
    · exact ⟨⟨V 0, V 1, V 3⟩, by simp [Tetrahedron.outward], hull_mono fun v hv => by
        simp only [List.mem_cons, List.not_mem_nil, or_false] at hv ⊢; tauto⟩
    · exact ⟨⟨V 1, V 2, V 3⟩, by simp [Tetrahedron.outward], hull_mono fun v hv => by
        simp only [List.mem_cons, List.not_mem_nil, or_false] at hv ⊢; tauto⟩
    · exact ⟨⟨V 2, V 0, V 3⟩, by simp [Tetrahedron.outward], hull_mono fun v hv => by
        simp only [List.mem_cons, List.not_mem_nil, or_false] at hv ⊢; tauto⟩
  rw [Tetrahedron.distance, h1, Option.bind_some]
  cases hi : inside with
  | true =>
    refine ⟨0, rfl, le_rfl, ⟨p, hin.mp hi, by simp [dist2]⟩, fun y _ => ?_⟩
    rw [zero_pow two_ne_zero]
    exact Finset.sum_nonneg fun i _ => sq_nonneg _
  | false =>
    have hout : p ∉ hull [V 0, V 1, V 2, V 3] := fun hc => by rw [hin.mpr hc] at hi; cases hi
    cases best with
    | none => exact absurd (h3 rfl).2 (by simp [Tetrahedron.outward])
    | some b =>
      obtain ⟨hc, -, hmin⟩ := h4 b rfl
      obtain ⟨hb0, t, ht, y, hy, hb2⟩ := hc.resolve_left (by simp)
      refine ⟨b, rfl, hb0, ⟨y, hsub t ht hy, hb2⟩, fun x hx => ?_⟩
      rw [← hsolid] at hout hx
      obtain ⟨z, ⟨f, hf, hz⟩, hle⟩ := solid_exit hG hS p x hout hx
      obtain ⟨t', ht', hsub'⟩ := hsurf f hf
      obtain ⟨c, hc, hc0, hc2⟩ := hmin t' ht' z (hsub' hz)
      have : b ^ 2 ≤ c ^ 2 := by nlinarith
      linarith

private theorem face_volume_tri {norm : Point 3 K → K} (hn : IsNorm norm) (a b c : Point 3 K) :
    Poly.faceVolume norm [a, b, c] =
      some (1 / 2 * dot (cross3 (fun i => b i - a i) fun i => c i - a i) a) := by
  have hav : Poly.areaVector [a, b, c] = some ((1 / 2 : K) • cross3 (fun i => b i - a i) fun i => c i - a i) := by
    simp only [Poly.areaVector, Poly.areaLoop, Option.some.injEq]
    funext k
    simp only [Pi.smul_apply, smul_eq_mul, Poly.cross, cross3]
    ring
  simp only [Poly.faceVolume, hav, Option.map_some, Option.some.injEq]
  have e : (1 / 2 * dot (cross3 (fun i => b i - a i) fun i => c i - a i) a) =
      dot ((1 / 2 : K) • cross3 (fun i => b i - a i) fun i => c i - a i) a := by
    simp only [dot, Fin.sum_univ_three, Pi.smul_apply, smul_eq_mul]
    ring
  rw [e]
  generalize ((1 / 2 : K) • cross3 (fun i => b i - a i) fun i => c i - a i) = v
  split_ifs with h
  · simp only [dot, Fin.sum_univ_three]
    field_simp
  · have : v = 0 := by
      by_contra hv
      exact h (normal_pos hn v hv)
    simp [this, dot]

/-- C75: `compute_volume` of a tetrahedron is a sixth of the absolute value of its determinant, for either orientation. -/
theorem C75_tetrahedron_volume (norm : Point 3 K → K) (hn : IsNorm norm) (V : Fin 4 → Point 3 K) :
    Polyhedron.volume norm (Tetrahedron.faces V) = some (|tetDet V| / 6) := by
  simp only [Polyhedron.volume, Poly.volumeFromFaces, Tetrahedron.faces, List.mapM_cons, List.mapM_nil,
    face_volume_tri hn, Option.pure_def, Option.bind_eq_bind, Option.bind_some, Option.map_some, List.foldl_cons,
    List.foldl_nil, zero_add, Option.some.injEq]
  have e : 1 / 2 * dot (cross3 (fun i => V 1 i - V 0 i) fun i => V 2 i - V 0 i) (V 0) +
        1 / 2 * dot (cross3 (fun i => V 3 i - V 0 i) fun i => V 1 i - V 0 i) (V 0) +
        1 / 2 * dot (cross3 (fun i => V 3 i - V 1 i) fun i => V 2 i - V 1 i) (V 1) +
        1 / 2 * dot (cross3 (fun i => V 2 i - V 0 i) fun i => V 3 i - V 0 i) (V 0) = -(tetDet V / 2) := by
    simp only [tetDet, dot, cross3, Fin.sum_univ_three, Matrix.cons_val_zero, Matrix.cons_val_one, Matrix.cons_val]
    ring
  rw [e, abs_neg, abs_div, abs_of_pos (show (0 : K) < 2 by norm_num), div_div]
  norm_num

/-! ### Parallelepipeds -/

private theorem quad_face (p0 p1 p2 p3 : Point 3 K) (h2 : ∀ k, p2 k = p1 k + p3 k - p0 k)
    (hN : cross3 (fun i => p1 i - p0 i) (fun i => p3 i - p0 i) ≠ 0) :
    ConvexFace (cross3 (fun i => p1 i - p0 i) fun i => p3 i - p0 i) [p0, p1, p2, p3] := by
  have hpos := dot_pos_of_ne _ hN
  have hor : ∀ e ∈ cyclicPairs [p0, p1, p2, p3], ∀ w ∈ [p0, p1, p2, p3], w = e.1 ∨ w = e.2 ∨
      0 < orient3 (cross3 (fun i => p1 i - p0 i) fun i => p3 i - p0 i) e.1 e.2 w := by
    intro e he w hw
    simp only [cyclicPairs, List.rotate_cons_succ, List.rotate_zero, List.cons_append, List.nil_append, List.zip_cons_cons,
      List.zip_nil_right, List.mem_cons, List.not_mem_nil, or_false] at he hw
    rcases he with rfl | rfl | rfl | rfl <;> rcases hw with rfl | rfl | rfl | rfl <;>
      first
        | exact .inl rfl
        | exact .inr (.inl rfl)
        | (refine .inr (.inr (lt_of_lt_of_eq hpos ?_))
           simp only [orient3, dot, cross3, Fin.sum_univ_three, Matrix.cons_val_zero, Matrix.cons_val_one, Matrix.cons_val, h2]
           try ring)
  have hplane : ∀ v ∈ [p0, p1, p2, p3], (dot (cross3 (fun i => p1 i - p0 i) fun i => p3 i - p0 i) fun i => v i - p0 i) = 0 := by
    intro v hv
    simp only [List.mem_cons, List.not_mem_nil, or_false] at hv
    rcases hv with rfl | rfl | rfl | rfl <;>
      simp only [dot, cross3, Fin.sum_univ_three, Matrix.cons_val_zero, Matrix.cons_val_one, Matrix.cons_val, h2] <;> ring
  refine ⟨by simp, ?_, fun v hv w hw => ?_, hor⟩
  · have key : ∀ x y : K, (∀ k, (p1 k - p0 k) * x + (p3 k - p0 k) * y = 0) → x = 0 ∧ y = 0 := by
      intro x y h
      have h0 := h 0
      have h1 := h 1
      have h2' := h 2
      constructor
      · by_contra hx
        apply hN
        funext k
        apply (mul_eq_zero.mp _).resolve_left hx
        fin_cases k <;> simp only [cross3, Fin.zero_eta, Fin.mk_one, Fin.reduceFinMk, Matrix.cons_val_zero,
          Matrix.cons_val_one, Matrix.cons_val]
        · linear_combination (p3 2 - p0 2) * h1 - (p3 1 - p0 1) * h2'
        · linear_combination (p3 0 - p0 0) * h2' - (p3 2 - p0 2) * h0
        · linear_combination (p3 1 - p0 1) * h0 - (p3 0 - p0 0) * h1
      · by_contra hy
        apply hN
        funext k
        apply (mul_eq_zero.mp _).resolve_left hy
        fin_cases k <;> simp only [cross3, Fin.zero_eta, Fin.mk_one, Fin.reduceFinMk, Matrix.cons_val_zero,
          Matrix.cons_val_one, Matrix.cons_val]
        · linear_combination (p1 1 - p0 1) * h2' - (p1 2 - p0 2) * h1
        · linear_combination (p1 2 - p0 2) * h0 - (p1 0 - p0 0) * h2'
        · linear_combination (p1 0 - p0 0) * h1 - (p1 1 - p0 1) * h0
    have n1 : ((1 : K) = 0) → False := one_ne_zero
    have c01 : p0 ≠ p1 := fun h => n1 (key 1 0 fun k => by rw [h]; ring).1
    have c02 : p0 ≠ p2 := fun h => n1 (key 1 1 fun k => by have := congrFun h k; rw [h2] at this; linear_combination -this).1
    have c03 : p0 ≠ p3 := fun h => n1 (key 0 1 fun k => by rw [h]; ring).2
    have c12 : p1 ≠ p2 := fun h => n1 (key 0 1 fun k => by have := congrFun h k; rw [h2] at this; linear_combination -this).2
    have c13 : p1 ≠ p3 := fun h => n1 (key 1 (-1) fun k => by rw [h]; ring).1
    have c23 : p2 ≠ p3 := fun h => n1 (key 1 0 fun k => by have := congrFun h k; rw [h2] at this; linear_combination this).1
    simp [c01, c02, c03, c12, c13, c23]
  · have := lev_shift (cross3 (fun i => p1 i - p0 i) fun i => p3 i - p0 i) p0 v w
    simp only [lev] at this
    rw [hplane w hw, hplane v hv, zero_add] at this
    exact this.symm

/-- C75: the faces of a parallelepiped with positive determinant bound a convex polyhedron, so that the theorems on
hexahedra apply to it. -/
theorem C75_parallelepiped_solid (o a b c : Point 3 K) (h : 0 < dot (cross3 a b) c) :
    ConvexSolid (Hexahedron.faces (parallelepiped o a b c)) := by
  obtain ⟨V, hV⟩ : ∃ V, V = parallelepiped o a b c := ⟨_, rfl⟩
  have ev : ∀ i k, V i k = o k + (![0, 1, 1, 0, 0, 1, 1, 0] : Fin 8 → K) i * a k
      + (![0, 0, 1, 1, 0, 0, 1, 1] : Fin 8 → K) i * b k + (![0, 0, 0, 0, 1, 1, 1, 1] : Fin 8 → K) i * c k := by
    intro i k
    rw [hV]
    rfl
  have e0 : ∀ k, V 0 k = o k := fun k => by rw [ev]; simp
  have e1 : ∀ k, V 1 k = o k + a k := fun k => by rw [ev]; simp
  have e2 : ∀ k, V 2 k = o k + a k + b k := fun k => by rw [ev]; simp
  have e3 : ∀ k, V 3 k = o k + b k := fun k => by rw [ev]; simp
  have e4 : ∀ k, V 4 k = o k + c k := fun k => by rw [ev]; simp
  have e5 : ∀ k, V 5 k = o k + a k + c k := fun k => by rw [ev]; simp
  have e6 : ∀ k, V 6 k = o k + a k + b k + c k := fun k => by rw [ev]; simp
  have e7 : ∀ k, V 7 k = o k + b k + c k := fun k => by rw [ev]; simp
  rw [← hV]
  have hall : ∀ g ∈ Hexahedron.faces V, ∀ w ∈ g, ∃ i, w = V i := by
    intro g hg w hw
    simp only [Hexahedron.faces, List.mem_cons, List.not_mem_nil, or_false] at hg
    rcases hg with rfl | rfl | rfl | rfl | rfl | rfl <;>
      simp only [List.mem_cons, List.not_mem_nil, or_false] at hw <;>
      rcases hw with rfl | rfl | rfl | rfl <;> exact ⟨_, rfl⟩
  -- a face with the vertices `p q r s` and the opposite vertices
  have face : ∀ p q r s : Fin 8, (∀ k, V r k = V q k + V s k - V p k) →
      (∀ i, (i = p ∨ i = q ∨ i = r ∨ i = s) ∨
        (dot (cross3 (fun k => V q k - V p k) fun k => V s k - V p k) fun k => V i k - V p k) = dot (cross3 a b) c) →
      (∃ i, ¬ (i = p ∨ i = q ∨ i = r ∨ i = s)) →
      (∃ N, ConvexFace N [V p, V q, V r, V s] ∧ ∀ g ∈ Hexahedron.faces V, ∀ w ∈ g, w ∈ [V p, V q, V r, V s] ∨
        ∀ v ∈ [V p, V q, V r, V s], 0 < dot N fun i => w i - v i) ∧
      ∀ i, ¬ (i = p ∨ i = q ∨ i = r ∨ i = s) → V i ∉ [V p, V q, V r, V s] := by
    intro p q r s hr hi hex
    have hN : cross3 (fun k => V q k - V p k) (fun k => V s k - V p k) ≠ 0 := by
      obtain ⟨i, hi'⟩ := hex
      have := (hi i).resolve_left hi'
      intro e
      rw [e] at this
      simp [dot] at this
      linarith [h, (show dot (cross3 a b) c = ∑ i, cross3 a b i * c i from rfl)]
    have hF := quad_face (V p) (V q) (V r) (V s) hr hN
    have hin : ∀ i, ¬ (i = p ∨ i = q ∨ i = r ∨ i = s) → ∀ v ∈ [V p, V q, V r, V s],
        0 < dot (cross3 (fun k => V q k - V p k) fun k => V s k - V p k) fun k => V i k - v k := by
      intro i hi' v hv
      have h0 := hF.plane v hv (V p) (by simp)
      have e := lev_shift (cross3 (fun k => V q k - V p k) fun k => V s k - V p k) v (V p) (V i)
      simp only [lev] at e
      rw [e, h0, zero_add, (hi i).resolve_left hi']
      exact h
    refine ⟨⟨_, hF, fun g hg w hw => ?_⟩, fun i hi' hmem => ?_⟩
    · obtain ⟨i, rfl⟩ := hall g hg w hw
      by_cases hi' : i = p ∨ i = q ∨ i = r ∨ i = s
      · left
        rcases hi' with rfl | rfl | rfl | rfl <;> simp
      · exact .inr (hin i hi')
    · have h1 := hin i hi' (V i) hmem
      simp [dot] at h1
  have F0 := face 0 1 2 3 (fun k => by rw [e0, e1, e2, e3]; ring)
    (by
      intro i
      fin_cases i <;> first
        | exact .inl (by decide)
        | (right; simp only [Fin.reduceFinMk, Fin.zero_eta, Fin.mk_one, dot, cross3, Fin.sum_univ_three, Matrix.cons_val_zero,
            Matrix.cons_val_one, Matrix.cons_val, e0, e1, e2, e3, e4, e5, e6, e7]; ring)) ⟨4, by decide⟩
  have F1 := face 4 5 1 0 (fun k => by rw [e4, e5, e1, e0]; ring)
    (by
      intro i
      fin_cases i <;> first
        | exact .inl (by decide)
        | (right; simp only [Fin.reduceFinMk, Fin.zero_eta, Fin.mk_one, dot, cross3, Fin.sum_univ_three, Matrix.cons_val_zero,
            Matrix.cons_val_one, Matrix.cons_val, e0, e1, e2, e3, e4, e5, e6, e7]; ring)) ⟨2, by decide⟩
  have F2 := face 5 6 2 1 (fun k => by rw [e5, e6, e2, e1]; ring)
    (by
      intro i
      fin_cases i <;> first
        | exact .inl (by decide)
        | (right; simp only [Fin.reduceFinMk, Fin.zero_eta, Fin.mk_one, dot, cross3, Fin.sum_univ_three, Matrix.cons_val_zero,
            Matrix.cons_val_one, Matrix.cons_val, e0, e1, e2, e3, e4, e5, e6, e7]; ring)) ⟨0, by decide⟩
  have F3 := face 6 7 3 2 (fun k => by rw [e6, e7, e3, e2]; ring)
    (by
      intro i
      fin_cases i <;> first
        | exact .inl (by decide)
        | (right; simp only [Fin.reduceFinMk, Fin.zero_eta, Fin.mk_one, dot, cross3, Fin.sum_univ_three, Matrix.cons_val_zero,
            Matrix.cons_val_one, Matrix.cons_val, e0, e1, e2, e3, e4, e5, e6, e7]; ring)) ⟨0, by decide⟩
  have F4 := face 0 3 7 4 (fun k => by rw [e0, e3, e7, e4]; ring)
    (by
      intro i
      fin_cases i <;> first
        | exact .inl (by decide)
        | (right; simp only [Fin.reduceFinMk, Fin.zero_eta, Fin.mk_one, dot, cross3, Fin.sum_univ_three, Matrix.cons_val_zero,
            Matrix.cons_val_one, Matrix.cons_val, e0, e1, e2, e3, e4, e5, e6, e7]; ring)) ⟨1, by decide⟩
  have F5 := face 4 7 6 5 (fun k => by rw [e4, e7, e6, e5]; ring)
    (by
      intro i
      fin_cases i <;> first
        | exact .inl (by decide)
        | (right; simp only [Fin.reduceFinMk, Fin.zero_eta, Fin.mk_one, dot, cross3, Fin.sum_univ_three, Matrix.cons_val_zero,
            Matrix.cons_val_one, Matrix.cons_val, e0, e1, e2, e3, e4, e5, e6, e7]; ring)) ⟨0, by decide⟩
  refine ⟨by simp [Hexahedron.faces], ?_, ?_⟩
  · intro f hf
    simp only [Hexahedron.faces, List.mem_cons, List.not_mem_nil, or_false] at hf
    rcases hf with rfl | rfl | rfl | rfl | rfl | rfl
    · exact F0.1
    · exact F1.1
    · exact F2.1
    · exact F3.1
    · exact F4.1
    · exact F5.1
  · intro f hf e he
    have m0 : [V 0, V 1, V 2, V 3] ∈ Hexahedron.faces V := by simp [Hexahedron.faces]
    have m1 : [V 4, V 5, V 1, V 0] ∈ Hexahedron.faces V := by simp [Hexahedron.faces]
    have m2 : [V 5, V 6, V 2, V 1] ∈ Hexahedron.faces V := by simp [Hexahedron.faces]
    have m3 : [V 6, V 7, V 3, V 2] ∈ Hexahedron.faces V := by simp [Hexahedron.faces]
    have m4 : [V 0, V 3, V 7, V 4] ∈ Hexahedron.faces V := by simp [Hexahedron.faces]
    have m5 : [V 4, V 7, V 6, V 5] ∈ Hexahedron.faces V := by simp [Hexahedron.faces]
    simp only [Hexahedron.faces, List.mem_cons, List.not_mem_nil, or_false] at hf
    rcases hf with rfl | rfl | rfl | rfl | rfl | rfl <;>
      simp only [cyclicPairs, List.rotate_cons_succ, List.rotate_zero, List.cons_append, List.nil_append, List.zip_cons_cons,
        List.zip_nil_right, List.mem_cons, List.not_mem_nil, or_false] at he <;>
      rcases he with rfl | rfl | rfl | rfl
    -- 0 1 2 3
    · exact ⟨_, m1, by simp, by simp, V 2, by simp, F1.2 2 (by decide)⟩
    · exact ⟨_, m2, by simp, by simp, V 0, by simp, F2.2 0 (by decide)⟩
    · exact ⟨_, m3, by simp, by simp, V 0, by simp, F3.2 0 (by decide)⟩
    · exact ⟨_, m4, by simp, by simp, V 1, by simp, F4.2 1 (by decide)⟩
    -- 4 5 1 0
    · exact ⟨_, m5, by simp, by simp, V 1, by simp, F5.2 1 (by decide)⟩
    · exact ⟨_, m2, by simp, by simp, V 0, by simp, F2.2 0 (by decide)⟩
    · exact ⟨_, m0, by simp, by simp, V 4, by simp, F0.2 4 (by decide)⟩
    · exact ⟨_, m4, by simp, by simp, V 1, by simp, F4.2 1 (by decide)⟩
    -- 5 6 2 1
    · exact ⟨_, m5, by simp, by simp, V 1, by simp, F5.2 1 (by decide)⟩
    · exact ⟨_, m3, by simp, by simp, V 1, by simp, F3.2 1 (by decide)⟩
    · exact ⟨_, m0, by simp, by simp, V 5, by simp, F0.2 5 (by decide)⟩
    · exact ⟨_, m1, by simp, by simp, V 6, by simp, F1.2 6 (by decide)⟩
    -- 6 7 3 2
    · exact ⟨_, m5, by simp, by simp, V 3, by simp, F5.2 3 (by decide)⟩
    · exact ⟨_, m4, by simp, by simp, V 2, by simp, F4.2 2 (by decide)⟩
    · exact ⟨_, m0, by simp, by simp, V 6, by simp, F0.2 6 (by decide)⟩
    · exact ⟨_, m2, by simp, by simp, V 3, by simp, F2.2 3 (by decide)⟩
    -- 0 3 7 4
    · exact ⟨_, m0, by simp, by simp, V 4, by simp, F0.2 4 (by decide)⟩
    · exact ⟨_, m3, by simp, by simp, V 0, by simp, F3.2 0 (by decide)⟩
    · exact ⟨_, m5, by simp, by simp, V 0, by simp, F5.2 0 (by decide)⟩
    · exact ⟨_, m1, by simp, by simp, V 3, by simp, F1.2 3 (by decide)⟩
    -- 4 7 6 5
    · exact ⟨_, m4, by simp, by simp, V 6, by simp, F4.2 6 (by decide)⟩
    · exact ⟨_, m3, by simp, by simp, V 4, by simp, F3.2 4 (by decide)⟩
    · exact ⟨_, m2, by simp, by simp, V 4, by simp, F2.2 4 (by decide)⟩
    · exact ⟨_, m1, by simp, by simp, V 7, by simp, F1.2 7 (by decide)⟩

/-- C75: fewer than four faces, and faces with fewer than three vertices, are panics. -/
theorem C75_panics (norm : Point 3 K → K) (sqrt : K → K) (p : Point 3 K) :
    (∀ faces : List (List (Point 3 K)), faces.length < 4 → Polyhedron.signedDistance norm sqrt faces p = none) ∧
    ∀ V : List (Point 3 K), V.length < 3 → Polygon3.closestPoint norm sqrt V p = none := by
  constructor
  · intro faces h
    rw [Polyhedron.signedDistance, if_pos h]
  · intro V h
    rw [Polygon3.closestPoint, Polygon3.normal, SimplePolygon.computeAreaVector, if_neg (by omega)]
    rfl

/-! ### Examples -/

/-- The Euclidean norm and the square root over the reals. -/
private theorem real_norm : IsNorm (fun v : Point 3 ℝ => Real.sqrt (∑ i, v i ^ 2)) := fun v =>
  ⟨Real.sqrt_nonneg _, Real.sq_sqrt (Finset.sum_nonneg fun i _ => sq_nonneg _)⟩

private theorem real_sqrt : IsSqrt Real.sqrt := fun x hx => ⟨Real.sqrt_nonneg x, Real.sq_sqrt hx⟩

/-- A tetrahedron to which the theorems apply. -/
example : 0 < tetDet (![![0, 0, 0], ![2, 0, 0], ![0, 3, 0], ![1, 1, 4]] : Fin 4 → Point 3 ℚ) := by
  simp [tetDet, dot, cross3, Fin.sum_univ_three]

/-- The reference hexahedron is a parallelepiped with positive determinant, and the point `(2, 0, 0)` has distance one. -/
example : ∃ D, Hexahedron.distance (fun v : Point 3 ℝ => Real.sqrt (∑ i, v i ^ 2)) Real.sqrt
    (parallelepiped ![-1, -1, -1] ![2, 0, 0] ![0, 2, 0] ![0, 0, 2]) ![2, 0, 0] = some D ∧ D ≤ 1 := by
  have hS := C75_parallelepiped_solid (K := ℝ) ![-1, -1, -1] ![2, 0, 0] ![0, 2, 0] ![0, 0, 2] (by
    simp [dot, cross3, Fin.sum_univ_three])
  obtain ⟨D, h, h0, -, hmin⟩ := C75_hexahedron_distance _ real_norm _ real_sqrt _ hS ![2, 0, 0]
  refine ⟨D, h, ?_⟩
  have hy : (![1, 0, 0] : Point 3 ℝ) ∈ hull (List.ofFn (parallelepiped (K := ℝ) ![-1, -1, -1] ![2, 0, 0] ![0, 2, 0] ![0, 0, 2])) := by
    have h1 := vertex_mem_hull (List.ofFn (parallelepiped (K := ℝ) ![-1, -1, -1] ![2, 0, 0] ![0, 2, 0] ![0, 0, 2])) _
      (List.mem_ofFn.mpr ⟨1, rfl⟩)
    have h2 := vertex_mem_hull (List.ofFn (parallelepiped (K := ℝ) ![-1, -1, -1] ![2, 0, 0] ![0, 2, 0] ![0, 0, 2])) _
      (List.mem_ofFn.mpr ⟨6, rfl⟩)
    have := hull_convex _ h1 h2 (a := 1 / 2) (b := 1 / 2) (by norm_num) (by norm_num) (by norm_num)
    convert this using 1
    funext i
    fin_cases i <;> simp [parallelepiped] <;> norm_num
  have := hmin _ hy
  simp [dist2, Fin.sum_univ_three] at this
  have e : ((1 : ℝ) - 2) ^ 2 = 1 := by norm_num
  rw [e] at this
  nlinarith

/-- A strictly convex pentagon in a plane in space. -/
example : ConvexFace (![0, 0, 1] : Point 3 ℚ) [![0, 0, 1], ![2, 0, 1], ![3, 2, 1], ![1, 3, 1], ![-1, 2, 1]] := by
  refine ⟨by simp, by decide +kernel, ?_, ?_⟩
  · intro v hv w hw
    simp only [List.mem_cons, List.not_mem_nil, or_false] at hv hw
    rcases hv with rfl | rfl | rfl | rfl | rfl <;> rcases hw with rfl | rfl | rfl | rfl | rfl <;>
      simp [dot, Fin.sum_univ_three]
  · intro e he w hw
    simp only [cyclicPairs, List.rotate_cons_succ, List.rotate_zero, List.cons_append, List.nil_append, List.zip_cons_cons,
      List.zip_nil_right, List.mem_cons, List.not_mem_nil, or_false] at he hw
    rcases he with rfl | rfl | rfl | rfl | rfl <;> rcases hw with rfl | rfl | rfl | rfl | rfl <;>
      first
        | exact .inl rfl
        | exact .inr (.inl rfl)
        | (right; right; simp [orient3, dot, cross3, Fin.sum_univ_three]; try norm_num)

end Fenris.Geometry
