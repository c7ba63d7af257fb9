import Verif.Spec.Lines
import Mathlib.Algebra.Order.BigOperators.Ring.Finset
import Mathlib.Algebra.BigOperators.Fin
import Mathlib.Algebra.Order.Ring.Abs
import Mathlib.Data.Rat.Defs
import Mathlib.Algebra.Order.Ring.Rat
import Mathlib.Algebra.Order.Field.Rat
import Mathlib.Tactic.Linarith
import Mathlib.Tactic.FieldSimp
import Mathlib.Tactic.LinearCombination
import Mathlib.Tactic.FinCases
/-! # C47, C48: lines, segments, half-planes and disks -/
set_option autoImplicit false
set_option linter.unusedSectionVars false

namespace Fenris.Geometry
open Fenris.Spec
variable {K : Type} [Field K] [LinearOrder K] [IsStrictOrderedRing K] {d : Nat}

private theorem clamp_mem (v : K) : 0 ≤ clamp v 0 1 ∧ clamp v 0 1 ≤ 1 := by
  rw [clamp]
  split
  · split
    · exact ⟨le_of_lt ‹_›, le_of_lt ‹_›⟩
    · exact ⟨zero_le_one, le_refl _⟩
  · exact ⟨le_refl _, zero_le_one⟩

private theorem clamp_of_mem (v : K) (h0 : 0 ≤ v) (h1 : v ≤ 1) : clamp v 0 1 = v := by
  rw [clamp]
  split
  · split
    · rfl
    · exact le_antisymm (not_lt.mp ‹_›) h1
  · exact le_antisymm h0 (not_lt.mp ‹_›)

/-- Clamping to an interval brings every point of the interval closer. -/
private theorem clamp_closer (v s : K) (h0 : 0 ≤ s) (h1 : s ≤ 1) :
    (clamp v 0 1 - v) ^ 2 ≤ (s - v) ^ 2 := by
  rw [clamp]
  split
  · split
    · rw [sub_self, zero_pow (by norm_num)]
      exact sq_nonneg _
    · rename_i h
      push Not at h
      nlinarith
  · rename_i h
    push Not at h
    nlinarith

theorem pointFromParameter_eq_lerp (s : Segment d K) (t : K) :
    s.pointFromParameter t = lerp s.start s.stop t := by
  funext i
  simp only [Segment.pointFromParameter, Segment.tangentDir, lerp]
  ring

/-- Distances from the points of a line, in terms of the parameter. -/
private theorem line_dist2 (l : Line d K) (p : Point d K) (t : K) :
    dist2 (l.pointFromParameter t) p =
      normSq l.dir * t ^ 2 - 2 * t * dot (fun i => p i - l.point i) l.dir + dist2 l.point p := by
  simp only [dist2, Line.pointFromParameter, normSq, dot, Finset.sum_mul, Finset.mul_sum]
  rw [← Finset.sum_sub_distrib, ← Finset.sum_add_distrib]
  exact Finset.sum_congr rfl fun i _ => by ring

private theorem normSq_eq_zero (v : Point d K) : normSq v = 0 ↔ ∀ i, v i = 0 := by
  rw [normSq, Finset.sum_eq_zero_iff_of_nonneg fun i _ => mul_self_nonneg _]
  simp

private theorem normSq_nonneg (v : Point d K) : 0 ≤ normSq v :=
  Finset.sum_nonneg fun i _ => mul_self_nonneg _

private theorem line_dist2_sub (l : Line d K) (p : Point d K) (t : K) :
    dist2 (l.pointFromParameter t) p =
      normSq l.dir * (t - l.projectPointParametric p) ^ 2 + dist2 (l.projectPoint p) p := by
  rw [Line.projectPoint, line_dist2, line_dist2, Line.projectPointParametric]
  split
  · rename_i h
    have h0 := (normSq_eq_zero l.dir).mp h
    have : dot (fun i => p i - l.point i) l.dir = 0 :=
      Finset.sum_eq_zero fun i _ => by simp [h0 i]
    rw [h, this]
    ring
  · field_simp
    ring

/-- C47: projecting onto a line yields a point of the line, and no point of the line is closer (also
when the direction is zero). -/
theorem C47_project_point (l : Line d K) (p : Point d K) :
    OnLine l (l.projectPoint p) ∧ ∀ x, OnLine l x → dist2 (l.projectPoint p) p ≤ dist2 x p := by
  constructor
  · refine ⟨l.projectPointParametric p, ?_⟩
    funext i
    simp only [Line.projectPoint, Line.pointFromParameter]
    ring
  · rintro x ⟨t, rfl⟩
    have := line_dist2_sub l p t
    have h2 : l.pointFromParameter t = fun i => l.point i + t * l.dir i := by
      funext i
      simp only [Line.pointFromParameter]
      ring
    rw [h2] at this
    rw [this]
    exact le_add_of_nonneg_left (mul_nonneg (normSq_nonneg _) (sq_nonneg _))

/-- C47: the closest point on a segment: its parameter is in `[0, 1]`, it is the point with that
parameter, and no point of the segment is closer, in any dimension and also for a segment of length
zero. -/
theorem C47_closest_point (s : Segment d K) (p : Point d K) :
    0 ≤ s.closestPointParametric p ∧ s.closestPointParametric p ≤ 1 ∧
    s.closestPoint p = lerp s.start s.stop (s.closestPointParametric p) ∧
    ∀ x, OnSegment s x → dist2 (s.closestPoint p) p ≤ dist2 x p := by
  refine ⟨(clamp_mem _).1, (clamp_mem _).2, pointFromParameter_eq_lerp _ _, ?_⟩
  rintro x ⟨t, h0, h1, rfl⟩
  rw [← pointFromParameter_eq_lerp]
  have e (t : K) : s.pointFromParameter t = s.toLine.pointFromParameter t := rfl
  rw [Segment.closestPoint, e, e, line_dist2_sub, line_dist2_sub]
  exact add_le_add (mul_le_mul_of_nonneg_left (clamp_closer _ _ h0 h1) (normSq_nonneg _)) (le_refl _)

/-- C47: the midpoint is the point with parameter one half. -/
theorem C47_midpoint (s : Segment d K) : s.midpoint = lerp s.start s.stop (1 / 2) := by
  funext i
  simp only [Segment.midpoint, lerp]
  field_simp
  ring

private theorem inHalfSpace_iff (h : HalfSpace d K) (x : Point d K) :
    h.containsPoint x = true ↔ InHalfSpace h x := by
  simp only [HalfSpace.containsPoint, decide_eq_true_eq, InHalfSpace, HalfSpace.signedDistanceToPoint,
    height, dot]
  have : ∀ i, h.normal i * (x i - h.point i) = (x i - h.point i) * h.normal i := fun i => mul_comm _ _
  simp only [this]

/-- C47: a half-space contains exactly the points of non-positive height, and its complement the
points of non-negative height. -/
theorem C47_half_space (h : HalfSpace d K) (x : Point d K) :
    (h.containsPoint x = true ↔ InHalfSpace h x) ∧
    (h.complement.containsPoint x = true ↔ 0 ≤ height h x) := by
  refine ⟨inHalfSpace_iff h x, ?_⟩
  rw [inHalfSpace_iff, InHalfSpace]
  have : height h.complement x = -height h x := by
    simp only [height, HalfSpace.complement, ← Finset.sum_neg_distrib]
    exact Finset.sum_congr rfl fun i _ => by ring
  rw [this]
  exact neg_nonpos

private theorem lineLine_some (l m : Line 2 K) (h : cross l.dir m.dir ≠ 0) :
    ∃ t, l.intersectLineParametric m = some t ∧
      t.1 * cross l.dir m.dir = cross (fun i => m.point i - l.point i) m.dir ∧
      t.2 * cross l.dir m.dir = cross (fun i => m.point i - l.point i) l.dir := by
  rw [Line.intersectLineParametric]
  have hd : l.dir 0 * -m.dir 1 - l.dir 1 * -m.dir 0 = -cross l.dir m.dir := by
    rw [cross]
    ring
  simp only [hd]
  rw [if_neg (neg_ne_zero.mpr h)]
  clear hd
  refine ⟨_, rfl, ?_, ?_⟩
  · generalize cross l.dir m.dir = c at h ⊢
    simp only [cross]
    field_simp
    ring
  · generalize cross l.dir m.dir = c at h ⊢
    simp only [cross]
    field_simp
    ring

private theorem lineLine_none (l m : Line 2 K) :
    l.intersectLineParametric m = none ↔ cross l.dir m.dir = 0 := by
  constructor
  · intro h
    by_contra hne
    obtain ⟨t, ht, _⟩ := lineLine_some l m hne
    rw [h] at ht
    cases ht
  · intro h
    rw [Line.intersectLineParametric]
    have hd : l.dir 0 * -m.dir 1 - l.dir 1 * -m.dir 0 = -cross l.dir m.dir := by
      rw [cross]
      ring
    simp only [hd, h, neg_zero, if_true]

/-- C47: line-line intersection reports nothing exactly for parallel (or degenerate) lines. -/
theorem C47_lines_parallel (l m : Line 2 K) :
    l.intersectLineParametric m = none ↔ cross l.dir m.dir = 0 := lineLine_none l m

/-- C47: for lines that are not parallel, the reported parameters `(t, u)` are the only ones at which
the two lines meet. -/
theorem C47_lines_meet (l m : Line 2 K) (h : cross l.dir m.dir ≠ 0) (t u : K) :
    l.intersectLineParametric m = some (t, u) ↔
      ∀ i, l.point i + t * l.dir i = m.point i + u * m.dir i := by
  obtain ⟨⟨a, b⟩, hab, ha, hb⟩ := lineLine_some l m h
  rw [hab]
  simp only [cross] at h ha hb
  constructor
  · intro e
    obtain ⟨rfl, rfl⟩ := Prod.mk.inj (Option.some.inj e)
    have e0 : l.point 0 + a * l.dir 0 = m.point 0 + b * m.dir 0 := by
      apply mul_right_cancel₀ h
      linear_combination l.dir 0 * ha - m.dir 0 * hb
    have e1 : l.point 1 + a * l.dir 1 = m.point 1 + b * m.dir 1 := by
      apply mul_right_cancel₀ h
      linear_combination l.dir 1 * ha - m.dir 1 * hb
    intro i
    fin_cases i
    · exact e0
    · exact e1
  · intro e
    have e0 := e 0
    have e1 := e 1
    have h1 : a = t := by
      apply mul_right_cancel₀ h
      linear_combination ha - m.dir 1 * e0 + m.dir 0 * e1
    have h2 : b = u := by
      apply mul_right_cancel₀ h
      linear_combination hb - l.dir 1 * e0 + l.dir 0 * e1
    rw [h1, h2]

/-- C47: `Line2d::intersect` returns the only common point of two lines that are not parallel. -/
theorem C47_line_intersect (l m : Line 2 K) (h : cross l.dir m.dir ≠ 0) (x : Point 2 K) :
    l.intersect m = some x ↔ OnLine l x ∧ OnLine m x := by
  obtain ⟨⟨a, b⟩, hab, -⟩ := lineLine_some l m h
  have hm := (C47_lines_meet l m h a b).mp hab
  have hx : l.pointFromParameter a = fun i => l.point i + a * l.dir i := by
    funext i
    simp only [Line.pointFromParameter]
    ring
  rw [Line.intersect, hab]
  simp only [Option.map_some, Option.some.injEq, hx]
  constructor
  · rintro rfl
    exact ⟨⟨a, rfl⟩, ⟨b, funext hm⟩⟩
  · rintro ⟨⟨t, rfl⟩, ⟨u, hu⟩⟩
    have := (C47_lines_meet l m h t u).mpr fun i => congrFun hu i
    rw [hab] at this
    cases this
    rfl

/-- C47: segment-segment intersection, for segments that are not parallel: `t` is returned exactly
when the point with parameter `t` of the first segment lies on the second one. -/
theorem C47_segments_meet (s o : Segment 2 K) (h : cross s.tangentDir o.tangentDir ≠ 0) (t : K) :
    s.intersectSegmentParametric o = some t ↔
      0 ≤ t ∧ t ≤ 1 ∧ OnSegment o (lerp s.start s.stop t) := by
  obtain ⟨⟨a, b⟩, hab, -⟩ := lineLine_some s.toLine o.toLine h
  rw [Segment.intersectSegmentParametric, hab]
  have key (t u : K) : lerp s.start s.stop t = lerp o.start o.stop u ↔ (a, b) = (t, u) := by
    have := C47_lines_meet s.toLine o.toLine h t u
    rw [hab, Option.some.injEq] at this
    rw [this, ← pointFromParameter_eq_lerp, ← pointFromParameter_eq_lerp]
    simp only [Segment.pointFromParameter, Segment.toLine, mul_comm t, mul_comm u]
    exact funext_iff
  constructor
  · intro e
    simp only at e
    split at e
    · cases e
    · split at e
      · cases e
      · cases e
        rename_i h1 h2
        push Not at h1 h2
        exact ⟨h2.1, h2.2, b, h1.1, h1.2, (key _ _).mpr rfl⟩
  · rintro ⟨h0, h1, u, hu0, hu1, e⟩
    have := (key _ _).mp e
    cases this
    simp only
    rw [if_neg (by push Not; exact ⟨hu0, hu1⟩), if_neg (by push Not; exact ⟨h0, h1⟩)]

/-- C47: segment-segment intersection never reports a parameter for parallel segments ... -/
theorem C47_segments_parallel (s o : Segment 2 K) (h : cross s.tangentDir o.tangentDir = 0) :
    s.intersectSegmentParametric o = none := by
  rw [Segment.intersectSegmentParametric, (lineLine_none s.toLine o.toLine).mpr h]

/-- C47, finding: ... even when they overlap, so `None` does not mean that the segments are
disjoint, contrary to the documentation of `intersect_segment_parametric`. -/
theorem C47_overlapping_segments_not_reported :
    ∃ (s o : Segment 2 ℚ) (x : Point 2 ℚ), s.start ≠ s.stop ∧ o.start ≠ o.stop ∧
      OnSegment s x ∧ OnSegment o x ∧ s.intersectSegmentParametric o = none := by
  refine ⟨⟨![0, 0], ![2, 0]⟩, ⟨![1, 0], ![3, 0]⟩, ![1, 0], ?_, ?_, ⟨1 / 2, ?_⟩, ⟨0, ?_⟩, ?_⟩
  · intro h
    have := congrFun h 0
    simp at this
  · intro h
    have := congrFun h 0
    simp at this
  · refine ⟨by norm_num, by norm_num, ?_⟩
    funext i
    fin_cases i <;> simp [lerp]
  · refine ⟨by norm_num, by norm_num, ?_⟩
    funext i
    fin_cases i <;> simp [lerp]
  · apply C47_segments_parallel
    simp [cross, Segment.tangentDir]

private theorem height_lerp (h : HalfSpace d K) (a b : Point d K) (t : K) :
    height h (lerp a b t) = (1 - t) * height h a + t * height h b := by
  simp only [height, lerp, Finset.mul_sum, ← Finset.sum_add_distrib]
  exact Finset.sum_congr rfl fun i _ => by ring

private theorem surface_hit (s : Segment 2 K) (h : HalfSpace 2 K)
    (hne : height h s.start ≠ height h s.stop) :
    s.intersectLineParametric h.surface =
      some (height h s.start / (height h s.start - height h s.stop)) := by
  have hd : cross s.toLine.dir h.surface.dir = height h s.start - height h s.stop := by
    simp only [cross, Segment.toLine, Segment.tangentDir, HalfSpace.surface, height, Fin.sum_univ_two,
      Matrix.cons_val_zero, Matrix.cons_val_one]
    ring
  have hne' := sub_ne_zero.mpr hne
  obtain ⟨⟨a, b⟩, hab, ha, -⟩ := lineLine_some s.toLine h.surface (by rw [hd]; exact hne')
  rw [Segment.intersectLineParametric, hab]
  simp only [Option.map_some, Option.some.injEq]
  rw [eq_div_iff hne', ← hd, ha]
  simp only [cross, Segment.toLine, HalfSpace.surface, height, Fin.sum_univ_two,
    Matrix.cons_val_zero, Matrix.cons_val_one]
  ring

/-- C47: intersecting a segment with a half-plane yields nothing exactly when no point of the segment
is in the half-plane ... -/
theorem C47_half_plane_none (s : Segment 2 K) (h : HalfSpace 2 K) :
    s.intersectHalfPlaneParametric h = none ↔ ∀ x, OnSegment s x → ¬InHalfSpace h x := by
  rw [Segment.intersectHalfPlaneParametric]
  have hs := inHalfSpace_iff h s.start
  have he := inHalfSpace_iff h s.stop
  have e0 : s.start = lerp s.start s.stop 0 := by funext i; simp [lerp]
  have e1 : s.stop = lerp s.start s.stop 1 := by funext i; simp [lerp]
  have o0 : OnSegment s s.start := ⟨0, le_refl _, zero_le_one, e0⟩
  have o1 : OnSegment s s.stop := ⟨1, zero_le_one, le_refl _, e1⟩
  cases cs : h.containsPoint s.start <;> cases ce : h.containsPoint s.stop <;>
    rw [cs] at hs <;> rw [ce] at he <;> simp only [Bool.false_eq_true, true_iff, false_iff] at hs he
  · simp only [Bool.and_self, Bool.false_eq_true, if_false, Bool.not_false, if_true, true_iff]
    rintro x ⟨t, t0, t1, rfl⟩ hx
    rw [InHalfSpace] at hs he hx
    rw [height_lerp] at hx
    push Not at hs he
    rcases lt_or_eq_of_le t0 with h' | rfl
    · nlinarith [mul_pos h' he, mul_nonneg (sub_nonneg.mpr t1) hs.le]
    · simp at hx
      exact absurd hx (not_le.mpr hs)
  · simp only [Bool.false_and, Bool.false_eq_true, if_false, Bool.not_false, Bool.not_true,
      Bool.and_false, false_iff, reduceCtorEq]
    exact fun hh => hh _ o1 he
  · simp only [Bool.and_false, Bool.false_eq_true, if_false, Bool.not_false, Bool.not_true,
      Bool.false_and, if_true, false_iff, reduceCtorEq]
    exact fun hh => hh _ o0 hs
  · simp only [Bool.and_self, if_true, false_iff, reduceCtorEq]
    exact fun hh => hh _ o0 hs

/-- C47: ... and otherwise an interval `t₁ ≤ t₂` of parameters in `[0, 1]` such that exactly the points
of the segment with parameters in this interval are in the half-plane. -/
theorem C47_half_plane_some (s : Segment 2 K) (h : HalfSpace 2 K) (t₁ t₂ : K)
    (hr : s.intersectHalfPlaneParametric h = some (t₁, t₂)) :
    0 ≤ t₁ ∧ t₁ ≤ t₂ ∧ t₂ ≤ 1 ∧
    ∀ t, 0 ≤ t → t ≤ 1 → (InHalfSpace h (lerp s.start s.stop t) ↔ t₁ ≤ t ∧ t ≤ t₂) := by
  rw [Segment.intersectHalfPlaneParametric] at hr
  have hs := inHalfSpace_iff h s.start
  have he := inHalfSpace_iff h s.stop
  cases cs : h.containsPoint s.start <;> cases ce : h.containsPoint s.stop <;>
    rw [cs] at hs <;> rw [ce] at he <;>
    simp only [Bool.false_eq_true, true_iff, false_iff, InHalfSpace, not_le] at hs he <;>
    rw [cs, ce] at hr
  · simp at hr
  · have hpos : 0 < height h s.start - height h s.stop := by linarith
    rw [surface_hit s h (sub_ne_zero.mp hpos.ne')] at hr
    have m0 : 0 ≤ height h s.start / (height h s.start - height h s.stop) :=
      div_nonneg hs.le hpos.le
    have m1 : height h s.start / (height h s.start - height h s.stop) ≤ 1 := by
      rw [div_le_one hpos]
      linarith
    simp only [Bool.false_and, Bool.false_eq_true, if_false, Bool.not_false, Bool.not_true,
      Bool.and_false, Option.map_some, Option.getD_some, clamp_of_mem _ m0 m1, Option.some.injEq,
      Prod.mk.injEq] at hr
    obtain ⟨rfl, rfl⟩ := hr
    refine ⟨m0, m1, le_refl _, fun t h0 h1 => ?_⟩
    rw [InHalfSpace, height_lerp, div_le_iff₀ hpos]
    constructor
    · intro hh
      exact ⟨by linarith, h1⟩
    · rintro ⟨hh, -⟩
      linarith
  · have hpos : 0 < height h s.stop - height h s.start := by linarith
    rw [surface_hit s h (sub_ne_zero.mp hpos.ne').symm] at hr
    have e : height h s.start / (height h s.start - height h s.stop) =
        -height h s.start / (height h s.stop - height h s.start) := by
      rw [← neg_sub, div_neg, neg_div]
    rw [e] at hr
    have m0 : 0 ≤ -height h s.start / (height h s.stop - height h s.start) :=
      div_nonneg (by linarith) hpos.le
    have m1 : -height h s.start / (height h s.stop - height h s.start) ≤ 1 := by
      rw [div_le_one hpos]
      linarith
    simp only [Bool.false_and, Bool.false_eq_true, if_false, Bool.not_false, Bool.not_true, if_true,
      Bool.and_false, Option.map_some, Option.getD_some, clamp_of_mem _ m0 m1, Option.some.injEq,
      Prod.mk.injEq] at hr
    obtain ⟨rfl, rfl⟩ := hr
    refine ⟨le_refl _, m0, m1, fun t h0 h1 => ?_⟩
    rw [InHalfSpace, height_lerp, le_div_iff₀ hpos]
    constructor
    · intro hh
      exact ⟨h0, by linarith⟩
    · rintro ⟨-, hh⟩
      linarith
  · simp only [Bool.and_self, if_true, Option.some.injEq, Prod.mk.injEq] at hr
    obtain ⟨rfl, rfl⟩ := hr
    refine ⟨le_refl _, zero_le_one, le_refl _, fun t h0 h1 => ?_⟩
    rw [InHalfSpace, height_lerp]
    constructor
    · exact fun _ => ⟨h0, h1⟩
    · intro _
      nlinarith [mul_nonneg h0 (neg_nonneg.mpr he), mul_nonneg (sub_nonneg.mpr h1) (neg_nonneg.mpr hs)]

theorem onSegment_sub (s : Segment 2 K) (t₁ t₂ : K) (h : t₁ ≤ t₂) (x : Point 2 K) :
    OnSegment (s.segmentFromParameters t₁ t₂) x ↔
      ∃ t, t₁ ≤ t ∧ t ≤ t₂ ∧ x = lerp s.start s.stop t := by
  simp only [OnSegment, Segment.segmentFromParameters, pointFromParameter_eq_lerp]
  have e (u : K) : lerp (lerp s.start s.stop t₁) (lerp s.start s.stop t₂) u =
      lerp s.start s.stop ((1 - u) * t₁ + u * t₂) := by
    funext i
    simp only [lerp]
    ring
  constructor
  · rintro ⟨u, h0, h1, rfl⟩
    exact ⟨_, by nlinarith [mul_nonneg h0 (sub_nonneg.mpr h)],
      by nlinarith [mul_nonneg (sub_nonneg.mpr h1) (sub_nonneg.mpr h)], e u⟩
  · rintro ⟨t, h0, h1, rfl⟩
    rcases eq_or_lt_of_le h with rfl | hlt
    · refine ⟨0, le_refl _, zero_le_one, ?_⟩
      rw [e, le_antisymm h1 h0]
      congr 1
      ring
    · have hp := sub_pos.mpr hlt
      refine ⟨(t - t₁) / (t₂ - t₁), div_nonneg (by linarith) hp.le,
        (div_le_one hp).mpr (by linarith), ?_⟩
      rw [e]
      congr 1
      field_simp
      ring

/-- C47: `intersect_half_plane` returns a segment made of exactly the points of the given segment that
are in the half-plane, and nothing when there are none. -/
theorem C47_half_plane (s : Segment 2 K) (h : HalfSpace 2 K) :
    match s.intersectHalfPlane h with
    | none => ∀ x, OnSegment s x → ¬InHalfSpace h x
    | some r => ∀ x, OnSegment r x ↔ OnSegment s x ∧ InHalfSpace h x := by
  rw [Segment.intersectHalfPlane]
  cases hc : s.intersectHalfPlaneParametric h with
  | none => exact (C47_half_plane_none s h).mp hc
  | some t =>
    obtain ⟨t₁, t₂⟩ := t
    obtain ⟨h0, h1, h2, hi⟩ := C47_half_plane_some s h t₁ t₂ hc
    simp only [Option.map_some]
    intro x
    rw [onSegment_sub s _ _ h1]
    constructor
    · rintro ⟨t, a, b, rfl⟩
      exact ⟨⟨t, h0.trans a, b.trans h2, rfl⟩, (hi t (h0.trans a) (b.trans h2)).mpr ⟨a, b⟩⟩
    · rintro ⟨⟨t, a, b, rfl⟩, hx⟩
      exact ⟨t, ((hi t a b).mp hx).1, ((hi t a b).mp hx).2, rfl⟩

private theorem plane_height (l : Line 3 K) (p : HalfSpace 3 K) (t : K) :
    height p (fun i => l.point i + t * l.dir i) =
      dot (fun i => l.point i - p.point i) p.normal + t * dot l.dir p.normal := by
  simp only [height, dot, Finset.mul_sum, ← Finset.sum_add_distrib]
  exact Finset.sum_congr rfl fun i _ => by ring

/-- C47: a line that is not parallel to a plane meets it exactly at the reported parameter; for a
parallel line nothing is reported (even if it lies in the plane, as the source remarks). -/
theorem C47_line_plane (l : Line 3 K) (p : HalfSpace 3 K) :
    (dot l.dir p.normal ≠ 0 → ∀ t, l.intersectPlaneParametric p = some t ↔
      height p (fun i => l.point i + t * l.dir i) = 0) ∧
    (dot l.dir p.normal = 0 → l.intersectPlaneParametric p = none) := by
  constructor
  · intro h t
    rw [Line.intersectPlaneParametric, if_pos h, plane_height, Option.some.injEq, div_eq_iff h]
    constructor
    · intro e
      linarith
    · intro e
      linarith
  · intro h
    rw [Line.intersectPlaneParametric, if_neg (not_not.mpr h)]

/-- C47: a segment that is not parallel to a plane meets it exactly at the reported parameter. -/
theorem C47_segment_plane (s : Segment 3 K) (p : HalfSpace 3 K)
    (h : dot s.tangentDir p.normal ≠ 0) (t : K) :
    s.intersectPlaneParametric p = some t ↔
      0 ≤ t ∧ t ≤ 1 ∧ height p (lerp s.start s.stop t) = 0 := by
  have := (C47_line_plane s.toLine p).1 h t
  have e : (fun i => s.toLine.point i + t * s.toLine.dir i) = lerp s.start s.stop t := by
    rw [← pointFromParameter_eq_lerp]
    funext i
    simp only [Segment.toLine, Segment.pointFromParameter]
    ring
  rw [e] at this
  rw [Segment.intersectPlaneParametric, Option.filter_eq_some_iff, this, decide_eq_true_eq]
  tauto

/-- C47: the point of a segment closest to a plane: its parameter is in `[0, 1]` and no point of the
segment has a smaller distance `|(x - point) · normal|` from the plane, whatever sign the
floating-point zero has. -/
theorem C47_closest_to_plane (signum : K → K) (hsg : IsSignum signum) (s : Segment 3 K)
    (p : HalfSpace 3 K) :
    0 ≤ s.closestPointToPlaneParametric signum p ∧ s.closestPointToPlaneParametric signum p ≤ 1 ∧
    s.closestPointToPlane signum p =
      lerp s.start s.stop (s.closestPointToPlaneParametric signum p) ∧
    ∀ x, OnSegment s x → |height p (s.closestPointToPlane signum p)| ≤ |height p x| := by
  have hh (t : K) : height p (lerp s.start s.stop t) =
      t * dot p.normal s.tangentDir - dot p.normal fun i => p.point i - s.start i := by
    simp only [height, lerp, dot, Segment.tangentDir, Finset.mul_sum, ← Finset.sum_sub_distrib]
    exact Finset.sum_congr rfl fun i _ => by ring
  have main : 0 ≤ s.closestPointToPlaneParametric signum p ∧
      s.closestPointToPlaneParametric signum p ≤ 1 ∧
      ∀ t, 0 ≤ t → t ≤ 1 → |height p (lerp s.start s.stop (s.closestPointToPlaneParametric signum p))| ≤
        |height p (lerp s.start s.stop t)| := by
    simp only [hh, Segment.closestPointToPlaneParametric]
    generalize dot p.normal s.tangentDir = u
    generalize (dot p.normal fun i => p.point i - s.start i) = v
    obtain ⟨hp, hn⟩ := hsg
    have neq : (1 : K) ≠ -1 := by
      intro h
      linarith
    split
    · rename_i hsame
      split
      · rename_i hle
        refine ⟨zero_le_one, le_refl _, fun t h0 h1 => ?_⟩
        rw [one_mul]
        rcases lt_trichotomy v 0 with hv | rfl | hv
        · have hu : u ≤ 0 := by
            by_contra hu
            push Not at hu
            rw [hp u hu, hn v hv] at hsame
            exact neq hsame
          rw [abs_of_nonpos hu, abs_of_neg hv] at hle
          rw [abs_of_nonneg (by linarith), abs_of_nonneg (by nlinarith)]
          nlinarith
        · rw [abs_zero] at hle
          have : u = 0 := abs_eq_zero.mp (le_antisymm hle (abs_nonneg _))
          simp [this]
        · have hu : 0 ≤ u := by
            by_contra hu
            push Not at hu
            rw [hn u hu, hp v hv] at hsame
            exact neq hsame.symm
          rw [abs_of_nonneg hu, abs_of_pos hv] at hle
          rw [abs_of_nonpos (by linarith), abs_of_nonpos (by nlinarith)]
          nlinarith
      · rename_i hlt
        push Not at hlt
        have hu0 : u ≠ 0 := by
          rintro rfl
          rw [abs_zero] at hlt
          exact absurd hlt (not_lt.mpr (abs_nonneg _))
        refine ⟨?_, ?_, fun t _ _ => ?_⟩
        · rcases lt_or_gt_of_ne hu0 with hu | hu
          · have hv : v ≤ 0 := by
              by_contra hv
              push Not at hv
              rw [hn u hu, hp v hv] at hsame
              exact neq hsame.symm
            exact div_nonneg_of_nonpos hv hu.le
          · have hv : 0 ≤ v := by
              by_contra hv
              push Not at hv
              rw [hp u hu, hn v hv] at hsame
              exact neq hsame
            exact div_nonneg hv hu.le
        · refine (le_abs_self _).trans ?_
          rw [abs_div, div_le_one (abs_pos.mpr hu0)]
          exact hlt.le
        · rw [div_mul_cancel₀ _ hu0, sub_self, abs_zero]
          exact abs_nonneg _
    · rename_i hdiff
      refine ⟨le_refl _, zero_le_one, fun t h0 h1 => ?_⟩
      rw [zero_mul, zero_sub, abs_neg]
      rcases lt_trichotomy v 0 with hv | rfl | hv
      · have hu : 0 ≤ u := by
          by_contra hu
          push Not at hu
          exact hdiff (by rw [hn u hu, hn v hv])
        rw [abs_of_neg hv, abs_of_nonneg (by nlinarith)]
        nlinarith
      · rw [abs_zero]
        exact abs_nonneg _
      · have hu : u ≤ 0 := by
          by_contra hu
          push Not at hu
          exact hdiff (by rw [hp u hu, hp v hv])
        rw [abs_of_pos hv, abs_of_nonpos (by nlinarith)]
        nlinarith
  refine ⟨main.1, main.2.1, pointFromParameter_eq_lerp _ _, ?_⟩
  rintro x ⟨t, h0, h1, rfl⟩
  rw [Segment.closestPointToPlane, pointFromParameter_eq_lerp]
  exact main.2.2 t h0 h1

/-! ### Disks -/

private theorem disk_quadratic (l : Line 2 K) (b : Ball 2 K) (t : K) :
    InBall b (fun i => l.point i + t * l.dir i) ↔
      dot l.dir l.dir * t ^ 2 + 2 * dot l.dir (fun i => l.point i - b.center i) * t +
        (dot (fun i => l.point i - b.center i) (fun i => l.point i - b.center i) -
          b.radius * b.radius) ≤ 0 := by
  rw [InBall, ← sub_nonpos]
  have : dist2 (fun i => l.point i + t * l.dir i) b.center - b.radius ^ 2 =
      dot l.dir l.dir * t ^ 2 + 2 * dot l.dir (fun i => l.point i - b.center i) * t +
        (dot (fun i => l.point i - b.center i) (fun i => l.point i - b.center i) -
          b.radius * b.radius) := by
    simp only [dist2, dot, Fin.sum_univ_two]
    ring
  rw [this]

/-- C48: for a line with non-zero direction, the disk query never panics; it reports nothing exactly
when the line misses the disk, and otherwise the interval of parameters at which the line is in the
disk. -/
theorem C48_line_disk (sqrt : K → K) (hs : IsSqrt sqrt) (l : Line 2 K) (b : Ball 2 K)
    (hd : l.dir ≠ fun _ => 0) :
    (l.intersectDiskParametric sqrt b = some none ∧ ∀ x, OnLine l x → ¬InBall b x) ∨
    ∃ t₁ t₂, l.intersectDiskParametric sqrt b = some (some (t₁, t₂)) ∧ t₁ ≤ t₂ ∧
      ∀ t, InBall b (fun i => l.point i + t * l.dir i) ↔ t₁ ≤ t ∧ t ≤ t₂ := by
  have ha : 0 < dot l.dir l.dir := by
    refine lt_of_le_of_ne (normSq_nonneg _) fun h => hd ?_
    funext i
    exact (normSq_eq_zero l.dir).mp h.symm i
  rw [Line.intersectDiskParametric]
  have hq := disk_quadratic l b
  generalize dot l.dir l.dir = α at ha hq ⊢
  generalize dot l.dir (fun i => l.point i - b.center i) = β at hq ⊢
  generalize dot (fun i => l.point i - b.center i) (fun i => l.point i - b.center i) -
    b.radius * b.radius = γ at hq ⊢
  by_cases hdisc : 0 ≤ 2 * β * (2 * β) - 4 * α * γ
  · right
    obtain ⟨hr0, hr2⟩ := hs _ hdisc
    rw [if_pos hdisc, if_neg ha.ne']
    generalize sqrt (2 * β * (2 * β) - 4 * α * γ) = r at hr0 hr2 ⊢
    have h2a : 0 < 2 * α := by linarith
    refine ⟨_, _, rfl, ?_, fun t => ?_⟩
    · rw [div_le_div_iff_of_pos_right h2a]
      linarith
    · rw [hq, div_le_iff₀ h2a, le_div_iff₀ h2a]
      have key : 4 * α * (α * t ^ 2 + 2 * β * t + γ) = (t * (2 * α) + 2 * β) ^ 2 - r ^ 2 := by
        rw [hr2]
        ring
      have hiff : α * t ^ 2 + 2 * β * t + γ ≤ 0 ↔ (t * (2 * α) + 2 * β) ^ 2 ≤ r ^ 2 := by
        constructor
        · intro h
          nlinarith
        · intro h
          by_contra hc
          push Not at hc
          nlinarith [mul_pos (mul_pos (four_pos : (0 : K) < 4) ha) hc]
      rw [hiff, sq_le_sq, abs_of_nonneg hr0, abs_le]
      constructor
      · rintro ⟨h1, h2⟩
        exact ⟨by linarith, by linarith⟩
      · rintro ⟨h1, h2⟩
        exact ⟨by linarith, by linarith⟩
  · left
    rw [if_neg hdisc]
    refine ⟨rfl, ?_⟩
    rintro x ⟨t, rfl⟩ hx
    rw [hq] at hx
    apply hdisc
    have : 2 * β * (2 * β) - 4 * α * γ =
        (2 * α * t + 2 * β) ^ 2 - 4 * α * (α * t ^ 2 + 2 * β * t + γ) := by ring
    rw [this]
    nlinarith [sq_nonneg (2 * α * t + 2 * β), mul_nonneg ha.le (neg_nonneg.mpr hx)]

private theorem clamp_between (a b t : K) (h0 : 0 ≤ t) (h1 : t ≤ 1)
    (hm : ∃ u, 0 ≤ u ∧ u ≤ 1 ∧ a ≤ u ∧ u ≤ b) :
    (clamp a 0 1 ≤ t ∧ t ≤ clamp b 0 1) ↔ (a ≤ t ∧ t ≤ b) := by
  obtain ⟨u, u0, u1, ua, ub⟩ := hm
  have ha : clamp a 0 1 ≤ t ↔ a ≤ t := by
    rw [clamp]
    split
    · split
      · rfl
      · rename_i h
        push Not at h
        have : a = 1 := le_antisymm (ua.trans u1) h
        rw [this]
    · rename_i h
      push Not at h
      exact ⟨fun _ => h.trans h0, fun _ => h0⟩
  have hb : t ≤ clamp b 0 1 ↔ t ≤ b := by
    rw [clamp]
    split
    · split
      · rfl
      · rename_i h
        push Not at h
        exact ⟨fun _ => h1.trans h, fun _ => h1⟩
    · rename_i h
      push Not at h
      have : b = 0 := le_antisymm h (u0.trans ub)
      rw [this]
  rw [ha, hb]

/-- C48 (partial): for a segment of positive length, if the query reports nothing then no point of the
segment is in the disk; and if some point of the segment is in the disk then the query reports the
interval of exactly those parameters in `[0, 1]` whose points are in the disk.

Missing from the full claim: a segment that misses the disk is not always answered by `None`, see
`C48_disjoint_segment_reported`. -/
theorem C48_segment_disk_partial (sqrt : K → K) (hs : IsSqrt sqrt) (s : Segment 2 K) (b : Ball 2 K)
    (hne : s.start ≠ s.stop) :
    (s.intersectDiskParametric sqrt b = some none → ∀ x, OnSegment s x → ¬InBall b x) ∧
    ((∃ x, OnSegment s x ∧ InBall b x) → ∃ t₁ t₂,
      s.intersectDiskParametric sqrt b = some (some (t₁, t₂)) ∧ 0 ≤ t₁ ∧ t₁ ≤ t₂ ∧ t₂ ≤ 1 ∧
      ∀ t, 0 ≤ t → t ≤ 1 → (InBall b (lerp s.start s.stop t) ↔ t₁ ≤ t ∧ t ≤ t₂)) := by
  have e (t : K) : (fun i => s.toLine.point i + t * s.toLine.dir i) = lerp s.start s.stop t := by
    rw [← pointFromParameter_eq_lerp]
    funext i
    simp only [Segment.toLine, Segment.pointFromParameter]
    ring
  have hd : s.toLine.dir ≠ fun _ => 0 := by
    intro h
    apply hne
    funext i
    have := congrFun h i
    simp only [Segment.toLine, Segment.tangentDir] at this
    exact (sub_eq_zero.mp this).symm
  rw [Segment.intersectDiskParametric]
  rcases C48_line_disk sqrt hs s.toLine b hd with ⟨hr, hmiss⟩ | ⟨t₁, t₂, hr, h12, hin⟩
  · rw [hr]
    have hno : ∀ x, OnSegment s x → ¬InBall b x := by
      rintro x ⟨t, -, -, rfl⟩
      rw [← e]
      exact hmiss _ ⟨t, rfl⟩
    exact ⟨fun _ => hno, fun ⟨x, hx, hb⟩ => absurd hb (hno x hx)⟩
  · rw [hr]
    simp only [e] at hin
    refine ⟨fun h => by simp at h, ?_⟩
    rintro ⟨x, ⟨u, u0, u1, rfl⟩, hb⟩
    have hu := (hin u).mp hb
    have hbt := fun t h0 h1 => clamp_between t₁ t₂ t h0 h1 ⟨u, u0, u1, hu.1, hu.2⟩
    have hc := (hbt u u0 u1).mpr hu
    exact ⟨_, _, rfl, (clamp_mem _).1, hc.1.trans hc.2, (clamp_mem _).2, fun t h0 h1 => by
      rw [hin, hbt t h0 h1]⟩

/-- C48 (partial): under the same condition, `intersect_disk` returns a segment made of exactly the
points of the given segment that are in the disk. -/
theorem C48_intersect_disk_partial (sqrt : K → K) (hs : IsSqrt sqrt) (s : Segment 2 K) (b : Ball 2 K)
    (hne : s.start ≠ s.stop) (hm : ∃ x, OnSegment s x ∧ InBall b x) :
    ∃ r, s.intersectDisk sqrt b = some (some r) ∧
      ∀ x, OnSegment r x ↔ OnSegment s x ∧ InBall b x := by
  obtain ⟨t₁, t₂, hr, h0, h12, h1, hin⟩ := (C48_segment_disk_partial sqrt hs s b hne).2 hm
  rw [Segment.intersectDisk, hr]
  refine ⟨_, rfl, fun x => ?_⟩
  rw [onSegment_sub s _ _ h12]
  constructor
  · rintro ⟨t, a, c, rfl⟩
    exact ⟨⟨t, h0.trans a, c.trans h1, rfl⟩, (hin t (h0.trans a) (c.trans h1)).mpr ⟨a, c⟩⟩
  · rintro ⟨⟨t, a, c, rfl⟩, hx⟩
    exact ⟨t, ((hin t a c).mp hx).1, ((hin t a c).mp hx).2, rfl⟩

/-- C48, finding: a segment that misses the disk while its line meets it is answered by a degenerate
piece of the segment instead of `None`: here the segment from `(2,0)` to `(3,0)` and the unit disk,
for every square root. -/
theorem C48_disjoint_segment_reported (sqrt : K → K) (hs : IsSqrt sqrt) :
    ∃ (s : Segment 2 K) (b : Ball 2 K), s.start ≠ s.stop ∧ 0 < b.radius ∧
      (∀ x, OnSegment s x → ¬InBall b x) ∧
      s.intersectDiskParametric sqrt b = some (some (0, 0)) := by
  refine ⟨⟨![2, 0], ![3, 0]⟩, ⟨![0, 0], 1⟩, ?_, zero_lt_one, ?_, ?_⟩
  · intro h
    have := congrFun h 0
    simp at this
  · rintro x ⟨t, h0, h1, rfl⟩ hb
    simp only [InBall, dist2, lerp, Fin.sum_univ_two, Matrix.cons_val_zero, Matrix.cons_val_one] at hb
    nlinarith
  · obtain ⟨h0, h2⟩ := hs 4 (by norm_num)
    have h4 : sqrt 4 = 2 := by
      have : (sqrt 4 - 2) * (sqrt 4 + 2) = 0 := by linear_combination h2
      rcases mul_eq_zero.mp this with h | h
      · linarith
      · linarith
    have hdisc : (2 * ((3 - 2) * 2) * (2 * ((3 - 2) * 2)) - 4 * ((3 - 2) * (3 - 2)) * (2 * 2 - 1) : K) = 4 := by
      norm_num
    simp only [Segment.intersectDiskParametric, Line.intersectDiskParametric, Segment.toLine,
      Segment.tangentDir, dot, Fin.sum_univ_two, Matrix.cons_val_zero, Matrix.cons_val_one, sub_self,
      sub_zero, mul_zero, add_zero, mul_one, hdisc, h4]
    rw [if_pos (by norm_num), if_neg (by norm_num)]
    simp only [Option.map_some, Option.some.injEq, Prod.mk.injEq]
    constructor
    · rw [clamp, if_neg (by norm_num)]
    · rw [clamp, if_neg (by norm_num)]

/-- C48, finding: on a segment of length zero the query divides by zero, whatever the disk (a failed
debug assertion; NaN parameters in release mode). -/
theorem C48_degenerate_segment (sqrt : K → K) (a : Point 2 K) (b : Ball 2 K) :
    (Segment.mk a a).intersectDiskParametric sqrt b = none := by
  simp [Segment.intersectDiskParametric, Line.intersectDiskParametric, Segment.toLine,
    Segment.tangentDir, dot]

/-! ### The hypotheses are met by concrete cases -/

example : cross (Segment.mk ![(0 : ℚ), 0] ![2, 2]).tangentDir (Segment.mk ![(0 : ℚ), 2] ![2, 0]).tangentDir ≠ 0 ∧
    (Segment.mk ![(0 : ℚ), 0] ![2, 2]).intersectSegmentParametric ⟨![0, 2], ![2, 0]⟩ = some (1 / 2) := by
  decide +kernel

example : (Segment.mk ![(-1 : ℚ), 0] ![3, 0]).intersectHalfPlaneParametric ⟨![1, 5], ![1, 0]⟩ =
    some (0, 1 / 2) := by decide +kernel

example : (Segment.mk ![(0 : ℚ), 0, 0] ![1, 1, 4]).closestPointToPlaneParametric
    (fun x => if 0 ≤ x then 1 else -1) ⟨![0, 0, 1], ![0, 0, 1]⟩ = 1 / 4 := by decide +kernel

example : IsSignum (fun x : ℚ => if 0 ≤ x then 1 else -1) :=
  ⟨fun _ h => if_pos h.le, fun _ h => if_neg (not_le.mpr h)⟩

example : dot (Segment.mk ![(0 : ℚ), 0, 0] ![1, 1, 4]).tangentDir ![0, 0, 1] ≠ 0 := by decide +kernel

end Fenris.Geometry
