import Verif.Props.PolygonArea
import Verif.Model.Triangle
/-! # C51, C52: triangles and quadrilaterals in the plane -/
set_option autoImplicit false
set_option linter.unusedSectionVars false

namespace Fenris.Geometry
open Fenris.Spec Fenris.Clip
variable {K : Type} [Field K] [LinearOrder K] [IsStrictOrderedRing K] {d : Nat}

/-! ### Leaving a convex set along a segment -/

private theorem lerp_affine {f : Point d K → K} (hf : IsAffine f) (x y : Point d K) (s : K) :
    f (lerp x y s) = (1 - s) * f x + s * f y := by
  rw [← hf x y (1 - s) s (by ring)]
  congr 1

private theorem lerp_lerp (x y : Point d K) (s r : K) :
    lerp (lerp x y s) y r = lerp x y (s + r * (1 - s)) := by
  funext i
  simp only [lerp]
  ring

/-- Moving from `x`, where one of the functions is negative, to `y`, where none is, one passes a point
where none is negative and one vanishes. -/
theorem exit_point (l : List (Point d K → K)) (hl : ∀ g ∈ l, IsAffine g) (x y : Point d K)
    (hy : ∀ g ∈ l, 0 ≤ g y) (hx : ∃ g ∈ l, g x < 0) :
    ∃ s, 0 ≤ s ∧ s ≤ 1 ∧ (∀ g ∈ l, 0 ≤ g (lerp x y s)) ∧ ∃ g ∈ l, g (lerp x y s) = 0 := by
  -- the step to the root of one function
  have step : ∀ (g : Point d K → K), IsAffine g → ∀ z : Point d K, g z < 0 → 0 ≤ g y →
      ∃ r, 0 ≤ r ∧ r ≤ 1 ∧ g (lerp z y r) = 0 := by
    intro g hg z h0 h1
    have hd : 0 < g y - g z := by linarith
    refine ⟨-g z / (g y - g z), div_nonneg (by linarith) hd.le, (div_le_one hd).mpr (by linarith), ?_⟩
    rw [lerp_affine hg]
    field_simp
    ring
  have keep : ∀ (g : Point d K → K), IsAffine g → ∀ (z : Point d K) (r : K), 0 ≤ g z → 0 ≤ g y →
      0 ≤ r → r ≤ 1 → 0 ≤ g (lerp z y r) := by
    intro g hg z r h0 h1 hr0 hr1
    rw [lerp_affine hg]
    exact add_nonneg (mul_nonneg (by linarith) h0) (mul_nonneg hr0 h1)
  induction l with
  | nil => obtain ⟨g, hg, -⟩ := hx; exact absurd hg List.not_mem_nil
  | cons g l ih =>
    have hg := hl g List.mem_cons_self
    have hgy := hy g List.mem_cons_self
    by_cases hlx : ∃ g ∈ l, g x < 0
    · obtain ⟨s, s0, s1, hall, g', hg', hz⟩ := ih (fun g h => hl g (List.mem_cons_of_mem _ h))
        (fun g h => hy g (List.mem_cons_of_mem _ h)) hlx
      by_cases hgs : 0 ≤ g (lerp x y s)
      · refine ⟨s, s0, s1, ?_, g', List.mem_cons_of_mem _ hg', hz⟩
        intro k hk
        rcases List.mem_cons.mp hk with rfl | hk
        · exact hgs
        · exact hall k hk
      · push Not at hgs
        obtain ⟨r, r0, r1, hr⟩ := step g hg _ hgs hgy
        rw [lerp_lerp] at hr
        refine ⟨s + r * (1 - s), by nlinarith, by nlinarith, ?_, g, List.mem_cons_self, hr⟩
        intro k hk
        rcases List.mem_cons.mp hk with rfl | hk
        · exact hr.ge
        · rw [← lerp_lerp]
          exact keep k (hl k (List.mem_cons_of_mem _ hk)) _ r (hall k hk) (hy k (List.mem_cons_of_mem _ hk)) r0 r1
    · push Not at hlx
      have hgx : g x < 0 := by
        obtain ⟨k, hk, hneg⟩ := hx
        rcases List.mem_cons.mp hk with rfl | hk
        · exact hneg
        · exact absurd hneg (not_lt.mpr (hlx k hk))
      obtain ⟨r, r0, r1, hr⟩ := step g hg x hgx hgy
      refine ⟨r, r0, r1, ?_, g, List.mem_cons_self, hr⟩
      intro k hk
      rcases List.mem_cons.mp hk with rfl | hk
      · exact hr.ge
      · exact keep k (hl k (List.mem_cons_of_mem _ hk)) x r (hlx k hk) (hy k (List.mem_cons_of_mem _ hk)) r0 r1

theorem dist2_lerp_le (x y : Point d K) (s : K) (h0 : 0 ≤ s) (h1 : s ≤ 1) :
    dist2 (lerp x y s) x ≤ dist2 y x := by
  rw [dist2, dist2]
  apply Finset.sum_le_sum
  intro i _
  have : lerp x y s i - x i = s * (y i - x i) := by
    simp only [lerp]
    ring
  rw [this, mul_pow]
  have : s ^ 2 ≤ 1 := by nlinarith
  nlinarith [sq_nonneg (y i - x i)]

/-! ### The loop over the edges -/

/-- The side of an edge can be read off the vector from the closest point: clamping moves it along the
edge. -/
theorem dot_normal (a b x : Point 2 K) :
    dot (fun k => x k - (⟨a, b⟩ : Segment 2 K).closestPoint x k) (⟨a, b⟩ : Segment 2 K).normalDir =
      -orient2 a b x := by
  have h := (C47_closest_point (⟨a, b⟩ : Segment 2 K) x).2.2.1
  rw [h]
  simp only [dot, Fin.sum_univ_two, Segment.normalDir, Segment.tangentDir, lerp, orient2,
    Matrix.cons_val_zero, Matrix.cons_val_one]
  ring

theorem normSq_sub_eq (x p : Point d K) : normSq (fun k => x k - p k) = dist2 p x := by
  simp only [normSq, dist2]
  apply Finset.sum_congr rfl
  intro i _
  ring

private theorem tri_edges (t : Tri 2 K) :
    t.edge 0 = some ⟨t.a, t.b⟩ ∧ t.edge 1 = some ⟨t.b, t.c⟩ ∧ t.edge 2 = some ⟨t.c, t.a⟩ := by
  refine ⟨rfl, rfl, rfl⟩

private theorem query_spec (sqrt : K → K) (t : Tri 2 K) (x : Point 2 K) :
    ∃ (i : Nat) (s : Segment 2 K), t.edge i = some s ∧
      t.querySignedDistance sqrt x = some ⟨i, s.closestPoint x,
        (if 0 ≤ orient2 t.a t.b x ∧ 0 ≤ orient2 t.b t.c x ∧ 0 ≤ orient2 t.c t.a x then -1 else 1) *
          sqrt (dist2 (s.closestPoint x) x)⟩ ∧
      ∀ (j : Nat) (s' : Segment 2 K), t.edge j = some s' →
        dist2 (s.closestPoint x) x ≤ dist2 (s'.closestPoint x) x := by
  have v0 : t.vertex 0 = t.a := rfl
  have v1 : t.vertex 1 = t.b := rfl
  have v2 : t.vertex 2 = t.c := rfl
  have ed : ∀ (j : Nat) (s' : Segment 2 K), t.edge j = some s' →
      s' = ⟨t.a, t.b⟩ ∨ s' = ⟨t.b, t.c⟩ ∨ s' = ⟨t.c, t.a⟩ := by
    intro j s' h
    rw [Tri.edge] at h
    split at h
    · rename_i hj
      have : j = 0 ∨ j = 1 ∨ j = 2 := by omega
      rcases this with rfl | rfl | rfl
      · exact Or.inl (Option.some.inj h).symm
      · exact Or.inr (Or.inl (Option.some.inj h).symm)
      · exact Or.inr (Or.inr (Option.some.inj h).symm)
    · cases h
  have hr : List.range 3 = [0, 1, 2] := rfl
  have q : t.querySignedDistance sqrt x = (match ((List.range 3).foldl (t.sdfStep x) (true, none)).2 with
    | none => none
    | some (i, d2, p) => some ⟨i, p,
      (if ((List.range 3).foldl (t.sdfStep x) (true, none)).1 then -1 else 1) * sqrt d2⟩) := rfl
  have hin : (((List.range 3).foldl (t.sdfStep x) (true, none)).1 = true) ↔
      (0 ≤ orient2 t.a t.b x ∧ 0 ≤ orient2 t.b t.c x ∧ 0 ≤ orient2 t.c t.a x) := by
    simp only [hr, List.foldl_cons, List.foldl_nil, Tri.sdfStep, v0, v1, v2, dot_normal, Nat.reduceAdd,
      Nat.reduceMod, Left.neg_pos_iff]
    by_cases h1 : orient2 t.a t.b x < 0 <;> by_cases h2 : orient2 t.b t.c x < 0 <;>
      by_cases h3 : orient2 t.c t.a x < 0 <;> simp [h1, h2, h3] <;> (push Not at *) <;> simp_all
  have hsign : (if ((List.range 3).foldl (t.sdfStep x) (true, none)).1 then (-1 : K) else 1) =
      (if 0 ≤ orient2 t.a t.b x ∧ 0 ≤ orient2 t.b t.c x ∧ 0 ≤ orient2 t.c t.a x then -1 else 1) :=
    if_congr hin rfl rfl
  rw [q, hsign]
  generalize (if 0 ≤ orient2 t.a t.b x ∧ 0 ≤ orient2 t.b t.c x ∧ 0 ≤ orient2 t.c t.a x then (-1 : K) else 1) = sg
  have hbest : ((List.range 3).foldl (t.sdfStep x) (true, none)).2 =
      if dist2 ((⟨t.b, t.c⟩ : Segment 2 K).closestPoint x) x < dist2 ((⟨t.a, t.b⟩ : Segment 2 K).closestPoint x) x then
        if dist2 ((⟨t.c, t.a⟩ : Segment 2 K).closestPoint x) x < dist2 ((⟨t.b, t.c⟩ : Segment 2 K).closestPoint x) x then
          some (2, dist2 ((⟨t.c, t.a⟩ : Segment 2 K).closestPoint x) x, (⟨t.c, t.a⟩ : Segment 2 K).closestPoint x)
        else some (1, dist2 ((⟨t.b, t.c⟩ : Segment 2 K).closestPoint x) x, (⟨t.b, t.c⟩ : Segment 2 K).closestPoint x)
      else if dist2 ((⟨t.c, t.a⟩ : Segment 2 K).closestPoint x) x < dist2 ((⟨t.a, t.b⟩ : Segment 2 K).closestPoint x) x then
          some (2, dist2 ((⟨t.c, t.a⟩ : Segment 2 K).closestPoint x) x, (⟨t.c, t.a⟩ : Segment 2 K).closestPoint x)
        else some (0, dist2 ((⟨t.a, t.b⟩ : Segment 2 K).closestPoint x) x, (⟨t.a, t.b⟩ : Segment 2 K).closestPoint x) := by
    simp only [hr, List.foldl_cons, List.foldl_nil, Tri.sdfStep, v0, v1, v2, normSq_sub_eq, Nat.reduceAdd,
      Nat.reduceMod, Option.map_none]
    generalize (⟨t.a, t.b⟩ : Segment 2 K).closestPoint x = p0
    generalize (⟨t.b, t.c⟩ : Segment 2 K).closestPoint x = p1
    generalize (⟨t.c, t.a⟩ : Segment 2 K).closestPoint x = p2
    by_cases h1 : dist2 p1 x < dist2 p0 x <;> by_cases h2 : dist2 p2 x < dist2 p1 x <;>
      by_cases h3 : dist2 p2 x < dist2 p0 x <;> simp [SimplePolygon.below, h1, h2, h3]
  rw [hbest]
  generalize h0 : dist2 ((⟨t.a, t.b⟩ : Segment 2 K).closestPoint x) x = D0
  generalize h1 : dist2 ((⟨t.b, t.c⟩ : Segment 2 K).closestPoint x) x = D1
  generalize h2 : dist2 ((⟨t.c, t.a⟩ : Segment 2 K).closestPoint x) x = D2
  by_cases c1 : D1 < D0
  · by_cases c2 : D2 < D1
    · refine ⟨2, ⟨t.c, t.a⟩, rfl, by rw [if_pos c1, if_pos c2, h2], fun j s' hs' => ?_⟩
      rcases ed j s' hs' with rfl | rfl | rfl <;> linarith
    · refine ⟨1, ⟨t.b, t.c⟩, rfl, by rw [if_pos c1, if_neg c2, h1], fun j s' hs' => ?_⟩
      rcases ed j s' hs' with rfl | rfl | rfl <;> linarith
  · by_cases c2 : D2 < D0
    · refine ⟨2, ⟨t.c, t.a⟩, rfl, by rw [if_neg c1, if_pos c2, h2], fun j s' hs' => ?_⟩
      rcases ed j s' hs' with rfl | rfl | rfl <;> linarith
    · refine ⟨0, ⟨t.a, t.b⟩, rfl, by rw [if_neg c1, if_neg c2, h0], fun j s' hs' => ?_⟩
      rcases ed j s' hs' with rfl | rfl | rfl <;> linarith

private theorem inTriangle_iff (t : Tri 2 K) (x : Point 2 K) (ht : 0 < orient2 t.a t.b t.c) :
    InTriangle t x ↔ 0 ≤ orient2 t.a t.b x ∧ 0 ≤ orient2 t.b t.c x ∧ 0 ≤ orient2 t.c t.a x := by
  constructor
  · rintro ⟨α, β, γ, h1, h2, h3, hs, rfl⟩
    have hα : α = 1 - β - γ := by linarith
    have e1 : orient2 t.a t.b (fun i => α * t.a i + β * t.b i + γ * t.c i) = γ * orient2 t.a t.b t.c := by
      subst hα; simp only [orient2]; ring
    have e2 : orient2 t.b t.c (fun i => α * t.a i + β * t.b i + γ * t.c i) = α * orient2 t.a t.b t.c := by
      subst hα; simp only [orient2]; ring
    have e3 : orient2 t.c t.a (fun i => α * t.a i + β * t.b i + γ * t.c i) = β * orient2 t.a t.b t.c := by
      subst hα; simp only [orient2]; ring
    rw [e1, e2, e3]
    exact ⟨mul_nonneg h3 ht.le, mul_nonneg h1 ht.le, mul_nonneg h2 ht.le⟩
  · rintro ⟨h1, h2, h3⟩
    exact inTriangle_of t.a t.b t.c x ht h2 h3 h1

/-- A point of the triangle on the line of an edge lies on the edge. -/
private theorem on_edge (a b c z : Point 2 K) (ht : 0 < orient2 a b c) (h1 : orient2 a b z = 0)
    (h2 : 0 ≤ orient2 b c z) (h3 : 0 ≤ orient2 c a z) : OnSegment ⟨a, b⟩ z := by
  obtain ⟨α, β, γ, hα, hβ, hγ, hs, rfl⟩ := inTriangle_of a b c z ht h2 h3 h1.ge
  have hαe : α = 1 - β - γ := by linarith
  have e1 : orient2 a b (fun i => α * a i + β * b i + γ * c i) = γ * orient2 a b c := by
    subst hαe; simp only [orient2]; ring
  simp only at h1
  rw [e1] at h1
  have hγ0 : γ = 0 := (mul_eq_zero.mp h1).resolve_right ht.ne'
  subst hγ0
  refine ⟨β, hβ, by linarith, ?_⟩
  funext i
  simp only [lerp]
  have : α = 1 - β := by linarith
  rw [this]
  ring

/-- C51: for a counter-clockwise triangle the signed distance query returns a point of the edge it
names, no point of any edge is closer, the square of the signed distance is the squared distance to that
point, and the signed distance is at most zero exactly for the points of the triangle. -/
theorem C51_signed_distance (sqrt : K → K) (hs : IsSqrt sqrt) (t : Tri 2 K) (x : Point 2 K)
    (ht : 0 < orient2 t.a t.b t.c) :
    ∃ r, t.querySignedDistance sqrt x = some r ∧
      (∃ s, t.edge r.featureId = some s ∧ OnSegment s r.point) ∧
      (∀ j s y, t.edge j = some s → OnSegment s y → dist2 r.point x ≤ dist2 y x) ∧
      r.signedDistance ^ 2 = dist2 r.point x ∧
      (r.signedDistance ≤ 0 ↔ InTriangle t x) := by
  obtain ⟨i, s, hi, hq, hmin⟩ := query_spec sqrt t x
  have hnn : 0 ≤ dist2 (s.closestPoint x) x := Finset.sum_nonneg fun _ _ => sq_nonneg _
  obtain ⟨r0, r2⟩ := hs _ hnn
  refine ⟨_, hq, ⟨s, hi, ?_⟩, ?_, ?_, ?_⟩
  · obtain ⟨h0, h1, h2, -⟩ := C47_closest_point s x
    exact ⟨_, h0, h1, h2⟩
  · intro j s' y hj hy
    exact (hmin j s' hj).trans ((C47_closest_point s' x).2.2.2 y hy)
  · simp only [mul_pow, r2]
    split <;> ring
  · rw [inTriangle_iff t x ht]
    simp only
    split
    · rename_i hc
      simp only [hc, and_self, iff_true]
      linarith
    · rename_i hc
      simp only [hc, iff_false, not_le, one_mul]
      rcases r0.lt_or_eq with h | h
      · exact h
      · -- distance zero: the point lies on an edge, hence in the triangle
        exfalso
        apply hc
        rw [← inTriangle_iff t x ht]
        have hz : dist2 (s.closestPoint x) x = 0 := by rw [← r2, ← h]; ring
        have hx : s.closestPoint x = x := by
          funext k
          have := (Finset.sum_eq_zero_iff_of_nonneg (fun i _ => sq_nonneg (s.closestPoint x i - x i))).mp hz k (Finset.mem_univ k)
          exact sub_eq_zero.mp (pow_eq_zero_iff two_ne_zero |>.mp this)
        obtain ⟨h0, h1, h2, -⟩ := C47_closest_point s x
        rw [hx] at h2
        generalize s.closestPointParametric x = u at *
        rw [Tri.edge] at hi
        split at hi
        · rename_i hlt
          have : i = 0 ∨ i = 1 ∨ i = 2 := by omega
          rcases this with rfl | rfl | rfl <;> obtain rfl := Option.some.inj hi <;>
            simp only [Tri.vertex, Nat.reduceAdd, Nat.reduceMod, if_true] at h2
          · exact ⟨1 - u, u, 0, by linarith, h0, le_refl _, by ring, by rw [h2]; funext k; simp [lerp]⟩
          · exact ⟨0, 1 - u, u, le_refl _, by linarith, h0, by ring, by rw [h2]; funext k; simp [lerp]⟩
          · exact ⟨u, 0, 1 - u, h0, le_refl _, by linarith, by ring, by rw [h2]; funext k; simp [lerp]; ring⟩
        · cases hi

/-- C51: the distance is the distance to the closest point of the triangle. -/
theorem C51_distance (sqrt : K → K) (hs : IsSqrt sqrt) (t : Tri 2 K) (x : Point 2 K)
    (ht : 0 < orient2 t.a t.b t.c) :
    ∃ D, t.distance sqrt x = some D ∧ 0 ≤ D ∧ (∃ y, InTriangle t y ∧ D ^ 2 = dist2 y x) ∧
      ∀ y, InTriangle t y → D ^ 2 ≤ dist2 y x := by
  obtain ⟨r, hq, ⟨s, hs1, hs2⟩, hmin, hsq, hin⟩ := C51_signed_distance sqrt hs t x ht
  refine ⟨max 0 r.signedDistance, by rw [Tri.distance, hq]; rfl, le_max_left _ _, ?_, ?_⟩
  · by_cases h : InTriangle t x
    · refine ⟨x, h, ?_⟩
      rw [max_eq_left (hin.mpr h)]
      simp [dist2]
    · have hpos : 0 ≤ r.signedDistance := by
        by_contra hneg
        push Not at hneg
        exact h (hin.mp hneg.le)
      refine ⟨r.point, ?_, by rw [max_eq_right hpos, hsq]⟩
      obtain ⟨u, u0, u1, hu⟩ := hs2
      rw [Tri.edge] at hs1
      split at hs1
      · rename_i hlt
        have : r.featureId = 0 ∨ r.featureId = 1 ∨ r.featureId = 2 := by omega
        rcases this with e | e | e <;> rw [e] at hs1 <;> obtain rfl := Option.some.inj hs1 <;>
          simp only [Tri.vertex, Nat.reduceAdd, Nat.reduceMod, if_true] at hu
        · exact ⟨1 - u, u, 0, by linarith, u0, le_refl _, by ring, by rw [hu]; funext k; simp [lerp]⟩
        · exact ⟨0, 1 - u, u, le_refl _, by linarith, u0, by ring, by rw [hu]; funext k; simp [lerp]⟩
        · exact ⟨u, 0, 1 - u, u0, le_refl _, by linarith, by ring, by rw [hu]; funext k; simp [lerp]; ring⟩
      · cases hs1
  · intro y hy
    by_cases h : InTriangle t x
    · rw [max_eq_left (hin.mpr h)]
      simp only [dist2]
      rw [zero_pow two_ne_zero]
      exact Finset.sum_nonneg fun _ _ => sq_nonneg _
    · have hpos : 0 ≤ r.signedDistance := by
        by_contra hneg
        push Not at hneg
        exact h (hin.mp hneg.le)
      rw [max_eq_right hpos, hsq]
      -- the segment from `x` to `y` meets the boundary
      have hx' := h
      rw [inTriangle_iff t x ht] at hx'
      have hy' := (inTriangle_iff t y ht).mp hy
      obtain ⟨u, u0, u1, hall, g, hg, hz⟩ := exit_point
        [orient2 t.a t.b, orient2 t.b t.c, orient2 t.c t.a]
        (by
          intro g hg
          simp only [List.mem_cons, List.not_mem_nil, or_false] at hg
          rcases hg with rfl | rfl | rfl <;> exact orient2_orient.affine3 _ _) x y
        (by
          intro g hg
          simp only [List.mem_cons, List.not_mem_nil, or_false] at hg
          rcases hg with rfl | rfl | rfl
          · exact hy'.1
          · exact hy'.2.1
          · exact hy'.2.2)
        (by
          by_contra hno
          push Not at hno
          exact hx' ⟨hno _ (by simp), hno _ (by simp), hno _ (by simp)⟩)
      have h1 := hall (orient2 t.a t.b) (by simp)
      have h2 := hall (orient2 t.b t.c) (by simp)
      have h3 := hall (orient2 t.c t.a) (by simp)
      have hbd : ∃ j s, t.edge j = some s ∧ OnSegment s (lerp x y u) := by
        simp only [List.mem_cons, List.not_mem_nil, or_false] at hg
        rcases hg with rfl | rfl | rfl
        · exact ⟨0, _, rfl, on_edge t.a t.b t.c _ ht hz h2 h3⟩
        · exact ⟨1, _, rfl, on_edge t.b t.c t.a _ (by rw [← orient2_orient.cyc]; exact ht) hz h3 h1⟩
        · exact ⟨2, _, rfl, on_edge t.c t.a t.b _ (by rw [orient2_orient.cyc]; exact ht) hz h1 h2⟩
      obtain ⟨j, s', hj, hon⟩ := hbd
      exact (hmin j s' _ hj hon).trans (dist2_lerp_le x y u u0 u1)

/-- C51: the orientation test, the signed area and the centroid are what their names say; exchanging two
vertices flips the signed area. -/
theorem C51_triangle_basics (t : Tri 2 K) :
    t.signedArea = SimplePolygon.signedArea [t.a, t.b, t.c] ∧
    (t.orientation = true ↔ 0 ≤ SimplePolygon.signedArea [t.a, t.b, t.c]) ∧
    (⟨t.b, t.a, t.c⟩ : Tri 2 K).signedArea = -t.signedArea ∧
    (⟨t.b, t.c, t.a⟩ : Tri 2 K).signedArea = t.signedArea ∧
    InTriangle t t.centroid ∧
    (∀ k, (t.sides.map fun v => v k).sum = 0) := by
  have h1 : t.signedArea = SimplePolygon.signedArea [t.a, t.b, t.c] := by
    rw [← (C50_fan [t.a, t.b, t.c]).2]
    simp [SimplePolygon.triangulate, SimplePolygon.vertex]
  refine ⟨h1, by rw [Tri.orientation, decide_eq_true_iff, h1], ?_, ?_, ?_, ?_⟩
  · simp only [Tri.signedArea]
    ring
  · simp only [Tri.signedArea]
    ring
  · refine ⟨1 / 3, 1 / 3, 1 / 3, by norm_num, by norm_num, by norm_num, by norm_num, ?_⟩
    funext i
    simp only [Tri.centroid, List.foldl_cons, List.foldl_nil]
    ring
  · intro k
    simp only [Tri.sides, List.map_cons, List.map_nil, List.sum_cons, List.sum_nil]
    ring

/-! ### Quadrilaterals -/

/-- C52, finding: no quadrilateral is ever found to be concave, because `concave_corner` compares a corner
with itself instead of with the previous corner. -/
theorem C52_concave_corner_never_found (q : Quad K) : Quad.concaveCorner q = none := by
  rw [Quad.concaveCorner, List.findSome?_eq_none_iff]
  intro i _
  simp

private theorem split_eq (q : Quad K) :
    Quad.splitIntoTriangles q = (⟨q 0, q 1, q 2⟩, ⟨q 0, q 2, q 3⟩) := by
  rw [Quad.splitIntoTriangles, Quad.splitConnectivities, C52_concave_corner_never_found]
  rfl

/-- C52: the signed areas of the two triangles always add up to the signed area of the quadrilateral. -/
theorem C52_signed_areas (q : Quad K) :
    (Quad.splitIntoTriangles q).1.signedArea + (Quad.splitIntoTriangles q).2.signedArea =
      SimplePolygon.signedArea [q 0, q 1, q 2, q 3] := by
  have e : SimplePolygon.triangulate [q 0, q 1, q 2, q 3] = [⟨q 0, q 1, q 2⟩, ⟨q 0, q 2, q 3⟩] := rfl
  rw [split_eq, ← (C50_fan [q 0, q 1, q 2, q 3]).2, e]
  simp

/-- C52: `area` is the absolute value of the signed area exactly if the two triangles do not have
opposite orientations. -/
theorem C52_area_partial (q : Quad K) :
    Quad.area q = |SimplePolygon.signedArea [q 0, q 1, q 2, q 3]| ↔
      0 ≤ orient2 (q 0) (q 1) (q 2) * orient2 (q 0) (q 2) (q 3) := by
  rw [← C52_signed_areas, Quad.area, Tri.area, Tri.area, eq_comm, abs_add_eq_add_abs_iff, split_eq]
  have e (a b c : Point 2 K) : Tri.signedArea ⟨a, b, c⟩ = 1 / 2 * orient2 a b c := rfl
  simp only [e]
  constructor
  · rintro (⟨h1, h2⟩ | ⟨h1, h2⟩)
    · exact mul_nonneg (by linarith) (by linarith)
    · exact mul_nonneg_of_nonpos_of_nonpos (by linarith) (by linarith)
  · intro h
    rcases le_total 0 (orient2 (q 0) (q 1) (q 2)) with h1 | h1 <;>
      rcases le_total 0 (orient2 (q 0) (q 2) (q 3)) with h2 | h2
    · exact Or.inl ⟨by linarith, by linarith⟩
    · rcases (mul_nonpos_of_nonneg_of_nonpos h1 h2).antisymm h |> mul_eq_zero.mp with h0 | h0
      · exact Or.inr ⟨by linarith, by linarith⟩
      · exact Or.inl ⟨by linarith, by linarith⟩
    · rcases (mul_nonpos_of_nonpos_of_nonneg h1 h2).antisymm h |> mul_eq_zero.mp with h0 | h0
      · exact Or.inl ⟨by linarith, by linarith⟩
      · exact Or.inr ⟨by linarith, by linarith⟩
    · exact Or.inr ⟨by linarith, by linarith⟩

/-- C52, for convex quadrilaterals: `area` is the area, and if the quadrilateral is strictly convex, the two
triangles cover exactly the quadrilateral and their interiors are disjoint. -/
theorem C52_convex_partial (q : Quad K) :
    (ConvexCcw [q 0, q 1, q 2, q 3] → Quad.area q = SimplePolygon.signedArea [q 0, q 1, q 2, q 3]) ∧
    (StrictlyConvexCcw [q 0, q 1, q 2, q 3] →
      (∀ x, x ∈ hull [q 0, q 1, q 2, q 3] ↔
        InTriangle (Quad.splitIntoTriangles q).1 x ∨ InTriangle (Quad.splitIntoTriangles q).2 x) ∧
      ∀ x, ¬(InsideTriangle (Quad.splitIntoTriangles q).1 x ∧
        InsideTriangle (Quad.splitIntoTriangles q).2 x)) := by
  constructor
  · intro h
    have h0 := ((C50_fan_orientation [q 0, q 1, q 2, q 3]).1 h).2
    have h1 : 0 ≤ orient2 (q 0) (q 1) (q 2) := h _ _ _ (by simp)
    have h2 : 0 ≤ orient2 (q 0) (q 2) (q 3) := h _ _ _ (by simp)
    rw [(C52_area_partial q).mpr (mul_nonneg h1 h2), abs_of_nonneg h0]
  · intro h
    have := C50_fan_partition _ h (by simp)
    have e : SimplePolygon.triangulate [q 0, q 1, q 2, q 3] =
        [(Quad.splitIntoTriangles q).1, (Quad.splitIntoTriangles q).2] := by
      rw [split_eq]
      rfl
    rw [e] at this
    refine ⟨fun x => ?_, ?_⟩
    · rw [this.1 x]
      simp
    · have h2 := this.2
      rw [List.pairwise_cons] at h2
      exact h2.1 _ (by simp)

/-- C52, finding: an arrow-shaped quadrilateral of area six, in counter-clockwise order, whose reported area
is ten: one of the two triangles lies outside. -/
theorem C52_concave_area_wrong :
    ∃ q : Quad ℚ, SimplePolygon.signedArea [q 0, q 1, q 2, q 3] = 6 ∧ Quad.area q = 10 ∧
      (Quad.splitIntoTriangles q).1.signedArea = -2 :=
  ⟨![![-2, 0], ![0, 1], ![2, 0], ![0, 4]], by decide +kernel, by decide +kernel, by decide +kernel⟩

/-! ### Examples -/

example : 0 < orient2 (![0, 0] : Point 2 ℚ) ![4, 0] ![0, 3] := by decide +kernel

/-- The point `(1, 1/2)` in the triangle `(0,0), (4,0), (0,4)` is closest to the first edge (here with the
squared distance in place of its root). -/
example : ((⟨![0, 0], ![4, 0], ![0, 4]⟩ : Tri 2 ℚ).querySignedDistance (fun x => x) ![1, 1 / 2]).map
    (fun r => (r.featureId, r.point, r.signedDistance)) = some (0, ![1, 0], -(1 / 4)) := by decide +kernel

/-- The hypotheses are met over the real numbers with the real square root. -/
example : ∃ D, (⟨![0, 0], ![4, 0], ![0, 4]⟩ : Tri 2 ℝ).distance Real.sqrt ![5, 5] = some D ∧ 0 ≤ D := by
  obtain ⟨D, h, h0, -⟩ := C51_distance Real.sqrt (fun x hx => ⟨Real.sqrt_nonneg x, Real.sq_sqrt hx⟩)
    ⟨![0, 0], ![4, 0], ![0, 4]⟩ ![5, 5] (by simp [orient2])
  exact ⟨D, h, h0⟩

end Fenris.Geometry
