import Verif.Spec.Aabb
import Verif.Props.GeometryUtil
import Mathlib.Algebra.Order.BigOperators.Ring.Finset
import Mathlib.Algebra.Order.Ring.Abs
import Mathlib.Data.Rat.Defs
import Mathlib.Algebra.Order.Ring.Rat
import Mathlib.Algebra.Order.Field.Rat
import Mathlib.Data.Fin.VecNotation
import Mathlib.Tactic.Linarith
import Mathlib.Tactic.FieldSimp
import Mathlib.Tactic.FinCases
/-! # C45, C46: bounding boxes -/
set_option autoImplicit false
set_option linter.unusedSectionVars false

namespace Fenris.Geometry.Aabb
open Fenris.Spec Fenris.GeomUtil
variable {K : Type} [Field K] [LinearOrder K] [IsStrictOrderedRing K] {d : Nat}

private theorem new_valid (lo hi : Point d K) (h : ∀ i, lo i ≤ hi i) : new lo hi = some ⟨lo, hi⟩ := by
  rw [new, if_pos h]

/-- C45: `new` succeeds exactly for `min ≤ max` and stores its arguments; every successful
constructor yields a valid box. -/
theorem C45_new (lo hi : Point d K) (a : Aabb d K) :
    new lo hi = some a ↔ ValidBox a ∧ a.min = lo ∧ a.max = hi := by
  rw [new]
  constructor
  · intro h
    split at h
    · rename_i h1
      cases h
      exact ⟨h1, rfl, rfl⟩
    · cases h
  · rintro ⟨h, rfl, rfl⟩
    rw [if_pos (fun i => h i)]

/-- C45: `enclose` never panics on valid boxes and yields the smallest box containing both. -/
theorem C45_enclose (a b : Aabb d K) (ha : ValidBox a) (hb : ValidBox b) :
    ∃ c, enclose a b = some c ∧ ValidBox c ∧
      (∀ p, InAabb a p ∨ InAabb b p → InAabb c p) ∧
      ∀ c' : Aabb d K, (∀ p, InAabb a p ∨ InAabb b p → InAabb c' p) → ∀ p, InAabb c p → InAabb c' p := by
  have hv : ∀ i, Min.min (a.min i) (b.min i) ≤ Max.max (a.max i) (b.max i) := fun i =>
    (min_le_left _ _).trans ((ha i).trans (le_max_left _ _))
  refine ⟨_, new_valid _ _ hv, hv, ?_, ?_⟩
  · rintro p (h | h) i
    · exact ⟨(min_le_left _ _).trans (h i).1, (h i).2.trans (le_max_left _ _)⟩
    · exact ⟨(min_le_right _ _).trans (h i).1, (h i).2.trans (le_max_right _ _)⟩
  · intro c' h p hp i
    have h1 := h a.min (.inl fun i => ⟨le_refl _, ha i⟩) i
    have h2 := h a.max (.inl fun i => ⟨ha i, le_refl _⟩) i
    have h3 := h b.min (.inr fun i => ⟨le_refl _, hb i⟩) i
    have h4 := h b.max (.inr fun i => ⟨hb i, le_refl _⟩) i
    exact ⟨(le_min h1.1 h3.1).trans (hp i).1, (hp i).2.trans (max_le h2.2 h4.2)⟩

private theorem encloseAll_spec (ps : List (Point d K)) : ∀ a : Aabb d K, ValidBox a →
    ∃ c, encloseAll a ps = some c ∧ ValidBox c ∧ (∀ p, InAabb a p → InAabb c p) ∧
      (∀ p ∈ ps, InAabb c p) ∧
      ∀ c' : Aabb d K, (∀ p, InAabb a p → InAabb c' p) → (∀ p ∈ ps, InAabb c' p) →
        ∀ p, InAabb c p → InAabb c' p := by
  induction ps with
  | nil => exact fun a ha => ⟨a, rfl, ha, fun p h => h, by simp, fun c' h _ => h⟩
  | cons q ps ih =>
    intro a ha
    have hq : ofPoint q = some (⟨q, q⟩ : Aabb d K) := new_valid q q (fun _ => le_refl _)
    have hqv : ValidBox (⟨q, q⟩ : Aabb d K) := fun _ => le_refl _
    obtain ⟨c, hc, hcv, h1, h2⟩ := C45_enclose a ⟨q, q⟩ ha hqv
    obtain ⟨e, he, hev, h3, h4, h5⟩ := ih c hcv
    refine ⟨e, by rw [encloseAll, hq]; simp only [hc]; exact he, hev,
      fun p hp => h3 p (h1 p (.inl hp)), ?_, ?_⟩
    · intro p hp
      rcases List.mem_cons.1 hp with rfl | hp
      · exact h3 p (h1 p (.inr fun _ => ⟨le_refl _, le_refl _⟩))
      · exact h4 p hp
    · intro c' h6 h7 p hp
      refine h5 c' ?_ (fun r hr => h7 r (List.mem_cons_of_mem _ hr)) p hp
      refine h2 c' ?_
      rintro r (hr | hr)
      · exact h6 r hr
      · have : r = q := funext fun i => le_antisymm (hr i).2 (hr i).1
        rw [this]
        exact h7 q List.mem_cons_self

/-- C45: the box of a point set: `None` without points; otherwise the box exists, is valid, contains
every point, and is contained in every box that contains all points. -/
theorem C45_from_points (ps : List (Point d K)) :
    (ps = [] ∧ fromPoints ps = some none) ∨
    (ps ≠ [] ∧ ∃ c, fromPoints ps = some (some c) ∧ ValidBox c ∧ (∀ p ∈ ps, InAabb c p) ∧
      ∀ c' : Aabb d K, (∀ p ∈ ps, InAabb c' p) → ∀ p, InAabb c p → InAabb c' p) := by
  cases ps with
  | nil => exact .inl ⟨rfl, rfl⟩
  | cons q ps =>
    right
    have hq : ofPoint q = some (⟨q, q⟩ : Aabb d K) := new_valid q q (fun _ => le_refl _)
    obtain ⟨c, hc, hcv, h1, h2, h3⟩ := encloseAll_spec ps ⟨q, q⟩ (fun _ => le_refl _)
    refine ⟨by simp, c, by rw [fromPoints, hq]; simp only [hc, Option.map_some], hcv, ?_, ?_⟩
    · intro p hp
      rcases List.mem_cons.1 hp with rfl | hp
      · exact h1 p fun _ => ⟨le_refl _, le_refl _⟩
      · exact h2 p hp
    · intro c' h4 p hp
      refine h3 c' ?_ (fun r hr => h4 r (List.mem_cons_of_mem _ hr)) p hp
      intro r hr
      have : r = q := funext fun i => le_antisymm (hr i).2 (hr i).1
      rw [this]
      exact h4 q List.mem_cons_self

/-- C45: `contains_point` decides membership. -/
theorem C45_contains_point (a : Aabb d K) (p : Point d K) :
    a.containsPoint p = true ↔ InAabb a p := by
  simp [containsPoint, InAabb]

/-- C45: two valid boxes intersect, in the sense of `intersects`, exactly when they have a common
point. -/
theorem C45_intersects (a b : Aabb d K) (ha : ValidBox a) (hb : ValidBox b) :
    a.intersects b = true ↔ ∃ p, InAabb a p ∧ InAabb b p := by
  simp only [intersects, intervalsIntersect, decide_eq_true_eq]
  constructor
  · intro h
    refine ⟨fun i => Max.max (a.min i) (b.min i), ?_, ?_⟩
    · exact fun i => ⟨le_max_left _ _, max_le (ha i) (h i).1⟩
    · exact fun i => ⟨le_max_right _ _, max_le (h i).2 (hb i)⟩
  · rintro ⟨p, h1, h2⟩ i
    exact ⟨(h2 i).1.trans (h1 i).2, (h1 i).1.trans (h2 i).2⟩

/-- C45: `grow_uniformly` by a non-negative distance never panics and contains exactly the points
that are, in each coordinate, within that distance of a point of the box. -/
theorem C45_grow (a : Aabb d K) (ha : ValidBox a) (r : K) (hr : 0 ≤ r) :
    ∃ c, a.growUniformly r = some c ∧ ValidBox c ∧
      ∀ p, InAabb c p ↔ ∃ q, InAabb a q ∧ ∀ i, |p i - q i| ≤ r := by
  have hv : ∀ i, a.min i - r ≤ a.max i + r := fun i => by have := ha i; linarith
  refine ⟨_, new_valid _ _ hv, hv, ?_⟩
  intro p
  simp only [InAabb]
  constructor
  · intro h
    refine ⟨a.closestPointTo p, ?_, ?_⟩
    · intro i
      simp only [closestPointTo]
      split
      · exact ⟨le_refl _, ha i⟩
      · split
        · exact ⟨ha i, le_refl _⟩
        · constructor <;> linarith
    · intro i
      obtain ⟨h1, h2⟩ := h i
      simp only [closestPointTo]
      rw [abs_le]
      split
      · constructor <;> linarith
      · split
        · constructor <;> linarith
        · constructor <;> linarith
  · rintro ⟨q, hq, h⟩ i
    have h1 := hq i
    have h2 := abs_le.1 (h i)
    constructor <;> linarith [h1.1, h1.2, h2.1, h2.2]

/-- C45: `uniformly_scale` with a non-negative factor keeps the centre, multiplies the extents, and
yields a valid box; with factor at least one it contains the original. -/
theorem C45_scale (a : Aabb d K) (ha : ValidBox a) (s : K) (hs : 0 ≤ s) :
    ∃ c, a.uniformlyScale s = some c ∧ ValidBox c ∧ c.center = a.center ∧
      (∀ i, c.extents i = s * a.extents i) ∧
      (1 ≤ s → ∀ p, InAabb a p → InAabb c p) := by
  have h2 : (2 : K) ≠ 0 := two_ne_zero
  have hc : ∀ i, a.center i = (a.max i + a.min i) / 2 := fun i => rfl
  have hlo : ∀ i, a.min i - a.center i = -((a.max i - a.min i) / 2) := fun i => by
    rw [hc]; ring
  have hhi : ∀ i, a.max i - a.center i = (a.max i - a.min i) / 2 := fun i => by
    rw [hc]; ring
  have he : ∀ i, 0 ≤ (a.max i - a.min i) / 2 := fun i => by have := ha i; linarith
  refine ⟨_, by rw [uniformlyScale, if_pos hs], ?_, ?_, ?_, ?_⟩
  · intro i
    simp only [hlo, hhi]
    nlinarith [mul_nonneg (he i) hs]
  · funext i
    simp only [center]
    ring
  · intro i
    simp only [extents]
    ring
  · intro h1 p hp i
    simp only [hlo, hhi]
    have h3 : (a.max i - a.min i) / 2 ≤ (a.max i - a.min i) / 2 * s :=
      le_mul_of_one_le_right (he i) h1
    have h4 := hp i
    have h5 := hlo i
    have h6 := hhi i
    constructor
    · linarith [h4.1]
    · linarith [h4.2]

private theorem mapM_some_of {α β : Type} (f : α → Option β) (g : α → β) (l : List α)
    (h : ∀ a ∈ l, f a = some (g a)) : l.mapM f = some (l.map g) := by
  induction l with
  | nil => rfl
  | cons a l ih =>
    rw [List.mapM_cons, h a List.mem_cons_self, ih (fun b hb => h b (List.mem_cons_of_mem _ hb))]
    rfl

/-- C45: `corners_iter` never panics; it yields `2^d` points, the `k`-th one taking the upper bound
exactly in the directions whose binary digit of `k` is one, and these are all points whose every
coordinate is a lower or upper bound of the box. -/
theorem C45_corners (a : Aabb d K) :
    ∃ l, a.corners = some l ∧ l.length = 2 ^ d ∧
      (∀ k (hk : k < l.length), ∀ i : Fin d,
        l[k] i = if k / 2 ^ (i : Nat) % 2 = 0 then a.min i else a.max i) ∧
      ∀ p, p ∈ l ↔ ∀ i, p i = a.min i ∨ p i = a.max i := by
  obtain ⟨hlen, hitem⟩ := C65_index_power_items d 2
  obtain ⟨-, henum⟩ := C65_index_power_enumerates d 2
  have hall : ∀ idx ∈ indexPower d 2, a.cornerOf idx =
      some (fun i : Fin d => if idx.getD i 0 = 0 then a.min i else a.max i) := by
    intro idx hidx
    rw [cornerOf, if_pos]
    intro i hi
    have := ((henum idx).1 hidx).2 i hi
    omega
  refine ⟨_, mapM_some_of _ _ _ hall, by rw [List.length_map, hlen], ?_, ?_⟩
  · intro k hk i
    rw [List.length_map] at hk
    rw [List.getElem_map]
    obtain ⟨h1, h2⟩ := hitem k hk
    have hi : (i : Nat) < (indexPower d 2)[k].length := by rw [h1]; exact i.2
    rw [List.getD_eq_getElem?_getD, List.getElem?_eq_getElem hi, Option.getD_some, h2 i hi]
  · intro p
    rw [List.mem_map]
    constructor
    · rintro ⟨idx, -, rfl⟩ i
      by_cases h : idx.getD i 0 = 0
      · left; simp only [h, if_true]
      · right; simp only [h, if_false]
    · intro h
      classical
      refine ⟨List.ofFn fun i : Fin d => if p i = a.min i then 0 else 1, ?_, ?_⟩
      · rw [henum]
        refine ⟨by simp, ?_⟩
        intro b hb
        rw [List.mem_ofFn] at hb
        obtain ⟨i, rfl⟩ := hb
        split <;> omega
      · funext i
        rw [List.getD_eq_getElem?_getD, List.getElem?_eq_getElem (by simp), Option.getD_some,
          List.getElem_ofFn]
        by_cases h1 : p i = a.min i
        · simp [h1]
        · simp only [Fin.eta, if_neg h1, Nat.one_ne_zero, if_false]
          exact ((h i).resolve_left h1).symm

/-! ## Distances -/

private theorem normSq_sub (p q : Point d K) : normSq (fun i => p i - q i) = Spec.dist2 p q := by
  simp [normSq, Spec.dist2, sq]

private theorem closest_in (a : Aabb d K) (ha : ValidBox a) (p : Point d K) :
    InAabb a (a.closestPointTo p) := by
  intro i
  simp only [closestPointTo]
  split
  · exact ⟨le_refl _, ha i⟩
  · split
    · exact ⟨ha i, le_refl _⟩
    · constructor <;> linarith

private theorem closest_coord (a : Aabb d K) (p q : Point d K) (hq : InAabb a q) (i : Fin d) :
    (a.closestPointTo p i - p i) ^ 2 ≤ (q i - p i) ^ 2 := by
  have h := hq i
  simp only [closestPointTo]
  split
  · nlinarith [h.1]
  · split
    · nlinarith [h.2]
    · simpa using sq_nonneg (q i - p i)

/-- C46: the closest point is in the box and no point of the box is closer to the query. -/
theorem C46_closest_point (a : Aabb d K) (ha : ValidBox a) (p : Point d K) :
    InAabb a (a.closestPointTo p) ∧
    ∀ q, InAabb a q → Spec.dist2 (a.closestPointTo p) p ≤ Spec.dist2 q p :=
  ⟨closest_in a ha p, fun q hq => Finset.sum_le_sum fun i _ => closest_coord a p q hq i⟩

/-- C46: the closest point is unique: any point of the box at that distance is the returned one. -/
theorem C46_closest_point_unique (a : Aabb d K) (ha : ValidBox a) (p q : Point d K)
    (hq : InAabb a q) (hd : Spec.dist2 q p ≤ Spec.dist2 (a.closestPointTo p) p) :
    q = a.closestPointTo p := by
  by_contra hne
  obtain ⟨i, hi⟩ : ∃ i, q i ≠ a.closestPointTo p i := by
    by_contra h
    push Not at h
    exact hne (funext h)
  have hlt : (a.closestPointTo p i - p i) ^ 2 < (q i - p i) ^ 2 := by
    have h := hq i
    have h' := closest_in a ha p i
    simp only [closestPointTo] at hi ⊢
    split
    · rename_i h1
      rw [if_pos h1] at hi
      have : a.min i < q i := lt_of_le_of_ne h.1 (Ne.symm hi)
      nlinarith
    · rename_i h1
      rw [if_neg h1] at hi
      split
      · rename_i h2
        rw [if_pos h2] at hi
        have : q i < a.max i := lt_of_le_of_ne h.2 hi
        nlinarith
      · rename_i h2
        rw [if_neg h2] at hi
        have : 0 < (q i - p i) ^ 2 := by
          have h3 : q i - p i ≠ 0 := sub_ne_zero.2 hi
          exact lt_of_le_of_ne (sq_nonneg _) (Ne.symm (pow_ne_zero 2 h3))
        simpa using this
  have : Spec.dist2 (a.closestPointTo p) p < Spec.dist2 q p :=
    Finset.sum_lt_sum (fun j _ => closest_coord a p q hq j) ⟨i, Finset.mem_univ i, hlt⟩
  exact absurd hd (not_le.2 this)

/-- C46: `dist2_to` is the squared distance to the closest point, and it is zero exactly for points
of the box. -/
theorem C46_dist2 (a : Aabb d K) (ha : ValidBox a) (p : Point d K) :
    (∃ q, InAabb a q ∧ a.dist2To p = Spec.dist2 q p) ∧
    (∀ q, InAabb a q → a.dist2To p ≤ Spec.dist2 q p) ∧ 0 ≤ a.dist2To p ∧
    (a.dist2To p = 0 ↔ InAabb a p) := by
  have he : a.dist2To p = Spec.dist2 (a.closestPointTo p) p := normSq_sub _ _
  have h0 : 0 ≤ a.dist2To p := by
    rw [he]; exact Finset.sum_nonneg fun i _ => sq_nonneg _
  refine ⟨⟨_, closest_in a ha p, he⟩, fun q hq => he ▸ (C46_closest_point a ha p).2 q hq, h0, ?_⟩
  constructor
  · intro h
    rw [he, Spec.dist2, Finset.sum_eq_zero_iff_of_nonneg fun i _ => sq_nonneg _] at h
    have : a.closestPointTo p = p := funext fun i => by
      have := h i (Finset.mem_univ i)
      exact sub_eq_zero.1 (pow_eq_zero_iff (two_ne_zero) |>.1 this)
    rw [← this]
    exact closest_in a ha p
  · intro h
    apply le_antisymm _ h0
    rw [he]
    have := (C46_closest_point a ha p).2 p h
    simpa [Spec.dist2] using this

private theorem furthest_coord (a : Aabb d K) (p q : Point d K) (hq : InAabb a q) (i : Fin d) :
    (q i - p i) ^ 2 ≤ (a.furthestPointTo p i - p i) ^ 2 := by
  have h := hq i
  simp only [furthestPointTo]
  split
  · rename_i h1
    have h2 : 2 * p i < a.min i + a.max i := by linarith
    nlinarith [mul_nonneg (sub_nonneg.2 h.2) (sub_nonneg.2 h.1),
      mul_nonneg (sub_nonneg.2 h.2) (show (0 : K) ≤ a.max i + q i - 2 * p i by linarith [h.1])]
  · rename_i h1
    have h2 : a.min i + a.max i ≤ 2 * p i := by linarith
    nlinarith [mul_nonneg (sub_nonneg.2 h.1) (show (0 : K) ≤ 2 * p i - a.min i - q i by linarith [h.2])]

/-- C46: the furthest point is in the box, no point of the box is further away from the query, and
`max_dist2_to` is its squared distance. -/
theorem C46_furthest_point (a : Aabb d K) (ha : ValidBox a) (p : Point d K) :
    InAabb a (a.furthestPointTo p) ∧
    (∀ q, InAabb a q → Spec.dist2 q p ≤ Spec.dist2 (a.furthestPointTo p) p) ∧
    a.maxDist2To p = Spec.dist2 (a.furthestPointTo p) p := by
  refine ⟨?_, fun q hq => Finset.sum_le_sum fun i _ => furthest_coord a p q hq i, normSq_sub _ _⟩
  intro i
  simp only [furthestPointTo]
  split
  · exact ⟨ha i, le_refl _⟩
  · exact ⟨le_refl _, ha i⟩

/-- Non-vacuity: a box in the plane, a point outside it, its closest and furthest points. -/
private def exampleBox : Aabb 2 ℚ := ⟨![0, 0], ![2, 1]⟩

example : ValidBox exampleBox := by
  intro i; fin_cases i <;> simp [exampleBox]

example : exampleBox.closestPointTo ![3, 1 / 2] = ![2, 1 / 2] ∧
    exampleBox.furthestPointTo ![3, 1 / 4] = ![0, 1] := by
  constructor <;> funext i <;> fin_cases i <;> norm_num [exampleBox, closestPointTo, furthestPointTo]

example : ∃ c, fromPoints [![0, 1], ![2, 0], (![1, 1] : Point 2 ℚ)] = some (some c) ∧
    c.min = ![0, 0] ∧ c.max = ![2, 1] := by
  refine ⟨⟨_, _⟩, by
    simp only [fromPoints, ofPoint, new, encloseAll, enclose, le_refl, implies_true, if_true]
    rw [if_pos (by intro i; fin_cases i <;> simp)]
    simp only
    rw [if_pos (by intro i; fin_cases i <;> simp)]
    rfl, ?_, ?_⟩ <;> funext i <;> fin_cases i <;> norm_num

end Fenris.Geometry.Aabb
