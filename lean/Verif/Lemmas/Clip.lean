import Verif.Model.Refinement
import Mathlib.Analysis.Convex.Join
import Mathlib.Tactic.Linarith
import Mathlib.Tactic.FieldSimp
import Mathlib.Tactic.LinearCombination
/-! # Clipping a convex polygon, abstractly

`f` is an affine function, `o` an orientation function (affine in each argument and alternating).
The polygon is clipped to `f ≤ 0`. -/
set_option autoImplicit false
set_option linter.unusedSectionVars false

namespace Fenris.Clip
variable {K : Type} [Field K] [LinearOrder K] [IsStrictOrderedRing K] {d : Nat}

/-- Consecutive elements of a list. -/
def pairs {α : Type} (l : List α) : List (α × α) := l.zip l.tail

theorem pairs_cons_cons {α : Type} (a b : α) (l : List α) : pairs (a :: b :: l) = (a, b) :: pairs (b :: l) :=
  rfl

theorem pairs_single {α : Type} (a : α) : pairs [a] = [] := rfl

theorem mem_pairs_append_right {α : Type} (A M : List α) (p : α × α) (h : p ∈ pairs M) :
    p ∈ pairs (A ++ M) := by
  induction A with
  | nil => exact h
  | cons a A ih =>
    rw [List.cons_append]
    cases hA : A ++ M with
    | nil =>
      rw [hA] at ih
      exact absurd ih List.not_mem_nil
    | cons b l =>
      rw [hA] at ih
      rw [pairs_cons_cons]
      exact List.mem_cons_of_mem _ ih

theorem mem_pairs_append_left {α : Type} (M B : List α) (p : α × α) (h : p ∈ pairs M) :
    p ∈ pairs (M ++ B) := by
  induction M with
  | nil => exact absurd h List.not_mem_nil
  | cons a M ih =>
    cases M with
    | nil => exact absurd h List.not_mem_nil
    | cons b l =>
      rw [pairs_cons_cons] at h
      rw [List.cons_append, List.cons_append, pairs_cons_cons]
      rcases List.mem_cons.mp h with rfl | h
      · exact List.mem_cons_self
      · exact List.mem_cons_of_mem _ (ih h)

theorem mem_of_mem_pairs {α : Type} (M : List α) (p : α × α) (h : p ∈ pairs M) :
    p.1 ∈ M ∧ p.2 ∈ M :=
  ⟨(List.of_mem_zip h).1, List.mem_of_mem_tail (List.of_mem_zip h).2⟩

theorem pairs_map_fst {α : Type} (V : List α) (x : α) : (pairs (V ++ [x])).map Prod.fst = V := by
  induction V with
  | nil => rfl
  | cons a V ih =>
    cases V with
    | nil => rfl
    | cons b l =>
      rw [List.cons_append, List.cons_append, pairs_cons_cons, List.map_cons]
      exact congrArg _ ih

/-- Affine functions. -/
def IsAffine (f : Point d K → K) : Prop :=
  ∀ (x y : Point d K) (a b : K), a + b = 1 → f (a • x + b • y) = a * f x + b * f y

/-- The point of the line through `x` and `y` at which `f` vanishes. -/
def cr (f : Point d K → K) (x y : Point d K) : Point d K :=
  (f y / (f y - f x)) • x + (-f x / (f y - f x)) • y

/-- Clipping to `f ≤ 0`. -/
def clipRef (f : Point d K → K) (V : List (Point d K)) : List (Point d K) :=
  (pairs (V ++ V.take 1)).flatMap fun e =>
    (if f e.1 ≤ 0 then [e.1] else []) ++
    if (f e.1 ≤ 0 ∧ ¬f e.2 ≤ 0) ∨ (¬f e.1 ≤ 0 ∧ f e.2 ≤ 0) then [cr f e.1 e.2] else []

section crossing
variable {f : Point d K → K} (hf : IsAffine f)
include hf

theorem f_cr (x y : Point d K) (h : f x ≠ f y) : f (cr f x y) = 0 := by
  have h' : f y - f x ≠ 0 := sub_ne_zero.mpr h.symm
  rw [cr, hf _ _ _ _ (by field_simp; ring)]
  field_simp
  ring

theorem cr_comm (x y : Point d K) : cr f x y = cr f y x := by
  rw [cr, cr, add_comm, ← neg_sub (f y) (f x)]
  simp only [div_neg, neg_div, neg_neg]

theorem cr_mem_segment (x y : Point d K) (hx : f x ≤ 0) (hy : 0 < f y) : cr f x y ∈ segment K x y := by
  have h : 0 < f y - f x := by linarith
  refine ⟨_, _, div_nonneg hy.le h.le, div_nonneg (neg_nonneg.mpr hx) h.le, ?_, rfl⟩
  field_simp
  ring

/-- For a fixed inner point, the crossing moves along a segment with the outer point. -/
theorem cr_outer (y z₁ z₂ : Point d K) (a b : K) (ha : 0 ≤ a) (hb : 0 ≤ b) (hab : a + b = 1)
    (hy : f y ≤ 0) (h1 : 0 < f z₁) (h2 : 0 < f z₂) :
    cr f y (a • z₁ + b • z₂) ∈ segment K (cr f y z₁) (cr f y z₂) := by
  have e := hf z₁ z₂ a b hab
  have p1 : 0 < f z₁ - f y := by linarith
  have p2 : 0 < f z₂ - f y := by linarith
  have hD : 0 < a * f z₁ + b * f z₂ - f y := by
    have : a * f z₁ + b * f z₂ - f y = a * (f z₁ - f y) + b * (f z₂ - f y) := by
      linear_combination f y * hab
    rw [this]
    rcases eq_or_lt_of_le ha with rfl | ha'
    · rw [zero_add] at hab
      rw [hab]
      linarith
    · exact add_pos_of_pos_of_nonneg (mul_pos ha' p1) (mul_nonneg hb p2.le)
  refine ⟨a * (f z₁ - f y) / (a * f z₁ + b * f z₂ - f y),
    b * (f z₂ - f y) / (a * f z₁ + b * f z₂ - f y),
    div_nonneg (mul_nonneg ha p1.le) hD.le, div_nonneg (mul_nonneg hb p2.le) hD.le, ?_, ?_⟩
  · rw [← add_div, div_eq_one_iff_eq hD.ne']
    linear_combination -f y * hab
  · funext i
    simp only [cr, e, Pi.add_apply, Pi.smul_apply, smul_eq_mul]
    have := p1.ne'
    have := p2.ne'
    have := hD.ne'
    field_simp
    ring

/-- For a fixed outer point, the crossing moves along a segment with the inner point. -/
theorem cr_inner (z y₁ y₂ : Point d K) (a b : K) (ha : 0 ≤ a) (hb : 0 ≤ b) (hab : a + b = 1)
    (hz : 0 < f z) (h1 : f y₁ ≤ 0) (h2 : f y₂ ≤ 0) :
    cr f (a • y₁ + b • y₂) z ∈ segment K (cr f y₁ z) (cr f y₂ z) := by
  have e := hf y₁ y₂ a b hab
  have p1 : 0 < f z - f y₁ := by linarith
  have p2 : 0 < f z - f y₂ := by linarith
  have hD : 0 < f z - (a * f y₁ + b * f y₂) := by
    have := mul_nonneg ha (neg_nonneg.mpr h1)
    have := mul_nonneg hb (neg_nonneg.mpr h2)
    linarith
  refine ⟨a * (f z - f y₁) / (f z - (a * f y₁ + b * f y₂)),
    b * (f z - f y₂) / (f z - (a * f y₁ + b * f y₂)),
    div_nonneg (mul_nonneg ha p1.le) hD.le, div_nonneg (mul_nonneg hb p2.le) hD.le, ?_, ?_⟩
  · rw [← add_div, div_eq_one_iff_eq hD.ne']
    linear_combination f z * hab
  · funext i
    simp only [cr, e, Pi.add_apply, Pi.smul_apply, smul_eq_mul]
    have := p1.ne'
    have := p2.ne'
    have := hD.ne'
    field_simp
    ring

theorem convex_nonpos : Convex K {x : Point d K | f x ≤ 0} := by
  intro x hx y hy a b ha hb hab
  simp only [Set.mem_setOf_eq] at *
  rw [hf _ _ _ _ hab]
  have := mul_nonneg ha (neg_nonneg.mpr hx)
  have := mul_nonneg hb (neg_nonneg.mpr hy)
  linarith

theorem convex_pos : Convex K {x : Point d K | 0 < f x} := by
  intro x hx y hy a b ha hb hab
  simp only [Set.mem_setOf_eq] at *
  rw [hf _ _ _ _ hab]
  rcases eq_or_lt_of_le ha with rfl | ha'
  · rw [zero_add] at hab
    rw [hab]
    linarith
  · exact add_pos_of_pos_of_nonneg (mul_pos ha' hx) (mul_nonneg hb hy.le)

/-- Every point of the hull of `V` with `f ≤ 0` is in any convex set that contains the vertices with
`f ≤ 0` and the crossings of all pairs of vertices. -/
theorem hull_inside (V : Set (Point d K)) (C : Set (Point d K)) (hC : Convex K C)
    (hin : ∀ v ∈ V, f v ≤ 0 → v ∈ C)
    (hcr : ∀ v ∈ V, ∀ w ∈ V, f v ≤ 0 → 0 < f w → cr f v w ∈ C)
    (x : Point d K) (hx : x ∈ convexHull K V) (hfx : f x ≤ 0) : x ∈ C := by
  have hV : V = {v ∈ V | f v ≤ 0} ∪ {v ∈ V | 0 < f v} := by
    ext v
    simp only [Set.mem_union, Set.mem_setOf_eq]
    constructor
    · intro h
      rcases le_or_gt (f v) 0 with h' | h'
      · exact Or.inl ⟨h, h'⟩
      · exact Or.inr ⟨h, h'⟩
    · rintro (h | h)
      · exact h.1
      · exact h.1
  have hCin : convexHull K {v ∈ V | f v ≤ 0} ⊆ C ∩ {v | f v ≤ 0} :=
    convexHull_min (fun v hv => ⟨hin v hv.1 hv.2, hv.2⟩) (hC.inter (convex_nonpos hf))
  have hCout : convexHull K {v ∈ V | 0 < f v} ⊆ {v | 0 < f v} :=
    convexHull_min (fun v hv => hv.2) (convex_pos hf)
  rcases Set.eq_empty_or_nonempty {v ∈ V | f v ≤ 0} with h1 | h1
  · rw [h1, Set.empty_union] at hV
    rw [hV] at hx
    exact absurd (hCout hx) (not_lt.mpr hfx)
  rcases Set.eq_empty_or_nonempty {v ∈ V | 0 < f v} with h2 | h2
  · rw [h2, Set.union_empty] at hV
    rw [hV] at hx
    exact (hCin hx).1
  rw [hV, convexHull_union h1 h2, mem_convexJoin] at hx
  obtain ⟨y, hy, z, hz, hxs⟩ := hx
  have hfy := (hCin hy).2
  have hfz := hCout hz
  simp only [Set.mem_setOf_eq] at hfy hfz
  -- the crossing of `y` and `z` is in `C`
  have step1 : ∀ v ∈ {v ∈ V | f v ≤ 0}, cr f v z ∈ C := by
    intro v hv
    have : convexHull K {v ∈ V | 0 < f v} ⊆ {z | 0 < f z ∧ cr f v z ∈ C} := by
      apply convexHull_min
      · exact fun w hw => ⟨hw.2, hcr v hv.1 w hw.1 hv.2 hw.2⟩
      · intro p hp q hq a b ha hb hab
        exact ⟨convex_pos hf hp.1 hq.1 ha hb hab,
          hC.segment_subset hp.2 hq.2 (cr_outer hf v p q a b ha hb hab hv.2 hp.1 hq.1)⟩
    exact (this hz).2
  have step2 : cr f y z ∈ C := by
    have : convexHull K {v ∈ V | f v ≤ 0} ⊆ {y | f y ≤ 0 ∧ cr f y z ∈ C} := by
      apply convexHull_min
      · exact fun w hw => ⟨hw.2, step1 w hw⟩
      · intro p hp q hq a b ha hb hab
        exact ⟨convex_nonpos hf hp.1 hq.1 ha hb hab,
          hC.segment_subset hp.2 hq.2 (cr_inner hf z p q a b ha hb hab hfz hp.1 hq.1)⟩
    exact (this hy).2
  -- `x` lies between `y` and the crossing
  obtain ⟨a, b, ha, hb, hab, rfl⟩ := hxs
  rw [hf _ _ _ _ hab] at hfx
  have hD : 0 < f z - f y := by linarith
  rcases eq_or_lt_of_le hfy with h0 | hneg
  · -- `f y = 0`, so `x = y` or `f x > 0`
    rw [h0, mul_zero, zero_add] at hfx
    have hb0 : b = 0 := by
      by_contra hne
      exact absurd (mul_pos (lt_of_le_of_ne hb (Ne.symm hne)) hfz) (not_lt.mpr hfx)
    have ha1 : a = 1 := by linarith
    rw [hb0, ha1, one_smul, zero_smul, add_zero]
    exact (hCin hy).1
  · have hβ : 0 ≤ 1 - b * (f z - f y) / -f y := by
      have hn : 0 < -f y := neg_pos.mpr hneg
      rw [sub_nonneg, div_le_one hn]
      have : a = 1 - b := by linarith
      rw [this] at hfx
      linarith
    refine hC.segment_subset (hCin hy).1 step2 ⟨1 - b * (f z - f y) / -f y, b * (f z - f y) / -f y,
      hβ, div_nonneg (mul_nonneg hb hD.le) (neg_nonneg.mpr hfy), by ring, ?_⟩
    have ha1 : a = 1 - b := by linarith
    have := hD.ne'
    have := hneg.ne
    funext i
    simp only [cr, Pi.add_apply, Pi.smul_apply, smul_eq_mul, ha1]
    field_simp
    ring

/-- A chain that starts and ends on different sides has a crossing. -/
theorem chain_crossing (M : List (Point d K)) (u : Point d K)
    (h : (f u ≤ 0 ∧ ∃ w ∈ M, 0 < f w) ∨ (0 < f u ∧ ∃ w ∈ M, f w ≤ 0)) :
    ∃ e ∈ pairs (u :: M), (f e.1 ≤ 0 ∧ ¬f e.2 ≤ 0) ∨ (¬f e.1 ≤ 0 ∧ f e.2 ≤ 0) := by
  induction M generalizing u with
  | nil =>
    rcases h with ⟨-, w, hw, -⟩ | ⟨-, w, hw, -⟩
    · exact absurd hw List.not_mem_nil
    · exact absurd hw List.not_mem_nil
  | cons b M ih =>
    by_cases hd : (f u ≤ 0 ∧ ¬f b ≤ 0) ∨ (¬f u ≤ 0 ∧ f b ≤ 0)
    · exact ⟨(u, b), List.mem_cons_self, hd⟩
    · have : (f b ≤ 0 ∧ ∃ w ∈ M, 0 < f w) ∨ (0 < f b ∧ ∃ w ∈ M, f w ≤ 0) := by
        push Not at hd
        rcases h with ⟨hu, w, hw, hfw⟩ | ⟨hu, w, hw, hfw⟩
        · left
          have hb : f b ≤ 0 := hd.1 hu
          refine ⟨hb, w, ?_, hfw⟩
          rcases List.mem_cons.mp hw with rfl | hw
          · exact absurd hfw (not_lt.mpr hb)
          · exact hw
        · right
          have hb : 0 < f b := hd.2 hu
          refine ⟨hb, w, ?_, hfw⟩
          rcases List.mem_cons.mp hw with rfl | hw
          · exact absurd hfw (not_le.mpr hb)
          · exact hw
      obtain ⟨e, he, hc⟩ := ih b this
      exact ⟨e, List.mem_cons_of_mem _ he, hc⟩

theorem cr_mem_segment' (x y : Point d K)
    (h : (f x ≤ 0 ∧ ¬f y ≤ 0) ∨ (¬f x ≤ 0 ∧ f y ≤ 0)) : cr f x y ∈ segment K x y := by
  rcases h with ⟨h1, h2⟩ | ⟨h1, h2⟩
  · exact cr_mem_segment hf x y h1 (not_le.mp h2)
  · rw [cr_comm hf, segment_symm]
    exact cr_mem_segment hf y x h2 (not_le.mp h1)

theorem f_cr' (x y : Point d K)
    (h : (f x ≤ 0 ∧ ¬f y ≤ 0) ∨ (¬f x ≤ 0 ∧ f y ≤ 0)) : f (cr f x y) = 0 := by
  apply f_cr hf
  intro e
  rw [e] at h
  tauto

theorem mem_clipRef (V : List (Point d K)) (x : Point d K) :
    x ∈ clipRef f V ↔ (x ∈ V ∧ f x ≤ 0) ∨
      ∃ e ∈ pairs (V ++ V.take 1), ((f e.1 ≤ 0 ∧ ¬f e.2 ≤ 0) ∨ (¬f e.1 ≤ 0 ∧ f e.2 ≤ 0)) ∧
        x = cr f e.1 e.2 := by
  have hfst : ∀ x, x ∈ V ↔ ∃ e ∈ pairs (V ++ V.take 1), e.1 = x := by
    have : (pairs (V ++ V.take 1)).map Prod.fst = V := by
      cases V with
      | nil => rfl
      | cons v V =>
        exact pairs_map_fst (v :: V) v
    intro x
    conv_lhs => rw [← this]
    rw [List.mem_map]
  rw [clipRef, List.mem_flatMap]
  constructor
  · rintro ⟨e, he, hx⟩
    rcases List.mem_append.mp hx with hx | hx
    · left
      split at hx
      · rename_i h
        rw [List.mem_singleton] at hx
        exact ⟨(hfst x).mpr ⟨e, he, hx.symm⟩, hx ▸ h⟩
      · exact absurd hx List.not_mem_nil
    · right
      split at hx
      · rename_i h
        rw [List.mem_singleton] at hx
        exact ⟨e, he, h, hx⟩
      · exact absurd hx List.not_mem_nil
  · rintro (⟨hx, hfx⟩ | ⟨e, he, h, rfl⟩)
    · obtain ⟨e, he, rfl⟩ := (hfst x).mp hx
      exact ⟨e, he, List.mem_append_left _ (by rw [if_pos hfx]; exact List.mem_singleton_self _)⟩
    · exact ⟨e, he, List.mem_append_right _ (by rw [if_pos h]; exact List.mem_singleton_self _)⟩

end crossing

/-! ### Orientation -/

/-- What is used about an orientation function. -/
structure IsOrient (o : Point d K → Point d K → Point d K → K) : Prop where
  affine : ∀ p q, IsAffine fun x => o x p q
  cyc : ∀ x y z, o x y z = o y z x
  swap : ∀ x y z, o y x z = -o x y z

/-- Every three vertices, taken in the order of the list, are in counter-clockwise order or
collinear. -/
def Convex3 (o : Point d K → Point d K → Point d K → K) (V : List (Point d K)) : Prop :=
  ∀ a b c, [a, b, c].Sublist V → 0 ≤ o a b c

section orient
variable {o : Point d K → Point d K → Point d K → K} (ho : IsOrient o)
include ho

theorem IsOrient.self (x z : Point d K) : o x x z = 0 := by
  have := ho.swap x x z
  linarith

theorem IsOrient.self' (x z : Point d K) : o x z x = 0 := by
  rw [ho.cyc, ho.cyc]
  exact ho.self _ _

theorem IsOrient.self'' (x z : Point d K) : o z x x = 0 := by
  rw [ho.cyc]
  exact ho.self _ _

theorem IsOrient.affine2 (p q : Point d K) : IsAffine fun x => o p x q := by
  intro x y a b hab
  simp only [ho.cyc p]
  exact ho.affine q p x y a b hab

theorem IsOrient.affine3 (p q : Point d K) : IsAffine fun x => o p q x := by
  intro x y a b hab
  simp only [ho.cyc p, ho.cyc q]
  exact ho.affine p q x y a b hab

theorem convex3_sublist {V W : List (Point d K)} (h : Convex3 o V) (hs : W.Sublist V) : Convex3 o W :=
  fun a b c habc => h a b c (habc.trans hs)

theorem convex3_cons (v : Point d K) (V : List (Point d K)) :
    Convex3 o (v :: V) ↔ Convex3 o V ∧ V.Pairwise fun b c => 0 ≤ o v b c := by
  rw [List.pairwise_iff_forall_sublist]
  constructor
  · intro h
    exact ⟨convex3_sublist ho h (List.sublist_cons_self _ _), fun hbc => h _ _ _ (hbc.cons_cons v)⟩
  · rintro ⟨h1, h2⟩ a b c habc
    cases habc with
    | cons _ h => exact h1 a b c h
    | cons_cons _ h => exact h2 h

/-- Insert a point of each edge of a chain. -/
def insertAll (c : Point d K → Point d K → Point d K) : List (Point d K) → List (Point d K)
  | [] => []
  | [a] => [a]
  | a :: b :: l => a :: c a b :: insertAll c (b :: l)

variable {c : Point d K → Point d K → Point d K} (hc : ∀ a b, c a b ∈ segment K a b)
include hc

omit ho in
theorem insertAll_forall (P : Point d K → Prop) (hP : Convex K {x | P x}) (M : List (Point d K))
    (h : ∀ x ∈ M, P x) : ∀ x ∈ insertAll c M, P x := by
  induction M with
  | nil => exact h
  | cons a M ih =>
    cases M with
    | nil => exact h
    | cons b l =>
      intro x hx
      rw [insertAll] at hx
      rcases List.mem_cons.mp hx with rfl | hx
      · exact h _ List.mem_cons_self
      · rcases List.mem_cons.mp hx with rfl | hx
        · exact hP.segment_subset (h a List.mem_cons_self)
            (h b (List.mem_cons_of_mem _ List.mem_cons_self)) (hc a b)
        · exact ih (fun x hx => h x (List.mem_cons_of_mem _ hx)) x hx

omit ho hc in
theorem convex_nonneg_of_affine {f : Point d K → K} (hf : IsAffine f) : Convex K {x | 0 ≤ f x} := by
  intro x hx y hy a b ha hb hab
  simp only [Set.mem_setOf_eq] at *
  rw [hf _ _ _ _ hab]
  exact add_nonneg (mul_nonneg ha hx) (mul_nonneg hb hy)

theorem insertAll_pairwise (x : Point d K) (M : List (Point d K))
    (h : M.Pairwise fun b c => 0 ≤ o x b c) : (insertAll c M).Pairwise fun b c => 0 ≤ o x b c := by
  induction M with
  | nil => exact h
  | cons a M ih =>
    cases M with
    | nil => exact h
    | cons b l =>
      rw [insertAll]
      obtain ⟨ha, hl⟩ := List.pairwise_cons.mp h
      obtain ⟨hb, -⟩ := List.pairwise_cons.mp hl
      have key1 : ∀ y ∈ insertAll c (b :: l), 0 ≤ o x a y :=
        insertAll_forall hc _ (convex_nonneg_of_affine (ho.affine3 x a)) _ ha
      have key2 : ∀ y ∈ insertAll c (b :: l), 0 ≤ o x b y := by
        apply insertAll_forall hc _ (convex_nonneg_of_affine (ho.affine3 x b))
        intro y hy
        rcases List.mem_cons.mp hy with rfl | hy
        · rw [ho.self'']
        · exact hb y hy
      obtain ⟨s, t, hs, ht, hst, e⟩ := hc a b
      rw [List.pairwise_cons, List.pairwise_cons]
      refine ⟨fun y hy => ?_, fun y hy => ?_, ih hl⟩
      · rcases List.mem_cons.mp hy with rfl | hy
        · rw [← e]
          have := ho.affine3 x a a b s t hst
          simp only at this
          rw [this, ho.self'', mul_zero, zero_add]
          exact mul_nonneg ht (ha b List.mem_cons_self)
        · exact key1 y hy
      · rw [← e]
        have := ho.affine2 x y a b s t hst
        simp only at this
        rw [this]
        exact add_nonneg (mul_nonneg hs (key1 y hy)) (mul_nonneg ht (key2 y hy))

/-- Inserting points of the edges keeps a chain convex. -/
theorem insertAll_convex3 (M : List (Point d K)) (h : Convex3 o M) : Convex3 o (insertAll c M) := by
  induction M with
  | nil => exact h
  | cons a M ih =>
    cases M with
    | nil => exact h
    | cons b l =>
      obtain ⟨hM, ha⟩ := (convex3_cons ho _ _).mp h
      obtain ⟨-, hb⟩ := (convex3_cons ho _ _).mp hM
      have hb' : (b :: l).Pairwise fun y z => 0 ≤ o b y z := by
        rw [List.pairwise_cons]
        exact ⟨fun z _ => by rw [ho.self], hb⟩
      obtain ⟨s, t, hs, ht, hst, e⟩ := hc a b
      have hcc : (b :: l).Pairwise fun y z => 0 ≤ o (c a b) y z := by
        rw [← e]
        refine (ha.and hb').imp fun {y z} hyz => ?_
        have := ho.affine y z a b s t hst
        simp only at this
        rw [this]
        exact add_nonneg (mul_nonneg hs hyz.1) (mul_nonneg ht hyz.2)
      rw [insertAll, convex3_cons ho, convex3_cons ho]
      refine ⟨⟨ih hM, insertAll_pairwise ho hc _ _ hcc⟩, ?_⟩
      rw [List.pairwise_cons]
      refine ⟨fun y hy => ?_, insertAll_pairwise ho hc _ _ ha⟩
      have hy' : 0 ≤ o a b y := by
        refine insertAll_forall hc _ (convex_nonneg_of_affine (ho.affine3 a b)) (b :: l) ?_ y hy
        intro z hz
        rcases List.mem_cons.mp hz with rfl | hz
        · rw [ho.self'']
        · exact (List.pairwise_cons.mp ha).1 z hz
      rw [← e]
      have := ho.affine2 a y a b s t hst
      simp only at this
      rw [this, ho.self, mul_zero, zero_add]
      exact mul_nonneg ht hy'

omit ho hc in
theorem flatMap_sublist_insertAll {f : Point d K → K} (hf : IsAffine f) (M : List (Point d K)) :
    ((pairs M).flatMap fun e => (if f e.1 ≤ 0 then [e.1] else []) ++
      if (f e.1 ≤ 0 ∧ ¬f e.2 ≤ 0) ∨ (¬f e.1 ≤ 0 ∧ f e.2 ≤ 0) then [cr f e.1 e.2] else []).Sublist
    (insertAll (fun a b => if (f a ≤ 0 ∧ ¬f b ≤ 0) ∨ (¬f a ≤ 0 ∧ f b ≤ 0) then cr f a b else a) M) := by
  induction M with
  | nil => exact List.Sublist.refl _
  | cons a M ih =>
    cases M with
    | nil => exact List.nil_sublist _
    | cons b l =>
      rw [pairs_cons_cons, List.flatMap_cons, insertAll]
      refine List.Sublist.trans (List.Sublist.append ?_ ih) (List.Sublist.refl ([_, _] ++ _))
      simp only
      by_cases h1 : f a ≤ 0 <;>
        by_cases h2 : (f a ≤ 0 ∧ ¬f b ≤ 0) ∨ (¬f a ≤ 0 ∧ f b ≤ 0)
      · rw [if_pos h1, if_pos h2, if_pos h2]
        exact List.Sublist.refl _
      · rw [if_pos h1, if_neg h2]
        exact (List.nil_sublist _).cons_cons _
      · rw [if_neg h1, if_pos h2, if_pos h2]
        exact List.sublist_cons_self _ _
      · rw [if_neg h1, if_neg h2]
        exact List.nil_sublist _

omit hc in
theorem convex3_close (V : List (Point d K)) (h : Convex3 o V) : Convex3 o (V ++ V.take 1) := by
  cases V with
  | nil => exact h
  | cons v V =>
    intro a b e habc
    simp only [List.take_succ_cons, List.take_zero] at habc
    rw [List.sublist_append_iff] at habc
    obtain ⟨l₁, l₂, hl, h1, h2⟩ := habc
    cases l₂ with
    | nil =>
      rw [List.append_nil] at hl
      exact h a b e (hl ▸ h1)
    | cons y l₂ =>
      have hle := h2.length_le
      have hl2 : l₂ = [] := by
        cases l₂ with
        | nil => rfl
        | cons _ _ => simp at hle
      subst hl2
      have hy : y = v := by
        have := h2.subset List.mem_cons_self
        exact List.mem_singleton.mp this
      subst hy
      have hl' : [a, b] ++ [e] = l₁ ++ [y] := hl
      obtain ⟨rfl, he⟩ := List.append_inj' hl' rfl
      cases he
      cases h1 with
      | cons _ h1 =>
        rw [ho.cyc, ho.cyc]
        exact h e a b (h1.cons_cons e)
      | cons_cons _ h1 => rw [ho.self']

omit hc in
/-- Clipping keeps a polygon convex. -/
theorem clipRef_convex3 {f : Point d K → K} (hf : IsAffine f) (V : List (Point d K))
    (h : Convex3 o V) : Convex3 o (clipRef f V) := by
  refine convex3_sublist ho (insertAll_convex3 ho (fun a b => ?_) _ (convex3_close ho V h))
    (flatMap_sublist_insertAll hf _)
  split
  · exact cr_mem_segment' hf a b ‹_›
  · exact left_mem_segment K a b

end orient

section hull
variable {f : Point d K → K} (hf : IsAffine f)
  {o : Point d K → Point d K → Point d K → K} (ho : IsOrient o)
include hf ho

omit ho in
theorem clipRef_subset (V : List (Point d K)) (x : Point d K) (hx : x ∈ clipRef f V) :
    x ∈ convexHull K {v | v ∈ V} ∧ f x ≤ 0 := by
  rcases (mem_clipRef hf V x).mp hx with ⟨h1, h2⟩ | ⟨e, he, hs, rfl⟩
  · exact ⟨subset_convexHull K _ h1, h2⟩
  · refine ⟨?_, (f_cr' hf _ _ hs).le⟩
    have hm := mem_of_mem_pairs _ _ he
    have hV : ∀ y ∈ V ++ V.take 1, y ∈ V := by
      intro y hy
      rcases List.mem_append.mp hy with h | h
      · exact h
      · exact List.mem_of_mem_take h
    exact segment_subset_convexHull (𝕜 := K) (s := {v | v ∈ V}) (hV _ hm.1) (hV _ hm.2)
      (cr_mem_segment' hf _ _ hs)

/-- The crossing of a diagonal lies between crossings of edges on its two sides. -/
theorem crossing_between (S : Set (Point d K)) (hS : Convex K S)
    (inj : ∀ u ∈ S, ∀ w ∈ S, ∀ p ∈ S, ∀ q ∈ S, f u ≠ f w → f p = f q → o u w p = o u w q → p = q)
    (u w q₁ q₂ : Point d K) (hu : u ∈ S) (hw : w ∈ S) (h1 : q₁ ∈ S) (h2 : q₂ ∈ S)
    (huw : (f u ≤ 0 ∧ ¬f w ≤ 0) ∨ (¬f u ≤ 0 ∧ f w ≤ 0))
    (z1 : f q₁ = 0) (z2 : f q₂ = 0) (g1 : o u w q₁ ≤ 0) (g2 : 0 ≤ o u w q₂) :
    cr f u w ∈ segment K q₁ q₂ := by
  have hne : f u ≠ f w := by
    intro e
    rw [e] at huw
    tauto
  have hcS : cr f u w ∈ S := hS.segment_subset hu hw (cr_mem_segment' hf u w huw)
  have hg : o u w (cr f u w) = 0 := by
    have h' : f w - f u ≠ 0 := sub_ne_zero.mpr hne.symm
    have := ho.affine3 u w u w (f w / (f w - f u)) (-f u / (f w - f u)) (by field_simp; ring)
    simp only at this
    rw [cr, this, ho.self', ho.self'', mul_zero, mul_zero, add_zero]
  have hf0 : f (cr f u w) = 0 := f_cr' hf u w huw
  rcases eq_or_lt_of_le g1 with e1 | l1
  · have : cr f u w = q₁ := inj u hu w hw _ hcS _ h1 hne (hf0.trans z1.symm) (hg.trans e1.symm)
    rw [this]
    exact left_mem_segment K _ _
  · have hD : 0 < o u w q₂ - o u w q₁ := by linarith
    have hsum : o u w q₂ / (o u w q₂ - o u w q₁) + -o u w q₁ / (o u w q₂ - o u w q₁) = 1 := by
      field_simp
      ring
    have hseg : (o u w q₂ / (o u w q₂ - o u w q₁)) • q₁ + (-o u w q₁ / (o u w q₂ - o u w q₁)) • q₂ ∈
        segment K q₁ q₂ :=
      ⟨_, _, div_nonneg g2 hD.le, div_nonneg (by linarith) hD.le, hsum, rfl⟩
    have : cr f u w = (o u w q₂ / (o u w q₂ - o u w q₁)) • q₁ +
        (-o u w q₁ / (o u w q₂ - o u w q₁)) • q₂ := by
      refine inj u hu w hw _ hcS _ (hS.segment_subset h1 h2 hseg) hne ?_ ?_
      · rw [hf _ _ _ _ hsum, z1, z2, hf0]
        ring
      · have h3 := ho.affine3 u w q₁ q₂ _ _ hsum
        simp only at h3
        rw [h3, hg]
        field_simp
        ring
    rw [this]
    exact hseg

/-- The result of clipping contains the crossing of every pair of vertices. -/
theorem cr_mem_hull (S : Set (Point d K)) (hS : Convex K S)
    (inj : ∀ u ∈ S, ∀ w ∈ S, ∀ p ∈ S, ∀ q ∈ S, f u ≠ f w → f p = f q → o u w p = o u w q → p = q)
    (A B D : List (Point d K)) (u w : Point d K)
    (hV : ∀ v ∈ A ++ u :: B ++ w :: D, v ∈ S) (h : Convex3 o (A ++ u :: B ++ w :: D))
    (huw : (f u ≤ 0 ∧ ¬f w ≤ 0) ∨ (¬f u ≤ 0 ∧ f w ≤ 0)) :
    cr f u w ∈ convexHull K {x | x ∈ clipRef f (A ++ u :: B ++ w :: D)} := by
  have huS : u ∈ S := hV u (by simp)
  have hwS : w ∈ S := hV w (by simp)
  -- signs of the vertices with respect to the diagonal
  have sB : ∀ k ∈ B, o u w k ≤ 0 := by
    intro k hk
    have hs : [u, k, w].Sublist (A ++ u :: B ++ w :: D) := by
      have h1 : [k].Sublist B := List.singleton_sublist.mpr hk
      have h2 : [w].Sublist (w :: D) := List.singleton_sublist.mpr List.mem_cons_self
      have h3 := (List.nil_sublist A).append (h1.cons_cons u)
      exact h3.append h2
    have := h u k w hs
    rw [ho.cyc u w k, ho.cyc w k u, ho.cyc k u w] at *
    have h2 := ho.swap k w u
    rw [ho.cyc u k w, ho.cyc] at this
    have e1 : o u w k = o w k u := ho.cyc _ _ _
    linarith [ho.cyc w u k, ho.cyc u k w, ho.cyc k w u]
  have sD : ∀ k ∈ D, 0 ≤ o u w k := by
    intro k hk
    apply h u w k
    have h1 : [u].Sublist (A ++ u :: B) := List.singleton_sublist.mpr (by simp)
    have h2 : [k].Sublist D := List.singleton_sublist.mpr hk
    exact h1.append (h2.cons_cons w)
  have sA : ∀ k ∈ A, 0 ≤ o u w k := by
    intro k hk
    rw [← ho.cyc k u w]
    apply h k u w
    have h1 : [k].Sublist A := List.singleton_sublist.mpr hk
    have h2 : [u].Sublist (u :: B) := List.singleton_sublist.mpr List.mem_cons_self
    have h3 : [w].Sublist (w :: D) := List.singleton_sublist.mpr List.mem_cons_self
    exact (h1.append h2).append h3
  have su : o u w u = 0 := ho.self' _ _
  have sw : o u w w = 0 := ho.self'' _ _
  -- an edge crossing on the side of `B`
  obtain ⟨e₁, he₁, hc₁⟩ := chain_crossing hf (B ++ [w]) u (by
    rcases huw with ⟨a, b⟩ | ⟨a, b⟩
    · exact Or.inl ⟨a, w, by simp, not_le.mp b⟩
    · exact Or.inr ⟨not_le.mp a, w, by simp, b⟩)
  -- an edge crossing on the other side
  have hback : ∃ e ∈ pairs ((A ++ u :: B ++ w :: D) ++ (A ++ u :: B ++ w :: D).take 1),
      ((f e.1 ≤ 0 ∧ ¬f e.2 ≤ 0) ∨ (¬f e.1 ≤ 0 ∧ f e.2 ≤ 0)) ∧ 0 ≤ o u w e.1 ∧ 0 ≤ o u w e.2 := by
    obtain ⟨v₀, A', hA⟩ : ∃ v₀ A', A ++ [u] = v₀ :: A' := by
      cases A with
      | nil => exact ⟨u, [], rfl⟩
      | cons a A => exact ⟨a, A ++ [u], rfl⟩
    have hfirst : (A ++ u :: B ++ w :: D).take 1 = [v₀] := by
      have : A ++ u :: B ++ w :: D = (A ++ [u]) ++ (B ++ w :: D) := by simp
      rw [this, hA]
      simp
    have hv₀ : v₀ ∈ A ++ [u] := by rw [hA]; exact List.mem_cons_self
    have sAu : ∀ k ∈ A ++ [u], 0 ≤ o u w k := by
      intro k hk
      rcases List.mem_append.mp hk with hk | hk
      · exact sA k hk
      · rw [List.mem_singleton.mp hk, su]
    by_cases hcase : (f w ≤ 0 ∧ ¬f v₀ ≤ 0) ∨ (¬f w ≤ 0 ∧ f v₀ ≤ 0)
    · obtain ⟨e, he, hc⟩ := chain_crossing hf (D ++ [v₀]) w (by
        rcases hcase with ⟨a, b⟩ | ⟨a, b⟩
        · exact Or.inl ⟨a, v₀, by simp, not_le.mp b⟩
        · exact Or.inr ⟨not_le.mp a, v₀, by simp, b⟩)
      have hsign : ∀ k ∈ w :: (D ++ [v₀]), 0 ≤ o u w k := by
        intro k hk
        rcases List.mem_cons.mp hk with rfl | hk
        · rw [sw]
        · rcases List.mem_append.mp hk with hk | hk
          · exact sD k hk
          · rw [List.mem_singleton.mp hk]
            exact sAu _ hv₀
      refine ⟨e, ?_, hc, hsign _ (mem_of_mem_pairs _ _ he).1, hsign _ (mem_of_mem_pairs _ _ he).2⟩
      rw [hfirst]
      have : A ++ u :: B ++ w :: D ++ [v₀] = (A ++ u :: B) ++ (w :: (D ++ [v₀])) := by simp
      rw [this]
      exact mem_pairs_append_right _ _ _ he
    · have hdiff : (f v₀ ≤ 0 ∧ ¬f u ≤ 0) ∨ (¬f v₀ ≤ 0 ∧ f u ≤ 0) := by tauto
      have hne : v₀ ≠ u := by
        rintro rfl
        tauto
      have huA : u ∈ A' := by
        have : u ∈ v₀ :: A' := by rw [← hA]; simp
        rcases List.mem_cons.mp this with h | h
        · exact absurd h.symm hne
        · exact h
      obtain ⟨e, he, hc⟩ := chain_crossing hf A' v₀ (by
        rcases hdiff with ⟨a, b⟩ | ⟨a, b⟩
        · exact Or.inl ⟨a, u, huA, not_le.mp b⟩
        · exact Or.inr ⟨not_le.mp a, u, huA, b⟩)
      rw [← hA] at he
      refine ⟨e, ?_, hc, sAu _ (mem_of_mem_pairs _ _ he).1, sAu _ (mem_of_mem_pairs _ _ he).2⟩
      have : A ++ u :: B ++ w :: D = (A ++ [u]) ++ (B ++ w :: D) := by simp
      rw [hfirst, this, List.append_assoc]
      exact mem_pairs_append_left _ _ _ he
  obtain ⟨e₂, he₂, hc₂, g₂, g₂'⟩ := hback
  have hmem₁ : e₁ ∈ pairs ((A ++ u :: B ++ w :: D) ++ (A ++ u :: B ++ w :: D).take 1) := by
    apply mem_pairs_append_left
    have : A ++ u :: B ++ w :: D = A ++ ((u :: (B ++ [w])) ++ D) := by simp
    rw [this]
    exact mem_pairs_append_right _ _ _ (mem_pairs_append_left _ _ _ he₁)
  have hclosed : ∀ y ∈ (A ++ u :: B ++ w :: D) ++ (A ++ u :: B ++ w :: D).take 1, y ∈ S := by
    intro y hy
    rcases List.mem_append.mp hy with h | h
    · exact hV y h
    · exact hV y (List.mem_of_mem_take h)
  have hs₁ : ∀ k ∈ u :: (B ++ [w]), o u w k ≤ 0 := by
    intro k hk
    rcases List.mem_cons.mp hk with rfl | hk
    · rw [su]
    · rcases List.mem_append.mp hk with hk | hk
      · exact sB k hk
      · rw [List.mem_singleton.mp hk, sw]
  have gq₁ : o u w (cr f e₁.1 e₁.2) ≤ 0 := by
    have hconv : Convex K {x | o u w x ≤ 0} := convex_nonpos (ho.affine3 u w)
    exact hconv.segment_subset (hs₁ _ (mem_of_mem_pairs _ _ he₁).1) (hs₁ _ (mem_of_mem_pairs _ _ he₁).2)
      (cr_mem_segment' hf _ _ hc₁)
  have gq₂ : 0 ≤ o u w (cr f e₂.1 e₂.2) :=
    (convex_nonneg_of_affine (ho.affine3 u w)).segment_subset g₂ g₂' (cr_mem_segment' hf _ _ hc₂)
  have hq₁S := hS.segment_subset (hclosed _ (mem_of_mem_pairs _ _ hmem₁).1)
    (hclosed _ (mem_of_mem_pairs _ _ hmem₁).2) (cr_mem_segment' hf _ _ hc₁)
  have hq₂S := hS.segment_subset (hclosed _ (mem_of_mem_pairs _ _ he₂).1)
    (hclosed _ (mem_of_mem_pairs _ _ he₂).2) (cr_mem_segment' hf _ _ hc₂)
  have hsub := subset_convexHull K {x | x ∈ clipRef f (A ++ u :: B ++ w :: D)}
  exact (convex_convexHull K _).segment_subset
    (hsub ((mem_clipRef hf _ _).mpr (Or.inr ⟨e₁, hmem₁, hc₁, rfl⟩)))
    (hsub ((mem_clipRef hf _ _).mpr (Or.inr ⟨e₂, he₂, hc₂, rfl⟩)))
    (crossing_between hf ho S hS inj u w _ _ huS hwS hq₁S hq₂S huw (f_cr' hf _ _ hc₁)
      (f_cr' hf _ _ hc₂) gq₁ gq₂)

/-- The hull of the clipped polygon is the part of the hull of the polygon with `f ≤ 0`. -/
theorem clipRef_hull (S : Set (Point d K)) (hS : Convex K S)
    (inj : ∀ u ∈ S, ∀ w ∈ S, ∀ p ∈ S, ∀ q ∈ S, f u ≠ f w → f p = f q → o u w p = o u w q → p = q)
    (V : List (Point d K)) (hV : ∀ v ∈ V, v ∈ S) (h : Convex3 o V) (x : Point d K) :
    x ∈ convexHull K {x | x ∈ clipRef f V} ↔ x ∈ convexHull K {x | x ∈ V} ∧ f x ≤ 0 := by
  constructor
  · intro hx
    have : convexHull K {x | x ∈ clipRef f V} ⊆ convexHull K {x | x ∈ V} ∩ {x | f x ≤ 0} :=
      convexHull_min (fun y hy => clipRef_subset hf V y hy)
        ((convex_convexHull K _).inter (convex_nonpos hf))
    exact this hx
  · rintro ⟨hx, hfx⟩
    refine hull_inside hf {x | x ∈ V} _ (convex_convexHull K _) ?_ ?_ x hx hfx
    · exact fun v hv hfv => subset_convexHull K _ ((mem_clipRef hf V v).mpr (Or.inl ⟨hv, hfv⟩))
    · intro v hv w hw hfv hfw
      have hs : (f v ≤ 0 ∧ ¬f w ≤ 0) ∨ (¬f v ≤ 0 ∧ f w ≤ 0) := Or.inl ⟨hfv, not_le.mpr hfw⟩
      have hne : v ≠ w := by
        rintro rfl
        exact absurd hfw (not_lt.mpr hfv)
      obtain ⟨A, D, hAD⟩ := List.append_of_mem (show v ∈ V from hv)
      have hw' : w ∈ A ∨ w ∈ D := by
        have : w ∈ A ++ v :: D := hAD ▸ hw
        rcases List.mem_append.mp this with h | h
        · exact Or.inl h
        · rcases List.mem_cons.mp h with h | h
          · exact absurd h.symm hne
          · exact Or.inr h
      rcases hw' with hw' | hw'
      · obtain ⟨A₁, A₂, rfl⟩ := List.append_of_mem hw'
        subst hAD
        rw [cr_comm hf]
        exact cr_mem_hull hf ho S hS inj A₁ A₂ D w v hV h (by tauto)
      · obtain ⟨D₁, D₂, rfl⟩ := List.append_of_mem hw'
        have e : V = A ++ v :: D₁ ++ w :: D₂ := by rw [hAD]; simp
        subst e
        exact cr_mem_hull hf ho S hS inj A D₁ D₂ v w hV h hs

end hull
end Fenris.Clip
