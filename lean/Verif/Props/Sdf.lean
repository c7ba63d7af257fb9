import Verif.Spec.Sdf
import Verif.Props.Aabb
import Mathlib.Algebra.BigOperators.Fin
import Mathlib.Analysis.Real.Sqrt
/-! # C77: signed distance functions -/
set_option autoImplicit false
set_option linter.unusedSectionVars false

namespace Fenris.Sdf
open Fenris.Geometry Fenris.Spec Fenris.Sdf.Spec
variable {K : Type} [Field K] [LinearOrder K] [IsStrictOrderedRing K]

private theorem dist2_two (p q : Point 2 K) : dist2 p q = (p 0 - q 0) ^ 2 + (p 1 - q 1) ^ 2 := by
  simp [dist2, Fin.sum_univ_two]

private theorem norm_two {norm : Point 2 K → K} (hn : IsNorm norm) (v : Point 2 K) :
    0 ≤ norm v ∧ norm v ^ 2 = v 0 ^ 2 + v 1 ^ 2 := by
  have := hn v
  rwa [Fin.sum_univ_two] at this

private theorem norm_offset {norm : Point 2 K → K} (hn : IsNorm norm) (c x : Point 2 K) :
    0 ≤ norm (offset c x) ∧ norm (offset c x) ^ 2 = dist2 x c := by
  have := norm_two hn (offset c x)
  rw [dist2_two]
  exact this

private theorem sq_le_of_abs {a b : K} (h : -b ≤ a) (h' : a ≤ b) : a ^ 2 ≤ b ^ 2 := by nlinarith

/-- Cauchy–Schwarz in the plane: `(y·z)² ≤ |y|²|z|²`. -/
private theorem dot_le (y0 y1 z0 z1 n r : K) (hn : 0 ≤ n) (hr : 0 ≤ r) (h1 : n ^ 2 = y0 ^ 2 + y1 ^ 2)
    (h2 : r ^ 2 = z0 ^ 2 + z1 ^ 2) : y0 * z0 + y1 * z1 ≤ n * r := by
  have h3 : (y0 * z0 + y1 * z1) ^ 2 ≤ (n * r) ^ 2 := by
    rw [mul_pow, h1, h2]
    nlinarith [sq_nonneg (y0 * z1 - y1 * z0)]
  have h4 : 0 ≤ n * r := mul_nonneg hn hr
  nlinarith

private theorem triangle_sq {norm : Point 2 K → K} (hn : IsNorm norm) (c x q : Point 2 K) :
    (norm (offset c x) - norm (offset c q)) ^ 2 ≤ dist2 x q := by
  obtain ⟨a1, a2⟩ := norm_offset hn c x
  obtain ⟨b1, b2⟩ := norm_offset hn c q
  rw [dist2_two] at a2 b2
  have := dot_le (x 0 - c 0) (x 1 - c 1) (q 0 - c 0) (q 1 - c 1) _ _ a1 b1 a2 b2
  rw [dist2_two]
  nlinarith

/-- C77: the circle's function is negative or zero exactly in the disk, and it is everywhere the exact distance to the circle. -/
theorem C77_circle (norm : Point 2 K → K) (hn : IsNorm norm) (r : K) (hr : 0 ≤ r) (c : Point 2 K) :
    IsSdf (Disk r c) (circle norm r c).eval ∧ IsExact (Circle r c) (circle norm r c).eval := by
  have hdisk : ∀ q, Disk r c q ↔ norm (offset c q) ≤ r := by
    intro q
    obtain ⟨h1, h2⟩ := norm_offset hn c q
    rw [Disk, ← h2]
    constructor
    · intro h
      nlinarith
    · intro h
      nlinarith
  have hcirc : ∀ q, Circle r c q ↔ norm (offset c q) = r := by
    intro q
    obtain ⟨h1, h2⟩ := norm_offset hn c q
    rw [Circle, ← h2]
    constructor
    · intro h
      have := (sq_eq_sq₀ h1 hr).mp h
      exact this
    · intro h
      rw [h]
  have hex : IsExact (Circle r c) (circle norm r c).eval := by
    intro x
    obtain ⟨h1, h2⟩ := norm_offset hn c x
    refine ⟨?_, ?_⟩
    · rw [dist2_two] at h2
      show ∃ q, Circle r c q ∧ dist2 x q = (norm (offset c x) - r) ^ 2
      by_cases h0 : norm (offset c x) = 0
      · rw [h0] at h2 ⊢
        refine ⟨![c 0 + r, c 1], ?_, ?_⟩
        · rw [Circle, dist2_two]
          simp
        · have e0 : x 0 - c 0 = 0 := by nlinarith [sq_nonneg (x 0 - c 0), sq_nonneg (x 1 - c 1)]
          have e1 : x 1 - c 1 = 0 := by nlinarith [sq_nonneg (x 0 - c 0), sq_nonneg (x 1 - c 1)]
          rw [dist2_two]
          simp only [Matrix.cons_val_zero, Matrix.cons_val_one]
          have : x 0 = c 0 := by linarith
          rw [this, e1]
          ring
      · generalize norm (offset c x) = n at *
        refine ⟨fun i => c i + r / n * (x i - c i), ?_, ?_⟩
        · rw [Circle, dist2_two]
          have : (c 0 + r / n * (x 0 - c 0) - c 0) ^ 2 + (c 1 + r / n * (x 1 - c 1) - c 1) ^ 2 =
              (r / n) ^ 2 * ((x 0 - c 0) ^ 2 + (x 1 - c 1) ^ 2) := by ring
          rw [this, ← h2]
          field_simp
        · rw [dist2_two]
          have : (x 0 - (c 0 + r / n * (x 0 - c 0))) ^ 2 + (x 1 - (c 1 + r / n * (x 1 - c 1))) ^ 2 =
              (1 - r / n) ^ 2 * ((x 0 - c 0) ^ 2 + (x 1 - c 1) ^ 2) := by ring
          rw [this, ← h2]
          field_simp
    · intro q hq
      rw [hcirc] at hq
      have := triangle_sq hn c x q
      rwa [hq] at this
  refine ⟨⟨?_, ?_, ?_⟩, hex⟩
  · intro x
    rw [hdisk]
    show norm (offset c x) - r ≤ 0 ↔ _
    exact sub_nonpos
  · intro x hx
    obtain ⟨⟨q, hq, hd⟩, -⟩ := hex x
    refine ⟨⟨q, ?_, hd⟩, ?_⟩
    · rw [hdisk]
      exact le_of_eq ((hcirc q).mp hq)
    · intro q hq
      rw [hdisk] at hx hq
      have := triangle_sq hn c x q
      have e : (circle norm r c).eval x = norm (offset c x) - r := rfl
      rw [e]
      push Not at hx
      refine le_trans ?_ this
      exact pow_le_pow_left₀ (by linarith) (by linarith) 2
  · intro x hx q hq
    rw [hdisk] at hx hq
    push Not at hq
    have := triangle_sq hn c x q
    have e : (circle norm r c).eval x = norm (offset c x) - r := rfl
    rw [e]
    refine le_trans ?_ this
    nlinarith

/-- C77: the gradient of the circle's function is missing exactly in the centre; elsewhere it is a unit vector, and along it
the function grows with slope one. -/
theorem C77_circle_gradient (norm : Point 2 K → K) (hn : IsNorm norm) (r : K) (c x : Point 2 K) :
    ((circle norm r c).gradient x = none ↔ x = c) ∧
    ∀ g, (circle norm r c).gradient x = some g → g 0 ^ 2 + g 1 ^ 2 = 1 ∧
      ∀ t, -norm (offset c x) ≤ t →
        (circle norm r c).eval (fun i => x i + t * g i) = (circle norm r c).eval x + t := by
  obtain ⟨h1, h2⟩ := norm_offset hn c x
  rw [dist2_two] at h2
  have e : (circle norm r c).gradient x = if norm (offset c x) = 0 then none
    else some fun i => offset c x i / norm (offset c x) := rfl
  rw [e]
  constructor
  · constructor
    · intro h
      have h0 : norm (offset c x) = 0 := by
        by_contra hc
        rw [if_neg hc] at h
        exact absurd h (by simp)
      rw [h0] at h2
      have e0 : x 0 - c 0 = 0 := by nlinarith [sq_nonneg (x 0 - c 0), sq_nonneg (x 1 - c 1)]
      have e1 : x 1 - c 1 = 0 := by nlinarith [sq_nonneg (x 0 - c 0), sq_nonneg (x 1 - c 1)]
      funext i
      fin_cases i
      · exact sub_eq_zero.mp e0
      · exact sub_eq_zero.mp e1
    · rintro rfl
      rw [if_pos]
      have : norm (offset x x) ^ 2 = 0 := by rw [h2]; ring
      exact pow_eq_zero_iff (two_ne_zero) |>.mp this
  · intro g hg
    by_cases h0 : norm (offset c x) = 0
    · rw [if_pos h0] at hg
      exact absurd hg (by simp)
    · rw [if_neg h0] at hg
      have hg' := Option.some.inj hg
      have g0 : ∀ i, g i = (x i - c i) / norm (offset c x) := fun i => by rw [← hg']; rfl
      refine ⟨?_, ?_⟩
      · rw [g0, g0, div_pow, div_pow, ← add_div, ← h2, div_self (pow_ne_zero 2 h0)]
      · intro t ht
        show norm (offset c fun i => x i + t * g i) - r = norm (offset c x) - r + t
        obtain ⟨k1, k2⟩ := norm_offset hn c (fun i => x i + t * g i)
        rw [dist2_two] at k2
        simp only [g0] at k2 k1 ⊢
        have k3 : norm (offset c fun i => x i + t * ((x i - c i) / norm (offset c x))) ^ 2 = (norm (offset c x) + t) ^ 2 := by
          rw [k2]
          generalize norm (offset c x) = n at *
          have : (x 0 + t * ((x 0 - c 0) / n) - c 0) ^ 2 + (x 1 + t * ((x 1 - c 1) / n) - c 1) ^ 2 =
            (1 + t / n) ^ 2 * ((x 0 - c 0) ^ 2 + (x 1 - c 1) ^ 2) := by ring
          rw [this, ← h2]
          field_simp
        have := (sq_eq_sq₀ k1 (by linarith)).mp k3
        rw [this]
        ring

/-- C77: the circle's bounding box exists for every radius that is not negative, and contains the disk. -/
theorem C77_circle_box (norm : Point 2 K → K) (r : K) (hr : 0 ≤ r) (c : Point 2 K) :
    ∃ a, (circle norm r c).boundingBox = some a ∧ ValidBox a ∧ ∀ x, Disk r c x → InAabb a x := by
  have hv : ∀ i, c i - 1 * (r + r * (1 / 100)) ≤ c i + 1 * (r + r * (1 / 100)) := fun i => by nlinarith
  refine ⟨_, if_pos hv, hv, ?_⟩
  intro x hx i
  rw [Disk, dist2_two] at hx
  have h : (x i - c i) ^ 2 ≤ r ^ 2 := by
    fin_cases i
    · exact (le_add_of_nonneg_right (sq_nonneg _)).trans hx
    · exact (le_add_of_nonneg_left (sq_nonneg _)).trans hx
  have := abs_le.mp (abs_le_of_sq_le_sq h hr)
  show c i - 1 * (r + r * (1 / 100)) ≤ x i ∧ x i ≤ c i + 1 * (r + r * (1 / 100))
  constructor <;> nlinarith

/-! ## Unions -/

/-- C77: a union of signed distance functions is a signed distance function of the union of the regions. -/
theorem C77_union (l r : Sdf K) (A B : Point 2 K → Prop) (hl : IsSdf A l.eval) (hr : IsSdf B r.eval) :
    IsSdf (fun x => A x ∨ B x) (union l r).eval := by
  have e : ∀ x, (union l r).eval x = min (l.eval x) (r.eval x) := fun _ => rfl
  refine ⟨?_, ?_, ?_⟩
  · intro x
    rw [e, min_le_iff, hl.sign, hr.sign]
  · intro x hx
    push Not at hx
    have pl : 0 < l.eval x := by
      by_contra hc
      exact hx.1 ((hl.sign x).mp (not_lt.mp hc))
    have pr : 0 < r.eval x := by
      by_contra hc
      exact hx.2 ((hr.sign x).mp (not_lt.mp hc))
    obtain ⟨⟨ql, hql, dl⟩, ml⟩ := hl.outside x hx.1
    obtain ⟨⟨qr, hqr, dr⟩, mr⟩ := hr.outside x hx.2
    rw [e]
    constructor
    · rcases le_total (l.eval x) (r.eval x) with h | h
      · exact ⟨ql, .inl hql, by rw [min_eq_left h, dl]⟩
      · exact ⟨qr, .inr hqr, by rw [min_eq_right h, dr]⟩
    · have m1 : (min (l.eval x) (r.eval x)) ^ 2 ≤ l.eval x ^ 2 :=
        pow_le_pow_left₀ (le_min pl.le pr.le) (min_le_left _ _) 2
      have m2 : (min (l.eval x) (r.eval x)) ^ 2 ≤ r.eval x ^ 2 :=
        pow_le_pow_left₀ (le_min pl.le pr.le) (min_le_right _ _) 2
      rintro q (hq | hq)
      · exact m1.trans (ml q hq)
      · exact m2.trans (mr q hq)
  · intro x hx q hq
    push Not at hq
    rw [e]
    rcases le_total (l.eval x) (r.eval x) with h | h
    · rw [min_eq_left h]
      refine hl.inside x ?_ q hq.1
      rcases hx with hx | hx
      · exact hx
      · exact (hl.sign x).mp (h.trans ((hr.sign x).mpr hx))
    · rw [min_eq_right h]
      refine hr.inside x ?_ q hq.2
      rcases hx with hx | hx
      · exact (hr.sign x).mp (h.trans ((hl.sign x).mpr hx))
      · exact hx

/-- C77: the gradient of a union is the gradient of a part whose value is the value of the union. -/
theorem C77_union_gradient (l r : Sdf K) (x : Point 2 K) :
    ((union l r).gradient x = l.gradient x ∧ (union l r).eval x = l.eval x) ∨
    ((union l r).gradient x = r.gradient x ∧ (union l r).eval x = r.eval x) := by
  by_cases h : l.eval x < r.eval x
  · exact .inl ⟨if_pos h, min_eq_left h.le⟩
  · exact .inr ⟨if_neg h, min_eq_right (not_lt.mp h)⟩

/-- C77: the bounding box of a union contains both regions. -/
theorem C77_union_box (l r : Sdf K) (a b : Aabb 2 K) (ha : l.boundingBox = some a) (hb : r.boundingBox = some b)
    (va : ValidBox a) (vb : ValidBox b) (A B : Point 2 K → Prop) (hA : ∀ x, A x → InAabb a x) (hB : ∀ x, B x → InAabb b x) :
    ∃ c, (union l r).boundingBox = some c ∧ ValidBox c ∧ ∀ x, A x ∨ B x → InAabb c x := by
  obtain ⟨c, h1, h2, h3, -⟩ := Aabb.C45_enclose a b va vb
  refine ⟨c, ?_, h2, fun x hx => h3 x (hx.imp (hA x) (hB x))⟩
  show (l.boundingBox.bind fun a => r.boundingBox.bind fun b => a.enclose b) = some c
  rw [ha, hb]
  exact h1

/-! ## Boxes -/

private theorem offset_nonpos (a : Aabb 2 K) (x : Point 2 K) (i : Fin 2) :
    boxOffset a x i ≤ 0 ↔ a.min i ≤ x i ∧ x i ≤ a.max i := by
  simp only [boxOffset, Aabb.center, Aabb.extents, sub_nonpos, max_le_iff]
  constructor
  · rintro ⟨h1, h2⟩
    constructor <;> linarith
  · rintro ⟨h1, h2⟩
    constructor <;> linarith

private theorem offset_pos_sq (a : Aabb 2 K) (ha : ValidBox a) (x : Point 2 K) (i : Fin 2) :
    (max (boxOffset a x i) 0) ^ 2 = (a.closestPointTo x i - x i) ^ 2 := by
  have hv := ha i
  have hc : boxOffset a x i = max (x i - a.max i) (a.min i - x i) := by
    simp only [boxOffset, Aabb.center, Aabb.extents]
    rw [← max_sub_sub_right]
    congr 1 <;> ring
  rw [hc]
  simp only [Aabb.closestPointTo]
  split
  · rename_i h
    rw [max_eq_right (by linarith : x i - a.max i ≤ a.min i - x i), max_eq_left (by linarith)]
  · rename_i h
    split
    · rename_i h'
      rw [max_eq_left (by linarith : a.min i - x i ≤ x i - a.max i), max_eq_left (by linarith)]
      ring
    · rename_i h'
      rw [max_eq_right (max_le (by linarith) (by linarith))]
      ring

private theorem in_iff (a : Aabb 2 K) (x : Point 2 K) :
    InAabb a x ↔ max (boxOffset a x 0) (boxOffset a x 1) ≤ 0 := by
  rw [max_le_iff, offset_nonpos, offset_nonpos]
  constructor
  · intro h
    exact ⟨h 0, h 1⟩
  · intro h i
    fin_cases i
    · exact h.1
    · exact h.2

private theorem eval_inside {norm : Point 2 K → K} (hn : IsNorm norm) (a : Aabb 2 K) (x : Point 2 K) (hx : InAabb a x) :
    boxEval norm a x = max (boxOffset a x 0) (boxOffset a x 1) := by
  have h := (in_iff a x).mp hx
  have h' := max_le_iff.mp h
  obtain ⟨n1, n2⟩ := norm_two hn (fun i => max (boxOffset a x i) 0)
  rw [boxEval, min_eq_right h]
  simp only [max_eq_right h'.1, max_eq_right h'.2] at n2
  have : norm (fun i => max (boxOffset a x i) 0) = 0 := by
    apply pow_eq_zero_iff (two_ne_zero) |>.mp
    rw [n2]; ring
  rw [this, zero_add]

private theorem eval_outside {norm : Point 2 K → K} (hn : IsNorm norm) (a : Aabb 2 K) (ha : ValidBox a) (x : Point 2 K)
    (hx : ¬ InAabb a x) : 0 < boxEval norm a x ∧ boxEval norm a x ^ 2 = dist2 (a.closestPointTo x) x := by
  have h : 0 < max (boxOffset a x 0) (boxOffset a x 1) := by
    rw [in_iff] at hx
    exact not_le.mp hx
  obtain ⟨n1, n2⟩ := norm_two hn (fun i => max (boxOffset a x i) 0)
  have e : boxEval norm a x = norm (fun i => max (boxOffset a x i) 0) := by
    rw [boxEval, min_eq_left h.le, add_zero]
  rw [e]
  constructor
  · apply lt_of_le_of_ne n1
    intro h0
    rw [← h0] at n2
    have a1 : max (boxOffset a x 0) 0 = 0 := by
      nlinarith [sq_nonneg (max (boxOffset a x 0) 0), sq_nonneg (max (boxOffset a x 1) 0)]
    have a2 : max (boxOffset a x 1) 0 = 0 := by
      nlinarith [sq_nonneg (max (boxOffset a x 0) 0), sq_nonneg (max (boxOffset a x 1) 0)]
    have := max_le (max_eq_right_iff.mp a1) (max_eq_right_iff.mp a2)
    linarith
  · rw [n2, dist2_two, offset_pos_sq a ha, offset_pos_sq a ha]

private theorem dist2_comm (p q : Point 2 K) : dist2 p q = dist2 q p := by
  rw [dist2_two, dist2_two]; ring

/-- The distance from a point inside to the side of direction `i`. -/
private theorem side_le (a : Aabb 2 K) (x q : Point 2 K) (hx : InAabb a x) (i : Fin 2)
    (hq : q i ≤ a.min i ∨ a.max i ≤ q i) : boxOffset a x i ^ 2 ≤ (x i - q i) ^ 2 := by
  have hc : boxOffset a x i = max (x i - a.max i) (a.min i - x i) := by
    simp only [boxOffset, Aabb.center, Aabb.extents]
    rw [← max_sub_sub_right]
    congr 1 <;> ring
  obtain ⟨h1, h2⟩ := hx i
  have h3 : boxOffset a x i ≤ 0 := (offset_nonpos a x i).mpr (hx i)
  have h4 : x i - a.max i ≤ boxOffset a x i := by rw [hc]; exact le_max_left _ _
  have h5 : a.min i - x i ≤ boxOffset a x i := by rw [hc]; exact le_max_right _ _
  rcases hq with hq | hq
  · nlinarith
  · nlinarith

/-- C77: the box's function is negative or zero exactly in the box, and it is everywhere the exact distance to the boundary. -/
theorem C77_box (norm : Point 2 K → K) (hn : IsNorm norm) (h : K) (a : Aabb 2 K) (ha : ValidBox a) :
    IsSdf (InAabb a) (box norm h a).eval ∧ IsExact (BoxBoundary a) (box norm h a).eval := by
  have e : (box norm h a).eval = boxEval norm a := rfl
  rw [e]
  have hbound : ∀ x, ¬ InAabb a x → BoxBoundary a (a.closestPointTo x) := by
    intro x hx
    refine ⟨(Aabb.C46_closest_point a ha x).1, ?_⟩
    by_contra hc
    push Not at hc
    apply hx
    intro i
    have := hc i
    simp only [Aabb.closestPointTo] at this
    split at this
    · exact absurd rfl this.1
    · split at this
      · exact absurd rfl this.2
      · rename_i g1 g2
        exact ⟨(not_le.mp g1).le, (not_le.mp g2).le⟩
  have hins : ∀ x, InAabb a x → ∀ q, (∃ i, q i ≤ a.min i ∨ a.max i ≤ q i) → boxEval norm a x ^ 2 ≤ dist2 x q := by
    intro x hx q hq
    obtain ⟨i, hi⟩ := hq
    have hs := side_le a x q hx i hi
    rw [eval_inside hn a x hx]
    have hm : max (boxOffset a x 0) (boxOffset a x 1) ≤ 0 := (in_iff a x).mp hx
    have hl : boxOffset a x i ≤ max (boxOffset a x 0) (boxOffset a x 1) := by
      fin_cases i
      · exact le_max_left _ _
      · exact le_max_right _ _
    have h1 : (max (boxOffset a x 0) (boxOffset a x 1)) ^ 2 ≤ boxOffset a x i ^ 2 := by nlinarith
    refine h1.trans (hs.trans ?_)
    rw [dist2_two]
    fin_cases i
    · exact le_add_of_nonneg_right (sq_nonneg _)
    · exact le_add_of_nonneg_left (sq_nonneg _)
  refine ⟨⟨?_, ?_, ?_⟩, ?_⟩
  · intro x
    constructor
    · intro hx
      by_contra hc
      exact absurd hx (not_le.mpr (eval_outside hn a ha x hc).1)
    · intro hx
      rw [eval_inside hn a x hx]
      exact (in_iff a x).mp hx
  · intro x hx
    obtain ⟨h1, h2⟩ := eval_outside hn a ha x hx
    obtain ⟨h3, h4⟩ := Aabb.C46_closest_point a ha x
    refine ⟨⟨a.closestPointTo x, h3, by rw [h2, dist2_comm]⟩, ?_⟩
    intro q hq
    rw [h2, dist2_comm x q]
    exact h4 q hq
  · intro x hx q hq
    apply hins x hx q
    by_contra hc
    push Not at hc
    exact hq fun i => ⟨(hc i).1.le, (hc i).2.le⟩
  · intro x
    by_cases hx : InAabb a x
    · refine ⟨?_, ?_⟩
      · rw [eval_inside hn a x hx]
        obtain ⟨i, hi⟩ : ∃ i, max (boxOffset a x 0) (boxOffset a x 1) = boxOffset a x i := by
          rcases max_choice (boxOffset a x 0) (boxOffset a x 1) with g | g
          · exact ⟨0, g⟩
          · exact ⟨1, g⟩
        have hc : boxOffset a x i = max (x i - a.max i) (a.min i - x i) := by
          simp only [boxOffset, Aabb.center, Aabb.extents]
          rw [← max_sub_sub_right]
          congr 1 <;> ring
        obtain ⟨t, ht, hd⟩ : ∃ t, (t = a.min i ∨ t = a.max i) ∧ (x i - t) ^ 2 = boxOffset a x i ^ 2 := by
          rcases max_choice (x i - a.max i) (a.min i - x i) with g | g
          · exact ⟨a.max i, .inr rfl, by rw [hc, g]⟩
          · exact ⟨a.min i, .inl rfl, by rw [hc, g]; ring⟩
        refine ⟨fun j => if j = i then t else x j, ⟨?_, i, by simpa using ht⟩, ?_⟩
        · intro j
          by_cases hj : j = i
          · subst hj
            simp only [if_true]
            rcases ht with rfl | rfl
            · exact ⟨le_refl _, ha j⟩
            · exact ⟨ha j, le_refl _⟩
          · simp only [if_neg hj]
            exact hx j
        · rw [hi, ← hd, dist2_two]
          fin_cases i <;> simp
      · intro q hq
        apply hins x hx q
        obtain ⟨i, hi⟩ := hq.2
        exact ⟨i, hi.imp le_of_eq (fun g => g.ge)⟩
    · obtain ⟨h1, h2⟩ := eval_outside hn a ha x hx
      refine ⟨⟨_, hbound x hx, by rw [h2, dist2_comm]⟩, ?_⟩
      intro q hq
      rw [h2, dist2_comm x q]
      exact (Aabb.C46_closest_point a ha x).2 q hq.1

/-- C77: the bounding box of a box is the box. -/
theorem C77_box_box (norm : Point 2 K → K) (h : K) (a : Aabb 2 K) : (box norm h a).boundingBox = some a := rfl

/-- C77: in the part of the exterior that faces the upper side of direction `i`, at least a step away from the other parts, the
gradient of the box's function is the normal of the side. -/
theorem C77_box_gradient_upper (norm : Point 2 K → K) (hn : IsNorm norm) (h : K) (hh : 0 < h) (a : Aabb 2 K) (x : Point 2 K)
    (i : Fin 2) (hi : a.max i + h ≤ x i) (hv : a.min i ≤ a.max i)
    (hj : ∀ j, j ≠ i → a.min j + h ≤ x j ∧ x j + h ≤ a.max j) :
    (box norm h a).gradient x = some fun j => if j = i then 1 else 0 := by
  have key : ∀ y : Point 2 K, a.max i ≤ y i → (∀ j, j ≠ i → a.min j ≤ y j ∧ y j ≤ a.max j) →
      boxEval norm a y = y i - a.max i := by
    intro y h1 h2
    have hoi : boxOffset a y i = y i - a.max i := by
      simp only [boxOffset, Aabb.center, Aabb.extents]
      rw [max_eq_left (by linarith)]
      ring
    have hoj : ∀ j, j ≠ i → boxOffset a y j ≤ 0 := fun j hj => (offset_nonpos a y j).mpr (h2 j hj)
    have hm : 0 ≤ max (boxOffset a y 0) (boxOffset a y 1) := by
      have : boxOffset a y i ≤ max (boxOffset a y 0) (boxOffset a y 1) := by
        fin_cases i
        · exact le_max_left _ _
        · exact le_max_right _ _
      rw [hoi] at this
      linarith
    rw [boxEval, min_eq_left hm, add_zero]
    obtain ⟨n1, n2⟩ := norm_two hn (fun i => max (boxOffset a y i) 0)
    have hsq : norm (fun i => max (boxOffset a y i) 0) ^ 2 = (y i - a.max i) ^ 2 := by
      rw [n2]
      fin_cases i
      · have := hoj 1 (by decide)
        simp only [Fin.zero_eta] at hoi h1 ⊢
        rw [hoi, max_eq_right this, max_eq_left (by linarith)]
        ring
      · have := hoj 0 (by decide)
        simp only [Fin.mk_one] at hoi h1 ⊢
        rw [hoi, max_eq_right this, max_eq_left (by linarith)]
        ring
    exact (sq_eq_sq₀ n1 (by linarith)).mp hsq
  have hdiff : boxDifferences norm a h x = fun j => if j = i then 1 else 0 := by
    funext k
    rw [boxDifferences]
    have hup : ∀ s : K, -h ≤ s → s ≤ h → boxEval norm a (shifted x k s) = x i + (if i = k then s else 0) - a.max i := by
      intro s s1 s2
      rw [key]
      · rfl
      · simp only [shifted]
        split <;> linarith
      · intro j hji
        have := hj j hji
        simp only [shifted]
        split <;> constructor <;> linarith
    rw [hup h (by linarith) le_rfl, hup (-h) le_rfl (by linarith)]
    by_cases hk : k = i
    · subst hk
      simp only [if_true]
      field_simp
      ring
    · have hk' : ¬ i = k := fun g => hk g.symm
      simp [hk, hk']
  show some _ = some _
  rw [hdiff]
  have hone : norm (fun j => if j = i then (1 : K) else 0) = 1 := by
    obtain ⟨n1, n2⟩ := norm_two hn (fun j => if j = i then (1 : K) else 0)
    have : norm (fun j => if j = i then (1 : K) else 0) ^ 2 = 1 ^ 2 := by
      rw [n2]
      fin_cases i <;> simp
    exact (sq_eq_sq₀ n1 zero_le_one).mp this
  rw [hone]
  simp

/-- C77: in the part of the exterior that faces the lower side of direction `i`, at least a step away from the other parts, the
gradient of the box's function is the outward normal of the side. -/
theorem C77_box_gradient_lower (norm : Point 2 K → K) (hn : IsNorm norm) (h : K) (hh : 0 < h) (a : Aabb 2 K) (x : Point 2 K)
    (i : Fin 2) (hi : x i + h ≤ a.min i) (hv : a.min i ≤ a.max i)
    (hj : ∀ j, j ≠ i → a.min j + h ≤ x j ∧ x j + h ≤ a.max j) :
    (box norm h a).gradient x = some fun j => if j = i then -1 else 0 := by
  have key : ∀ y : Point 2 K, y i ≤ a.min i → (∀ j, j ≠ i → a.min j ≤ y j ∧ y j ≤ a.max j) →
      boxEval norm a y = a.min i - y i := by
    intro y h1 h2
    have hoi : boxOffset a y i = a.min i - y i := by
      simp only [boxOffset, Aabb.center, Aabb.extents]
      rw [max_eq_right (by linarith)]
      ring
    have hoj : ∀ j, j ≠ i → boxOffset a y j ≤ 0 := fun j hj => (offset_nonpos a y j).mpr (h2 j hj)
    have hm : 0 ≤ max (boxOffset a y 0) (boxOffset a y 1) := by
      have : boxOffset a y i ≤ max (boxOffset a y 0) (boxOffset a y 1) := by
        fin_cases i
        · exact le_max_left _ _
        · exact le_max_right _ _
      rw [hoi] at this
      linarith
    rw [boxEval, min_eq_left hm, add_zero]
    obtain ⟨n1, n2⟩ := norm_two hn (fun i => max (boxOffset a y i) 0)
    have hsq : norm (fun i => max (boxOffset a y i) 0) ^ 2 = (a.min i - y i) ^ 2 := by
      rw [n2]
      fin_cases i
      · have := hoj 1 (by decide)
        simp only [Fin.zero_eta] at hoi h1 ⊢
        rw [hoi, max_eq_right this, max_eq_left (by linarith)]
        ring
      · have := hoj 0 (by decide)
        simp only [Fin.mk_one] at hoi h1 ⊢
        rw [hoi, max_eq_right this, max_eq_left (by linarith)]
        ring
    exact (sq_eq_sq₀ n1 (by linarith)).mp hsq
  have hdiff : boxDifferences norm a h x = fun j => if j = i then -1 else 0 := by
    funext k
    rw [boxDifferences]
    have hup : ∀ s : K, -h ≤ s → s ≤ h → boxEval norm a (shifted x k s) = a.min i - (x i + if i = k then s else 0) := by
      intro s s1 s2
      rw [key]
      · rfl
      · simp only [shifted]
        split <;> linarith
      · intro j hji
        have := hj j hji
        simp only [shifted]
        split <;> constructor <;> linarith
    rw [hup h (by linarith) le_rfl, hup (-h) le_rfl (by linarith)]
    by_cases hk : k = i
    · subst hk
      simp only [if_true]
      field_simp
      ring
    · have hk' : ¬ i = k := fun g => hk g.symm
      simp [hk, hk']
  show some _ = some _
  rw [hdiff]
  have hone : norm (fun j => if j = i then (-1 : K) else 0) = 1 := by
    obtain ⟨n1, n2⟩ := norm_two hn (fun j => if j = i then (-1 : K) else 0)
    have : norm (fun j => if j = i then (-1 : K) else 0) ^ 2 = 1 ^ 2 := by
      rw [n2]
      fin_cases i <;> simp
    exact (sq_eq_sq₀ n1 zero_le_one).mp this
  rw [hone]
  simp

/-- C77 is false for gradients in the centre of a box: the vector of differences vanishes there, so that its normalisation
divides zero by zero, and the result is not missing. -/
theorem C77_box_gradient_centre (norm : Point 2 K → K) (h : K) (a : Aabb 2 K) :
    boxDifferences norm a h a.center = 0 ∧ (box norm h a).gradient a.center ≠ none := by
  refine ⟨?_, by simp [box]⟩
  funext i
  have : boxOffset a (shifted a.center i h) = boxOffset a (shifted a.center i (-h)) := by
    funext j
    simp only [boxOffset, shifted]
    by_cases hj : j = i
    · simp only [hj, if_true]
      have e1 : a.center i + h - a.center i = h := by ring
      have e2 : a.center i + -h - a.center i = -h := by ring
      rw [e1, e2, neg_neg, max_comm]
    · simp [hj]
  simp [boxDifferences, boxEval, this]

/-- C77 is false for the interior of unions: the union of two boxes with a common side has the value zero on that side, although
every point outside of the union is further away. -/
theorem C77_union_inside_false (norm : Point 2 K → K) (hn : IsNorm norm) (h : K) :
    ∃ (a b : Aabb 2 K) (x : Point 2 K), ValidBox a ∧ ValidBox b ∧
      (union (box norm h a) (box norm h b)).eval x = 0 ∧
      ∀ q, ¬ (InAabb a q ∨ InAabb b q) → 1 / 4 ≤ dist2 x q := by
  refine ⟨⟨![0, 0], ![1, 1]⟩, ⟨![1, 0], ![2, 1]⟩, ![1, 1 / 2], ?_, ?_, ?_, ?_⟩
  · intro i; fin_cases i <;> simp
  · intro i; fin_cases i <;> simp
  · have h1 : (InAabb (⟨![0, 0], ![1, 1]⟩ : Aabb 2 K) ![1, 1 / 2]) := by
      intro i; fin_cases i
      · simp
      · simp only [Fin.mk_one, Matrix.cons_val_one]
        constructor <;> norm_num
    have h2 : (InAabb (⟨![1, 0], ![2, 1]⟩ : Aabb 2 K) ![1, 1 / 2]) := by
      intro i; fin_cases i
      · simp
      · simp only [Fin.mk_one, Matrix.cons_val_one]
        constructor <;> norm_num
    show min (boxEval norm _ _) (boxEval norm _ _) = 0
    rw [eval_inside hn _ _ h1, eval_inside hn _ _ h2]
    simp only [boxOffset, Aabb.center, Aabb.extents, Matrix.cons_val_zero, Matrix.cons_val_one]
    norm_num
  · intro q hq
    push Not at hq
    rw [dist2_two]
    simp only [Matrix.cons_val_zero, Matrix.cons_val_one]
    by_contra hc
    push Not at hc
    have b1 : -(1 / 2) < 1 / 2 - q 1 ∧ 1 / 2 - q 1 < (1 / 2 : K) := by
      constructor <;> nlinarith [sq_nonneg (1 - q 0), sq_nonneg (1 / 2 - q 1)]
    have b0 : -(1 / 2) < 1 - q 0 ∧ 1 - q 0 < (1 / 2 : K) := by
      constructor <;> nlinarith [sq_nonneg (1 - q 0), sq_nonneg (1 / 2 - q 1)]
    rcases le_total (q 0) 1 with g | g
    · apply hq.1
      intro i
      fin_cases i
      · simp only [Fin.zero_eta, Matrix.cons_val_zero]
        constructor <;> linarith
      · simp only [Fin.mk_one, Matrix.cons_val_one, Matrix.cons_val_fin_one]
        constructor <;> linarith
    · apply hq.2
      intro i
      fin_cases i
      · simp only [Fin.zero_eta, Matrix.cons_val_zero]
        constructor <;> linarith
      · simp only [Fin.mk_one, Matrix.cons_val_one, Matrix.cons_val_fin_one]
        constructor <;> linarith

/-- The real norm meets the hypothesis of the theorems above. -/
private noncomputable def realNorm : Point 2 ℝ → ℝ := fun v => Real.sqrt (∑ i, v i ^ 2)

private theorem realNorm_isNorm : IsNorm realNorm := fun v =>
  ⟨Real.sqrt_nonneg _, Real.sq_sqrt (Finset.sum_nonneg fun _ _ => sq_nonneg _)⟩

/-- The union of a circle and a box. -/
example : IsSdf (fun x => Disk 2 ![0, 0] x ∨ InAabb (⟨![1, 1], ![5, 3]⟩ : Aabb 2 ℝ) x)
    (union (circle realNorm 2 ![0, 0]) (box realNorm (1 / 10000) ⟨![1, 1], ![5, 3]⟩)).eval :=
  C77_union _ _ _ _ (C77_circle _ realNorm_isNorm _ (by norm_num) _).1
    (C77_box _ realNorm_isNorm _ _ (by intro i; fin_cases i <;> simp <;> norm_num)).1

example : (circle realNorm 2 ![0, 0]).eval ![3, 4] = 3 := by
  have h : realNorm (offset ![0, 0] ![3, 4]) = 5 := by
    obtain ⟨h1, h2⟩ := realNorm_isNorm (offset ![0, 0] ![3, 4])
    rw [Fin.sum_univ_two] at h2
    simp only [offset, Matrix.cons_val_zero, Matrix.cons_val_one] at h2
    have : realNorm (offset ![0, 0] ![3, 4]) ^ 2 = 5 ^ 2 := by rw [h2]; norm_num
    exact (sq_eq_sq₀ h1 (by norm_num)).mp this
  show realNorm (offset ![0, 0] ![3, 4]) - 2 = 3
  rw [h]; norm_num

end Fenris.Sdf
