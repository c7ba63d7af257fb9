import Verif.Model.ClosestPoint
import Verif.Props.Triangle
import Verif.Props.ElementAssembly
import Mathlib.LinearAlgebra.Matrix.ToLinearEquiv
import Mathlib.LinearAlgebra.Matrix.DotProduct
/-! # C70: closest-point queries of triangles and tetrahedra -/
set_option autoImplicit false
set_option linter.unusedSectionVars false

namespace Fenris.Closest
open Fenris.Geometry Fenris.Element Fenris.Local Fenris.Spec Fenris.Clip
variable {K : Type} [Field K] [LinearOrder K] [IsStrictOrderedRing K] {g : Nat}

/-! ### Selecting the smallest item -/

private theorem foldl_min {α : Type} (key : α → K) (l : List α) (x : α) :
    (l.foldl (fun best y => if key y < key best then y else best) x = x ∨
      l.foldl (fun best y => if key y < key best then y else best) x ∈ l) ∧
    key (l.foldl (fun best y => if key y < key best then y else best) x) ≤ key x ∧
    ∀ y ∈ l, key (l.foldl (fun best y => if key y < key best then y else best) x) ≤ key y := by
  induction l generalizing x with
  | nil => simp
  | cons a l ih =>
    rw [List.foldl_cons]
    by_cases h : key a < key x
    · rw [if_pos h]
      obtain ⟨h1, h2, h3⟩ := ih a
      refine ⟨Or.inr ?_, h2.trans h.le, ?_⟩
      · rcases h1 with h1 | h1
        · rw [h1]
          exact List.mem_cons_self
        · exact List.mem_cons_of_mem _ h1
      · intro y hy
        rcases List.mem_cons.mp hy with rfl | hy
        · exact h2
        · exact h3 y hy
    · rw [if_neg h]
      obtain ⟨h1, h2, h3⟩ := ih x
      refine ⟨?_, h2, ?_⟩
      · rcases h1 with h1 | h1
        · exact Or.inl h1
        · exact Or.inr (List.mem_cons_of_mem _ h1)
      · intro y hy
        rcases List.mem_cons.mp hy with rfl | hy
        · exact h2.trans (not_lt.mp h)
        · exact h3 y hy

private theorem minBy_spec {α : Type} (key : α → K) (l : List α) (h : l ≠ []) :
    ∃ m, minBy key l = some m ∧ m ∈ l ∧ ∀ y ∈ l, key m ≤ key y := by
  cases l with
  | nil => exact absurd rfl h
  | cons x l =>
    obtain ⟨h1, h2, h3⟩ := foldl_min key l x
    refine ⟨_, rfl, ?_, ?_⟩
    · rcases h1 with h1 | h1
      · rw [h1]
        exact List.mem_cons_self
      · exact List.mem_cons_of_mem _ h1
    · intro y hy
      rcases List.mem_cons.mp hy with rfl | hy
      · exact h2
      · exact h3 y hy

private theorem dsq_eq (p q : Point g K) : distanceSquared p q = dist2 q p := by
  simp only [distanceSquared, normSq, dist2, sq]

private theorem dist2_symm' (p q : Point g K) : dist2 p q = dist2 q p := by
  simp only [dist2]
  exact Finset.sum_congr rfl fun i _ => by ring

private theorem dist2_self (p : Point g K) : dist2 p p = 0 := by
  simp [dist2]

private theorem dist2_nn (p q : Point g K) : 0 ≤ dist2 p q := Finset.sum_nonneg fun _ _ => sq_nonneg _

private theorem eq_of_dist2 (p q : Point g K) (h : dist2 p q ≤ 0) : p = q := by
  have h0 : dist2 p q = 0 := le_antisymm h (dist2_nn p q)
  funext k
  have := (Finset.sum_eq_zero_iff_of_nonneg (fun i _ => sq_nonneg (p i - q i))).mp h0 k (Finset.mem_univ k)
  exact sub_eq_zero.mp (pow_eq_zero_iff two_ne_zero |>.mp this)

/-! ### Barycentric coordinates -/

/-- The point with given barycentric coordinates. -/
private def bary3 (t : Tri g K) (l : Point 3 K) : Point g K := fun k => l 0 * t.a k + l 1 * t.b k + l 2 * t.c k

private def bary4 (V : Fin 4 → Point g K) (l : Point 4 K) : Point g K := fun k =>
  l 0 * V 0 k + l 1 * V 1 k + l 2 * V 2 k + l 3 * V 3 k

private def psi3 (xi : Point 2 K) : Point 3 K := ![tri3Psi xi 0, tri3Psi xi 1, tri3Psi xi 2]

private def psi4 (xi : Point 3 K) : Point 4 K := ![tet4Psi xi 0, tet4Psi xi 1, tet4Psi xi 2, tet4Psi xi 3]

private theorem triMap_bary (t : Tri g K) (xi : Point 2 K) : triMap t xi = bary3 t (psi3 xi) := by
  funext k
  simp only [triMap, mapReferenceCoords, Kind.geometry, Kind.numNodes, geometryBasis, tri3Basis, List.take, weightedSum,
    bary3, psi3, Matrix.cons_val_zero, Matrix.cons_val_one, Matrix.cons_val]
  ring

private theorem tetMap_bary (V : Fin 4 → Point g K) (xi : Point 3 K) : tetMap V xi = bary4 V (psi4 xi) := by
  funext k
  simp only [tetMap, mapReferenceCoords, Kind.geometry, Kind.numNodes, geometryBasis, tet4Basis, List.take, weightedSum,
    bary4, psi4, Matrix.cons_val_zero, Matrix.cons_val_one, Matrix.cons_val]
  ring

private theorem psi3_sum (xi : Point 2 K) : psi3 xi 0 + psi3 xi 1 + psi3 xi 2 = 1 := by
  simp only [psi3, Matrix.cons_val_zero, Matrix.cons_val_one, Matrix.cons_val, tri3Psi]
  norm_num
  ring

private theorem psi4_sum (xi : Point 3 K) : psi4 xi 0 + psi4 xi 1 + psi4 xi 2 + psi4 xi 3 = 1 := by
  simp only [psi4, Matrix.cons_val_zero, Matrix.cons_val_one, Matrix.cons_val, tet4Psi]
  norm_num
  ring

private theorem bary3_lerp (t : Tri g K) (l m : Point 3 K) (s : K) :
    bary3 t (lerp l m s) = lerp (bary3 t l) (bary3 t m) s := by
  funext k
  simp only [bary3, lerp]
  ring

private theorem bary4_lerp (V : Fin 4 → Point g K) (l m : Point 4 K) (s : K) :
    bary4 V (lerp l m s) = lerp (bary4 V l) (bary4 V m) s := by
  funext k
  simp only [bary4, lerp]
  ring

/-- The points of the convex hull of three points. -/
theorem mem_hull3 (a b c x : Point g K) : x ∈ hull [a, b, c] ↔ InTriangle ⟨a, b, c⟩ x := by
  constructor
  · intro hx
    have hsub : {v | v ∈ [a, b, c]} ⊆ {x | InTriangle (⟨a, b, c⟩ : Tri g K) x} := by
      intro v hv
      simp only [List.mem_cons, List.not_mem_nil, or_false, Set.mem_setOf_eq] at hv
      rcases hv with rfl | rfl | rfl
      · exact ⟨1, 0, 0, zero_le_one, le_rfl, le_rfl, by ring, by funext i; ring⟩
      · exact ⟨0, 1, 0, le_rfl, zero_le_one, le_rfl, by ring, by funext i; ring⟩
      · exact ⟨0, 0, 1, le_rfl, le_rfl, zero_le_one, by ring, by funext i; ring⟩
    have hcv : Convex K {x | InTriangle (⟨a, b, c⟩ : Tri g K) x} := by
      rintro x ⟨α, β, γ, h1, h2, h3, h4, rfl⟩ y ⟨α', β', γ', h1', h2', h3', h4', rfl⟩ u v hu hv huv
      refine ⟨u * α + v * α', u * β + v * β', u * γ + v * γ', by positivity, by positivity, by positivity, ?_, ?_⟩
      · linear_combination u * h4 + v * h4' + huv
      · funext i
        simp only [Pi.add_apply, Pi.smul_apply, smul_eq_mul]
        ring
    exact convexHull_min hsub hcv hx
  · rintro ⟨α, β, γ, h1, h2, h3, h4, rfl⟩
    have ha : a ∈ hull [a, b, c] := subset_convexHull K _ (by simp)
    have hb : b ∈ hull [a, b, c] := subset_convexHull K _ (by simp)
    have hc : c ∈ hull [a, b, c] := subset_convexHull K _ (by simp)
    have := (convex_convexHull K {v | v ∈ [a, b, c]}).sum_mem (t := Finset.univ) (w := ![α, β, γ]) (z := ![a, b, c])
      (by intro i _; fin_cases i <;> assumption) (by simp [Fin.sum_univ_three, h4])
      (by intro i _; fin_cases i <;> assumption)
    have e : (fun i => α * a i + β * b i + γ * c i) = ∑ i, (![α, β, γ] : Fin 3 → K) i • (![a, b, c] : Fin 3 → Point g K) i := by
      funext i
      simp [Fin.sum_univ_three]
    rw [← e] at this
    exact this

/-- The points of the convex hull of four points. -/
theorem mem_hull4 (V : Fin 4 → Point g K) (x : Point g K) : x ∈ hull [V 0, V 1, V 2, V 3] ↔
    ∃ l : Point 4 K, (∀ i, 0 ≤ l i) ∧ l 0 + l 1 + l 2 + l 3 = 1 ∧
      x = fun k => l 0 * V 0 k + l 1 * V 1 k + l 2 * V 2 k + l 3 * V 3 k := by
  constructor
  · intro hx
    have hsub : {v | v ∈ [V 0, V 1, V 2, V 3]} ⊆ {x | ∃ l : Point 4 K, (∀ i, 0 ≤ l i) ∧ l 0 + l 1 + l 2 + l 3 = 1 ∧
        x = fun k => l 0 * V 0 k + l 1 * V 1 k + l 2 * V 2 k + l 3 * V 3 k} := by
      intro v hv
      simp only [List.mem_cons, List.not_mem_nil, or_false, Set.mem_setOf_eq] at hv
      rcases hv with rfl | rfl | rfl | rfl
      · exact ⟨![1, 0, 0, 0], by intro i; fin_cases i <;> simp, by simp, by funext i; simp⟩
      · exact ⟨![0, 1, 0, 0], by intro i; fin_cases i <;> simp, by simp, by funext i; simp⟩
      · exact ⟨![0, 0, 1, 0], by intro i; fin_cases i <;> simp, by simp, by funext i; simp⟩
      · exact ⟨![0, 0, 0, 1], by intro i; fin_cases i <;> simp, by simp, by funext i; simp⟩
    have hcv : Convex K {x | ∃ l : Point 4 K, (∀ i, 0 ≤ l i) ∧ l 0 + l 1 + l 2 + l 3 = 1 ∧
        x = fun k => l 0 * V 0 k + l 1 * V 1 k + l 2 * V 2 k + l 3 * V 3 k} := by
      rintro x ⟨l, h1, h2, rfl⟩ y ⟨m, h1', h2', rfl⟩ u v hu hv huv
      refine ⟨fun i => u * l i + v * m i, fun i => add_nonneg (mul_nonneg hu (h1 i)) (mul_nonneg hv (h1' i)), ?_, ?_⟩
      · linear_combination u * h2 + v * h2' + huv
      · funext i
        simp only [Pi.add_apply, Pi.smul_apply, smul_eq_mul]
        ring
    exact convexHull_min hsub hcv hx
  · rintro ⟨l, h1, h4, rfl⟩
    have hv : ∀ i : Fin 4, V i ∈ hull [V 0, V 1, V 2, V 3] := by
      intro i
      apply subset_convexHull K
      fin_cases i <;> simp
    have := (convex_convexHull K {v | v ∈ [V 0, V 1, V 2, V 3]}).sum_mem (t := Finset.univ) (w := l) (z := V)
      (fun i _ => h1 i) (by rw [Fin.sum_univ_four]; exact h4) (fun i _ => hv i)
    have e : (fun k => l 0 * V 0 k + l 1 * V 1 k + l 2 * V 2 k + l 3 * V 3 k) = ∑ i, l i • V i := by
      funext i
      simp [Fin.sum_univ_four]
    rw [← e] at this
    exact this

/-! ### Leaving the simplex -/

private theorem coord_affine {n : Nat} (i : Fin n) : IsAffine fun l : Point n K => l i := by
  intro x y s
  simp [lerp]

/-- From coordinates with a negative entry to coordinates of a point of the simplex, one passes through the
boundary of the simplex. -/
private theorem exit_bary {n : Nat} (m l : Point n K) (hl : ∀ i, 0 ≤ l i) (hm : ∃ i, m i < 0) :
    ∃ s, 0 ≤ s ∧ s ≤ 1 ∧ (∀ i, 0 ≤ lerp m l s i) ∧ ∃ i, lerp m l s i = 0 := by
  obtain ⟨i₀, hi₀⟩ := hm
  obtain ⟨s, s0, s1, hall, f, hf, hz⟩ := exit_point ((List.finRange n).map fun i => fun l : Point n K => l i)
    (by
      intro f hf
      obtain ⟨i, -, rfl⟩ := List.mem_map.mp hf
      exact coord_affine i) m l
    (by
      intro f hf
      obtain ⟨i, -, rfl⟩ := List.mem_map.mp hf
      exact hl i)
    ⟨_, List.mem_map.mpr ⟨i₀, List.mem_finRange _, rfl⟩, hi₀⟩
  obtain ⟨i, -, rfl⟩ := List.mem_map.mp hf
  exact ⟨s, s0, s1, fun i => hall _ (List.mem_map.mpr ⟨i, List.mem_finRange _, rfl⟩), i, hz⟩

/-- In a degenerate simplex every point has coordinates on the boundary. -/
private theorem degenerate_bary {n : Nat} (v l : Point n K) (hl : ∀ i, 0 ≤ l i) (hv : ∃ i, v i < 0) :
    ∃ s, (∀ i, 0 ≤ l i + s * v i) ∧ ∃ i, l i + s * v i = 0 := by
  obtain ⟨i₀, hi₀⟩ := hv
  have hne : v i₀ ≠ 0 := hi₀.ne
  obtain ⟨s, s0, s1, hall, i, hz⟩ := exit_bary (fun i => l i + (l i₀ + 1) / (-v i₀) * v i) l hl ⟨i₀, by
    have : l i₀ + (l i₀ + 1) / (-v i₀) * v i₀ = -1 := by
      field_simp
      ring
    simp only [this]
    linarith⟩
  have e : ∀ i, lerp (fun i => l i + (l i₀ + 1) / (-v i₀) * v i) l s i =
      l i + ((1 - s) * ((l i₀ + 1) / (-v i₀))) * v i := by
    intro i
    simp only [lerp]
    ring
  refine ⟨(1 - s) * ((l i₀ + 1) / (-v i₀)), fun i => ?_, i, ?_⟩
  · rw [← e]
    exact hall i
  · rw [← e]
    exact hz

private theorem exists_neg {n : Nat} (v : Point n K) (hs : ∑ i, v i = 0) (hv : v ≠ 0) : ∃ i, v i < 0 := by
  by_contra h
  push Not at h
  apply hv
  funext i
  exact (Finset.sum_eq_zero_iff_of_nonneg (fun i _ => h i)).mp hs i (Finset.mem_univ i)

/-! ### Triangles -/

private theorem on_edge3 (t : Tri g K) (l : Point 3 K) (h0 : ∀ i, 0 ≤ l i) (hs : l 0 + l 1 + l 2 = 1)
    (hz : ∃ i, l i = 0) :
    OnSegment ⟨t.a, t.b⟩ (bary3 t l) ∨ OnSegment ⟨t.b, t.c⟩ (bary3 t l) ∨ OnSegment ⟨t.c, t.a⟩ (bary3 t l) := by
  have a0 := h0 0
  have a1 := h0 1
  have a2 := h0 2
  obtain ⟨i, hi⟩ := hz
  fin_cases i
  · right
    left
    have hi' : l 0 = 0 := hi
    refine ⟨l 2, a2, by linarith, ?_⟩
    funext k
    simp only [bary3, lerp, hi']
    rw [show l 1 = 1 - l 2 by linarith]
    ring
  · right
    right
    have hi' : l 1 = 0 := hi
    refine ⟨l 0, a0, by linarith, ?_⟩
    funext k
    simp only [bary3, lerp, hi']
    rw [show l 2 = 1 - l 0 by linarith]
    ring
  · left
    have hi' : l 2 = 0 := hi
    refine ⟨l 1, a1, by linarith, ?_⟩
    funext k
    simp only [bary3, lerp, hi']
    rw [show l 0 = 1 - l 1 by linarith]
    ring

/-- The best candidate on the edges. -/
private theorem edge_best (t : Tri g K) (p : Point g K) :
    ∃ c : Nat × K × K, minBy (fun c => c.2.2) (edgeCandidates t p) = some c ∧
      c.2.2 = dist2 (triMap t (edgeRefCoords c.1 c.2.1)) p ∧
      (∀ i, 0 ≤ psi3 (edgeRefCoords c.1 c.2.1) i) ∧ (∃ i, psi3 (edgeRefCoords c.1 c.2.1) i = 0) ∧
      ∀ z, OnSegment ⟨t.a, t.b⟩ z ∨ OnSegment ⟨t.b, t.c⟩ z ∨ OnSegment ⟨t.c, t.a⟩ z → c.2.2 ≤ dist2 z p := by
  obtain ⟨c, hc, hm, hmin⟩ := minBy_spec (fun c : Nat × K × K => c.2.2) (edgeCandidates t p) (by simp [edgeCandidates])
  have hcp : ∀ a b : Point g K, (⟨a, b⟩ : Segment g K).pointFromParameter ((⟨a, b⟩ : Segment g K).closestPointParametric p) =
      (⟨a, b⟩ : Segment g K).closestPoint p := fun a b => rfl
  refine ⟨c, hc, ?_⟩
  have hle : ∀ z, OnSegment ⟨t.a, t.b⟩ z ∨ OnSegment ⟨t.b, t.c⟩ z ∨ OnSegment ⟨t.c, t.a⟩ z → c.2.2 ≤ dist2 z p := by
    simp only [edgeCandidates, List.map_cons, List.map_nil, List.zipIdx_cons, List.zipIdx_nil, List.mem_cons,
      List.not_mem_nil, or_false, forall_eq_or_imp, forall_eq, hcp, dsq_eq] at hmin
    obtain ⟨m0, m1, m2⟩ := hmin
    rintro z (h | h | h)
    · exact m0.trans ((C47_closest_point _ p).2.2.2 z h)
    · exact m1.trans ((C47_closest_point _ p).2.2.2 z h)
    · exact m2.trans ((C47_closest_point _ p).2.2.2 z h)
  simp only [edgeCandidates, List.map_cons, List.map_nil, List.zipIdx_cons, List.zipIdx_nil, List.mem_cons,
    List.not_mem_nil, or_false] at hm
  rcases hm with rfl | rfl | rfl
  · obtain ⟨s0, s1, s2, -⟩ := C47_closest_point (⟨t.a, t.b⟩ : Segment g K) p
    have hr : ∀ s : K, psi3 (edgeRefCoords 0 s) = ![1 - s, s, 0] := by
      intro s
      funext i
      fin_cases i <;>
        simp [psi3, edgeRefCoords, tri3Nodes, tri3Psi, Segment.pointFromParameter, Segment.tangentDir] <;> ring
    refine ⟨?_, ?_, ⟨2, by simp only [hr]; simp⟩, hle⟩
    · simp only [dsq_eq, hcp]
      congr 1
      rw [triMap_bary, hr, s2]
      funext k
      simp [bary3, lerp]
    · simp only [hr]
      intro i
      fin_cases i
      · show 0 ≤ 1 - _
        linarith
      · exact s0
      · exact le_rfl
  · obtain ⟨s0, s1, s2, -⟩ := C47_closest_point (⟨t.b, t.c⟩ : Segment g K) p
    have hr : ∀ s : K, psi3 (edgeRefCoords 1 s) = ![0, 1 - s, s] := by
      intro s
      funext i
      fin_cases i <;>
        simp [psi3, edgeRefCoords, tri3Nodes, tri3Psi, Segment.pointFromParameter, Segment.tangentDir] <;> ring
    refine ⟨?_, ?_, ⟨0, by simp only [zero_add, hr]; simp⟩, hle⟩
    · simp only [dsq_eq, hcp]
      congr 1
      rw [triMap_bary, zero_add, hr, s2]
      funext k
      simp [bary3, lerp]
    · simp only [zero_add, hr]
      intro i
      fin_cases i
      · exact le_rfl
      · show 0 ≤ 1 - _
        linarith
      · exact s0
  · obtain ⟨s0, s1, s2, -⟩ := C47_closest_point (⟨t.c, t.a⟩ : Segment g K) p
    have hr : ∀ s : K, psi3 (edgeRefCoords 2 s) = ![s, 0, 1 - s] := by
      intro s
      funext i
      fin_cases i <;>
        simp [psi3, edgeRefCoords, tri3Nodes, tri3Psi, Segment.pointFromParameter, Segment.tangentDir] <;> ring
    refine ⟨?_, ?_, ⟨1, by simp only [zero_add, Nat.reduceAdd, hr]; simp⟩, hle⟩
    · simp only [dsq_eq, hcp]
      congr 1
      simp only [zero_add, Nat.reduceAdd]
      rw [triMap_bary, hr, s2]
      funext k
      simp [bary3, lerp]
      ring
    · simp only [zero_add, Nat.reduceAdd, hr]
      intro i
      fin_cases i
      · exact s0
      · exact le_rfl
      · show 0 ≤ 1 - _
        linarith

private theorem triJacobian_apply (t : Tri g K) (k : Fin g) :
    triJacobian t k 0 = (t.b k - t.a k) / 2 ∧ triJacobian t k 1 = (t.c k - t.a k) / 2 := by
  constructor <;>
  · simp [triJacobian, referenceJacobian, Kind.geometry, Kind.numNodes, geometryGradients, tri3Gradients, tri3G,
      weightedSum]
    ring

private theorem triMap_affine (t : Tri g K) (xi : Point 2 K) (k : Fin g) :
    triMap t xi k = triMap t (fun _ => 0) k + (triJacobian t).mulVec xi k := by
  obtain ⟨h0, h1⟩ := triJacobian_apply t k
  rw [triMap_bary, triMap_bary]
  simp only [bary3, psi3, Matrix.mulVec, dotProduct, Fin.sum_univ_two, h0, h1, Matrix.cons_val_zero, Matrix.cons_val_one,
    Matrix.cons_val, tri3Psi]
  norm_num
  ring

/-- Every point with barycentric coordinates has reference coordinates. -/
private theorem bary3_ref (l : Point 3 K) (hs : l 0 + l 1 + l 2 = 1) : ∃ xi : Point 2 K, psi3 xi = l := by
  refine ⟨![2 * l 1 - 1, 2 * l 2 - 1], ?_⟩
  funext i
  fin_cases i
  · simp [psi3, tri3Psi]
    linarith
  · simp [psi3, tri3Psi]
    ring
  · simp [psi3, tri3Psi]
    ring

private theorem not_likely3 (eps : K) (he : 0 ≤ eps) (xi : Point 2 K) (h : ¬likelyInTri eps xi = true) :
    ∃ i, psi3 xi i < 0 := by
  simp only [likelyInTri, decide_eq_true_eq] at h
  by_contra hn
  push Not at hn
  apply h
  have h0 := hn 0
  have h1 := hn 1
  have h2 := hn 2
  simp [psi3, tri3Psi] at h0 h1 h2
  refine ⟨?_, ?_, ?_⟩
  · linarith
  · linarith
  · linarith

private theorem likely3 (eps : K) (xi : Point 2 K) (h : likelyInTri eps xi = true) (i : Fin 3) :
    -(eps / 2) ≤ psi3 xi i := by
  simp only [likelyInTri, decide_eq_true_eq] at h
  obtain ⟨h0, h1, h2⟩ := h
  fin_cases i <;> simp [psi3, tri3Psi] <;> linarith

/-- If the residual is orthogonal to the plane of the triangle, either the projection is a candidate or
the boundary is as close. -/
private theorem plane_core (eps : K) (he : 0 ≤ eps) (t : Tri g K) (p : Point g K) (xi : Point 2 K)
    (horth : ∀ w : Point 2 K, ∑ k, (triMap t xi k - p k) * (triJacobian t).mulVec w k = 0)
    (l : Point 3 K) (h0 : ∀ i, 0 ≤ l i) (hs : l 0 + l 1 + l 2 = 1) :
    (likelyInTri eps xi = true ∧ dist2 (triMap t xi) p ≤ dist2 (bary3 t l) p) ∨
    ∃ m : Point 3 K, (∀ i, 0 ≤ m i) ∧ m 0 + m 1 + m 2 = 1 ∧ (∃ i, m i = 0) ∧
      dist2 (bary3 t m) p ≤ dist2 (bary3 t l) p := by
  obtain ⟨eta, heta⟩ := bary3_ref l hs
  have hy : ∀ s : K, dist2 (lerp (triMap t xi) (bary3 t l) s) p =
      dist2 (triMap t xi) p + s ^ 2 * dist2 (bary3 t l) (triMap t xi) := by
    intro s
    have hd : ∀ k, bary3 t l k - triMap t xi k = (triJacobian t).mulVec (eta - xi) k := by
      intro k
      rw [← heta, ← triMap_bary, triMap_affine t eta, triMap_affine t xi, Matrix.mulVec_sub]
      simp only [Pi.sub_apply]
      ring
    have ho := horth (eta - xi)
    simp only [← hd] at ho
    simp only [dist2, lerp]
    rw [Finset.mul_sum, ← Finset.sum_add_distrib]
    have : ∀ k, ((1 - s) * triMap t xi k + s * bary3 t l k - p k) ^ 2 =
        (triMap t xi k - p k) ^ 2 + s ^ 2 * (bary3 t l k - triMap t xi k) ^ 2 +
          2 * s * ((triMap t xi k - p k) * (bary3 t l k - triMap t xi k)) := by
      intro k
      ring
    simp only [this]
    rw [Finset.sum_add_distrib, ← Finset.mul_sum, ho, mul_zero, add_zero]
  have h1 : dist2 (bary3 t l) p = dist2 (triMap t xi) p + dist2 (bary3 t l) (triMap t xi) := by
    have := hy 1
    rw [one_pow, one_mul] at this
    rw [← this]
    congr 1
    funext k
    simp [lerp]
  have hnn := dist2_nn (bary3 t l) (triMap t xi)
  by_cases hl : likelyInTri eps xi = true
  · left
    refine ⟨hl, ?_⟩
    rw [h1]
    linarith
  · right
    obtain ⟨s, s0, s1, hall, hz⟩ := exit_bary (psi3 xi) l h0 (not_likely3 eps he xi hl)
    refine ⟨lerp (psi3 xi) l s, hall, ?_, hz, ?_⟩
    · have := psi3_sum xi
      simp only [lerp]
      linear_combination (1 - s) * this + s * hs
    · rw [bary3_lerp, ← triMap_bary, hy, h1]
      have : s ^ 2 ≤ 1 := pow_le_one₀ s0 s1
      nlinarith

private theorem flat_core (t : Tri g K) (w : Point 2 K) (hw : w ≠ 0) (hA : (triJacobian t).mulVec w = 0)
    (l : Point 3 K) (h0 : ∀ i, 0 ≤ l i) (hs : l 0 + l 1 + l 2 = 1) :
    ∃ m : Point 3 K, (∀ i, 0 ≤ m i) ∧ m 0 + m 1 + m 2 = 1 ∧ (∃ i, m i = 0) ∧ bary3 t m = bary3 t l := by
  have hv : ∃ i, (![-(w 0 + w 1), w 0, w 1] : Point 3 K) i < 0 := by
    apply exists_neg
    · simp [Fin.sum_univ_three]
    · intro h
      apply hw
      have h1 := congrFun h 1
      have h2 := congrFun h 2
      simp at h1 h2
      funext i
      fin_cases i
      · exact h1
      · exact h2
  obtain ⟨s, hall, hz⟩ := degenerate_bary _ l h0 hv
  refine ⟨_, hall, ?_, hz, ?_⟩
  · simp
    linear_combination hs
  · funext k
    obtain ⟨j0, j1⟩ := triJacobian_apply t k
    have hk := congrFun hA k
    simp only [Matrix.mulVec, dotProduct, Fin.sum_univ_two, j0, j1, Pi.zero_apply] at hk
    simp [bary3]
    linear_combination 2 * s * hk

/-- Facts about the candidate in the interior of a triangle in the plane. -/
private theorem interior2 (eps : K) (he : 0 ≤ eps) (t : Tri 2 K) (p : Point 2 K) (l : Point 3 K)
    (h0 : ∀ i, 0 ≤ l i) (hs : l 0 + l 1 + l 2 = 1) :
    (∃ xi, triInterior2 eps t p = some xi ∧ dist2 (triMap t xi) p ≤ dist2 (bary3 t l) p) ∨
    ∃ m : Point 3 K, (∀ i, 0 ≤ m i) ∧ m 0 + m 1 + m 2 = 1 ∧ (∃ i, m i = 0) ∧
      dist2 (bary3 t m) p ≤ dist2 (bary3 t l) p := by
  by_cases hdet : (triJacobian t).det = 0
  · right
    obtain ⟨w, hw, hA⟩ := Matrix.exists_mulVec_eq_zero_iff.mpr hdet
    obtain ⟨m, m1, m2, m3, m4⟩ := flat_core t w hw hA l h0 hs
    exact ⟨m, m1, m2, m3, by rw [m4]⟩
  · have hmap : triMap t (((triJacobian t).det⁻¹ • (triJacobian t).adjugate).mulVec
        fun k => p k - triMap t (fun _ => 0) k) = p := by
      funext k
      rw [triMap_affine, Matrix.mulVec_mulVec, Matrix.mul_smul, Matrix.mul_adjugate, smul_smul, inv_mul_cancel₀ hdet,
        one_smul, Matrix.one_mulVec]
      ring
    rcases plane_core eps he t p _ (fun w => by rw [hmap]; simp) l h0 hs with ⟨hl, hd⟩ | h
    · left
      exact ⟨_, by rw [triInterior2, tryInverse, if_neg hdet, Option.map_some, Option.filter_some, if_pos hl], hd⟩
    · exact Or.inr h

private theorem interior2_some (eps : K) (t : Tri 2 K) (p : Point 2 K) (xi : Point 2 K)
    (h : triInterior2 eps t p = some xi) : triMap t xi = p ∧ ∀ i, -(eps / 2) ≤ psi3 xi i := by
  rw [triInterior2, Option.filter_eq_some_iff] at h
  obtain ⟨h1, h2⟩ := h
  refine ⟨?_, likely3 eps xi h2⟩
  rw [tryInverse] at h1
  split at h1
  · simp at h1
  · rename_i hdet
    rw [Option.map_some, Option.some.injEq] at h1
    rw [← h1]
    funext k
    rw [triMap_affine, Matrix.mulVec_mulVec, Matrix.mul_smul, Matrix.mul_adjugate, smul_smul, inv_mul_cancel₀ hdet,
      one_smul, Matrix.one_mulVec]
    ring

private theorem interior3 (eps : K) (he : 0 ≤ eps) (t : Tri 3 K) (p : Point 3 K) (l : Point 3 K)
    (h0 : ∀ i, 0 ≤ l i) (hs : l 0 + l 1 + l 2 = 1) :
    (∃ xi, triInterior3 eps t p = some xi ∧ dist2 (triMap t xi) p ≤ dist2 (bary3 t l) p) ∨
    ∃ m : Point 3 K, (∀ i, 0 ≤ m i) ∧ m 0 + m 1 + m 2 = 1 ∧ (∃ i, m i = 0) ∧
      dist2 (bary3 t m) p ≤ dist2 (bary3 t l) p := by
  by_cases hdet : ((triJacobian t).transpose * triJacobian t).det = 0
  · right
    obtain ⟨w, hw, hA⟩ := Matrix.exists_mulVec_eq_zero_iff.mpr hdet
    have hA' : (triJacobian t).mulVec w = 0 := by
      have : (triJacobian t).mulVec w ⬝ᵥ (triJacobian t).mulVec w = 0 := by
        rw [Matrix.dotProduct_mulVec, Matrix.vecMul_mulVec, ← Matrix.dotProduct_mulVec, hA, dotProduct_zero]
      exact dotProduct_self_eq_zero.mp this
    obtain ⟨m, m1, m2, m3, m4⟩ := flat_core t w hw hA' l h0 hs
    exact ⟨m, m1, m2, m3, by rw [m4]⟩
  · have horth : ∀ w : Point 2 K, ∑ k, (triMap t (((((triJacobian t).transpose * triJacobian t).det)⁻¹ •
        ((triJacobian t).transpose * triJacobian t).adjugate).mulVec
          ((triJacobian t).transpose.mulVec fun k => p k - triMap t (fun _ => 0) k)) k - p k) *
        (triJacobian t).mulVec w k = 0 := by
      intro w
      have hN : ∀ v : Point 2 K, ((triJacobian t).transpose * triJacobian t).mulVec
          (((((triJacobian t).transpose * triJacobian t).det)⁻¹ •
            ((triJacobian t).transpose * triJacobian t).adjugate).mulVec v) = v := by
        intro v
        rw [Matrix.mulVec_mulVec, Matrix.mul_smul, Matrix.mul_adjugate, smul_smul, inv_mul_cancel₀ hdet, one_smul,
          Matrix.one_mulVec]
      have hN' := hN ((triJacobian t).transpose.mulVec fun k => p k - triMap t (fun _ => 0) k)
      generalize ((((triJacobian t).transpose * triJacobian t).det)⁻¹ •
        ((triJacobian t).transpose * triJacobian t).adjugate).mulVec
          ((triJacobian t).transpose.mulVec fun k => p k - triMap t (fun _ => 0) k) = xi at hN'
      have hr : (triJacobian t).transpose.mulVec (fun k => triMap t xi k - p k) = 0 := by
        have e : (fun k => triMap t xi k - p k) =
            (triJacobian t).mulVec xi - fun k => p k - triMap t (fun _ => 0) k := by
          funext k
          rw [triMap_affine]
          simp only [Pi.sub_apply]
          ring
        rw [e, Matrix.mulVec_sub, Matrix.mulVec_mulVec, hN', sub_self]
      have : (fun k => triMap t xi k - p k) ⬝ᵥ (triJacobian t).mulVec w = 0 := by
        rw [Matrix.dotProduct_mulVec, ← Matrix.mulVec_transpose, hr, zero_dotProduct]
      exact this
    rcases plane_core eps he t p _ horth l h0 hs with ⟨hl, hd⟩ | h
    · left
      refine ⟨_, ?_, hd⟩
      simp only [triInterior3, tryInverse]
      rw [if_neg hdet, Option.map_some, Option.filter_some, if_pos hl]
    · exact Or.inr h

private theorem interior3_some (eps : K) (t : Tri 3 K) (p : Point 3 K) (xi : Point 2 K)
    (h : triInterior3 eps t p = some xi) : ∀ i, -(eps / 2) ≤ psi3 xi i := by
  simp only [triInterior3] at h
  rw [Option.filter_eq_some_iff] at h
  exact likely3 eps xi h.2

private theorem inTri_of_psi (t : Tri g K) (xi : Point 2 K) (h : ∀ i, 0 ≤ psi3 xi i) : triMap t xi ∈ hull [t.a, t.b, t.c] := by
  rw [mem_hull3]
  refine ⟨psi3 xi 0, psi3 xi 1, psi3 xi 2, h 0, h 1, h 2, psi3_sum xi, ?_⟩
  rw [triMap_bary]
  rfl

private theorem mem_basis3 (xi : Point 2 K) (b : K) (h : b ∈ tri3Basis xi) : ∃ i, b = psi3 xi i := by
  simp only [tri3Basis, List.mem_cons, List.not_mem_nil, or_false] at h
  rcases h with rfl | rfl | rfl
  · exact ⟨0, rfl⟩
  · exact ⟨1, rfl⟩
  · exact ⟨2, rfl⟩

/-- The common result for triangles in the plane and in space. -/
private theorem tri_result (eps : K) (he : 0 ≤ eps) (t : Tri g K) (p : Point g K) (o : Option (Point 2 K))
    (mk : Point 2 K → ClosestPoint 2 K) (hmk : ∀ xi, (mk xi).point = xi)
    (ho : ∀ l : Point 3 K, (∀ i, 0 ≤ l i) → l 0 + l 1 + l 2 = 1 →
      (∃ xi, o = some xi ∧ dist2 (triMap t xi) p ≤ dist2 (bary3 t l) p) ∨
      ∃ m : Point 3 K, (∀ i, 0 ≤ m i) ∧ m 0 + m 1 + m 2 = 1 ∧ (∃ i, m i = 0) ∧
        dist2 (bary3 t m) p ≤ dist2 (bary3 t l) p)
    (ho' : ∀ xi, o = some xi → ∀ i, -(eps / 2) ≤ psi3 xi i) :
    ∃ r, ((minBy (fun c => c.2.2) (edgeCandidates t p)).map fun c => triPick mk t p c o) = some r ∧
      (∀ y ∈ hull [t.a, t.b, t.c], dist2 (triMap t r.point) p ≤ dist2 y p) ∧
      (∀ i, -(eps / 2) ≤ psi3 r.point i) ∧
      ((∃ xi, o = some xi ∧ r = mk xi) ∨ ∃ xi, r = .closestPoint xi ∧ (∀ i, 0 ≤ psi3 xi i) ∧ ∃ i, psi3 xi i = 0) := by
  obtain ⟨c, hc, hd, hpos, hzero, hle⟩ := edge_best t p
  rw [hc, Option.map_some]
  have hhull : ∀ y ∈ hull [t.a, t.b, t.c], ∃ l : Point 3 K, (∀ i, 0 ≤ l i) ∧ l 0 + l 1 + l 2 = 1 ∧ y = bary3 t l := by
    intro y hy
    rw [mem_hull3] at hy
    obtain ⟨α, β, γ, h1, h2, h3, h4, rfl⟩ := hy
    exact ⟨![α, β, γ], by intro i; fin_cases i <;> simpa, by simpa using h4, by funext k; simp [bary3]⟩
  have hpos' : ∀ i, -(eps / 2) ≤ psi3 (edgeRefCoords c.1 c.2.1) i := fun i => by
    have := hpos i
    linarith
  refine ⟨_, rfl, ?_⟩
  cases o with
  | none =>
    refine ⟨?_, hpos', Or.inr ⟨_, rfl, hpos, hzero⟩⟩
    intro y hy
    obtain ⟨l, h0, hs, rfl⟩ := hhull y hy
    rcases ho l h0 hs with ⟨xi, h, -⟩ | ⟨m, m0, ms, mz, hm⟩
    · cases h
    · show dist2 (triMap t (edgeRefCoords c.1 c.2.1)) p ≤ _
      rw [← hd]
      exact (hle _ (on_edge3 t m m0 ms mz)).trans hm
  | some xi =>
    simp only [triPick, dsq_eq]
    by_cases hlt : dist2 (triMap t xi) p < c.2.2
    · rw [if_pos hlt]
      refine ⟨?_, ?_, Or.inl ⟨xi, rfl, rfl⟩⟩
      · intro y hy
        obtain ⟨l, h0, hs, rfl⟩ := hhull y hy
        rw [hmk]
        rcases ho l h0 hs with ⟨xi', h, hle'⟩ | ⟨m, m0, ms, mz, hm⟩
        · cases h
          exact hle'
        · exact hlt.le.trans ((hle _ (on_edge3 t m m0 ms mz)).trans hm)
      · rw [hmk]
        exact ho' xi rfl
    · rw [if_neg hlt]
      refine ⟨?_, hpos', Or.inr ⟨_, rfl, hpos, hzero⟩⟩
      intro y hy
      obtain ⟨l, h0, hs, rfl⟩ := hhull y hy
      show dist2 (triMap t (edgeRefCoords c.1 c.2.1)) p ≤ _
      rw [← hd]
      rcases ho l h0 hs with ⟨xi', h, hle'⟩ | ⟨m, m0, ms, mz, hm⟩
      · cases h
        exact (not_lt.mp hlt).trans hle'
      · exact (hle _ (on_edge3 t m m0 ms mz)).trans hm

/-- C70: the closest-point query of a triangle in the plane, degenerate or not, never panics; no point of
the triangle is closer than the point it returns; the reference coordinates returned are in the reference
triangle up to the tolerance, and exactly if the tolerance is zero. -/
theorem C70_triangle_2d (eps : K) (he : 0 ≤ eps) (t : Tri 2 K) (p : Point 2 K) :
    ∃ r, triClosest2 eps t p = some r ∧
      (∀ y ∈ hull [t.a, t.b, t.c], dist2 (triMap t r.point) p ≤ dist2 y p) ∧
      (∀ b ∈ tri3Basis r.point, -(eps / 2) ≤ b) ∧
      (eps = 0 → triMap t r.point ∈ hull [t.a, t.b, t.c]) := by
  obtain ⟨r, h1, h2, h3, -⟩ := tri_result eps he t p (triInterior2 eps t p) .inElement (fun _ => rfl)
    (interior2 eps he t p) (fun xi h => (interior2_some eps t p xi h).2)
  refine ⟨r, h1, h2, ?_, ?_⟩
  · intro b hb
    obtain ⟨i, rfl⟩ := mem_basis3 _ b hb
    exact h3 i
  · rintro rfl
    exact inTri_of_psi t _ fun i => by simpa using h3 i

/-- C70: the answer `InElement` means that the returned coordinates are those of the query point itself, and
every point of the triangle that is on none of its edges gets this answer. -/
theorem C70_triangle_2d_inside (eps : K) (he : 0 ≤ eps) (t : Tri 2 K) (p : Point 2 K) :
    (∀ xi, triClosest2 eps t p = some (.inElement xi) → triMap t xi = p) ∧
    (p ∈ hull [t.a, t.b, t.c] → ¬OnSegment ⟨t.a, t.b⟩ p → ¬OnSegment ⟨t.b, t.c⟩ p → ¬OnSegment ⟨t.c, t.a⟩ p →
      ∃ xi, triClosest2 eps t p = some (.inElement xi)) := by
  obtain ⟨r, h1, h2, -, h4⟩ := tri_result eps he t p (triInterior2 eps t p) .inElement (fun _ => rfl)
    (interior2 eps he t p) (fun xi h => (interior2_some eps t p xi h).2)
  have h1' : triClosest2 eps t p = some r := h1
  rw [h1']
  rcases h4 with ⟨xi, ho, rfl⟩ | ⟨xi, rfl, hpos, hzero⟩
  · refine ⟨?_, fun _ _ _ _ => ⟨xi, rfl⟩⟩
    intro xi' h
    cases h
    exact (interior2_some eps t p _ ho).1
  · refine ⟨fun xi' h => (by cases h), fun hp n1 n2 n3 => ?_⟩
    exfalso
    have := h2 p hp
    rw [dist2_self] at this
    have e : triMap t xi = p := eq_of_dist2 _ _ this
    rw [triMap_bary] at e
    rcases on_edge3 t (psi3 xi) hpos (psi3_sum xi) hzero with h | h | h
    · exact n1 (e ▸ h)
    · exact n2 (e ▸ h)
    · exact n3 (e ▸ h)

/-- C70: the same for triangles in space: no point of the triangle is closer than the one returned. -/
theorem C70_triangle_3d (eps : K) (he : 0 ≤ eps) (t : Tri 3 K) (p : Point 3 K) :
    ∃ r, triClosest3 eps t p = some r ∧
      (∀ y ∈ hull [t.a, t.b, t.c], dist2 (triMap t r.point) p ≤ dist2 y p) ∧
      (∀ b ∈ tri3Basis r.point, -(eps / 2) ≤ b) ∧
      (eps = 0 → triMap t r.point ∈ hull [t.a, t.b, t.c]) := by
  obtain ⟨r, h1, h2, h3, -⟩ := tri_result eps he t p (triInterior3 eps t p) .closestPoint (fun _ => rfl)
    (interior3 eps he t p) (fun xi h => interior3_some eps t p xi h)
  refine ⟨r, h1, h2, ?_, ?_⟩
  · intro b hb
    obtain ⟨i, rfl⟩ := mem_basis3 _ b hb
    exact h3 i
  · rintro rfl
    exact inTri_of_psi t _ fun i => by simpa using h3 i

/-- C70: a triangle in space never claims to contain the query point. -/
theorem C70_triangle_3d_never_inside (eps : K) (t : Tri 3 K) (p : Point 3 K) (xi : Point 2 K) :
    triClosest3 eps t p ≠ some (.inElement xi) := by
  intro h
  rw [triClosest3] at h
  obtain ⟨c, -, hc⟩ := Option.map_eq_some_iff.mp h
  cases ho : triInterior3 eps t p with
  | none =>
    rw [ho] at hc
    cases hc
  | some eta =>
    rw [ho, triPick] at hc
    split at hc <;> cases hc

/-! ### Tetrahedra -/

private theorem on_face4 (V : Fin 4 → Point 3 K) (l : Point 4 K) (h0 : ∀ i, 0 ≤ l i) (hs : l 0 + l 1 + l 2 + l 3 = 1)
    (hz : ∃ i, l i = 0) :
    ∃ j, j < 4 ∧ bary4 V l ∈ hull [(tetFace V j).a, (tetFace V j).b, (tetFace V j).c] := by
  have a0 := h0 0
  have a1 := h0 1
  have a2 := h0 2
  have a3 := h0 3
  obtain ⟨i, hi⟩ := hz
  fin_cases i
  · have hi' : l 0 = 0 := hi
    refine ⟨2, by omega, ?_⟩
    rw [mem_hull3]
    refine ⟨l 1, l 2, l 3, a1, a2, a3, by linarith, ?_⟩
    funext k
    simp [bary4, tetFace, hi']
  · have hi' : l 1 = 0 := hi
    refine ⟨3, by omega, ?_⟩
    rw [mem_hull3]
    refine ⟨l 0, l 3, l 2, a0, a3, a2, by linarith, ?_⟩
    funext k
    simp [bary4, tetFace, hi']
    ring
  · have hi' : l 2 = 0 := hi
    refine ⟨1, by omega, ?_⟩
    rw [mem_hull3]
    refine ⟨l 0, l 1, l 3, a0, a1, a3, by linarith, ?_⟩
    funext k
    simp [bary4, tetFace, hi']
  · have hi' : l 3 = 0 := hi
    refine ⟨0, by omega, ?_⟩
    rw [mem_hull3]
    refine ⟨l 0, l 2, l 1, a0, a2, a1, by linarith, ?_⟩
    funext k
    simp [bary4, tetFace, hi']
    ring

/-- Reference coordinates on a face, transferred to the tetrahedron. -/
private theorem face_psi (j : Nat) (xi : Point 2 K) :
    psi4 (triMap (tetFace (tetReference : Fin 4 → Point 3 K) j) xi) =
      if j = 0 then ![psi3 xi 0, psi3 xi 2, psi3 xi 1, 0]
      else if j = 1 then ![psi3 xi 0, psi3 xi 1, 0, psi3 xi 2]
      else if j = 2 then ![0, psi3 xi 0, psi3 xi 1, psi3 xi 2]
      else ![psi3 xi 0, 0, psi3 xi 2, psi3 xi 1] := by
  have hs := psi3_sum xi
  rw [triMap_bary]
  generalize psi3 xi = l at *
  have e0 : l 0 = 1 - l 1 - l 2 := by linarith
  by_cases j0 : j = 0
  · simp only [j0, if_true]
    funext i
    fin_cases i <;> simp [psi4, tet4Psi, bary3, tetFace, tetReference, tet4Nodes, e0] <;> ring
  · by_cases j1 : j = 1
    · simp only [j1, one_ne_zero, if_false, if_true]
      funext i
      fin_cases i <;> simp [psi4, tet4Psi, bary3, tetFace, tetReference, tet4Nodes, e0] <;> ring
    · by_cases j2 : j = 2
      · simp only [j2, if_true, OfNat.ofNat_ne_zero, OfNat.ofNat_ne_one, if_false]
        funext i
        fin_cases i <;> simp [psi4, tet4Psi, bary3, tetFace, tetReference, tet4Nodes, e0] <;> ring
      · simp only [j0, j1, j2, if_false]
        funext i
        fin_cases i <;> simp [psi4, tet4Psi, bary3, tetFace, tetReference, tet4Nodes, e0, j0, j1, j2] <;> ring

private theorem face_map (V : Fin 4 → Point 3 K) (j : Nat) (xi : Point 2 K) :
    tetMap V (triMap (tetFace tetReference j) xi) = triMap (tetFace V j) xi := by
  rw [tetMap_bary, face_psi, triMap_bary]
  funext k
  by_cases j0 : j = 0
  · simp [j0, bary4, bary3, tetFace]
    ring
  · by_cases j1 : j = 1
    · simp [j1, bary4, bary3, tetFace]
    · by_cases j2 : j = 2
      · simp [j2, bary4, bary3, tetFace]
      · simp [j0, j1, j2, bary4, bary3, tetFace]
        ring

private theorem tetJacobian_apply (V : Fin 4 → Point 3 K) (k : Fin 3) :
    tetJacobian V k 0 = (V 1 k - V 0 k) / 2 ∧ tetJacobian V k 1 = (V 2 k - V 0 k) / 2 ∧
    tetJacobian V k 2 = (V 3 k - V 0 k) / 2 := by
  refine ⟨?_, ?_, ?_⟩ <;>
  · simp [tetJacobian, referenceJacobian, Kind.geometry, Kind.numNodes, geometryGradients, tet4Gradients, tet4G,
      weightedSum]
    ring

private theorem tetMap_affine (V : Fin 4 → Point 3 K) (xi : Point 3 K) (k : Fin 3) :
    tetMap V xi k = tetMap V (fun _ => 0) k + (tetJacobian V).mulVec xi k := by
  obtain ⟨h0, h1, h2⟩ := tetJacobian_apply V k
  rw [tetMap_bary, tetMap_bary]
  simp only [bary4, psi4, Matrix.mulVec, dotProduct, Fin.sum_univ_three, h0, h1, h2, Matrix.cons_val_zero,
    Matrix.cons_val_one, Matrix.cons_val, tet4Psi]
  norm_num
  ring

private theorem not_likely4 (eps : K) (he : 0 ≤ eps) (xi : Point 3 K) (h : ¬likelyInTet eps xi = true) :
    ∃ i, psi4 xi i < 0 := by
  simp only [likelyInTet, decide_eq_true_eq] at h
  by_contra hn
  push Not at hn
  apply h
  have h0 := hn 0
  have h1 := hn 1
  have h2 := hn 2
  have h3 := hn 3
  simp [psi4, tet4Psi] at h0 h1 h2 h3
  refine ⟨?_, ?_, ?_, ?_⟩ <;> linarith

private theorem likely4 (eps : K) (xi : Point 3 K) (h : likelyInTet eps xi = true) (i : Fin 4) :
    -(eps / 2) ≤ psi4 xi i := by
  simp only [likelyInTet, decide_eq_true_eq] at h
  obtain ⟨h0, h1, h2, h3⟩ := h
  fin_cases i <;> simp [psi4, tet4Psi] <;> linarith

private theorem interior4 (eps : K) (he : 0 ≤ eps) (V : Fin 4 → Point 3 K) (p : Point 3 K) (l : Point 4 K)
    (h0 : ∀ i, 0 ≤ l i) (hs : l 0 + l 1 + l 2 + l 3 = 1) :
    (∃ xi, tetInterior eps V p = some xi) ∨
    ∃ m : Point 4 K, (∀ i, 0 ≤ m i) ∧ m 0 + m 1 + m 2 + m 3 = 1 ∧ (∃ i, m i = 0) ∧
      dist2 (bary4 V m) p ≤ dist2 (bary4 V l) p := by
  by_cases hdet : (tetJacobian V).det = 0
  · right
    obtain ⟨w, hw, hA⟩ := Matrix.exists_mulVec_eq_zero_iff.mpr hdet
    have hv : ∃ i, (![-(w 0 + w 1 + w 2), w 0, w 1, w 2] : Point 4 K) i < 0 := by
      apply exists_neg
      · simp [Fin.sum_univ_four]
        ring
      · intro h
        apply hw
        have h1 := congrFun h 1
        have h2 := congrFun h 2
        have h3 := congrFun h 3
        simp at h1 h2 h3
        funext i
        fin_cases i
        · exact h1
        · exact h2
        · exact h3
    obtain ⟨s, hall, hz⟩ := degenerate_bary _ l h0 hv
    refine ⟨_, hall, ?_, hz, ?_⟩
    · simp
      linear_combination hs
    · apply le_of_eq
      congr 1
      funext k
      obtain ⟨j0, j1, j2⟩ := tetJacobian_apply V k
      have hk := congrFun hA k
      simp only [Matrix.mulVec, dotProduct, Fin.sum_univ_three, j0, j1, j2, Pi.zero_apply] at hk
      simp [bary4]
      linear_combination 2 * s * hk
  · have hmap : tetMap V (((tetJacobian V).det⁻¹ • (tetJacobian V).adjugate).mulVec
        fun k => p k - tetMap V (fun _ => 0) k) = p := by
      funext k
      rw [tetMap_affine, Matrix.mulVec_mulVec, Matrix.mul_smul, Matrix.mul_adjugate, smul_smul, inv_mul_cancel₀ hdet,
        one_smul, Matrix.one_mulVec]
      ring
    by_cases hl : likelyInTet eps (((tetJacobian V).det⁻¹ • (tetJacobian V).adjugate).mulVec
        fun k => p k - tetMap V (fun _ => 0) k) = true
    · left
      exact ⟨_, by rw [tetInterior, tryInverse, if_neg hdet, Option.map_some, Option.filter_some, if_pos hl]⟩
    · right
      obtain ⟨s, s0, s1, hall, hz⟩ := exit_bary _ l h0 (not_likely4 eps he _ hl)
      refine ⟨_, hall, ?_, hz, ?_⟩
      · have := psi4_sum (((tetJacobian V).det⁻¹ • (tetJacobian V).adjugate).mulVec
          fun k => p k - tetMap V (fun _ => 0) k)
        simp only [lerp]
        linear_combination (1 - s) * this + s * hs
      · rw [bary4_lerp, ← tetMap_bary, hmap]
        exact dist2_lerp_le p _ s s0 s1

private theorem interior4_some (eps : K) (V : Fin 4 → Point 3 K) (p : Point 3 K) (xi : Point 3 K)
    (h : tetInterior eps V p = some xi) : tetMap V xi = p ∧ ∀ i, -(eps / 2) ≤ psi4 xi i := by
  rw [tetInterior, Option.filter_eq_some_iff] at h
  obtain ⟨h1, h2⟩ := h
  refine ⟨?_, likely4 eps xi h2⟩
  rw [tryInverse] at h1
  split at h1
  · simp at h1
  · rename_i hdet
    rw [Option.map_some, Option.some.injEq] at h1
    rw [← h1]
    funext k
    rw [tetMap_affine, Matrix.mulVec_mulVec, Matrix.mul_smul, Matrix.mul_adjugate, smul_smul, inv_mul_cancel₀ hdet,
      one_smul, Matrix.one_mulVec]
    ring

private theorem mem_basis4 (xi : Point 3 K) (b : K) (h : b ∈ tet4Basis xi) : ∃ i, b = psi4 xi i := by
  simp only [tet4Basis, List.mem_cons, List.not_mem_nil, or_false] at h
  rcases h with rfl | rfl | rfl | rfl
  · exact ⟨0, rfl⟩
  · exact ⟨1, rfl⟩
  · exact ⟨2, rfl⟩
  · exact ⟨3, rfl⟩

/-- The best candidate on the faces. -/
private theorem face_best (eps : K) (he : 0 ≤ eps) (V : Fin 4 → Point 3 K) (p : Point 3 K) :
    ∃ cs c, (List.range 4).mapM (faceCandidate eps V p) = some cs ∧ minBy (fun c => c.2.2) cs = some c ∧
      c.1 < 4 ∧ c.2.2 = dist2 (triMap (tetFace V c.1) c.2.1) p ∧ (∀ i, -(eps / 2) ≤ psi3 c.2.1 i) ∧
      ∀ j < 4, ∀ y ∈ hull [(tetFace V j).a, (tetFace V j).b, (tetFace V j).c], c.2.2 ≤ dist2 y p := by
  have hf : ∀ j, ∃ r : ClosestPoint 2 K, triClosest3 eps (tetFace V j) p = some r ∧
      (∀ y ∈ hull [(tetFace V j).a, (tetFace V j).b, (tetFace V j).c], dist2 (triMap (tetFace V j) r.point) p ≤ dist2 y p) ∧
      (∀ i, -(eps / 2) ≤ psi3 r.point i) := by
    intro j
    obtain ⟨r, h1, h2, h3, -⟩ := tri_result eps he (tetFace V j) p (triInterior3 eps (tetFace V j) p) .closestPoint
      (fun _ => rfl) (interior3 eps he _ p) (fun xi h => interior3_some eps _ p xi h)
    exact ⟨r, h1, h2, h3⟩
  obtain ⟨r, hr⟩ := Classical.axiomOfChoice hf
  have hcand : ∀ j, faceCandidate eps V p j = some (j, (r j).point, dist2 (triMap (tetFace V j) (r j).point) p) := by
    intro j
    rw [faceCandidate, (hr j).1, Option.map_some, dsq_eq, dist2_symm']
  have hm : (List.range 4).mapM (faceCandidate eps V p) =
      some ((List.range 4).map fun j => (j, (r j).point, dist2 (triMap (tetFace V j) (r j).point) p)) := by
    rw [show faceCandidate eps V p = fun j => some (j, (r j).point, dist2 (triMap (tetFace V j) (r j).point) p) from
      funext hcand]
    exact List.mapM_pure
  obtain ⟨c, hc, hmem, hmin⟩ := minBy_spec (fun c : Nat × Point 2 K × K => c.2.2)
    ((List.range 4).map fun j => (j, (r j).point, dist2 (triMap (tetFace V j) (r j).point) p)) (by simp [List.range_succ])
  obtain ⟨j, hj, rfl⟩ := List.mem_map.mp hmem
  refine ⟨_, _, hm, hc, List.mem_range.mp hj, rfl, (hr j).2.2, ?_⟩
  intro j' hj' y hy
  exact (hmin _ (List.mem_map.mpr ⟨j', List.mem_range.mpr hj', rfl⟩)).trans ((hr j').2.1 y hy)

private theorem tet_result (eps : K) (he : 0 ≤ eps) (V : Fin 4 → Point 3 K) (p : Point 3 K) :
    ∃ r, tetClosest eps V p = some r ∧
      (∀ y ∈ hull [V 0, V 1, V 2, V 3], dist2 (tetMap V r.point) p ≤ dist2 y p) ∧
      (∀ i, -(eps / 2) ≤ psi4 r.point i) ∧
      ((∃ xi, tetMap V xi = p ∧ r = .inElement xi) ∨
        ∃ j xi, j < 4 ∧ r = .closestPoint (triMap (tetFace tetReference j) xi) ∧ ∀ i, -(eps / 2) ≤ psi3 xi i) := by
  obtain ⟨cs, c, hcs, hc, hlt, hd, hpos, hle⟩ := face_best eps he V p
  have hpos' : ∀ i, -(eps / 2) ≤ psi4 (triMap (tetFace tetReference c.1) c.2.1) i := by
    have a := hpos 0
    have b := hpos 1
    have d := hpos 2
    have e : -(eps / 2) ≤ (0 : K) := by linarith
    intro i
    rw [face_psi]
    split
    · fin_cases i <;> simp <;> linarith
    · split
      · fin_cases i <;> simp <;> linarith
      · split
        · fin_cases i <;> simp <;> linarith
        · fin_cases i <;> simp <;> linarith
  rw [tetClosest, hcs, Option.bind_some, hc, Option.map_some]
  refine ⟨_, rfl, ?_⟩
  have bnd : ∀ y ∈ hull [V 0, V 1, V 2, V 3], (∃ xi, tetInterior eps V p = some xi) ∨ c.2.2 ≤ dist2 y p := by
    intro y hy
    rw [mem_hull4] at hy
    obtain ⟨l, h0, hs, rfl⟩ := hy
    rcases interior4 eps he V p l h0 hs with h | ⟨m, m0, ms, mz, hm⟩
    · exact Or.inl h
    · right
      obtain ⟨j, hj, hj'⟩ := on_face4 V m m0 ms mz
      exact (hle j hj _ hj').trans hm
  cases hi : tetInterior eps V p with
  | none =>
    refine ⟨?_, hpos', Or.inr ⟨_, _, hlt, rfl, hpos⟩⟩
    intro y hy
    show dist2 (tetMap V (triMap (tetFace tetReference c.1) c.2.1)) p ≤ _
    rw [face_map, ← hd]
    rcases bnd y hy with ⟨xi, h⟩ | h
    · rw [hi] at h
      cases h
    · exact h
  | some xi =>
    obtain ⟨e, hpsi⟩ := interior4_some eps V p xi hi
    simp only [dsq_eq]
    by_cases hlt' : dist2 (tetMap V xi) p < c.2.2
    · rw [if_pos hlt']
      refine ⟨?_, hpsi, Or.inl ⟨xi, e, rfl⟩⟩
      intro y hy
      show dist2 (tetMap V xi) p ≤ _
      rw [e, dist2_self]
      exact dist2_nn _ _
    · rw [if_neg hlt']
      refine ⟨?_, hpos', Or.inr ⟨_, _, hlt, rfl, hpos⟩⟩
      intro y hy
      show dist2 (tetMap V (triMap (tetFace tetReference c.1) c.2.1)) p ≤ _
      rw [face_map, ← hd]
      rw [e, dist2_self] at hlt'
      exact (not_lt.mp hlt').trans (dist2_nn _ _)

/-- C70: the closest-point query of a tetrahedron, degenerate or not, never panics; no point of the
tetrahedron is closer than the point it returns; the reference coordinates returned are in the reference
tetrahedron up to the tolerance, and exactly if the tolerance is zero. -/
theorem C70_tetrahedron (eps : K) (he : 0 ≤ eps) (V : Fin 4 → Point 3 K) (p : Point 3 K) :
    ∃ r, tetClosest eps V p = some r ∧
      (∀ y ∈ hull [V 0, V 1, V 2, V 3], dist2 (tetMap V r.point) p ≤ dist2 y p) ∧
      (∀ b ∈ tet4Basis r.point, -(eps / 2) ≤ b) ∧
      (eps = 0 → tetMap V r.point ∈ hull [V 0, V 1, V 2, V 3]) := by
  obtain ⟨r, h1, h2, h3, -⟩ := tet_result eps he V p
  refine ⟨r, h1, h2, ?_, ?_⟩
  · intro b hb
    obtain ⟨i, rfl⟩ := mem_basis4 _ b hb
    exact h3 i
  · rintro rfl
    rw [mem_hull4]
    refine ⟨psi4 r.point, fun i => by simpa using h3 i, psi4_sum _, ?_⟩
    rw [tetMap_bary]
    rfl

/-- C70: the answer `InElement` for a tetrahedron means that the returned coordinates are those of the query
point, and with tolerance zero every point of the tetrahedron on none of its faces gets this answer. -/
theorem C70_tetrahedron_inside (eps : K) (he : 0 ≤ eps) (V : Fin 4 → Point 3 K) (p : Point 3 K) :
    (∀ xi, tetClosest eps V p = some (.inElement xi) → tetMap V xi = p) ∧
    (eps = 0 → p ∈ hull [V 0, V 1, V 2, V 3] → (∀ j < 4, p ∉ hull [(tetFace V j).a, (tetFace V j).b, (tetFace V j).c]) →
      ∃ xi, tetClosest eps V p = some (.inElement xi)) := by
  obtain ⟨r, h1, h2, -, h4⟩ := tet_result eps he V p
  rw [h1]
  rcases h4 with ⟨xi, ho, rfl⟩ | ⟨j, xi, hj, rfl, hpos⟩
  · refine ⟨?_, fun _ _ _ => ⟨xi, rfl⟩⟩
    intro xi' h
    cases h
    exact ho
  · refine ⟨fun xi' h => (by cases h), ?_⟩
    rintro rfl hp hno
    exfalso
    have := h2 p hp
    rw [dist2_self] at this
    have e := eq_of_dist2 _ _ this
    simp only [ClosestPoint.point] at e
    rw [face_map] at e
    exact hno j hj (e ▸ inTri_of_psi (tetFace V j) xi fun i => by simpa using hpos i)

/-! ### Concrete cases -/

/-- The centre of a triangle is inside, with reference coordinates `(-1/3, -1/3)`; a degenerate
triangle answers with a point on an edge. -/
example : (triClosest2 (0 : ℚ) ⟨![0, 0], ![3, 0], ![0, 3]⟩ ![1, 1]).map ClosestPoint.point = some ![-1 / 3, -1 / 3] := by
  decide +kernel

example : (triClosest2 (0 : ℚ) ⟨![0, 0], ![1, 0], ![2, 0]⟩ ![2, 1]).map ClosestPoint.point = some ![-1, 1] := by
  decide +kernel

example : (tetClosest (0 : ℚ) (fun i => [![0, 0, 0], ![2, 0, 0], ![0, 2, 0], ![0, 0, 2]].getD i 0) ![1, 1, -1]).map
    ClosestPoint.point = some ![0, 0, -1] := by
  decide +kernel

end Fenris.Closest
