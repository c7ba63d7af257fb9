import Verif.Spec.SpatialIndex
import Verif.Props.ClosestPoint
import Verif.Props.Aabb
/-! # C54: closest-element search over the spatial index -/
set_option autoImplicit false
set_option linter.unusedSectionVars false

namespace Fenris.Index
open Fenris.Geometry Fenris.Geometry.Aabb Fenris.Closest Fenris.Spec
variable {K : Type} [Field K] [LinearOrder K] [IsStrictOrderedRing K] {d r : Nat}

private theorem nsq (x p : Point d K) : (normSq fun k => x k - p k) = dist2 x p := by
  simp only [normSq, dist2, sq]

private theorem mem_takeWhile {α : Type} (key : α → K) (m : K) (l : List α)
    (hl : l.Pairwise fun a b => key a ≤ key b) (a : α) (ha : a ∈ l) (h : key a ≤ m) :
    a ∈ l.takeWhile fun x => decide (key x ≤ m) := by
  induction l with
  | nil => simp at ha
  | cons x l ih =>
    rw [List.pairwise_cons] at hl
    have hx : key x ≤ m := by
      rcases List.mem_cons.mp ha with rfl | ha
      · exact h
      · exact (hl.1 a ha).trans h
    rw [List.takeWhile_cons_of_pos (by simpa using hx)]
    rcases List.mem_cons.mp ha with rfl | ha
    · exact List.mem_cons_self
    · exact List.mem_cons_of_mem _ (ih hl.2 ha)

private theorem entries_of (S : IndexSpace d r K) (elem : Nat → Set (Point d K)) (hS : AnswersQueries S elem) :
    ∃ entries, fromSpace S = some entries ∧ (∀ e ∈ entries, e.2 < S.numElements ∧ ValidBox e.1 ∧ ∀ y ∈ elem e.2, InAabb e.1 y) ∧
      ∀ i < S.numElements, ∃ b, (b, i) ∈ entries := by
  have h1 : ∀ i, i < S.numElements → ∃ c : Aabb d K, entry S i = some (c, i) ∧ ValidBox c ∧ ∀ y ∈ elem i, InAabb c y := by
    intro i hi
    obtain ⟨b, hb, hv, hin⟩ := hS.bounds i hi
    obtain ⟨c, hc, hcv, -, -, hle⟩ := C45_scale b hv (101 / 100) (by norm_num)
    refine ⟨c, by rw [entry, hb, Option.bind_some, hc, Option.map_some], hcv, fun y hy => hle (by norm_num) y (hin y hy)⟩
  have : Nonempty (Aabb d K) := ⟨⟨0, 0⟩⟩
  choose! c hc using h1
  have hm : fromSpace S = some ((List.range S.numElements).map fun i => (c i, i)) := by
    have : ∀ l : List Nat, (∀ i ∈ l, i < S.numElements) → l.mapM (entry S) = some (l.map fun i => (c i, i)) := by
      intro l hl
      induction l with
      | nil => rfl
      | cons a l ih =>
        rw [List.mapM_cons, (hc a (hl a List.mem_cons_self)).1, ih fun i hi => hl i (List.mem_cons_of_mem _ hi)]
        rfl
    exact this _ fun i hi => List.mem_range.mp hi
  refine ⟨_, hm, ?_, ?_⟩
  · intro e he
    obtain ⟨i, hi, rfl⟩ := List.mem_map.mp he
    have hi' := List.mem_range.mp hi
    exact ⟨hi', (hc i hi').2⟩
  · intro i hi
    exact ⟨c i, List.mem_map.mpr ⟨i, List.mem_range.mpr hi, rfl⟩⟩

/-- `(i, xi)` is the answer of element `i`, at squared distance `δ`. -/
private def Answer (S : IndexSpace d r K) (p : Point d K) (i : Nat) (xi : Point r K) (δ : K) : Prop :=
  i < S.numElements ∧ ∃ c x, S.closest i p = some c ∧ c.point = xi ∧ S.map i xi = some x ∧ δ = dist2 x p

private theorem loop_spec (S : IndexSpace d r K) (elem : Nat → Set (Point d K)) (hS : AnswersQueries S elem)
    (p : Point d K) (is : List Nat) (his : ∀ i ∈ is, i < S.numElements) (best : Option (K × Nat × Point r K))
    (hb : ∀ δ i xi, best = some (δ, i, xi) → Answer S p i xi δ) :
    ∃ res, findLoop S p best is = some res ∧
      ((res = none ∧ best = none ∧ is = []) ∨
        ∃ i xi δ, res = some (i, xi) ∧ Answer S p i xi δ ∧ (∀ δ' j eta, best = some (δ', j, eta) → δ ≤ δ') ∧
          ∀ j ∈ is, ∀ y ∈ elem j, δ ≤ dist2 y p) := by
  induction is generalizing best with
  | nil =>
    refine ⟨_, rfl, ?_⟩
    cases best with
    | none => exact Or.inl ⟨rfl, rfl, rfl⟩
    | some b =>
      obtain ⟨δ, i, xi⟩ := b
      refine Or.inr ⟨i, xi, δ, rfl, hb δ i xi rfl, ?_, by simp⟩
      rintro δ' j eta h
      obtain ⟨rfl, -⟩ := Prod.mk.inj (Option.some.inj h)
      exact le_rfl
  | cons i is ih =>
    have hi := his i List.mem_cons_self
    obtain ⟨c, x, hc, hx, hmin, hin⟩ := hS.closest i hi p
    rw [findLoop, hc]
    cases c with
    | inElement xi =>
      have hxp := hin xi rfl
      refine ⟨_, rfl, Or.inr ⟨i, xi, dist2 x p, rfl, ⟨hi, _, x, hc, rfl, hx, rfl⟩, ?_, ?_⟩⟩
      · intro δ' j eta h
        obtain ⟨-, -, x', -, -, -, rfl⟩ := hb δ' j eta h
        rw [hxp]
        simp only [dist2, sub_self, ne_eq, OfNat.ofNat_ne_zero, not_false_eq_true, zero_pow, Finset.sum_const_zero]
        exact Finset.sum_nonneg fun _ _ => sq_nonneg _
      · intro j _ y _
        rw [hxp]
        simp only [dist2, sub_self, ne_eq, OfNat.ofNat_ne_zero, not_false_eq_true, zero_pow, Finset.sum_const_zero]
        exact Finset.sum_nonneg fun _ _ => sq_nonneg _
    | closestPoint xi =>
      have hx' : S.map i xi = some x := hx
      simp only [hx', nsq]
      have hA : Answer S p i xi (dist2 x p) := ⟨hi, _, x, hc, rfl, hx', rfl⟩
      have hbet : ∃ δ j eta, better (dist2 x p) i xi best = some (δ, j, eta) ∧ Answer S p j eta δ ∧ δ ≤ dist2 x p ∧
          ∀ δ' j' eta', best = some (δ', j', eta') → δ ≤ δ' := by
        cases best with
        | none => exact ⟨_, _, _, rfl, hA, le_rfl, by simp⟩
        | some b =>
          obtain ⟨d2, j, eta⟩ := b
          rw [better]
          by_cases h : dist2 x p ≤ d2
          · rw [if_pos h]
            refine ⟨_, _, _, rfl, hA, le_rfl, ?_⟩
            intro δ' j' eta' h'
            obtain ⟨rfl, -⟩ := Prod.mk.inj (Option.some.inj h')
            exact h
          · rw [if_neg h]
            refine ⟨_, _, _, rfl, hb d2 j eta rfl, (not_le.mp h).le, ?_⟩
            intro δ' j' eta' h'
            obtain ⟨rfl, -⟩ := Prod.mk.inj (Option.some.inj h')
            exact le_rfl
      obtain ⟨δ, j, eta, hbe, hAj, hle, hle'⟩ := hbet
      obtain ⟨res, h1, h2⟩ := ih (fun i hi => his i (List.mem_cons_of_mem _ hi)) (better (dist2 x p) i xi best) (by
        intro δ' i' xi' h
        rw [hbe] at h
        cases h
        exact hAj)
      refine ⟨res, h1, ?_⟩
      rcases h2 with ⟨-, h, -⟩ | ⟨i', xi', δ', hr, hA', hb', hall⟩
      · rw [hbe] at h
        cases h
      · have hδ := hb' δ j eta hbe
        refine Or.inr ⟨i', xi', δ', hr, hA', fun a b e h => hδ.trans (hle' a b e h), ?_⟩
        intro j' hj' y hy
        rcases List.mem_cons.mp hj' with rfl | hj'
        · exact hδ.trans (hle.trans (hmin y hy))
        · exact hall j' hj' y hy

/-- C54: the search over the index never panics.  It returns `None` exactly for a space without elements;
otherwise it returns an element together with the answer of that element's own closest-point query, and no point
of any element of the space is closer to the query point.  If the query point is in some element, the returned
coordinates are those of the query point. -/
theorem C54_closest_element (S : IndexSpace d r K) (elem : Nat → Set (Point d K)) (hS : AnswersQueries S elem)
    (nn : List (Aabb d K × Nat) → Point d K → List (Aabb d K × Nat)) (hnn : NearestFirst nn) (p : Point d K) :
    ∃ entries res, fromSpace S = some entries ∧ find S nn entries p = some res ∧
      (res = none ↔ S.numElements = 0) ∧
      ∀ i xi, res = some (i, xi) →
        i < S.numElements ∧ (∃ c, S.closest i p = some c ∧ c.point = xi) ∧
        ∃ x, S.map i xi = some x ∧ (∀ j < S.numElements, ∀ y ∈ elem j, dist2 x p ≤ dist2 y p) ∧
          ((∃ j < S.numElements, p ∈ elem j) → x = p) := by
  obtain ⟨entries, he, hent, hall⟩ := entries_of S elem hS
  obtain ⟨hperm, hsort⟩ := hnn entries p
  have hcand : (∀ i ∈ candidates p (nn entries p), i < S.numElements) ∧
      ((nn entries p) = [] → candidates p (nn entries p) = []) ∧
      ∀ j < S.numElements, ∃ i ∈ candidates p (nn entries p), ∃ y₀ ∈ elem i, j = i ∨ ∀ y ∈ elem j, dist2 y₀ p ≤ dist2 y p := by
    refine ⟨?_, fun h => by rw [h]; rfl, ?_⟩
    · intro i hi
      cases hl : nn entries p with
      | nil =>
        rw [hl] at hi
        simp [candidates] at hi
      | cons e es =>
        rw [hl] at hi
        simp only [candidates] at hi
        obtain ⟨a, ha, rfl⟩ := List.mem_map.mp hi
        have ha' : a ∈ nn entries p := by
          rw [hl]
          exact (List.takeWhile_sublist _).subset ha
        exact (hent a (hperm.mem_iff.mp ha')).1
    · intro j hj
      obtain ⟨b, hb⟩ := hall j hj
      have hb' := hperm.mem_iff.mpr hb
      cases hl : nn entries p with
      | nil =>
        rw [hl] at hb'
        simp at hb'
      | cons e es =>
        rw [hl] at hb' hsort
        have hee : e ∈ entries := hperm.mem_iff.mp (by rw [hl]; exact List.mem_cons_self)
        obtain ⟨hei, hev, hein⟩ := hent e hee
        obtain ⟨y₀, hy₀⟩ := hS.nonempty _ hei
        obtain ⟨-, hfar, hfeq⟩ := C46_furthest_point e.1 hev p
        have hmax : dist2 y₀ p ≤ e.1.maxDist2To p := by
          rw [hfeq]
          exact hfar y₀ (hein y₀ hy₀)
        have hin : e ∈ (e :: es).takeWhile fun a => decide (a.1.dist2To p ≤ e.1.maxDist2To p) :=
          mem_takeWhile (fun a => a.1.dist2To p) _ _ hsort e List.mem_cons_self
            (((C46_dist2 e.1 hev p).2.1 y₀ (hein y₀ hy₀)).trans hmax)
        by_cases hjb : b.dist2To p ≤ e.1.maxDist2To p
        · obtain ⟨y, hy⟩ := hS.nonempty j hj
          refine ⟨j, List.mem_map.mpr ⟨(b, j), mem_takeWhile (fun a => a.1.dist2To p) _ _ hsort (b, j) hb' hjb, rfl⟩,
            y, hy, Or.inl rfl⟩
        · refine ⟨e.2, List.mem_map.mpr ⟨e, hin, rfl⟩, y₀, hy₀, Or.inr fun y hy => ?_⟩
          have h1 := (C46_dist2 b (hent _ hb).2.1 p).2.1 y ((hent _ hb).2.2 y hy)
          exact hmax.trans ((not_le.mp hjb).le.trans h1)
  obtain ⟨hc1, hc2, hc3⟩ := hcand
  obtain ⟨res, hres, hr⟩ := loop_spec S elem hS p _ hc1 none (by simp)
  refine ⟨entries, res, he, hres, ?_, ?_⟩
  · constructor
    · rintro rfl
      rcases hr with ⟨-, -, h⟩ | ⟨i, xi, δ, h, -⟩
      · by_contra h0
        obtain ⟨i, hi, -⟩ := hc3 0 (Nat.pos_of_ne_zero h0)
        rw [h] at hi
        simp at hi
      · cases h
    · intro h0
      rcases hr with ⟨h, -⟩ | ⟨i, xi, δ, -, hA, -⟩
      · exact h
      · have := hA.1
        omega
  · rintro i xi rfl
    rcases hr with ⟨h, -⟩ | ⟨i', xi', δ, h, hA, -, hmin⟩
    · cases h
    · obtain ⟨rfl, rfl⟩ := Prod.mk.inj (Option.some.inj h)
      obtain ⟨hi, c, x, h1, h2, h3, rfl⟩ := hA
      have hle : ∀ j < S.numElements, ∀ y ∈ elem j, dist2 x p ≤ dist2 y p := by
        intro j hj y hy
        obtain ⟨k, hk, y₀, hy₀, hor⟩ := hc3 j hj
        rcases hor with rfl | hor
        · exact hmin _ hk y hy
        · exact (hmin k hk y₀ hy₀).trans (hor y hy)
      refine ⟨hi, ⟨c, h1, h2⟩, x, h3, hle, ?_⟩
      rintro ⟨j, hj, hp⟩
      have h0 := hle j hj p hp
      have hz : dist2 p p = 0 := by simp [dist2]
      rw [hz] at h0
      have hz' := le_antisymm h0 (Finset.sum_nonneg fun _ _ => sq_nonneg _)
      funext k
      have := (Finset.sum_eq_zero_iff_of_nonneg (fun i _ => sq_nonneg (x i - p i))).mp hz' k (Finset.mem_univ k)
      exact sub_eq_zero.mp (pow_eq_zero_iff two_ne_zero |>.mp this)

/-! ### The meshes of the library -/

/-- The convex hull of the vertices of a cell. -/
private def cellHull (mesh : Mesh (Point d K)) (i : Nat) : Set (Point d K) :=
  hull (((mesh.cells[i]?).getD []).map fun v => (mesh.vertices[v]?).getD 0)

private theorem cellPoints_of (n : Nat) (mesh : Mesh (Point d K)) (h : CellsOf n mesh) (i : Nat) (hi : i < mesh.cells.length) :
    cellPoints mesh i = some (((mesh.cells[i]?).getD []).map fun v => (mesh.vertices[v]?).getD 0) ∧
    (((mesh.cells[i]?).getD []).map fun v => (mesh.vertices[v]?).getD 0).length = n := by
  obtain ⟨h1, h2⟩ := h _ (List.getElem_mem hi)
  rw [cellPoints, List.getElem?_eq_getElem hi]
  simp only [Option.bind_some, Option.getD_some, List.length_map]
  refine ⟨?_, h1⟩
  revert h2
  generalize mesh.cells[i] = l
  intro h2
  clear h1
  induction l with
  | nil => rfl
  | cons a l ih =>
    rw [List.mapM_cons, ih fun v hv => h2 v (List.mem_cons_of_mem _ hv),
      List.getElem?_eq_getElem (h2 a List.mem_cons_self), List.map_cons,
      List.getElem?_eq_getElem (h2 a List.mem_cons_self)]
    rfl

private theorem inAabb_convex (b : Aabb d K) : Convex K {y | InAabb b y} := by
  intro x hx y hy u v hu hv huv i
  have h1 := hx i
  have h2 := hy i
  simp only [Pi.add_apply, Pi.smul_apply, smul_eq_mul]
  constructor
  · calc b.min i = u * b.min i + v * b.min i := by rw [← add_mul, huv, one_mul]
      _ ≤ _ := add_le_add (mul_le_mul_of_nonneg_left h1.1 hu) (mul_le_mul_of_nonneg_left h2.1 hv)
  · calc u * x i + v * y i ≤ u * b.max i + v * b.max i :=
        add_le_add (mul_le_mul_of_nonneg_left h1.2 hu) (mul_le_mul_of_nonneg_left h2.2 hv)
      _ = _ := by rw [← add_mul, huv, one_mul]

private theorem bounds_of (n : Nat) (hn : 0 < n) (mesh : Mesh (Point d K)) (h : CellsOf n mesh) (i : Nat)
    (hi : i < mesh.cells.length) :
    (cellHull mesh i).Nonempty ∧
    ∃ b, cellBounds mesh i = some b ∧ ValidBox b ∧ ∀ y ∈ cellHull mesh i, InAabb b y := by
  obtain ⟨h1, h2⟩ := cellPoints_of n mesh h i hi
  rw [cellBounds, h1, Option.bind_some, cellHull]
  revert h2
  generalize ((mesh.cells[i]?).getD []).map (fun v => (mesh.vertices[v]?).getD 0) = ps
  intro h2
  rcases C45_from_points ps with ⟨rfl, -⟩ | ⟨hne, b, hb, hv, hin, -⟩
  · simp at h2
    omega
  · refine ⟨?_, b, by rw [hb]; rfl, hv, ?_⟩
    · obtain ⟨x, hx⟩ := List.exists_mem_of_ne_nil _ hne
      exact ⟨x, subset_convexHull K _ hx⟩
    · intro y hy
      exact convexHull_min (fun v hv => hin v hv) (inAabb_convex b) hy

/-- Every well-formed mesh of triangles in the plane, including degenerate ones, answers its queries. -/
theorem triSpace2_answers (eps : K) (he : 0 ≤ eps) (mesh : Mesh (Point 2 K)) (h : CellsOf 3 mesh) :
    AnswersQueries (triSpace2 eps mesh) fun i => hull (((mesh.cells[i]?).getD []).map fun v => (mesh.vertices[v]?).getD 0) where
  nonempty i hi := (bounds_of 3 (by norm_num) mesh h i hi).1
  bounds i hi := (bounds_of 3 (by norm_num) mesh h i hi).2
  closest i hi p := by
    obtain ⟨h1, h2⟩ := cellPoints_of 3 mesh h i hi
    simp only [triSpace2, h1, Option.bind_some]
    obtain ⟨a, b, c, e⟩ := List.length_eq_three.mp h2
    simp only [e, toTri, Option.bind_some, Option.map_some]
    obtain ⟨r, h3, h4, -⟩ := C70_triangle_2d eps he ⟨a, b, c⟩ p
    refine ⟨r, _, h3, rfl, h4, ?_⟩
    rintro xi rfl
    exact (C70_triangle_2d_inside eps he ⟨a, b, c⟩ p).1 xi h3

theorem triSpace3_answers (eps : K) (he : 0 ≤ eps) (mesh : Mesh (Point 3 K)) (h : CellsOf 3 mesh) :
    AnswersQueries (triSpace3 eps mesh) fun i => hull (((mesh.cells[i]?).getD []).map fun v => (mesh.vertices[v]?).getD 0) where
  nonempty i hi := (bounds_of 3 (by norm_num) mesh h i hi).1
  bounds i hi := (bounds_of 3 (by norm_num) mesh h i hi).2
  closest i hi p := by
    obtain ⟨h1, h2⟩ := cellPoints_of 3 mesh h i hi
    simp only [triSpace3, h1, Option.bind_some]
    obtain ⟨a, b, c, e⟩ := List.length_eq_three.mp h2
    simp only [e, toTri, Option.bind_some, Option.map_some]
    obtain ⟨r, h3, h4, -⟩ := C70_triangle_3d eps he ⟨a, b, c⟩ p
    refine ⟨r, _, h3, rfl, h4, ?_⟩
    rintro xi rfl
    exact absurd h3 (C70_triangle_3d_never_inside eps ⟨a, b, c⟩ p xi)

theorem tetSpace_answers (eps : K) (he : 0 ≤ eps) (mesh : Mesh (Point 3 K)) (h : CellsOf 4 mesh) :
    AnswersQueries (tetSpace eps mesh) fun i => hull (((mesh.cells[i]?).getD []).map fun v => (mesh.vertices[v]?).getD 0) where
  nonempty i hi := (bounds_of 4 (by norm_num) mesh h i hi).1
  bounds i hi := (bounds_of 4 (by norm_num) mesh h i hi).2
  closest i hi p := by
    obtain ⟨h1, h2⟩ := cellPoints_of 4 mesh h i hi
    simp only [tetSpace, h1, Option.bind_some]
    revert h2
    generalize ((mesh.cells[i]?).getD []).map (fun v => (mesh.vertices[v]?).getD 0) = ps
    intro h2
    match ps, h2 with
    | [a, b, c, e], _ =>
      simp only [toTet, Option.bind_some, Option.map_some]
      obtain ⟨r, h3, h4, -⟩ := C70_tetrahedron eps he ![a, b, c, e] p
      refine ⟨r, _, h3, rfl, h4, ?_⟩
      rintro xi rfl
      exact (C70_tetrahedron_inside eps he ![a, b, c, e] p).1 xi h3

/-- C54 for meshes of triangles in the plane: the search never panics and returns `None` only for a mesh
without cells; no point of any triangle of the mesh is closer than the point found. -/
theorem C54_triangle_mesh_2d (eps : K) (he : 0 ≤ eps) (mesh : Mesh (Point 2 K)) (h : CellsOf 3 mesh)
    (nn : List (Aabb 2 K × Nat) → Point 2 K → List (Aabb 2 K × Nat)) (hnn : NearestFirst nn) (p : Point 2 K) :
    ∃ entries res, fromSpace (triSpace2 eps mesh) = some entries ∧ find (triSpace2 eps mesh) nn entries p = some res ∧
      (res = none ↔ mesh.cells = []) ∧
      ∀ i xi, res = some (i, xi) → ∃ x, (triSpace2 eps mesh).map i xi = some x ∧
        ∀ (j : Nat) (a b c : Nat), mesh.cells[j]? = some [a, b, c] → ∀ A B C, mesh.vertices[a]? = some A →
          mesh.vertices[b]? = some B → mesh.vertices[c]? = some C → ∀ y ∈ hull [A, B, C], dist2 x p ≤ dist2 y p := by
  obtain ⟨entries, res, h1, h2, h3, h4⟩ := C54_closest_element _ _ (triSpace2_answers eps he mesh h) nn hnn p
  refine ⟨entries, res, h1, h2, h3.trans List.length_eq_zero_iff, ?_⟩
  intro i xi hr
  obtain ⟨-, -, x, h5, h6, -⟩ := h4 i xi hr
  refine ⟨x, h5, ?_⟩
  intro j a b c hj A B C hA hB hC y hy
  have hlt : j < mesh.cells.length := (List.getElem?_eq_some_iff.mp hj).1
  exact h6 j hlt y (by simpa [hj, hA, hB, hC] using hy)

/-- C54 for meshes of triangles in space. -/
theorem C54_triangle_mesh_3d (eps : K) (he : 0 ≤ eps) (mesh : Mesh (Point 3 K)) (h : CellsOf 3 mesh)
    (nn : List (Aabb 3 K × Nat) → Point 3 K → List (Aabb 3 K × Nat)) (hnn : NearestFirst nn) (p : Point 3 K) :
    ∃ entries res, fromSpace (triSpace3 eps mesh) = some entries ∧ find (triSpace3 eps mesh) nn entries p = some res ∧
      (res = none ↔ mesh.cells = []) ∧
      ∀ i xi, res = some (i, xi) → ∃ x, (triSpace3 eps mesh).map i xi = some x ∧
        ∀ (j : Nat) (a b c : Nat), mesh.cells[j]? = some [a, b, c] → ∀ A B C, mesh.vertices[a]? = some A →
          mesh.vertices[b]? = some B → mesh.vertices[c]? = some C → ∀ y ∈ hull [A, B, C], dist2 x p ≤ dist2 y p := by
  obtain ⟨entries, res, h1, h2, h3, h4⟩ := C54_closest_element _ _ (triSpace3_answers eps he mesh h) nn hnn p
  refine ⟨entries, res, h1, h2, h3.trans List.length_eq_zero_iff, ?_⟩
  intro i xi hr
  obtain ⟨-, -, x, h5, h6, -⟩ := h4 i xi hr
  refine ⟨x, h5, ?_⟩
  intro j a b c hj A B C hA hB hC y hy
  have hlt : j < mesh.cells.length := (List.getElem?_eq_some_iff.mp hj).1
  exact h6 j hlt y (by simpa [hj, hA, hB, hC] using hy)

/-- C54 for meshes of tetrahedra. -/
theorem C54_tetrahedron_mesh (eps : K) (he : 0 ≤ eps) (mesh : Mesh (Point 3 K)) (h : CellsOf 4 mesh)
    (nn : List (Aabb 3 K × Nat) → Point 3 K → List (Aabb 3 K × Nat)) (hnn : NearestFirst nn) (p : Point 3 K) :
    ∃ entries res, fromSpace (tetSpace eps mesh) = some entries ∧ find (tetSpace eps mesh) nn entries p = some res ∧
      (res = none ↔ mesh.cells = []) ∧
      ∀ i xi, res = some (i, xi) → ∃ x, (tetSpace eps mesh).map i xi = some x ∧
        ∀ (j : Nat) (a b c e : Nat), mesh.cells[j]? = some [a, b, c, e] → ∀ A B C E, mesh.vertices[a]? = some A →
          mesh.vertices[b]? = some B → mesh.vertices[c]? = some C → mesh.vertices[e]? = some E →
          ∀ y ∈ hull [A, B, C, E], dist2 x p ≤ dist2 y p := by
  obtain ⟨entries, res, h1, h2, h3, h4⟩ := C54_closest_element _ _ (tetSpace_answers eps he mesh h) nn hnn p
  refine ⟨entries, res, h1, h2, h3.trans List.length_eq_zero_iff, ?_⟩
  intro i xi hr
  obtain ⟨-, -, x, h5, h6, -⟩ := h4 i xi hr
  refine ⟨x, h5, ?_⟩
  intro j a b c e hj A B C E hA hB hC hE y hy
  have hlt : j < mesh.cells.length := (List.getElem?_eq_some_iff.mp hj).1
  exact h6 j hlt y (by simpa [hj, hA, hB, hC, hE] using hy)

/-! ### Concrete cases -/

/-- The specification of the iterator can be met: sort the entries by distance. -/
theorem nearestFirst_exists : ∃ nn : List (Aabb d K × Nat) → Point d K → List (Aabb d K × Nat), NearestFirst nn := by
  refine ⟨fun es p => es.mergeSort fun a b => decide (a.1.dist2To p ≤ b.1.dist2To p), fun es p =>
    ⟨List.mergeSort_perm _ _, ?_⟩⟩
  have := List.pairwise_mergeSort (le := fun a b : Aabb d K × Nat => decide (a.1.dist2To p ≤ b.1.dist2To p))
    (fun a b c h1 h2 => by
      simp only [decide_eq_true_eq] at *
      exact h1.trans h2)
    (fun a b => by
      simp only [Bool.or_eq_true, decide_eq_true_eq]
      exact le_total _ _) es
  simpa only [decide_eq_true_eq] using this

/-- Two triangles of a unit square. -/
private def square : Mesh (Point 2 ℚ) := ⟨[![0, 0], ![1, 0], ![1, 1], ![0, 1]], [[0, 1, 2], [0, 2, 3]]⟩

example : CellsOf 3 square := by
  intro c hc
  simp only [square, List.mem_cons, List.not_mem_nil, or_false] at hc
  rcases hc with rfl | rfl <;> simp [square]

/-- The point `(1/4, 3/4)` is in the second triangle. -/
example : ((fromSpace (triSpace2 0 square)).bind fun es =>
    find (triSpace2 0 square) (fun es _ => es) es ![1 / 4, 3 / 4]).map (·.map (·.1)) = some (some 1) := by
  decide +kernel

end Fenris.Index
