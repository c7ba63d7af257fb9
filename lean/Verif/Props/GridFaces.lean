import Verif.Props.Procedural
import Verif.Props.PatchTestRules
import Mathlib.Tactic.IntervalCases
/-! # C94: uniform quadrilateral and hexahedral meshes are conforming -/
set_option autoImplicit false
set_option linter.unusedSectionVars false

namespace Fenris.GridFaces
open Fenris Element Procedural Surface Surface.Spec Fenris.Spec

/-! ## Hexahedra -/

/-- The faces of the lattice cube `(i, j, k)`. -/
private def hexFace (vid : Nat → Nat → Nat → Nat) : Nat → Nat → Nat → Nat → List Nat
  | 0, i, j, k => [vid i (j + 1) k, vid (i + 1) (j + 1) k, vid (i + 1) j k, vid i j k]
  | 1, i, j, k => [vid i j k, vid (i + 1) j k, vid (i + 1) j (k + 1), vid i j (k + 1)]
  | 2, i, j, k => [vid (i + 1) j k, vid (i + 1) (j + 1) k, vid (i + 1) (j + 1) (k + 1), vid (i + 1) j (k + 1)]
  | 3, i, j, k => [vid (i + 1) (j + 1) k, vid i (j + 1) k, vid i (j + 1) (k + 1), vid (i + 1) (j + 1) (k + 1)]
  | 4, i, j, k => [vid i j (k + 1), vid i (j + 1) (k + 1), vid i (j + 1) k, vid i j k]
  | _, i, j, k => [vid (i + 1) j (k + 1), vid (i + 1) (j + 1) (k + 1), vid i (j + 1) (k + 1), vid i j (k + 1)]

/-- Four times the centre of a face. -/
private def hexKey : Nat → Nat → Nat → Nat → Nat × Nat × Nat
  | 0, i, j, k => (4 * i + 2, 4 * j + 2, 4 * k)
  | 1, i, j, k => (4 * i + 2, 4 * j, 4 * k + 2)
  | 2, i, j, k => (4 * i + 4, 4 * j + 2, 4 * k + 2)
  | 3, i, j, k => (4 * i + 2, 4 * j + 4, 4 * k + 2)
  | 4, i, j, k => (4 * i, 4 * j + 2, 4 * k + 2)
  | _, i, j, k => (4 * i + 2, 4 * j + 2, 4 * k + 4)

/-- The cube and the number of its face on the other side of a face. -/
private def hexPartner : Nat → Nat → Nat → Nat → Nat × Nat × Nat × Nat
  | 0, i, j, k => (5, i, j, k - 1)
  | 1, i, j, k => (3, i, j - 1, k)
  | 2, i, j, k => (4, i + 1, j, k)
  | 3, i, j, k => (1, i, j + 1, k)
  | 4, i, j, k => (2, i - 1, j, k)
  | _, i, j, k => (0, i, j, k + 1)

private theorem hexKey_eq {l i j k l' i' j' k' : Nat} (hl : l < 6) (hl' : l' < 6) (h : hexKey l' i' j' k' = hexKey l i j k) :
    (l', i', j', k') = (l, i, j, k) ∨ (l', i', j', k') = hexPartner l i j k := by
  interval_cases l <;> interval_cases l' <;> simp only [hexKey, hexPartner, Prod.mk.injEq, true_and, reduceCtorEq, OfNat.ofNat_ne_zero, Nat.reduceEqDiff, false_and, or_false, false_or] at h ⊢ <;> omega

private theorem hex_opposite (vid : Nat → Nat → Nat → Nat) {l i j k l' i' j' k' : Nat} (hl : l < 6) (h : hexKey l' i' j' k' = hexKey l i j k)
    (hp : (l', i', j', k') = hexPartner l i j k) : Opposite (hexFace vid l i j k) (hexFace vid l' i' j' k') := by
  right
  interval_cases l <;> simp only [hexPartner, Prod.mk.injEq] at hp <;> obtain ⟨rfl, rfl, rfl, rfl⟩ := hp <;>
    simp only [hexKey, Prod.mk.injEq] at h
  · obtain ⟨k, rfl⟩ : ∃ m, k = m + 1 := ⟨k - 1, by omega⟩
    exact ⟨by simp [hexFace], 1, rfl⟩
  · obtain ⟨j, rfl⟩ : ∃ m, j = m + 1 := ⟨j - 1, by omega⟩
    exact ⟨by simp [hexFace], 2, rfl⟩
  · exact ⟨by simp [hexFace], 0, rfl⟩
  · exact ⟨by simp [hexFace], 2, rfl⟩
  · obtain ⟨i, rfl⟩ : ∃ m, i = m + 1 := ⟨i - 1, by omega⟩
    exact ⟨by simp [hexFace], 0, rfl⟩
  · exact ⟨by simp [hexFace], 1, rfl⟩

private theorem perm_sum (W : Nat → Nat) {f g : List Nat} (h : f.Perm g) : (f.map W).sum = (g.map W).sum := (h.map W).sum_eq

/-- The faces of a mesh of lattice cubes. -/
private structure HexGrid (nx ny nz : Nat) (vid : Nat → Nat → Nat → Nat) (cells : List (List Nat)) : Prop where
  inj : ∀ i j k i' j' k', i ≤ nx → i' ≤ nx → j ≤ ny → j' ≤ ny → vid i j k = vid i' j' k' → i = i' ∧ j = j' ∧ k = k'
  cell : ∀ i j k, i < nx → j < ny → k < nz → cells[nx * ny * k + (nx * j + i)]? =
    some [vid i j k, vid (i + 1) j k, vid (i + 1) (j + 1) k, vid i (j + 1) k, vid i j (k + 1), vid (i + 1) j (k + 1),
      vid (i + 1) (j + 1) (k + 1), vid i (j + 1) (k + 1)]
  length : cells.length = nx * ny * nz

variable {nx ny nz : Nat} {vid : Nat → Nat → Nat → Nat} {cells : List (List Nat)}

private theorem HexGrid.isFace (h : HexGrid nx ny nz vid cells) (c l : Nat) (f : List Nat) : IsFace (facesOf .hex8) cells c l f ↔
    ∃ i j k, i < nx ∧ j < ny ∧ k < nz ∧ c = nx * ny * k + (nx * j + i) ∧ l < 6 ∧ f = hexFace vid l i j k := by
  have key : ∀ i j k, (facesOf .hex8 [vid i j k, vid (i + 1) j k, vid (i + 1) (j + 1) k, vid i (j + 1) k, vid i j (k + 1),
      vid (i + 1) j (k + 1), vid (i + 1) (j + 1) (k + 1), vid i (j + 1) (k + 1)]) = (List.range 6).map fun l => hexFace vid l i j k :=
    fun i j k => rfl
  constructor
  · rintro ⟨cell, hc, hf⟩
    have hlt := (List.getElem?_eq_some_iff.1 hc).1
    rw [h.length] at hlt
    obtain ⟨q, k, hq, hk, rfl⟩ := mul_add_decomp hlt
    obtain ⟨i, j, hi, hj, rfl⟩ := mul_add_decomp hq
    rw [h.cell i j k hi hj hk] at hc
    obtain rfl := Option.some.inj hc
    rw [key, List.getElem?_map, Option.map_eq_some_iff] at hf
    obtain ⟨l', hl', rfl⟩ := hf
    obtain ⟨h6, rfl⟩ := List.getElem?_eq_some_iff.1 hl'
    simp only [List.length_range] at h6
    exact ⟨i, j, k, hi, hj, hk, rfl, h6, by rw [List.getElem_range]⟩
  · rintro ⟨i, j, k, hi, hj, hk, rfl, hl, rfl⟩
    exact ⟨_, h.cell i j k hi hj hk, by rw [key, List.getElem?_map, List.getElem?_range hl]; rfl⟩

private theorem HexGrid.key (h : HexGrid nx ny nz vid cells) {l i j k l' i' j' k' : Nat} (hi : i < nx) (hj : j < ny)
    (hi' : i' < nx) (hj' : j' < ny) (hl : l < 6) (hl' : l' < 6)
    (hp : (hexFace vid l' i' j' k').Perm (hexFace vid l i j k)) : hexKey l' i' j' k' = hexKey l i j k := by
  have hP : ∀ v, ∃ p : Nat × Nat × Nat, ∀ i j k, i ≤ nx → j ≤ ny → vid i j k = v → p = (i, j, k) := by
    intro v
    by_cases hv : ∃ i j k, i ≤ nx ∧ j ≤ ny ∧ vid i j k = v
    · obtain ⟨i, j, k, h1, h2, rfl⟩ := hv
      refine ⟨(i, j, k), fun i' j' k' h1' h2' he => ?_⟩
      obtain ⟨rfl, rfl, rfl⟩ := h.inj _ _ _ _ _ _ h1' h1 h2' h2 he
      rfl
    · exact ⟨(0, 0, 0), fun i j k h1 h2 he => (hv ⟨i, j, k, h1, h2, he⟩).elim⟩
  choose P hP using hP
  have hX : ∀ i j k, i ≤ nx → j ≤ ny → P (vid i j k) = (i, j, k) := fun i j k h1 h2 => hP _ i j k h1 h2 rfl
  have key : ∀ l i j k, l < 6 → i < nx → j < ny → hexKey l i j k = (((hexFace vid l i j k).map fun v => (P v).1).sum,
      ((hexFace vid l i j k).map fun v => (P v).2.1).sum, ((hexFace vid l i j k).map fun v => (P v).2.2).sum) := by
    intro l i j k hl hi hj
    have a1 := hX i j k (by omega) (by omega)
    have a2 := hX (i + 1) j k (by omega) (by omega)
    have a3 := hX (i + 1) (j + 1) k (by omega) (by omega)
    have a4 := hX i (j + 1) k (by omega) (by omega)
    have b1 := hX i j (k + 1) (by omega) (by omega)
    have b2 := hX (i + 1) j (k + 1) (by omega) (by omega)
    have b3 := hX (i + 1) (j + 1) (k + 1) (by omega) (by omega)
    have b4 := hX i (j + 1) (k + 1) (by omega) (by omega)
    interval_cases l <;> simp only [hexKey, hexFace, List.map_cons, List.map_nil, List.sum_cons, List.sum_nil, a1, a2, a3, a4, b1, b2, b3, b4,
      Prod.mk.injEq] <;> omega
  rw [key l' i' j' k' hl' hi' hj', key l i j k hl hi hj, perm_sum _ hp, perm_sum _ hp, perm_sum _ hp]

private theorem HexGrid.consistent (h : HexGrid nx ny nz vid cells) : Consistent (facesOf .hex8) cells := by
  intro c l f c' l' f' hf hf' hne hp
  obtain ⟨i, j, k, hi, hj, hk, rfl, hl, rfl⟩ := (h.isFace _ _ _).1 hf
  obtain ⟨i', j', k', hi', hj', hk', rfl, hl', rfl⟩ := (h.isFace _ _ _).1 hf'
  have hkey := h.key hi hj hi' hj' hl hl' hp
  have hpart : (l', i', j', k') = hexPartner l i j k := by
    rcases hexKey_eq hl hl' hkey with e | e
    · simp only [Prod.mk.injEq] at e
      obtain ⟨rfl, rfl, rfl, rfl⟩ := e
      exact (hne rfl).elim
    · exact e
  refine ⟨hex_opposite vid hl hkey hpart, fun c'' l'' f'' hf'' hp'' => ?_⟩
  obtain ⟨i'', j'', k'', hi'', hj'', hk'', rfl, hl'', rfl⟩ := (h.isFace _ _ _).1 hf''
  rcases hexKey_eq hl hl'' (h.key hi hj hi'' hj'' hl hl'' hp'') with e | e
  · simp only [Prod.mk.injEq] at e
    obtain ⟨rfl, rfl, rfl, rfl⟩ := e
    exact Or.inl rfl
  · rw [← hpart] at e
    simp only [Prod.mk.injEq] at e
    obtain ⟨rfl, rfl, rfl, rfl⟩ := e
    exact Or.inr rfl

variable {K : Type} [Field K]

private theorem hexGrid (L : K) (ux uy uz n : Nat) (hn : n ≠ 0) (hux : ux ≠ 0) (huy : uy ≠ 0) :
    ∃ vid, HexGrid (ux * n) (uy * n) (uz * n) vid (hexMesh L ux uy uz n).cells ∧
      ∀ i j k, i ≤ ux * n → j ≤ uy * n → k ≤ uz * n →
        (hexMesh L ux uy uz n).vertices[vid i j k]? = some ![i * (L / n), j * (L / n), k * (L / n)] := by
  obtain ⟨vid, _, h2, h3, h4, _, h6⟩ := C18_hex_mesh_is_the_grid L ux uy uz n hn hux huy
  exact ⟨vid, ⟨h4, h6, h2⟩, h3⟩

/-- C94: the uniform hexahedral mesh is consistently oriented: a face belongs to at most two cells, which run through it in opposite
directions. -/
theorem C94_hex_consistent (L : K) (ux uy uz n : Nat) : Consistent (facesOf .hex8) (hexMesh L ux uy uz n).cells := by
  by_cases h : n = 0 ∨ ux = 0 ∨ uy = 0
  · rw [C18_zero_count_gives_no_cells L ux uy uz n (by tauto)]
    rintro c l f c' l' f' ⟨cell, hc, -⟩
    simp at hc
  · push Not at h
    obtain ⟨vid, hg, -⟩ := hexGrid L ux uy uz n h.1 h.2.1 h.2.2
    exact hg.consistent

private theorem opposite_perm {f g : List Nat} (h : Opposite f g) : g.Perm f := by
  rcases h with rfl | ⟨-, n, rfl⟩
  · exact List.reverse_perm f
  · exact (List.rotate_perm _ n).trans (List.reverse_perm f)

/-- The face has no other side. -/
private def HexSide (nx ny nz : Nat) : Nat → Nat → Nat → Nat → Prop
  | 0, _, _, k => k = 0
  | 1, _, j, _ => j = 0
  | 2, i, _, _ => i + 1 = nx
  | 3, _, j, _ => j + 1 = ny
  | 4, i, _, _ => i = 0
  | _, _, _, k => k + 1 = nz

private theorem HexGrid.boundary (h : HexGrid nx ny nz vid cells) {l i j k : Nat} (hi : i < nx) (hj : j < ny) (hk : k < nz) (hl : l < 6) :
    IsBoundary (facesOf .hex8) cells (nx * ny * k + (nx * j + i)) l (hexFace vid l i j k) ↔ HexSide nx ny nz l i j k := by
  have hface := (h.isFace _ _ _).2 ⟨i, j, k, hi, hj, hk, rfl, hl, rfl⟩
  constructor
  · intro hb
    by_contra hs
    have hpart : ∃ l' i' j' k', (l', i', j', k') = hexPartner l i j k ∧ hexKey l' i' j' k' = hexKey l i j k ∧ l' < 6 ∧ l' ≠ l ∧
        i' < nx ∧ j' < ny ∧ k' < nz := by
      refine ⟨_, _, _, _, rfl, ?_⟩
      interval_cases l <;> simp only [HexSide] at hs <;> refine ⟨?_, ?_, ?_, ?_, ?_, ?_⟩ <;>
        simp only [hexPartner, hexKey, Prod.mk.injEq, true_and, and_true, ne_eq] <;> omega
    obtain ⟨l', i', j', k', hp, hkey, hl', hne, hi', hj', hk'⟩ := hpart
    exact hne (hb.2 _ l' _ ((h.isFace _ _ _).2 ⟨i', j', k', hi', hj', hk', rfl, hl', rfl⟩) (opposite_perm (hex_opposite vid hl hkey hp))).2
  · intro hs
    refine ⟨hface, fun c' l' f' hf' hp => ?_⟩
    obtain ⟨i', j', k', hi', hj', hk', rfl, hl', rfl⟩ := (h.isFace _ _ _).1 hf'
    have hkey := h.key hi hj hi' hj' hl hl' hp
    rcases hexKey_eq hl hl' hkey with e | e
    · simp only [Prod.mk.injEq] at e
      obtain ⟨rfl, rfl, rfl, rfl⟩ := e
      exact ⟨rfl, rfl⟩
    · exfalso
      interval_cases l <;> simp only [HexSide] at hs <;> simp only [hexPartner, Prod.mk.injEq] at e <;> obtain ⟨rfl, rfl, rfl, rfl⟩ := e <;>
        simp only [hexKey, Prod.mk.injEq] at hkey <;> omega

section Ordered
variable [LinearOrder K] [IsStrictOrderedRing K]

private theorem lattice_zero {L : K} (hL : 0 < L) {n : Nat} (hn : n ≠ 0) (m : Nat) : (m : K) * (L / n) = 0 ↔ m = 0 := by
  have : (n : K) ≠ 0 := by exact_mod_cast hn
  rw [mul_eq_zero, div_eq_zero_iff]
  constructor
  · rintro (h | h | h)
    · exact_mod_cast h
    · exact absurd h hL.ne'
    · exact absurd h this
  · rintro rfl
    simp

private theorem lattice_end {L : K} (hL : 0 < L) {n : Nat} (hn : n ≠ 0) (m u : Nat) : (m : K) * (L / n) = u * L ↔ m = u * n := by
  have : (n : K) ≠ 0 := by exact_mod_cast hn
  rw [← mul_div_assoc, div_eq_iff this, mul_right_comm, mul_left_inj' hL.ne']
  exact_mod_cast Iff.rfl

private theorem coords_some {d : Nat} {vs : List (Point d K)} {v : Nat} {x : Point d K} (h : vs[v]? = some x) :
    Surface.Spec.coords vs v = x := by
  rw [Surface.Spec.coords, List.getD_eq_getElem?_getD, h, Option.getD_some]

/-- C94: the boundary faces that the library finds in the uniform hexahedral mesh are exactly the faces in the sides of the box. -/
theorem C94_hex_boundary (L : K) (hL : 0 < L) (ux uy uz n : Nat) (hn : n ≠ 0) (hux : ux ≠ 0) (huy : uy ≠ 0) :
    ∃ fs, Mesh.findBoundaryFaces (facesOf .hex8) (hexMesh L ux uy uz n) = some fs ∧ ∀ f c l, (f, c, l) ∈ fs ↔
      IsFace (facesOf .hex8) (hexMesh L ux uy uz n).cells c l f ∧
        ∃ axis : Fin 3, (∀ v ∈ f, Surface.Spec.coords (hexMesh L ux uy uz n).vertices v axis = 0) ∨
          ∀ v ∈ f, Surface.Spec.coords (hexMesh L ux uy uz n).vertices v axis = ![ux * L, uy * L, uz * L] axis := by
  obtain ⟨fs, h1, -, h2⟩ := C14_boundary_faces_exact (facesOf .hex8) (hexMesh L ux uy uz n)
  refine ⟨fs, h1, fun f c l => ?_⟩
  rw [h2]
  obtain ⟨vid, hg, hv⟩ := hexGrid L ux uy uz n hn hux huy
  refine ⟨fun hb => ⟨hb.1, ?_⟩, fun hb => ?_⟩
  · obtain ⟨i, j, k, hi, hj, hk, rfl, hl, rfl⟩ := (hg.isFace _ _ _).1 hb.1
    have hs := (hg.boundary hi hj hk hl).1 hb
    have hc := fun i j k hi hj hk => coords_some (hv i j k hi hj hk)
    have hz := lattice_zero hL hn
    have he := lattice_end hL hn
    interval_cases l <;> simp only [HexSide] at hs
    · refine ⟨2, Or.inl fun v hv => ?_⟩
      simp only [hexFace, List.mem_cons, List.not_mem_nil, or_false] at hv
      rcases hv with rfl | rfl | rfl | rfl <;> rw [hc _ _ _ (by omega) (by omega) (by omega)] <;> exact (hz _).2 hs
    · refine ⟨1, Or.inl fun v hv => ?_⟩
      simp only [hexFace, List.mem_cons, List.not_mem_nil, or_false] at hv
      rcases hv with rfl | rfl | rfl | rfl <;> rw [hc _ _ _ (by omega) (by omega) (by omega)] <;> exact (hz _).2 hs
    · refine ⟨0, Or.inr fun v hv => ?_⟩
      simp only [hexFace, List.mem_cons, List.not_mem_nil, or_false] at hv
      rcases hv with rfl | rfl | rfl | rfl <;> rw [hc _ _ _ (by omega) (by omega) (by omega)] <;> exact (he _ _).2 hs
    · refine ⟨1, Or.inr fun v hv => ?_⟩
      simp only [hexFace, List.mem_cons, List.not_mem_nil, or_false] at hv
      rcases hv with rfl | rfl | rfl | rfl <;> rw [hc _ _ _ (by omega) (by omega) (by omega)] <;> exact (he _ _).2 hs
    · refine ⟨0, Or.inl fun v hv => ?_⟩
      simp only [hexFace, List.mem_cons, List.not_mem_nil, or_false] at hv
      rcases hv with rfl | rfl | rfl | rfl <;> rw [hc _ _ _ (by omega) (by omega) (by omega)] <;> exact (hz _).2 hs
    · refine ⟨2, Or.inr fun v hv => ?_⟩
      simp only [hexFace, List.mem_cons, List.not_mem_nil, or_false] at hv
      rcases hv with rfl | rfl | rfl | rfl <;> rw [hc _ _ _ (by omega) (by omega) (by omega)] <;> exact (he _ _).2 hs
  · obtain ⟨hf, hside⟩ := hb
    obtain ⟨i, j, k, hi, hj, hk, rfl, hl, rfl⟩ := (hg.isFace _ _ _).1 hf
    refine (hg.boundary hi hj hk hl).2 ?_
    have hc := fun i j k hi hj hk => coords_some (hv i j k hi hj hk)
    have hz := lattice_zero hL hn
    have he := lattice_end hL hn
    have hz0 : ∀ a b c, a ≤ ux * n → b ≤ uy * n → c ≤ uz * n →
        (Surface.Spec.coords (hexMesh L ux uy uz n).vertices (vid a b c) 0 = 0 ↔ a = 0) ∧
        (Surface.Spec.coords (hexMesh L ux uy uz n).vertices (vid a b c) 1 = 0 ↔ b = 0) ∧
        (Surface.Spec.coords (hexMesh L ux uy uz n).vertices (vid a b c) 2 = 0 ↔ c = 0) ∧
        (Surface.Spec.coords (hexMesh L ux uy uz n).vertices (vid a b c) 0 = ux * L ↔ a = ux * n) ∧
        (Surface.Spec.coords (hexMesh L ux uy uz n).vertices (vid a b c) 1 = uy * L ↔ b = uy * n) ∧
        (Surface.Spec.coords (hexMesh L ux uy uz n).vertices (vid a b c) 2 = uz * L ↔ c = uz * n) := by
      intro a b c ha hb hc'
      rw [hc a b c ha hb hc']
      exact ⟨hz a, hz b, hz c, he a ux, he b uy, he c uz⟩
    have a1 := hz0 i j k (by omega) (by omega) (by omega)
    have a2 := hz0 (i + 1) j k (by omega) (by omega) (by omega)
    have a3 := hz0 (i + 1) (j + 1) k (by omega) (by omega) (by omega)
    have a4 := hz0 i (j + 1) k (by omega) (by omega) (by omega)
    have b1 := hz0 i j (k + 1) (by omega) (by omega) (by omega)
    have b2 := hz0 (i + 1) j (k + 1) (by omega) (by omega) (by omega)
    have b3 := hz0 (i + 1) (j + 1) (k + 1) (by omega) (by omega) (by omega)
    have b4 := hz0 i (j + 1) (k + 1) (by omega) (by omega) (by omega)
    obtain ⟨axis, hside⟩ := hside
    generalize ux * n = nx at *
    generalize uy * n = ny at *
    generalize uz * n = nz at *
    have hax : axis = 0 ∨ axis = 1 ∨ axis = 2 := by fin_cases axis <;> simp
    rcases hax with rfl | rfl | rfl <;> rcases hside with hside | hside <;> interval_cases l <;>
      simp only [hexFace, List.mem_cons, List.not_mem_nil, or_false, forall_eq_or_imp, forall_eq,
        Matrix.cons_val_zero, Matrix.cons_val_one, Matrix.cons_val, a1, a2, a3, a4, b1, b2, b3, b4] at hside <;>
      simp only [HexSide] <;> clear a1 a2 a3 a4 b1 b2 b3 b4 hz0 he hz hc <;> obtain ⟨h1, h2, h3, h4⟩ := hside <;> omega

end Ordered

/-! ## Quadrilaterals -/

/-- The sides of the lattice square `(i, j)`. -/
private def quadFace (vid : Nat → Nat → Nat) : Nat → Nat → Nat → List Nat
  | 0, i, j => [vid i (j + 1), vid (i + 1) (j + 1)]
  | 1, i, j => [vid (i + 1) (j + 1), vid (i + 1) j]
  | 2, i, j => [vid (i + 1) j, vid i j]
  | _, i, j => [vid i j, vid i (j + 1)]

/-- Twice the centre of a side. -/
private def quadKey : Nat → Nat → Nat → Nat × Nat
  | 0, i, j => (2 * i + 1, 2 * j + 2)
  | 1, i, j => (2 * i + 2, 2 * j + 1)
  | 2, i, j => (2 * i + 1, 2 * j)
  | _, i, j => (2 * i, 2 * j + 1)

/-- The square and the number of its side on the other side. -/
private def quadPartner : Nat → Nat → Nat → Nat × Nat × Nat
  | 0, i, j => (2, i, j + 1)
  | 1, i, j => (3, i + 1, j)
  | 2, i, j => (0, i, j - 1)
  | _, i, j => (1, i - 1, j)

/-- The side has no other side. -/
private def QuadSide (nx ny : Nat) : Nat → Nat → Nat → Prop
  | 0, _, j => j + 1 = ny
  | 1, i, _ => i + 1 = nx
  | 2, _, j => j = 0
  | _, i, _ => i = 0

private theorem quadKey_eq {l i j l' i' j' : Nat} (hl : l < 4) (hl' : l' < 4) (h : quadKey l' i' j' = quadKey l i j) :
    (l', i', j') = (l, i, j) ∨ (l', i', j') = quadPartner l i j := by
  interval_cases l <;> interval_cases l' <;> simp only [quadKey, quadPartner, Prod.mk.injEq, true_and, reduceCtorEq, OfNat.ofNat_ne_zero,
    Nat.reduceEqDiff, false_and, or_false, false_or] at h ⊢ <;> omega

private theorem quad_opposite (vid : Nat → Nat → Nat) {l i j l' i' j' : Nat} (hl : l < 4) (h : quadKey l' i' j' = quadKey l i j)
    (hp : (l', i', j') = quadPartner l i j) : Opposite (quadFace vid l i j) (quadFace vid l' i' j') := by
  left
  interval_cases l <;> simp only [quadPartner, Prod.mk.injEq] at hp <;> obtain ⟨rfl, rfl, rfl⟩ := hp <;>
    simp only [quadKey, Prod.mk.injEq] at h
  · rfl
  · rfl
  · obtain ⟨j, rfl⟩ : ∃ m, j = m + 1 := ⟨j - 1, by omega⟩
    rfl
  · obtain ⟨i, rfl⟩ : ∃ m, i = m + 1 := ⟨i - 1, by omega⟩
    rfl

private structure QuadGrid (nx ny : Nat) (vid : Nat → Nat → Nat) (cells : List (List Nat)) : Prop where
  inj : ∀ i j i' j', i ≤ nx → i' ≤ nx → vid i j = vid i' j' → i = i' ∧ j = j'
  cell : ∀ i j, i < nx → j < ny → cells[nx * j + i]? = some [vid i (j + 1), vid (i + 1) (j + 1), vid (i + 1) j, vid i j]
  length : cells.length = nx * ny

variable {wid : Nat → Nat → Nat}

private theorem QuadGrid.isFace (h : QuadGrid nx ny wid cells) (c l : Nat) (f : List Nat) : IsFace (facesOf .quad4) cells c l f ↔
    ∃ i j, i < nx ∧ j < ny ∧ c = nx * j + i ∧ l < 4 ∧ f = quadFace wid l i j := by
  have key : ∀ i j, (facesOf .quad4 [wid i (j + 1), wid (i + 1) (j + 1), wid (i + 1) j, wid i j]) =
      (List.range 4).map fun l => quadFace wid l i j := fun i j => rfl
  constructor
  · rintro ⟨cell, hc, hf⟩
    have hlt := (List.getElem?_eq_some_iff.1 hc).1
    rw [h.length] at hlt
    obtain ⟨i, j, hi, hj, rfl⟩ := mul_add_decomp hlt
    rw [h.cell i j hi hj] at hc
    obtain rfl := Option.some.inj hc
    rw [key, List.getElem?_map, Option.map_eq_some_iff] at hf
    obtain ⟨l', hl', rfl⟩ := hf
    obtain ⟨h6, rfl⟩ := List.getElem?_eq_some_iff.1 hl'
    simp only [List.length_range] at h6
    exact ⟨i, j, hi, hj, rfl, h6, by rw [List.getElem_range]⟩
  · rintro ⟨i, j, hi, hj, rfl, hl, rfl⟩
    exact ⟨_, h.cell i j hi hj, by rw [key, List.getElem?_map, List.getElem?_range hl]; rfl⟩

private theorem QuadGrid.key (h : QuadGrid nx ny wid cells) {l i j l' i' j' : Nat} (hi : i < nx) (hi' : i' < nx) (hl : l < 4) (hl' : l' < 4)
    (hp : (quadFace wid l' i' j').Perm (quadFace wid l i j)) : quadKey l' i' j' = quadKey l i j := by
  have hP : ∀ v, ∃ p : Nat × Nat, ∀ i j, i ≤ nx → wid i j = v → p = (i, j) := by
    intro v
    by_cases hv : ∃ i j, i ≤ nx ∧ wid i j = v
    · obtain ⟨i, j, h1, rfl⟩ := hv
      refine ⟨(i, j), fun i' j' h1' he => ?_⟩
      obtain ⟨rfl, rfl⟩ := h.inj _ _ _ _ h1' h1 he
      rfl
    · exact ⟨(0, 0), fun i j h1 he => (hv ⟨i, j, h1, he⟩).elim⟩
  choose P hP using hP
  have hX : ∀ i j, i ≤ nx → P (wid i j) = (i, j) := fun i j h1 => hP _ i j h1 rfl
  have key : ∀ l i j, l < 4 → i < nx → quadKey l i j = (((quadFace wid l i j).map fun v => (P v).1).sum,
      ((quadFace wid l i j).map fun v => (P v).2).sum) := by
    intro l i j hl hi
    have a1 := hX i j (by omega)
    have a2 := hX (i + 1) j (by omega)
    have a3 := hX (i + 1) (j + 1) (by omega)
    have a4 := hX i (j + 1) (by omega)
    interval_cases l <;> simp only [quadKey, quadFace, List.map_cons, List.map_nil, List.sum_cons, List.sum_nil, a1, a2, a3, a4,
      Prod.mk.injEq] <;> omega
  rw [key l' i' j' hl' hi', key l i j hl hi, perm_sum _ hp, perm_sum _ hp]

private theorem QuadGrid.consistent (h : QuadGrid nx ny wid cells) : Consistent (facesOf .quad4) cells := by
  intro c l f c' l' f' hf hf' hne hp
  obtain ⟨i, j, hi, hj, rfl, hl, rfl⟩ := (h.isFace _ _ _).1 hf
  obtain ⟨i', j', hi', hj', rfl, hl', rfl⟩ := (h.isFace _ _ _).1 hf'
  have hkey := h.key hi hi' hl hl' hp
  have hpart : (l', i', j') = quadPartner l i j := by
    rcases quadKey_eq hl hl' hkey with e | e
    · simp only [Prod.mk.injEq] at e
      obtain ⟨rfl, rfl, rfl⟩ := e
      exact (hne rfl).elim
    · exact e
  refine ⟨quad_opposite wid hl hkey hpart, fun c'' l'' f'' hf'' hp'' => ?_⟩
  obtain ⟨i'', j'', hi'', hj'', rfl, hl'', rfl⟩ := (h.isFace _ _ _).1 hf''
  rcases quadKey_eq hl hl'' (h.key hi hi'' hl hl'' hp'') with e | e
  · simp only [Prod.mk.injEq] at e
    obtain ⟨rfl, rfl, rfl⟩ := e
    exact Or.inl rfl
  · rw [← hpart] at e
    simp only [Prod.mk.injEq] at e
    obtain ⟨rfl, rfl, rfl⟩ := e
    exact Or.inr rfl

private theorem QuadGrid.boundary (h : QuadGrid nx ny wid cells) {l i j : Nat} (hi : i < nx) (hj : j < ny) (hl : l < 4) :
    IsBoundary (facesOf .quad4) cells (nx * j + i) l (quadFace wid l i j) ↔ QuadSide nx ny l i j := by
  have hface := (h.isFace _ _ _).2 ⟨i, j, hi, hj, rfl, hl, rfl⟩
  constructor
  · intro hb
    by_contra hs
    have hpart : ∃ l' i' j', (l', i', j') = quadPartner l i j ∧ quadKey l' i' j' = quadKey l i j ∧ l' < 4 ∧ l' ≠ l ∧
        i' < nx ∧ j' < ny := by
      refine ⟨_, _, _, rfl, ?_⟩
      interval_cases l <;> simp only [QuadSide] at hs <;> refine ⟨?_, ?_, ?_, ?_, ?_⟩ <;>
        simp only [quadPartner, quadKey, Prod.mk.injEq, true_and, and_true, ne_eq] <;> omega
    obtain ⟨l', i', j', hp, hkey, hl', hne, hi', hj'⟩ := hpart
    exact hne (hb.2 _ l' _ ((h.isFace _ _ _).2 ⟨i', j', hi', hj', rfl, hl', rfl⟩) (opposite_perm (quad_opposite wid hl hkey hp))).2
  · intro hs
    refine ⟨hface, fun c' l' f' hf' hp => ?_⟩
    obtain ⟨i', j', hi', hj', rfl, hl', rfl⟩ := (h.isFace _ _ _).1 hf'
    have hkey := h.key hi hi' hl hl' hp
    rcases quadKey_eq hl hl' hkey with e | e
    · simp only [Prod.mk.injEq] at e
      obtain ⟨rfl, rfl, rfl⟩ := e
      exact ⟨rfl, rfl⟩
    · exfalso
      interval_cases l <;> simp only [QuadSide] at hs <;> simp only [quadPartner, Prod.mk.injEq] at e <;> obtain ⟨rfl, rfl, rfl⟩ := e <;>
        simp only [quadKey, Prod.mk.injEq] at hkey <;> omega

private theorem quadGrid (L : K) (ux uy n : Nat) (x0 y0 : K) (hn : n ≠ 0) (hux : ux ≠ 0) (huy : uy ≠ 0) :
    ∃ vid, QuadGrid (ux * n) (uy * n) vid (quadMesh L ux uy n x0 y0).cells ∧ ∀ i j, i ≤ ux * n → j ≤ uy * n →
        (quadMesh L ux uy n x0 y0).vertices[vid i j]? = some ![x0 + i * (L / n), y0 - j * (L / n)] := by
  obtain ⟨vid, _, h2, h3, h4, _, h6⟩ := C17_quad_mesh_is_the_grid L ux uy n x0 y0 hn hux huy
  exact ⟨vid, ⟨h4, h6, h2⟩, h3⟩

/-- C94: the uniform quadrilateral mesh is consistently oriented: an edge belongs to at most two cells, which run through it in opposite
directions. -/
theorem C94_quad_consistent (L : K) (ux uy n : Nat) (x0 y0 : K) : Consistent (facesOf .quad4) (quadMesh L ux uy n x0 y0).cells := by
  by_cases h : n = 0 ∨ ux = 0 ∨ uy = 0
  · rw [C17_zero_count_gives_empty_mesh L ux uy n x0 y0 h]
    rintro c l f c' l' f' ⟨cell, hc, -⟩
    simp at hc
  · push Not at h
    obtain ⟨vid, hg, -⟩ := quadGrid L ux uy n x0 y0 h.1 h.2.1 h.2.2
    exact hg.consistent

section Ordered
variable [LinearOrder K] [IsStrictOrderedRing K]

/-- C94: the boundary edges that the library finds in the uniform quadrilateral mesh are exactly the edges in the sides of the rectangle. -/
theorem C94_quad_boundary (L : K) (hL : 0 < L) (ux uy n : Nat) (x0 y0 : K) (hn : n ≠ 0) (hux : ux ≠ 0) (huy : uy ≠ 0) :
    ∃ fs, Mesh.findBoundaryFaces (facesOf .quad4) (quadMesh L ux uy n x0 y0) = some fs ∧ ∀ f c l, (f, c, l) ∈ fs ↔
      IsFace (facesOf .quad4) (quadMesh L ux uy n x0 y0).cells c l f ∧
        ∃ axis : Fin 2, (∀ v ∈ f, Surface.Spec.coords (quadMesh L ux uy n x0 y0).vertices v axis = ![x0, y0] axis) ∨
          ∀ v ∈ f, Surface.Spec.coords (quadMesh L ux uy n x0 y0).vertices v axis = ![x0 + ux * L, y0 - uy * L] axis := by
  obtain ⟨fs, h1, -, h2⟩ := C14_boundary_faces_exact (facesOf .quad4) (quadMesh L ux uy n x0 y0)
  refine ⟨fs, h1, fun f c l => ?_⟩
  rw [h2]
  obtain ⟨vid, hg, hv⟩ := quadGrid L ux uy n x0 y0 hn hux huy
  have hz := lattice_zero hL hn
  have he := lattice_end hL hn
  have hz0 : ∀ a b, a ≤ ux * n → b ≤ uy * n →
      (Surface.Spec.coords (quadMesh L ux uy n x0 y0).vertices (vid a b) 0 = x0 ↔ a = 0) ∧
      (Surface.Spec.coords (quadMesh L ux uy n x0 y0).vertices (vid a b) 1 = y0 ↔ b = 0) ∧
      (Surface.Spec.coords (quadMesh L ux uy n x0 y0).vertices (vid a b) 0 = x0 + ux * L ↔ a = ux * n) ∧
      (Surface.Spec.coords (quadMesh L ux uy n x0 y0).vertices (vid a b) 1 = y0 - uy * L ↔ b = uy * n) := by
    intro a b ha hb
    rw [coords_some (hv a b ha hb)]
    simp only [Matrix.cons_val_zero, Matrix.cons_val_one, add_eq_left, sub_eq_self, add_right_inj, sub_right_inj]
    exact ⟨hz a, hz b, he a ux, he b uy⟩
  refine ⟨fun hb => ⟨hb.1, ?_⟩, fun hb => ?_⟩
  · obtain ⟨i, j, hi, hj, rfl, hl, rfl⟩ := (hg.isFace _ _ _).1 hb.1
    have hs := (hg.boundary hi hj hl).1 hb
    interval_cases l <;> simp only [QuadSide] at hs
    · refine ⟨1, Or.inr fun v hv => ?_⟩
      simp only [quadFace, List.mem_cons, List.not_mem_nil, or_false] at hv
      rcases hv with rfl | rfl <;> exact (hz0 _ _ (by omega) (by omega)).2.2.2.2 hs
    · refine ⟨0, Or.inr fun v hv => ?_⟩
      simp only [quadFace, List.mem_cons, List.not_mem_nil, or_false] at hv
      rcases hv with rfl | rfl <;> exact (hz0 _ _ (by omega) (by omega)).2.2.1.2 hs
    · refine ⟨1, Or.inl fun v hv => ?_⟩
      simp only [quadFace, List.mem_cons, List.not_mem_nil, or_false] at hv
      rcases hv with rfl | rfl <;> exact (hz0 _ _ (by omega) (by omega)).2.1.2 hs
    · refine ⟨0, Or.inl fun v hv => ?_⟩
      simp only [quadFace, List.mem_cons, List.not_mem_nil, or_false] at hv
      rcases hv with rfl | rfl <;> exact (hz0 _ _ (by omega) (by omega)).1.2 hs
  · obtain ⟨hf, hside⟩ := hb
    obtain ⟨i, j, hi, hj, rfl, hl, rfl⟩ := (hg.isFace _ _ _).1 hf
    refine (hg.boundary hi hj hl).2 ?_
    have a1 := hz0 i j (by omega) (by omega)
    have a2 := hz0 (i + 1) j (by omega) (by omega)
    have a3 := hz0 (i + 1) (j + 1) (by omega) (by omega)
    have a4 := hz0 i (j + 1) (by omega) (by omega)
    obtain ⟨axis, hside⟩ := hside
    generalize ux * n = nx at *
    generalize uy * n = ny at *
    have hax : axis = 0 ∨ axis = 1 := by fin_cases axis <;> simp
    rcases hax with rfl | rfl <;> rcases hside with hside | hside <;> interval_cases l <;>
      simp only [quadFace, List.mem_cons, List.not_mem_nil, or_false, forall_eq_or_imp, forall_eq,
        Matrix.cons_val_zero, Matrix.cons_val_one, Matrix.cons_val, a1, a2, a3, a4] at hside <;>
      simp only [QuadSide] <;> clear a1 a2 a3 a4 hz0 he hz <;> obtain ⟨h1, h2⟩ := hside <;> omega

end Ordered

/-! ## The patch test on uniform meshes -/

section Patch
open Fenris.Local Fenris.PatchTest Fenris.PatchTest.Spec Canonical Canonical.Spec Quadrature
variable {Param : Type} [Inhabited Param] {s : Nat}

attribute [local instance] zeroFill

private theorem patch_of (gauss : Nat → Rule 1 ℝ) (h2 : IsGaussRule 2 (gauss 2).1 (gauss 2).2) (param : Param) (kind : Kind)
    (hk : kind ∈ [Kind.tri3, .quad4, .tet4, .hex8]) (mesh : Mesh (Point kind.dim ℝ)) (hsize : ∀ c ∈ mesh.cells, c.length = kind.numNodes)
    (hb : ∀ c ∈ mesh.cells, ∀ v ∈ c, v < mesh.vertices.length) (hcons : Consistent (facesOf kind) mesh.cells)
    (hdet : ∀ c ∈ mesh.cells, ∀ p, 0 < ((elementOfKind kind (c.map (Surface.Spec.coords mesh.vertices))).jacobian p).det)
    (inside : Point kind.dim ℝ → Prop) (hin : ∀ fs, Mesh.findBoundaryFaces (facesOf kind) mesh = some fs → ∀ f c l, (f, c, l) ∈ fs →
      ∀ v ∈ f, ¬ inside (Surface.Spec.coords mesh.vertices v))
    (G : Matrix (Fin kind.dim) (Fin s) ℝ) (b : Fin s → ℝ) (u : List ℝ) (hu : IsAffine mesh.vertices G b u) (o : Operator kind.dim s ℝ Param) :
    ∃ space rule t, meshSpace kind mesh = some space ∧ stiffnessRule gauss kind = some rule ∧
      Uniform.fromQuadratureAndData rule param = some t ∧
      ∀ (bufs : Nat → Buffer (Point kind.dim ℝ) ℝ Param) (outs : Nat → Nat → ℝ) (elemVec : Nat → Except String (Nat → ℝ)),
        (∀ e, e < space.length → ∃ buf', elementVector space o t.table u (bufs e) (outs e) e = some (elemVec e, buf')) →
        ∃ v, Assembly.assembleVector (conn s space mesh.vertices.length) elemVec = some (.ok v) ∧
          ∀ n x, mesh.vertices[n]? = some x → inside x → ∀ i : Fin s, v[s * n + i]? = some 0 := by
  have hsp := C89_mesh_space kind mesh hb
  obtain ⟨rule, t, ω, h1, h3, -, hp⟩ := C89_canonical_patch gauss h2 kind hk param mesh hsize hb hcons
    (by
      intro space rule hs' hr en hen p hp
      rw [hsp] at hs'
      obtain rfl := Option.some.inj hs'
      obtain ⟨c, hc, rfl⟩ := List.mem_map.1 hen
      exact hdet c hc p)
  refine ⟨_, rule, t, hsp, h1, h3, fun bufs outs elemVec hev => ?_⟩
  obtain ⟨bd, v, h4, h5, h6⟩ := C89_patch_test hk hp G b u hu o _ hsp bufs outs elemVec hev
  refine ⟨v, h5, fun n x hx' hx i => h6 n (List.getElem?_eq_some_iff.1 hx').1 ?_ i⟩
  intro hbd
  obtain ⟨bd', h7, -, h8⟩ := C14_boundary_vertices_exact (facesOf kind) mesh
  rw [h4] at h7
  obtain rfl := Option.some.inj h7
  obtain ⟨c, l, f, hf, hn⟩ := (h8 n).1 hbd
  obtain ⟨fs, h9, -, h10⟩ := C14_boundary_faces_exact (facesOf kind) mesh
  refine hin fs h9 f c l ((h10 f c l).2 hf) n hn ?_
  rw [coords_some hx']
  exact hx

private theorem quad_det (x y h : ℝ) (p : Point 2 ℝ) :
    ((elementOfKind .quad4 [![x, y - h], ![x + h, y - h], ![x + h, y], ![x, y]]).jacobian p).det = h ^ 2 / 4 := by
  have e : (elementOfKind .quad4 [![x, y - h], ![x + h, y - h], ![x + h, y], ![x, y]]).jacobian p = Matrix.diagonal fun _ => h / 2 := by
    ext r c
    simp only [elementOfKind, Matrix.of_apply, referenceJacobian, geometryGradients, quad4Gradients, Kind.geometry, Kind.numNodes, List.take,
      List.map, weightedSum, quad4PhiGrad]
    match r, c with
    | 0, 0 => simp [Matrix.diagonal]; ring
    | 0, 1 => simp [Matrix.diagonal]; ring
    | 1, 0 => simp [Matrix.diagonal]; ring
    | 1, 1 => simp [Matrix.diagonal]; ring
  rw [e, Matrix.det_diagonal, Finset.prod_const, Finset.card_univ, Fintype.card_fin]
  simp only [Kind.dim]
  ring

private theorem hex_det (x y z h : ℝ) (p : Point 3 ℝ) :
    ((elementOfKind .hex8 [![x, y, z], ![x + h, y, z], ![x + h, y + h, z], ![x, y + h, z], ![x, y, z + h], ![x + h, y, z + h],
      ![x + h, y + h, z + h], ![x, y + h, z + h]]).jacobian p).det = h ^ 3 / 8 := by
  have e : (elementOfKind .hex8 [![x, y, z], ![x + h, y, z], ![x + h, y + h, z], ![x, y + h, z], ![x, y, z + h], ![x + h, y, z + h],
      ![x + h, y + h, z + h], ![x, y + h, z + h]]).jacobian p = Matrix.diagonal fun _ => h / 2 := by
    ext r c
    simp only [elementOfKind, Matrix.of_apply, referenceJacobian, geometryGradients, hex8Gradients, Kind.geometry, Kind.numNodes, List.take,
      List.map, weightedSum, hex8PhiGrad, phiLinear1d, phiLinear1dGrad]
    match r, c with
    | 0, 0 => simp [Matrix.diagonal]; ring
    | 0, 1 => simp [Matrix.diagonal]; ring
    | 0, 2 => simp [Matrix.diagonal]; ring
    | 1, 0 => simp [Matrix.diagonal]; ring
    | 1, 1 => simp [Matrix.diagonal]; ring
    | 1, 2 => simp [Matrix.diagonal]; ring
    | 2, 0 => simp [Matrix.diagonal]; ring
    | 2, 1 => simp [Matrix.diagonal]; ring
    | 2, 2 => simp [Matrix.diagonal]; ring
  rw [e, Matrix.det_diagonal, Finset.prod_const, Finset.card_univ, Fintype.card_fin]
  simp only [Kind.dim]
  ring

/-- C94: the cells of the uniform quadrilateral mesh have four vertices, all of them in the mesh, and positive area. -/
theorem C94_quad_elements (L : ℝ) (hL : 0 < L) (ux uy n : Nat) (x0 y0 : ℝ) (hn : n ≠ 0) (hux : ux ≠ 0) (huy : uy ≠ 0) :
    (∀ c ∈ (quadMesh L ux uy n x0 y0).cells, c.length = 4) ∧
    (∀ c ∈ (quadMesh L ux uy n x0 y0).cells, ∀ v ∈ c, v < (quadMesh L ux uy n x0 y0).vertices.length) ∧
    ∀ c ∈ (quadMesh L ux uy n x0 y0).cells, ∀ p,
      0 < ((elementOfKind .quad4 (c.map (Surface.Spec.coords (quadMesh L ux uy n x0 y0).vertices))).jacobian p).det := by
  obtain ⟨vid, hg, hv⟩ := quadGrid L ux uy n x0 y0 hn hux huy
  have hcell : ∀ c ∈ (quadMesh L ux uy n x0 y0).cells, ∃ i j, i < ux * n ∧ j < uy * n ∧
      c = [vid i (j + 1), vid (i + 1) (j + 1), vid (i + 1) j, vid i j] := by
    intro c hc
    obtain ⟨t, ht⟩ := List.getElem?_of_mem hc
    have hlt := (List.getElem?_eq_some_iff.1 ht).1
    rw [hg.length] at hlt
    obtain ⟨i, j, hi, hj, rfl⟩ := mul_add_decomp hlt
    rw [hg.cell i j hi hj] at ht
    exact ⟨i, j, hi, hj, (Option.some.inj ht).symm⟩
  have hlt : ∀ i j, i ≤ ux * n → j ≤ uy * n → vid i j < (quadMesh L ux uy n x0 y0).vertices.length :=
    fun i j hi hj => (List.getElem?_eq_some_iff.1 (hv i j hi hj)).1
  refine ⟨?_, ?_, ?_⟩
  · intro c hc
    obtain ⟨i, j, hi, hj, rfl⟩ := hcell c hc
    rfl
  · intro c hc v hvc
    obtain ⟨i, j, hi, hj, rfl⟩ := hcell c hc
    simp only [List.mem_cons, List.not_mem_nil, or_false] at hvc
    rcases hvc with rfl | rfl | rfl | rfl <;> exact hlt _ _ (by omega) (by omega)
  · intro c hc p
    obtain ⟨i, j, hi, hj, rfl⟩ := hcell c hc
    have e := quad_det (x0 + i * (L / n)) (y0 - j * (L / n)) (L / n) p
    have e1 : y0 - ((j + 1 : Nat) : ℝ) * (L / n) = y0 - j * (L / n) - L / n := by push_cast; ring
    have e2 : x0 + ((i + 1 : Nat) : ℝ) * (L / n) = x0 + i * (L / n) + L / n := by push_cast; ring
    rw [List.map_cons, List.map_cons, List.map_cons, List.map_cons, List.map_nil, coords_some (hv i (j + 1) (by omega) (by omega)),
      coords_some (hv (i + 1) (j + 1) (by omega) (by omega)), coords_some (hv (i + 1) j (by omega) (by omega)),
      coords_some (hv i j (by omega) (by omega)), e1, e2]
    refine lt_of_lt_of_eq ?_ e.symm
    have : (0 : ℝ) < n := by exact_mod_cast Nat.pos_of_ne_zero hn
    positivity

/-- **C94.** The patch test on the uniform quadrilateral mesh of a rectangle, of every resolution, with the canonical quadrature, for every
operator and every affine function: all components of the assembled vector are zero at all vertices inside the rectangle. -/
theorem C94_quad_patch_test (gauss : Nat → Rule 1 ℝ) (h2 : IsGaussRule 2 (gauss 2).1 (gauss 2).2) (param : Param)
    (L : ℝ) (hL : 0 < L) (ux uy n : Nat) (x0 y0 : ℝ) (hn : n ≠ 0) (hux : ux ≠ 0) (huy : uy ≠ 0)
    (mesh : Mesh (Point 2 ℝ)) (hmesh : mesh = quadMesh L ux uy n x0 y0)
    (G : Matrix (Fin 2) (Fin s) ℝ) (b : Fin s → ℝ) (u : List ℝ) (hu : IsAffine mesh.vertices G b u) (o : Operator 2 s ℝ Param) :
    ∃ space rule t, meshSpace .quad4 mesh = some space ∧ stiffnessRule gauss .quad4 = some rule ∧
      Uniform.fromQuadratureAndData rule param = some t ∧
      ∀ (bufs : Nat → Buffer (Point 2 ℝ) ℝ Param) (outs : Nat → Nat → ℝ) (elemVec : Nat → Except String (Nat → ℝ)),
        (∀ e, e < space.length → ∃ buf', elementVector space o t.table u (bufs e) (outs e) e = some (elemVec e, buf')) →
        ∃ v, Assembly.assembleVector (conn s space mesh.vertices.length) elemVec = some (.ok v) ∧
          ∀ n x, mesh.vertices[n]? = some x → InOpenBox ![x0, y0 - uy * L] ![x0 + ux * L, y0] x → ∀ i : Fin s, v[s * n + i]? = some 0 := by
  subst hmesh
  obtain ⟨hsize, hin, hdet⟩ := C94_quad_elements L hL ux uy n x0 y0 hn hux huy
  refine patch_of gauss h2 param .quad4 (by simp) (quadMesh L ux uy n x0 y0) hsize hin (C94_quad_consistent L ux uy n x0 y0) hdet _ ?_ G b u
    hu o
  · intro fs h9 f c l hf v hvf hin
    obtain ⟨fs', h11, h12⟩ := C94_quad_boundary L hL ux uy n x0 y0 hn hux huy
    rw [h9] at h11
    obtain rfl := Option.some.inj h11
    obtain ⟨axis, h13 | h13⟩ := ((h12 f c l).1 hf).2
    · have h14 := hin axis
      rw [h13 v hvf] at h14
      have hax : axis = 0 ∨ axis = 1 := by fin_cases axis <;> simp
      rcases hax with rfl | rfl
      · exact lt_irrefl _ h14.1
      · exact lt_irrefl _ h14.2
    · have h14 := hin axis
      rw [h13 v hvf] at h14
      have hax : axis = 0 ∨ axis = 1 := by fin_cases axis <;> simp
      rcases hax with rfl | rfl
      · exact lt_irrefl _ h14.2
      · exact lt_irrefl _ h14.1

/-- C94: the cells of the uniform hexahedral mesh have eight vertices, all of them in the mesh, and positive volume. -/
theorem C94_hex_elements (L : ℝ) (hL : 0 < L) (ux uy uz n : Nat) (hn : n ≠ 0) (hux : ux ≠ 0) (huy : uy ≠ 0) :
    (∀ c ∈ (hexMesh L ux uy uz n).cells, c.length = 8) ∧
    (∀ c ∈ (hexMesh L ux uy uz n).cells, ∀ v ∈ c, v < (hexMesh L ux uy uz n).vertices.length) ∧
    ∀ c ∈ (hexMesh L ux uy uz n).cells, ∀ p,
      0 < ((elementOfKind .hex8 (c.map (Surface.Spec.coords (hexMesh L ux uy uz n).vertices))).jacobian p).det := by
  obtain ⟨vid, hg, hv⟩ := hexGrid L ux uy uz n hn hux huy
  have hcell : ∀ c ∈ (hexMesh L ux uy uz n).cells, ∃ i j k, i < ux * n ∧ j < uy * n ∧ k < uz * n ∧
      c = [vid i j k, vid (i + 1) j k, vid (i + 1) (j + 1) k, vid i (j + 1) k, vid i j (k + 1), vid (i + 1) j (k + 1),
      vid (i + 1) (j + 1) (k + 1), vid i (j + 1) (k + 1)] := by
    intro c hc
    obtain ⟨t, ht⟩ := List.getElem?_of_mem hc
    have hlt := (List.getElem?_eq_some_iff.1 ht).1
    rw [hg.length] at hlt
    obtain ⟨q, k, hq, hk, rfl⟩ := mul_add_decomp hlt
    obtain ⟨i, j, hi, hj, rfl⟩ := mul_add_decomp hq
    rw [hg.cell i j k hi hj hk] at ht
    exact ⟨i, j, k, hi, hj, hk, (Option.some.inj ht).symm⟩
  have hlt : ∀ i j k, i ≤ ux * n → j ≤ uy * n → k ≤ uz * n → vid i j k < (hexMesh L ux uy uz n).vertices.length :=
    fun i j k hi hj hk => (List.getElem?_eq_some_iff.1 (hv i j k hi hj hk)).1
  refine ⟨?_, ?_, ?_⟩
  · intro c hc
    obtain ⟨i, j, k, hi, hj, hk, rfl⟩ := hcell c hc
    rfl
  · intro c hc v hvc
    obtain ⟨i, j, k, hi, hj, hk, rfl⟩ := hcell c hc
    simp only [List.mem_cons, List.not_mem_nil, or_false] at hvc
    rcases hvc with rfl | rfl | rfl | rfl | rfl | rfl | rfl | rfl <;> exact hlt _ _ _ (by omega) (by omega) (by omega)
  · intro c hc p
    obtain ⟨i, j, k, hi, hj, hk, rfl⟩ := hcell c hc
    have e := hex_det (i * (L / n)) (j * (L / n)) (k * (L / n)) (L / n) p
    have e1 : ∀ m : Nat, ((m + 1 : Nat) : ℝ) * (L / n) = m * (L / n) + L / n := fun m => by push_cast; ring
    simp only [List.map_cons, List.map_nil]
    rw [coords_some (hv i j k (by omega) (by omega) (by omega)), coords_some (hv (i + 1) j k (by omega) (by omega) (by omega)),
      coords_some (hv (i + 1) (j + 1) k (by omega) (by omega) (by omega)), coords_some (hv i (j + 1) k (by omega) (by omega) (by omega)),
      coords_some (hv i j (k + 1) (by omega) (by omega) (by omega)), coords_some (hv (i + 1) j (k + 1) (by omega) (by omega) (by omega)),
      coords_some (hv (i + 1) (j + 1) (k + 1) (by omega) (by omega) (by omega)),
      coords_some (hv i (j + 1) (k + 1) (by omega) (by omega) (by omega))]
    simp only [e1]
    refine lt_of_lt_of_eq ?_ e.symm
    have : (0 : ℝ) < n := by exact_mod_cast Nat.pos_of_ne_zero hn
    positivity

/-- **C94.** The patch test on the uniform hexahedral mesh of a box, of every resolution, with the canonical quadrature, for every operator
and every affine function: all components of the assembled vector are zero at all vertices inside the box. -/
theorem C94_hex_patch_test (gauss : Nat → Rule 1 ℝ) (h2 : IsGaussRule 2 (gauss 2).1 (gauss 2).2) (param : Param)
    (L : ℝ) (hL : 0 < L) (ux uy uz n : Nat) (hn : n ≠ 0) (hux : ux ≠ 0) (huy : uy ≠ 0)
    (mesh : Mesh (Point 3 ℝ)) (hmesh : mesh = hexMesh L ux uy uz n)
    (G : Matrix (Fin 3) (Fin s) ℝ) (b : Fin s → ℝ) (u : List ℝ) (hu : IsAffine mesh.vertices G b u) (o : Operator 3 s ℝ Param) :
    ∃ space rule t, meshSpace .hex8 mesh = some space ∧ stiffnessRule gauss .hex8 = some rule ∧
      Uniform.fromQuadratureAndData rule param = some t ∧
      ∀ (bufs : Nat → Buffer (Point 3 ℝ) ℝ Param) (outs : Nat → Nat → ℝ) (elemVec : Nat → Except String (Nat → ℝ)),
        (∀ e, e < space.length → ∃ buf', elementVector space o t.table u (bufs e) (outs e) e = some (elemVec e, buf')) →
        ∃ v, Assembly.assembleVector (conn s space mesh.vertices.length) elemVec = some (.ok v) ∧
          ∀ n x, mesh.vertices[n]? = some x → InOpenBox ![0, 0, 0] ![ux * L, uy * L, uz * L] x → ∀ i : Fin s, v[s * n + i]? = some 0 := by
  subst hmesh
  obtain ⟨hsize, hin, hdet⟩ := C94_hex_elements L hL ux uy uz n hn hux huy
  refine patch_of gauss h2 param .hex8 (by simp) (hexMesh L ux uy uz n) hsize hin (C94_hex_consistent L ux uy uz n) hdet _ ?_ G b u hu o
  · intro fs h9 f c l hf v hvf hin
    obtain ⟨fs', h11, h12⟩ := C94_hex_boundary L hL ux uy uz n hn hux huy
    rw [h9] at h11
    obtain rfl := Option.some.inj h11
    obtain ⟨axis, h13 | h13⟩ := ((h12 f c l).1 hf).2
    · have h14 := (hin axis).1
      rw [h13 v hvf] at h14
      have hax : axis = 0 ∨ axis = 1 ∨ axis = 2 := by fin_cases axis <;> simp
      rcases hax with rfl | rfl | rfl <;> exact lt_irrefl _ h14
    · exact absurd (h13 v hvf) (hin axis).2.ne

end Patch

/-! ## Examples -/

-- The 2 × 2 mesh of the unit square has 16 edges of cells, of which 8 are on the boundary; its inner vertex is inside.
example : ((Mesh.findBoundaryFaces (facesOf .quad4) (unitSquareQuadMesh (K := ℚ) 2)).map List.length) = some 8 ∧
    ((unitSquareQuadMesh (K := ℚ) 2).cells.flatMap (facesOf .quad4)).length = 16 ∧ (unitSquareQuadMesh (K := ℚ) 2).vertices.length = 9 := by
  decide +kernel
example : ∃ x, (unitSquareQuadMesh (K := ℚ) 2).vertices[4]? = some x ∧ InOpenBox ![0, 0] ![1, 1] x :=
  ⟨_, rfl, by intro i; fin_cases i <;> norm_num [unitSquareQuadMesh, quadMesh, pt2, List.range_succ]⟩
example : ((Mesh.findBoundaryFaces (facesOf .hex8) (unitBoxHexMesh (K := ℚ) 2)).map List.length) = some 24 ∧
    ((unitBoxHexMesh (K := ℚ) 2).cells.flatMap (facesOf .hex8)).length = 48 := by decide +kernel

end Fenris.GridFaces
