import Verif.Props.MeshUtil
import Verif.Props.GridFaces
/-! # C108: splitting quadrilaterals into triangles keeps conformity and the boundary -/
set_option autoImplicit false

namespace Fenris.MeshUtil
open Fenris.Element Fenris.Surface Fenris.Surface.Spec Geometry
open Fenris.Spec (IsFace IsBoundary)

/-! ## The faces of the triangles -/

private def halvesOf (c : List Nat) : List (List Nat) := [[c.getD 0 0, c.getD 1 0, c.getD 2 0], [c.getD 0 0, c.getD 2 0, c.getD 3 0]]

private theorem getElem?_halves (cells : List (List Nat)) (C : Nat) (t : List Nat) :
    (cells.flatMap halvesOf)[C]? = some t ↔ ∃ cell, cells[C / 2]? = some cell ∧ (halvesOf cell)[C % 2]? = some t := by
  induction cells generalizing C with
  | nil => simp
  | cons c cells ih =>
    rw [List.flatMap_cons]
    by_cases hC : C < 2
    · rw [List.getElem?_append_left (by simpa [halvesOf] using hC), Nat.div_eq_of_lt hC, Nat.mod_eq_of_lt hC]
      simp
    · obtain ⟨C, rfl⟩ : ∃ k, C = k + 2 := ⟨C - 2, by omega⟩
      rw [List.getElem?_append_right (by simp [halvesOf]), show C + 2 - (halvesOf c).length = C by simp [halvesOf], ih,
        Nat.add_div_right _ (by decide), Nat.add_mod_right, List.getElem?_cons_succ]

/-- Every edge of a quadrilateral is an edge of one of its halves. -/
private theorem outer_face {cells : List (List Nat)} {i l : Nat} {f : List Nat} (h : IsFace (facesOf .quad4) cells i l f) :
    l < 4 ∧ IsFace (facesOf .tri3) (cells.flatMap halvesOf) (2 * i + l / 2) (l - l / 2) f := by
  obtain ⟨cell, hc, hf⟩ := h
  have hl : l < 4 := by
    have := (List.getElem?_eq_some_iff.1 hf).1
    simpa [facesOf, localFaces] using this
  refine ⟨hl, ?_⟩
  have hcell : ∀ r, r < 2 → ∀ t, (halvesOf cell)[r]? = some t → (cells.flatMap halvesOf)[2 * i + r]? = some t := fun r hr t ht =>
    (getElem?_halves cells _ t).2 ⟨cell, by rw [show (2 * i + r) / 2 = i by omega]; exact hc, by rw [show (2 * i + r) % 2 = r by omega]; exact ht⟩
  rcases l with _ | _ | _ | _ | l
  · exact ⟨_, hcell 0 (by decide) _ rfl, hf⟩
  · exact ⟨_, hcell 0 (by decide) _ rfl, hf⟩
  · exact ⟨_, hcell 1 (by decide) _ rfl, hf⟩
  · exact ⟨_, hcell 1 (by decide) _ rfl, hf⟩
  · omega

private theorem diagonal_faces {cells : List (List Nat)} {i : Nat} {cell : List Nat} (hc : cells[i]? = some cell) :
    IsFace (facesOf .tri3) (cells.flatMap halvesOf) (2 * i) 2 [cell.getD 2 0, cell.getD 0 0] ∧
    IsFace (facesOf .tri3) (cells.flatMap halvesOf) (2 * i + 1) 0 [cell.getD 0 0, cell.getD 2 0] := by
  refine ⟨⟨[cell.getD 0 0, cell.getD 1 0, cell.getD 2 0], (getElem?_halves cells _ _).2 ⟨cell, by rw [Nat.mul_div_cancel_left _ (by decide)]; exact hc, by rw [Nat.mul_mod_right]; rfl⟩, rfl⟩,
    ⟨[cell.getD 0 0, cell.getD 2 0, cell.getD 3 0], (getElem?_halves cells _ _).2 ⟨cell, by rw [show (2 * i + 1) / 2 = i by omega]; exact hc,
      by rw [show (2 * i + 1) % 2 = 1 by omega]; rfl⟩, rfl⟩⟩

/-- The edges of the halves are the edges of the quadrilaterals and the diagonals. -/
private theorem triangle_face {cells : List (List Nat)} {C L : Nat} {f : List Nat}
    (h : IsFace (facesOf .tri3) (cells.flatMap halvesOf) C L f) :
    (∃ i l, IsFace (facesOf .quad4) cells i l f ∧ C = 2 * i + l / 2 ∧ L = l - l / 2) ∨
    ∃ i cell, cells[i]? = some cell ∧ ((C = 2 * i ∧ L = 2 ∧ f = [cell.getD 2 0, cell.getD 0 0]) ∨
      (C = 2 * i + 1 ∧ L = 0 ∧ f = [cell.getD 0 0, cell.getD 2 0])) := by
  obtain ⟨t, ht, hf⟩ := h
  obtain ⟨cell, hc, ht⟩ := (getElem?_halves cells C t).1 ht
  have hL : L < 3 := by
    have := (List.getElem?_eq_some_iff.1 hf).1
    simpa [facesOf, localFaces] using this
  have hC : C = 2 * (C / 2) + C % 2 := (Nat.div_add_mod C 2).symm
  have hr : C % 2 = 0 ∨ C % 2 = 1 := by omega
  rcases hr with hr | hr <;> rw [hr] at ht
  · obtain rfl := Option.some.inj ht
    rcases L with _ | _ | _ | L
    · exact .inl ⟨C / 2, 0, ⟨cell, hc, hf⟩, by omega, rfl⟩
    · exact .inl ⟨C / 2, 1, ⟨cell, hc, hf⟩, by omega, rfl⟩
    · exact .inr ⟨C / 2, cell, hc, .inl ⟨by omega, rfl, (Option.some.inj hf).symm⟩⟩
    · omega
  · obtain rfl := Option.some.inj ht
    rcases L with _ | _ | _ | L
    · exact .inr ⟨C / 2, cell, hc, .inr ⟨by omega, rfl, (Option.some.inj hf).symm⟩⟩
    · exact .inl ⟨C / 2, 2, ⟨cell, hc, hf⟩, by omega, rfl⟩
    · exact .inl ⟨C / 2, 3, ⟨cell, hc, hf⟩, by omega, rfl⟩
    · omega

private theorem place_inj {i l i' l' : Nat} (hl : l < 4) (hl' : l' < 4) (h1 : 2 * i + l / 2 = 2 * i' + l' / 2) (h2 : l - l / 2 = l' - l' / 2) :
    i = i' ∧ l = l' := by omega

private theorem face_sub {cells : List (List Nat)} {j l : Nat} {f cell : List Nat} (hc : cells[j]? = some cell) (hl : cell.length = 4)
    (h : IsFace (facesOf .quad4) cells j l f) : ∀ v ∈ f, v ∈ cell := by
  obtain ⟨cell', hc', hf⟩ := h
  rw [hc] at hc'
  obtain rfl := Option.some.inj hc'
  obtain ⟨f', hf', rfl⟩ := List.mem_map.1 (List.mem_of_getElem? hf)
  intro v hv
  obtain ⟨k, hk, rfl⟩ := List.mem_map.1 hv
  have : k < 4 := (by decide : ∀ f ∈ localFaces .quad4, ∀ k ∈ f, k < 4) f' hf' k hk
  rw [List.getD_eq_getElem?_getD, List.getElem?_eq_getElem (hl ▸ this), Option.getD_some]
  exact List.getElem_mem _

section
variable {cells : List (List Nat)} (hl : ∀ c ∈ cells, c.length = 4) (hnd : ∀ c ∈ cells, c.Nodup)
  (hdiag : ∀ (i j : Nat) (c c' : List Nat), cells[i]? = some c → cells[j]? = some c' → i ≠ j → ¬(c.getD 0 0 ∈ c' ∧ c.getD 2 0 ∈ c'))
include hl hnd hdiag
set_option linter.unusedSectionVars false

/-- No edge of a quadrilateral is a diagonal. -/
private theorem edge_not_diagonal {i j l : Nat} {f cell : List Nat} (hc : cells[i]? = some cell) (h : IsFace (facesOf .quad4) cells j l f)
    (hp : ∀ v, v ∈ f ↔ v = cell.getD 0 0 ∨ v = cell.getD 2 0) : False := by
  obtain ⟨cell', hc', hf⟩ := id h
  have hsub := face_sub hc' (hl _ (List.mem_of_getElem? hc')) h
  by_cases hij : i = j
  · subst hij
    rw [hc] at hc'
    obtain rfl := Option.some.inj hc'
    have hn := hnd cell (List.mem_of_getElem? hc)
    obtain ⟨a, b, c, e, rfl⟩ := List.length_eq_four.1 (hl cell (List.mem_of_getElem? hc))
    simp only [List.nodup_cons, List.mem_cons, List.not_mem_nil, or_false, not_or, not_false_eq_true, List.nodup_nil, and_true] at hn
    obtain ⟨⟨hab, hac, hae⟩, ⟨hbc, hbe⟩, hce⟩ := hn
    rcases l with _ | _ | _ | _ | l
    · obtain rfl : [a, b] = f := Option.some.inj hf
      exact ((hp b).1 (by simp)).elim (fun h => hab h.symm) fun h => hbc h
    · obtain rfl : [b, c] = f := Option.some.inj hf
      exact ((hp b).1 (by simp)).elim (fun h => hab h.symm) fun h => hbc h
    · obtain rfl : [c, e] = f := Option.some.inj hf
      exact ((hp e).1 (by simp)).elim (fun h => hae h.symm) fun h => hce h.symm
    · obtain rfl : [e, a] = f := Option.some.inj hf
      exact ((hp e).1 (by simp)).elim (fun h => hae h.symm) fun h => hce h.symm
    · simp [facesOf, localFaces] at hf
  · exact hdiag i j cell cell' hc hc' hij ⟨hsub _ ((hp _).2 (.inl rfl)), hsub _ ((hp _).2 (.inr rfl))⟩

/-- The diagonals of different quadrilaterals are different. -/
private theorem diagonal_unique {i j : Nat} {c c' : List Nat} (hc : cells[i]? = some c) (hc' : cells[j]? = some c')
    (hp : ∀ v, v = c'.getD 0 0 ∨ v = c'.getD 2 0 ↔ v = c.getD 0 0 ∨ v = c.getD 2 0) : i = j := by
  by_contra hij
  have hmem : ∀ v, v = c'.getD 0 0 ∨ v = c'.getD 2 0 → v ∈ c' := by
    have h4 := hl c' (List.mem_of_getElem? hc')
    obtain ⟨a, b, d, e, rfl⟩ := List.length_eq_four.1 h4
    rintro v (rfl | rfl) <;> simp
  exact hdiag i j c c' hc hc' hij ⟨hmem _ ((hp _).2 (.inl rfl)), hmem _ ((hp _).2 (.inr rfl))⟩

private theorem boundary_iff (f : List Nat) : (∃ C L, IsBoundary (facesOf .tri3) (cells.flatMap halvesOf) C L f) ↔
    ∃ i l, IsBoundary (facesOf .quad4) cells i l f := by
  constructor
  · rintro ⟨C, L, hf, hu⟩
    rcases triangle_face hf with ⟨i, l, hil, rfl, rfl⟩ | ⟨i, cell, hc, h⟩
    · refine ⟨i, l, hil, fun i' l' f' hf' hp => ?_⟩
      obtain ⟨hl', ho⟩ := outer_face hf'
      obtain ⟨h1, h2⟩ := hu _ _ f' ho hp
      exact place_inj hl' (outer_face hil).1 h1 h2
    · exfalso
      obtain ⟨d1, d2⟩ := diagonal_faces hc
      rcases h with ⟨rfl, rfl, rfl⟩ | ⟨rfl, rfl, rfl⟩
      · have := hu _ _ _ d2 (List.Perm.swap _ _ _)
        omega
      · have := hu _ _ _ d1 (List.Perm.swap _ _ _)
        omega
  · rintro ⟨i, l, hf, hu⟩
    refine ⟨_, _, (outer_face hf).2, fun C L f' hf' hp => ?_⟩
    rcases triangle_face hf' with ⟨i', l', h', rfl, rfl⟩ | ⟨j, cell, hc, h⟩
    · obtain ⟨rfl, rfl⟩ := hu _ _ f' h' hp
      exact ⟨rfl, rfl⟩
    · exfalso
      refine edge_not_diagonal hl hnd hdiag hc hf fun v => ?_
      rw [← hp.mem_iff]
      rcases h with ⟨-, -, rfl⟩ | ⟨-, -, rfl⟩ <;> simp [or_comm]

private theorem split_consistent (hcons : Consistent (facesOf .quad4) cells) : Consistent (facesOf .tri3) (cells.flatMap halvesOf) := by
  have hd : ∀ {C L : Nat} {f : List Nat} {i : Nat} {cell : List Nat}, cells[i]? = some cell →
      ((C = 2 * i ∧ L = 2 ∧ f = [cell.getD 2 0, cell.getD 0 0]) ∨ (C = 2 * i + 1 ∧ L = 0 ∧ f = [cell.getD 0 0, cell.getD 2 0])) →
      ∀ v, v ∈ f ↔ v = cell.getD 0 0 ∨ v = cell.getD 2 0 := by
    intro C L f i cell _ h v
    rcases h with ⟨-, -, rfl⟩ | ⟨-, -, rfl⟩ <;> simp [or_comm]
  intro C L f C' L' f' hf hf' hne hp
  rcases triangle_face hf with ⟨i, l, h, rfl, rfl⟩ | ⟨i, cell, hc, h⟩ <;>
    rcases triangle_face hf' with ⟨i', l', h', rfl, rfl⟩ | ⟨i', cell', hc', h'⟩
  · obtain ⟨ho, hu⟩ := hcons i l f i' l' f' h h' (fun he => hne (by
      obtain ⟨rfl, rfl⟩ := Prod.mk.inj he
      rfl)) hp
    refine ⟨ho, fun C'' L'' f'' hf'' hp'' => ?_⟩
    rcases triangle_face hf'' with ⟨i'', l'', h'', rfl, rfl⟩ | ⟨j, cell, hc, hj⟩
    · rcases hu i'' l'' f'' h'' hp'' with he | he <;> obtain ⟨rfl, rfl⟩ := Prod.mk.inj he
      · exact .inl rfl
      · exact .inr rfl
    · exact (edge_not_diagonal hl hnd hdiag hc h fun v => by rw [← hp''.mem_iff]; exact hd hc hj v).elim
  · exact (edge_not_diagonal hl hnd hdiag hc' h fun v => by rw [← hp.mem_iff]; exact hd hc' h' v).elim
  · exact (edge_not_diagonal hl hnd hdiag hc h' fun v => by rw [hp.mem_iff]; exact hd hc h v).elim
  · obtain rfl := diagonal_unique hl hnd hdiag hc hc' fun v => by rw [← hd hc' h' v, hp.mem_iff]; exact hd hc h v
    rw [hc] at hc'
    obtain rfl := Option.some.inj hc'
    refine ⟨.inl ?_, fun C'' L'' f'' hf'' hp'' => ?_⟩
    · rcases h with ⟨rfl, rfl, rfl⟩ | ⟨rfl, rfl, rfl⟩ <;> rcases h' with ⟨rfl, rfl, rfl⟩ | ⟨rfl, rfl, rfl⟩ <;>
        first | exact absurd rfl hne | rfl
    · rcases triangle_face hf'' with ⟨i'', l'', h'', rfl, rfl⟩ | ⟨j, c, hc'', h''⟩
      · exact (edge_not_diagonal hl hnd hdiag hc h'' fun v => by rw [hp''.mem_iff]; exact hd hc h v).elim
      · obtain rfl := diagonal_unique hl hnd hdiag hc hc'' fun v => by rw [← hd hc'' h'' v, hp''.mem_iff]; exact hd hc h v
        rcases h with ⟨rfl, rfl, -⟩ | ⟨rfl, rfl, -⟩ <;> rcases h' with ⟨rfl, rfl, -⟩ | ⟨rfl, rfl, -⟩ <;>
          rcases h'' with ⟨rfl, rfl, -⟩ | ⟨rfl, rfl, -⟩ <;> simp at hne ⊢

end

/-! ## Splitting a mesh -/

section
variable {K : Type} [Field K] [LinearOrder K] [IsStrictOrderedRing K]

/-- **C108.** Splitting the quadrilaterals of a mesh into triangles keeps its boundary and its orientation, if the ends of the diagonal along
which a quadrilateral is split are not vertices of a common other quadrilateral: the boundary edges of the triangle mesh are those of the
quadrilateral mesh (with the same direction), so are the boundary vertices, and the triangle mesh is consistently oriented if the
quadrilateral mesh is. -/
theorem C108_split_surface (mesh : Mesh (Point 2 K)) (hl : ∀ c ∈ mesh.cells, c.length = 4)
    (hb : ∀ c ∈ mesh.cells, ∀ v ∈ c, v < mesh.vertices.length) (hnd : ∀ c ∈ mesh.cells, c.Nodup)
    (hdiag : ∀ (i j : Nat) (c c' : List Nat), mesh.cells[i]? = some c → mesh.cells[j]? = some c' → i ≠ j →
      ¬(c.getD 0 0 ∈ c' ∧ c.getD 2 0 ∈ c')) :
    ∃ out fs fs', splitIntoTriangles mesh = some out ∧ out.vertices = mesh.vertices ∧
      Mesh.findBoundaryFaces (facesOf .quad4) mesh = some fs ∧ Mesh.findBoundaryFaces (facesOf .tri3) out = some fs' ∧
      (∀ f, f ∈ fs'.map (fun x => x.1) ↔ f ∈ fs.map (fun x => x.1)) ∧
      Mesh.findBoundaryVertices (facesOf .tri3) out = Mesh.findBoundaryVertices (facesOf .quad4) mesh ∧
      (Consistent (facesOf .quad4) mesh.cells → Consistent (facesOf .tri3) out.cells) := by
  obtain ⟨out, h1, h2, h3, -⟩ := C81_split_into_triangles mesh hl hb
  obtain ⟨fs, h4, -, h5⟩ := C14_boundary_faces_exact (facesOf .quad4) mesh
  obtain ⟨fs', h6, -, h7⟩ := C14_boundary_faces_exact (facesOf .tri3) out
  have hb' := boundary_iff hl hnd hdiag
  rw [show mesh.cells.flatMap halvesOf = out.cells from h3.symm] at hb'
  refine ⟨out, fs, fs', h1, h2, h4, h6, fun f => ?_, ?_, fun hc => ?_⟩
  · rw [List.mem_map, List.mem_map]
    constructor
    · rintro ⟨⟨f, c, l⟩, hm, rfl⟩
      obtain ⟨i, l', h⟩ := (hb' f).1 ⟨c, l, (h7 _ _ _).1 hm⟩
      exact ⟨(f, i, l'), (h5 _ _ _).2 h, rfl⟩
    · rintro ⟨⟨f, c, l⟩, hm, rfl⟩
      obtain ⟨i, l', h⟩ := (hb' f).2 ⟨c, l, (h5 _ _ _).1 hm⟩
      exact ⟨(f, i, l'), (h7 _ _ _).2 h, rfl⟩
  · obtain ⟨vs, h8, h9, h10⟩ := C14_boundary_vertices_exact (facesOf .quad4) mesh
    obtain ⟨vs', h11, h12, h13⟩ := C14_boundary_vertices_exact (facesOf .tri3) out
    rw [h8, h11, Option.some.injEq]
    refine List.Perm.eq_of_pairwise (le := fun a b => a < b) (fun a b _ _ hab hba => absurd hab (Nat.lt_asymm hba)) h12 h9 ?_
    · rw [List.perm_ext_iff_of_nodup (h12.imp fun h => Nat.ne_of_lt h) (h9.imp fun h => Nat.ne_of_lt h)]
      intro v
      rw [h10, h13]
      constructor
      · rintro ⟨c, l, f, hf, hv⟩
        obtain ⟨i, l', h⟩ := (hb' f).1 ⟨c, l, hf⟩
        exact ⟨i, l', f, h, hv⟩
      · rintro ⟨c, l, f, hf, hv⟩
        obtain ⟨i, l', h⟩ := (hb' f).2 ⟨c, l, hf⟩
        exact ⟨i, l', f, h, hv⟩
  · rw [h3]
    exact split_consistent hl hnd hdiag hc

private theorem grid_index' {nx ny t : Nat} (h : t < nx * ny) : ∃ i j, i < nx ∧ j < ny ∧ t = nx * j + i := by
  have hnx : 0 < nx := Nat.pos_of_ne_zero (by rintro rfl; simp at h)
  exact ⟨t % nx, t / nx, Nat.mod_lt _ hnx, Nat.div_lt_of_lt_mul h, (Nat.div_add_mod t nx).symm⟩

/-- The ends of the diagonal of a cell of the uniform quadrilateral mesh are not vertices of a common other cell, and they do not lie in a
common side of the rectangle. -/
private theorem uniform_diagonals (L : K) (hL : 0 < L) (ux uy n : Nat) (x0 y0 : K) (hn : n ≠ 0) (hux : ux ≠ 0) (huy : uy ≠ 0) :
    (∀ c ∈ (Procedural.quadMesh L ux uy n x0 y0).cells, c.length = 4) ∧
    (∀ c ∈ (Procedural.quadMesh L ux uy n x0 y0).cells, ∀ v ∈ c, v < (Procedural.quadMesh L ux uy n x0 y0).vertices.length) ∧
    (∀ c ∈ (Procedural.quadMesh L ux uy n x0 y0).cells, c.Nodup) ∧
    (∀ (i j : Nat) (c c' : List Nat), (Procedural.quadMesh L ux uy n x0 y0).cells[i]? = some c →
      (Procedural.quadMesh L ux uy n x0 y0).cells[j]? = some c' → i ≠ j → ¬(c.getD 0 0 ∈ c' ∧ c.getD 2 0 ∈ c')) ∧
    ∀ c ∈ (Procedural.quadMesh L ux uy n x0 y0).cells, ∀ axis : Fin 2,
      Surface.Spec.coords (Procedural.quadMesh L ux uy n x0 y0).vertices (c.getD 0 0) axis ≠
        Surface.Spec.coords (Procedural.quadMesh L ux uy n x0 y0).vertices (c.getD 2 0) axis := by
  obtain ⟨vid, -, hlen, hv, hinj, -, hcells⟩ := C17_quad_mesh_is_the_grid L ux uy n x0 y0 hn hux huy
  have hh : 0 < L / (n : K) := div_pos hL (by exact_mod_cast Nat.pos_of_ne_zero hn)
  have hget : ∀ t c, (Procedural.quadMesh L ux uy n x0 y0).cells[t]? = some c → ∃ i j, i < ux * n ∧ j < uy * n ∧ t = ux * n * j + i ∧
      c = [vid i (j + 1), vid (i + 1) (j + 1), vid (i + 1) j, vid i j] := by
    intro t c ht
    have hlt := (List.getElem?_eq_some_iff.1 ht).1
    rw [hlen] at hlt
    obtain ⟨i, j, hi, hj, rfl⟩ := grid_index' hlt
    have := hcells i j hi hj
    rw [this] at ht
    exact ⟨i, j, hi, hj, rfl, (Option.some.inj ht).symm⟩
  have hcell : ∀ c ∈ (Procedural.quadMesh L ux uy n x0 y0).cells, ∃ i j, i < ux * n ∧ j < uy * n ∧
      c = [vid i (j + 1), vid (i + 1) (j + 1), vid (i + 1) j, vid i j] := by
    intro c hc
    obtain ⟨t, ht⟩ := List.getElem?_of_mem hc
    obtain ⟨i, j, hi, hj, -, h⟩ := hget t c ht
    exact ⟨i, j, hi, hj, h⟩
  have hlt : ∀ i j, i ≤ ux * n → j ≤ uy * n → vid i j < (Procedural.quadMesh L ux uy n x0 y0).vertices.length :=
    fun i j hi hj => (List.getElem?_eq_some_iff.1 (hv i j hi hj)).1
  have hd : ∀ a b a' b', a ≤ ux * n → a' ≤ ux * n → vid a b = vid a' b' → a = a' ∧ b = b' := fun a b a' b' ha ha' h => hinj a b a' b' ha ha' h
  refine ⟨fun c hc => by obtain ⟨i, j, -, -, rfl⟩ := hcell c hc; rfl, ?_, ?_, ?_, ?_⟩
  · intro c hc v hvc
    obtain ⟨i, j, hi, hj, rfl⟩ := hcell c hc
    simp only [List.mem_cons, List.not_mem_nil, or_false] at hvc
    rcases hvc with rfl | rfl | rfl | rfl <;> exact hlt _ _ (by omega) (by omega)
  · intro c hc
    obtain ⟨i, j, hi, hj, rfl⟩ := hcell c hc
    have hd' : ∀ a b a' b', a ≤ ux * n → a' ≤ ux * n → (a ≠ a' ∨ b ≠ b') → vid a b ≠ vid a' b' := fun a b a' b' ha ha' hor h => by
      have := hd a b a' b' ha ha' h
      omega
    simp only [List.nodup_cons, List.mem_cons, List.not_mem_nil, or_false, not_or, not_false_eq_true, List.nodup_nil, and_true]
    refine ⟨⟨?_, ?_, ?_⟩, ⟨?_, ?_⟩, ?_⟩ <;> exact hd' _ _ _ _ (by omega) (by omega) (by omega)
  · rintro s t c c' hs ht hst ⟨h0, h2⟩
    obtain ⟨i, j, hi, hj, rfl, rfl⟩ := hget s c hs
    obtain ⟨i', j', hi', hj', rfl, rfl⟩ := hget t c' ht
    have k0 : ∃ a b, a ≤ 1 ∧ b ≤ 1 ∧ vid i (j + 1) = vid (i' + a) (j' + b) := by
      simp only [List.getD_cons_zero, List.mem_cons, List.not_mem_nil, or_false] at h0
      rcases h0 with h | h | h | h
      exacts [⟨0, 1, by omega, by omega, h⟩, ⟨1, 1, by omega, by omega, h⟩, ⟨1, 0, by omega, by omega, h⟩, ⟨0, 0, by omega, by omega, h⟩]
    have k2 : ∃ a b, a ≤ 1 ∧ b ≤ 1 ∧ vid (i + 1) j = vid (i' + a) (j' + b) := by
      have h2' : vid (i + 1) j ∈ [vid i' (j' + 1), vid (i' + 1) (j' + 1), vid (i' + 1) j', vid i' j'] := h2
      simp only [List.mem_cons, List.not_mem_nil, or_false] at h2'
      rcases h2' with h | h | h | h
      exacts [⟨0, 1, by omega, by omega, h⟩, ⟨1, 1, by omega, by omega, h⟩, ⟨1, 0, by omega, by omega, h⟩, ⟨0, 0, by omega, by omega, h⟩]
    obtain ⟨a, b, ha, hb, e0⟩ := k0
    obtain ⟨a', b', ha', hb', e2⟩ := k2
    have f0 := hd _ _ _ _ (by omega) (by omega) e0
    have f2 := hd _ _ _ _ (by omega) (by omega) e2
    obtain ⟨rfl, rfl⟩ : i = i' ∧ j = j' := by omega
    exact hst rfl
  · intro c hc axis
    obtain ⟨i, j, hi, hj, rfl⟩ := hcell c hc
    have e0 := hv i (j + 1) (by omega) (by omega)
    have e2 := hv (i + 1) j (by omega) (by omega)
    have c0 : Surface.Spec.coords (Procedural.quadMesh L ux uy n x0 y0).vertices (vid i (j + 1)) =
        ![x0 + i * (L / n), y0 - ((j + 1 : Nat) : K) * (L / n)] := by
      rw [Surface.Spec.coords, List.getD_eq_getElem?_getD, e0, Option.getD_some]
    have c2 : Surface.Spec.coords (Procedural.quadMesh L ux uy n x0 y0).vertices (vid (i + 1) j) =
        ![x0 + ((i + 1 : Nat) : K) * (L / n), y0 - j * (L / n)] := by
      rw [Surface.Spec.coords, List.getD_eq_getElem?_getD, e2, Option.getD_some]
    show Surface.Spec.coords _ (vid i (j + 1)) axis ≠ Surface.Spec.coords _ (vid (i + 1) j) axis
    rw [c0, c2]
    fin_cases axis
    · simp [hh.ne', add_mul]
    · simp [hh.ne', add_mul]

/-- **C108.** The uniform triangle mesh of a rectangle is conforming: an edge belongs to at most two triangles, which run through it in
opposite directions, and the boundary edges that the library finds are exactly the edges in the sides of the rectangle. -/
theorem C108_uniform_triangles (L : K) (hL : 0 < L) (ux uy n : Nat) (x0 y0 : K) (hn : n ≠ 0) (hux : ux ≠ 0) (huy : uy ≠ 0) :
    ∃ out fs, splitIntoTriangles (Procedural.quadMesh L ux uy n x0 y0) = some out ∧ Consistent (facesOf .tri3) out.cells ∧
      Mesh.findBoundaryFaces (facesOf .tri3) out = some fs ∧ ∀ f c l, (f, c, l) ∈ fs ↔ IsFace (facesOf .tri3) out.cells c l f ∧
        ∃ axis : Fin 2, (∀ v ∈ f, Surface.Spec.coords out.vertices v axis = ![x0, y0] axis) ∨
          ∀ v ∈ f, Surface.Spec.coords out.vertices v axis = ![x0 + ux * L, y0 - uy * L] axis := by
  obtain ⟨hl, hb, hnd, hdiag, hside⟩ := uniform_diagonals L hL ux uy n x0 y0 hn hux huy
  obtain ⟨out, fs, fs', h1, h2, h3, h4, h5, -, h6⟩ := C108_split_surface (Procedural.quadMesh L ux uy n x0 y0) hl hb hnd hdiag
  obtain ⟨out', g1, -, g3, -⟩ := C81_split_into_triangles (Procedural.quadMesh L ux uy n x0 y0) hl hb
  rw [h1] at g1
  obtain rfl := Option.some.inj g1
  obtain ⟨fs₀, h7, h8⟩ := GridFaces.C94_quad_boundary L hL ux uy n x0 y0 hn hux huy
  rw [h3] at h7
  obtain rfl := Option.some.inj h7
  obtain ⟨fs₁, h9, -, h10⟩ := C14_boundary_faces_exact (facesOf .tri3) out
  rw [h4] at h9
  obtain rfl := Option.some.inj h9
  refine ⟨out, fs', h1, h6 (GridFaces.C94_quad_consistent L ux uy n x0 y0), h4, fun f c l => ⟨fun hf => ⟨((h10 f c l).1 hf).1, ?_⟩, ?_⟩⟩
  · obtain ⟨⟨f', i, l'⟩, hf', rfl⟩ := List.mem_map.1 ((h5 f).1 (List.mem_map.2 ⟨_, hf, rfl⟩))
    rw [h2]
    exact ((h8 _ _ _).1 hf').2
  · rintro ⟨hf, hax⟩
    rw [h2] at hax
    have hf₀ := hf
    rw [g3] at hf₀
    rcases triangle_face hf₀ with ⟨i, l', hil, -⟩ | ⟨i, cell, hc, h⟩
    · obtain ⟨⟨f', C, L'⟩, hf', hff⟩ := List.mem_map.1 ((h5 f).2 (List.mem_map.2 ⟨_, (h8 f i l').2 ⟨hil, hax⟩, rfl⟩))
      obtain rfl : f' = f := hff
      obtain ⟨rfl, rfl⟩ := ((h10 _ _ _).1 hf').2 c l f' hf (List.Perm.refl _)
      exact hf'
    · exfalso
      have hne := hside cell (List.mem_of_getElem? hc)
      have hm : cell.getD 0 0 ∈ f ∧ cell.getD 2 0 ∈ f := by
        rcases h with ⟨-, -, rfl⟩ | ⟨-, -, rfl⟩ <;> simp
      obtain ⟨axis, h | h⟩ := hax <;> exact hne axis ((h _ hm.1).trans (h _ hm.2).symm)

end

/-! ## A concave quadrilateral -/

/-- A square below a quadrilateral that is concave at the top of the square. -/
private def notch : Mesh (Point 2 ℚ) := ⟨[![-1, 0], ![0, 1], ![1, 0], ![0, 3], ![0, -1]], [[0, 1, 2, 3], [0, 4, 2, 1]]⟩

private theorem consistent_of_faces (faces : List Nat → List (List Nat)) (cells : List (List Nat))
    (h : ∀ x ∈ Mesh.faceInfo faces cells, ∀ y ∈ Mesh.faceInfo faces cells, y.2 ≠ x.2 → y.1.Perm x.1 → y.1 = x.1.reverse ∧
      ∀ z ∈ Mesh.faceInfo faces cells, z.1.Perm x.1 → z.2 = x.2 ∨ z.2 = y.2) : Consistent faces cells := by
  intro c l f c' l' f' hf hf' hne hp
  obtain ⟨h1, h2⟩ := h (f, c, l) ((Mesh.mem_faceInfo _ _ _ _ _).2 hf) (f', c', l') ((Mesh.mem_faceInfo _ _ _ _ _).2 hf') hne hp
  exact ⟨.inl h1, fun c'' l'' f'' hf'' hp'' => h2 (f'', c'', l'') ((Mesh.mem_faceInfo _ _ _ _ _).2 hf'') hp''⟩

/-- **C108** (finding): the assumption on the diagonals is needed. The mesh of a square and a concave quadrilateral in the plane is consistently
oriented, and both cells have positive area. The library splits the concave cell along the diagonal outside of it (see C52), so the triangle
mesh has an edge that belongs to four triangles, and a triangle with negative area. -/
theorem C108_finding_concave_cell :
    Consistent (facesOf .quad4) notch.cells ∧ (∀ c ∈ notch.cells, 0 < polyArea2 notch.vertices c) ∧
    ∃ out, splitIntoTriangles notch = some out ∧
      (∀ c, c < 4 → ∃ l f, IsFace (facesOf .tri3) out.cells c l f ∧ f.Perm [0, 2]) ∧
      ¬ Consistent (facesOf .tri3) out.cells ∧ ∃ c ∈ out.cells, polyArea2 out.vertices c < 0 := by
  obtain ⟨out, h1, h2, h3, -⟩ := C81_split_into_triangles notch (by decide) (by decide)
  have h3' : out.cells = [[0, 1, 2], [0, 2, 3], [0, 4, 2], [0, 2, 1]] := h3
  refine ⟨consistent_of_faces _ _ (by decide +kernel), ?_, out, h1, ?_, ?_, [0, 1, 2], by rw [h3']; simp, ?_⟩
  · intro c hc
    simp only [notch, List.mem_cons, List.not_mem_nil, or_false] at hc
    rcases hc with rfl | rfl <;> norm_num [polyArea2, faceEdges, det2, Surface.Spec.coords, notch]
  · rw [h3']
    intro c hc
    interval_cases c
    · exact ⟨2, [2, 0], ⟨_, rfl, rfl⟩, by decide⟩
    · exact ⟨0, [0, 2], ⟨_, rfl, rfl⟩, by decide⟩
    · exact ⟨2, [2, 0], ⟨_, rfl, rfl⟩, by decide⟩
    · exact ⟨0, [0, 2], ⟨_, rfl, rfl⟩, by decide⟩
  · rw [h3']
    intro h
    have := (h 0 2 [2, 0] 1 0 [0, 2] ⟨_, rfl, rfl⟩ ⟨_, rfl, rfl⟩ (by decide) (by decide)).2 2 2 [2, 0] ⟨_, rfl, rfl⟩ (by decide)
    simp at this
  · rw [h2]
    norm_num [polyArea2, faceEdges, det2, Surface.Spec.coords, notch]

-- The hypotheses of `C108_split_surface` hold for two squares side by side.
example : ∃ out, splitIntoTriangles (⟨[![0, 0], ![1, 0], ![2, 0], ![0, 1], ![1, 1], ![2, 1]], [[0, 1, 4, 3], [1, 2, 5, 4]]⟩ : Mesh (Point 2 ℚ)) = some out ∧
    Consistent (facesOf .tri3) out.cells ∧ Mesh.findBoundaryVertices (facesOf .tri3) out = some [0, 1, 2, 3, 4, 5] := by
  obtain ⟨out, fs, fs', h1, -, -, -, -, h2, h3⟩ := C108_split_surface
    (⟨[![0, 0], ![1, 0], ![2, 0], ![0, 1], ![1, 1], ![2, 1]], [[0, 1, 4, 3], [1, 2, 5, 4]]⟩ : Mesh (Point 2 ℚ)) (by decide) (by decide)
    (by decide) (fun i j c c' hi hj hij => by
      have h1 := (List.getElem?_eq_some_iff.1 hi).1
      have h2 := (List.getElem?_eq_some_iff.1 hj).1
      simp only [List.length_cons, List.length_nil] at h1 h2
      interval_cases i <;> interval_cases j <;> first | exact absurd rfl hij | skip
      all_goals
        obtain rfl := Option.some.inj hi
        obtain rfl := Option.some.inj hj
        decide)
  exact ⟨out, h1, h3 (consistent_of_faces _ _ (by decide +kernel)), h2.trans (by decide +kernel)⟩

end Fenris.MeshUtil
