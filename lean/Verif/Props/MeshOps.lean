import Verif.Lemmas.KeepCells
/-! # C14, C15: boundary extraction and sub-meshes -/
set_option autoImplicit false

namespace Fenris
open Mesh Permutation
variable {α : Type}

/-- Local face `l` of cell `c` exists and has the vertex list `f`. -/
def Spec.IsFace (facesOf : List Nat → List (List Nat)) (cells : List (List Nat))
    (c l : Nat) (f : List Nat) : Prop :=
  ∃ cell, cells[c]? = some cell ∧ (facesOf cell)[l]? = some f

/-- (c, l) is a boundary face: no other cell/local face has the same vertices, in whatever order. -/
def Spec.IsBoundary (facesOf : List Nat → List (List Nat)) (cells : List (List Nat))
    (c l : Nat) (f : List Nat) : Prop :=
  Spec.IsFace facesOf cells c l f ∧
    ∀ c' l' f', Spec.IsFace facesOf cells c' l' f' → f'.Perm f → c' = c ∧ l' = l

/-! ## C14 -/

/-- C14.  For every mesh: no panic; `(f, c, l)` is listed exactly when local face `l` of cell `c`
has vertex list `f` and no other local face of any cell has the same vertices in any order; and each
(cell, local face) is listed at most once. -/
theorem C14_boundary_faces_exact (facesOf : List Nat → List (List Nat)) (mesh : Mesh α) :
    ∃ fs, findBoundaryFaces facesOf mesh = some fs ∧
      (fs.map (fun f => (f.2.1, f.2.2))).Nodup ∧
      ∀ f c l, (f, c, l) ∈ fs ↔ Spec.IsBoundary facesOf mesh.cells c l f := by
  have hinfo : ∀ L, L = faceInfo facesOf mesh.cells → ∃ fs,
      ((intoIter (countLoop (L.map (fun f => sortNat f.1)) 0 [])).filter
        (fun e => e.2.2 == 1)).mapM (fun e => L[e.2.1]?) = some fs ∧
      (fs.map (fun f => (f.2.1, f.2.2))).Nodup ∧
      ∀ f c l, (f, c, l) ∈ fs ↔ Spec.IsBoundary facesOf mesh.cells c l f := by
    intro L hL
    have hinv : CountInv (L.map (fun f => sortNat f.1))
        (countLoop (L.map (fun f => sortNat f.1)) 0 []) := by
      have := countLoop_inv (L.map (fun f => sortNat f.1)) [] [] ⟨by simp, by simp, by simp⟩
      simpa using this
    generalize hks : L.map (fun f => sortNat f.1) = ks at hinv ⊢
    generalize hm : countLoop ks 0 [] = m at hinv ⊢
    have hperm : (intoIter m).Perm m := stableSort_perm _ m
    have hmem : ∀ e, e ∈ (intoIter m).filter (fun e => e.2.2 == 1) ↔ e ∈ m ∧ e.2.2 = 1 := by
      intro e; rw [List.mem_filter, hperm.mem_iff]; simp
    have hndL : (L.map (fun f => (f.2.1, f.2.2))).Nodup := hL ▸ faceInfo_nodup facesOf mesh.cells
    obtain ⟨fs, h1, h2, h3⟩ := mapM_option_spec (fun e : List Nat × Nat × Nat => L[e.2.1]?)
      ((intoIter m).filter (fun e => e.2.2 == 1)) (by
        rintro ⟨k, i, c⟩ he
        have := (hinv.sound k i c ((hmem _).1 he).1).1
        have := (List.getElem?_eq_some_iff.1 this).1
        rw [← hks, List.length_map] at this
        simp only [List.getElem?_eq_getElem this, Option.isSome_some])
    refine ⟨fs, h1, ?_, ?_⟩
    · -- distinct keys give distinct first indices, hence distinct (cell, local) pairs
      have hkeys : (((intoIter m).filter (fun e => e.2.2 == 1)).map (fun e => e.1)).Nodup :=
        (((hperm.map _).nodup_iff.2 hinv.keys).sublist (List.filter_sublist.map _))
      rw [List.nodup_iff_pairwise_ne, List.pairwise_map, List.pairwise_iff_getElem]
      intro a b ha hb hab heq
      have hget : ∀ (x : Nat) (hx : x < fs.length), ∃ A : List Nat × Nat × Nat,
          ((intoIter m).filter (fun e => e.2.2 == 1))[x]? = some A ∧ L[A.2.1]? = some fs[x] ∧
          ks[A.2.1]? = some A.1 := by
        intro x hx
        have hx' : x < ((intoIter m).filter (fun e => e.2.2 == 1)).length := by omega
        obtain ⟨A, hA⟩ : ∃ A, ((intoIter m).filter (fun e => e.2.2 == 1))[x]? = some A :=
          ⟨_, List.getElem?_eq_getElem hx'⟩
        obtain ⟨k, i, c⟩ := A
        refine ⟨(k, i, c), hA, ?_, (hinv.sound k i c ((hmem _).1 (List.mem_of_getElem? hA)).1).1⟩
        rw [← h3 x _ hA, List.getElem?_eq_getElem hx]
      obtain ⟨A, a1, a2, a3⟩ := hget a ha
      obtain ⟨B, b1, b2, b3⟩ := hget b hb
      have hidx : A.2.1 = B.2.1 :=
        nodup_getElem?_inj hndL (x := (fs[a].2.1, fs[a].2.2)) (by simp [a2]) (by simp only [List.getElem?_map, b2, Option.map_some, heq])
      have hkk : A.1 = B.1 := by
        rw [hidx, b3] at a3
        exact (Option.some.inj a3).symm
      have := nodup_getElem?_inj hkeys (i := a) (j := b) (x := A.1) (by simp [a1]) (by simp [b1, hkk])
      omega
    · intro f c l
      -- membership in fs through the entry of its key
      have hfs : ∀ x, x ∈ fs ↔ ∃ k i, (k, i, 1) ∈ m ∧ L[i]? = some x := by
        intro x
        constructor
        · intro hx
          obtain ⟨a, ha⟩ := List.getElem?_of_mem hx
          have hal : a < ((intoIter m).filter (fun e => e.2.2 == 1)).length := by
            have := (List.getElem?_eq_some_iff.1 ha).1; omega
          have e := h3 a _ (List.getElem?_eq_getElem hal)
          have hA := (hmem _).1 (List.getElem_mem hal)
          generalize ((intoIter m).filter (fun e => e.2.2 == 1))[a] = A at *
          obtain ⟨k, i, cc⟩ := A
          simp only at hA e
          obtain ⟨hA, rfl⟩ := hA
          exact ⟨k, i, hA, by rw [← e, ha]⟩
        · rintro ⟨k, i, he, hx⟩
          have := (hmem (k, i, 1)).2 ⟨he, rfl⟩
          obtain ⟨a, ha⟩ := List.getElem?_of_mem this
          have e := h3 a _ ha
          simp only at e
          rw [hx] at e
          exact List.mem_of_getElem? e
      have hksi : ∀ (i : Nat) (x : List Nat × Nat × Nat), L[i]? = some x →
          ks[i]? = some (sortNat x.1) := by
        intro i x hx; rw [← hks]; simp [hx]
      have hksi' : ∀ (i : Nat) (k : List Nat), ks[i]? = some k →
          ∃ x, L[i]? = some x ∧ sortNat x.1 = k := by
        intro i k hk
        rw [← hks] at hk
        simpa [List.getElem?_map, Option.map_eq_some_iff] using hk
      have hface : ∀ f c l, (f, c, l) ∈ L ↔ Spec.IsFace facesOf mesh.cells c l f := by
        intro f c l; rw [hL, mem_faceInfo]; rfl
      rw [hfs]
      constructor
      · rintro ⟨k, i, he, hx⟩
        obtain ⟨hk, hcnt⟩ := hinv.sound k i 1 he
        have huniq := (count_eq_one_iff ks i k hk).1 hcnt.symm
        have hk' := hksi i _ hx
        rw [hk'] at hk
        refine ⟨(hface f c l).1 (List.mem_of_getElem? hx), ?_⟩
        intro c' l' f' hf' hp
        obtain ⟨j, hj⟩ := List.getElem?_of_mem ((hface f' c' l').2 hf')
        have hkj := hksi j _ hj
        have : sortNat f' = sortNat f := (sortNat_eq_iff f' f).2 hp
        simp only [this, hk] at hkj
        have := huniq j hkj
        subst this
        rw [hj] at hx; cases hx; exact ⟨rfl, rfl⟩
      · rintro ⟨hf, hb⟩
        obtain ⟨i, hi⟩ := List.getElem?_of_mem ((hface f c l).2 hf)
        have hki := hksi i _ hi
        have hcnt : ks.count (sortNat f) = 1 := by
          rw [count_eq_one_iff ks i _ hki]
          intro j hj
          obtain ⟨⟨f', c', l'⟩, hx, hs⟩ := hksi' j _ hj
          simp only at hs
          have := hb c' l' f' ((hface _ _ _).1 (List.mem_of_getElem? hx))
            ((sortNat_eq_iff f' f).1 hs)
          obtain ⟨rfl, rfl⟩ := this
          exact nodup_getElem?_inj hndL (x := (c', l')) (by simp [hx]) (by simp [hi])
        obtain ⟨i', c', he⟩ := hinv.complete _ (List.mem_of_getElem? hki)
        obtain ⟨s1, s2⟩ := hinv.sound _ _ _ he
        rw [hcnt] at s2
        subst s2
        have : i' = i := (count_eq_one_iff ks i _ hki).1 hcnt i' s1
        subst this
        exact ⟨_, i', he, hi⟩
  obtain ⟨fs, h⟩ := hinfo _ rfl
  exact ⟨fs, h⟩

/-- C14.  Boundary vertices: the strictly increasing list of the vertices of boundary faces. -/
theorem C14_boundary_vertices_exact (facesOf : List Nat → List (List Nat)) (mesh : Mesh α) :
    ∃ vs, findBoundaryVertices facesOf mesh = some vs ∧ vs.Pairwise (fun a b => a < b) ∧
      ∀ v, v ∈ vs ↔ ∃ c l f, Spec.IsBoundary facesOf mesh.cells c l f ∧ v ∈ f := by
  obtain ⟨fs, h1, -, h3⟩ := C14_boundary_faces_exact facesOf mesh
  obtain ⟨d1, d2⟩ := dedup_spec _ (sortNat_sorted (fs.flatMap (fun f => f.1)))
  refine ⟨_, by simp only [findBoundaryVertices, h1, Option.map_some], d1, ?_⟩
  intro v
  rw [d2, (sortNat_perm _).mem_iff, List.mem_flatMap]
  constructor
  · rintro ⟨⟨f, c, l⟩, hf, hv⟩; exact ⟨c, l, f, (h3 f c l).1 hf, hv⟩
  · rintro ⟨c, l, f, hf, hv⟩; exact ⟨(f, c, l), (h3 f c l).2 hf, hv⟩

/-- C14.  Boundary cells: the strictly increasing list of cells with a boundary face. -/
theorem C14_boundary_cells_exact (facesOf : List Nat → List (List Nat)) (mesh : Mesh α) :
    ∃ cs, findBoundaryCells facesOf mesh = some cs ∧ cs.Pairwise (fun a b => a < b) ∧
      ∀ c, c ∈ cs ↔ ∃ l f, Spec.IsBoundary facesOf mesh.cells c l f := by
  obtain ⟨fs, h1, -, h3⟩ := C14_boundary_faces_exact facesOf mesh
  obtain ⟨d1, d2⟩ := dedup_spec _ (sortNat_sorted (fs.map (fun f => f.2.1)))
  refine ⟨_, by simp only [findBoundaryCells, h1, Option.map_some], d1, ?_⟩
  intro c
  rw [d2, (sortNat_perm _).mem_iff, List.mem_map]
  constructor
  · rintro ⟨⟨f, c', l⟩, hf, rfl⟩; exact ⟨l, f, (h3 f c' l).1 hf⟩
  · rintro ⟨l, f, hf⟩; exact ⟨(f, c, l), (h3 f c l).2 hf, rfl⟩

/- Non-vacuity: two triangles sharing the edge {1, 2} (with opposite orientation). -/
example : findBoundaryFaces (fun c => [[c[0]!, c[1]!], [c[1]!, c[2]!], [c[2]!, c[0]!]])
    (⟨["a", "b", "c", "d"], [[0, 1, 2], [2, 1, 3]]⟩ : Mesh String) =
    some [([0, 1], 0, 0), ([2, 0], 0, 2), ([1, 3], 1, 1), ([3, 2], 1, 2)] := by decide

/-! ## C15 -/

/-- C15.  For every valid mesh, `keep_cells` panics exactly when an index is out of range. -/
theorem C15_keep_cells_panics_iff_out_of_range (mesh : Mesh α) (is : List Nat)
    (hmesh : ∀ c ∈ mesh.cells, ∀ v ∈ c, v < mesh.vertices.length) :
    mesh.keepCells is = none ↔ ∃ i ∈ is, mesh.cells.length ≤ i := by
  constructor
  · intro h
    apply Classical.byContradiction
    intro hno
    have hin : ∀ i ∈ is, i < mesh.cells.length := by
      intro i hi
      apply Classical.byContradiction
      intro hge; exact hno ⟨i, hi, by omega⟩
    obtain ⟨t, t1, t2, t3⟩ := (keepTable_spec mesh.cells is
      (List.replicate mesh.vertices.length false) (by simpa using hmesh)).2 hin
    obtain ⟨kept, k1, k2, k3⟩ := mapM_getElem?_spec mesh.cells is hin
    have hkept : ∀ c ∈ kept, ∃ i ∈ is, mesh.cells[i]? = some c := by
      intro c hc
      obtain ⟨a, ha⟩ := List.getElem?_of_mem hc
      have hal : a < is.length := by have := (List.getElem?_eq_some_iff.1 ha).1; omega
      have := k3 a _ (List.getElem?_eq_getElem hal)
      exact ⟨is[a], List.getElem_mem hal, by rw [← this, ha]⟩
    obtain ⟨cells, c1, -⟩ := mapM_option_spec
      (fun c : List Nat => c.mapM (fun v => (labelMap t 0 0).lookup v)) kept (by
        intro c hc
        obtain ⟨i, hi, hci⟩ := hkept c hc
        obtain ⟨out, ho, -⟩ := mapM_option_spec (fun v => (labelMap t 0 0).lookup v) c (by
          intro v hv
          obtain ⟨k, hk⟩ := (labelMap_spec t 0 0).2 v (Nat.zero_le _)
            (by simpa using (t3 v).2 (.inr ⟨i, hi, c, hci, hv⟩))
          rw [hk]; rfl)
        simp only [ho, Option.isSome_some])
    obtain ⟨vs, v1, -⟩ := mapM_getElem?_spec mesh.vertices (keptIndices t 0) (by
      intro v hv
      rw [keptIndices_eq_filter] at hv
      have := (List.mem_filter.1 hv).1
      rw [List.mem_range'] at this
      obtain ⟨k, hk, rfl⟩ := this
      simp at t2; omega)
    unfold keepCells at h
    simp only [t1, k1, c1, v1] at h
    cases h
  · intro h
    have := (keepTable_spec mesh.cells is (List.replicate mesh.vertices.length false)
      (by simpa using hmesh)).1 h
    unfold keepCells
    rw [this]

/-- C15.  Otherwise cell `k` of the result has the same vertex coordinates, in the same order, as
cell `idx[k]` of the input (so repetitions are kept), all its indices are in range, and the vertices
of the result are exactly the vertices referenced by kept cells, once each and in the original
order. -/
theorem C15_keep_cells_keeps_selected_cells (mesh out : Mesh α) (is : List Nat)
    (hmesh : ∀ c ∈ mesh.cells, ∀ v ∈ c, v < mesh.vertices.length)
    (h : mesh.keepCells is = some out) :
    out.cells.length = is.length ∧
    (∀ (k i : Nat) (c : List Nat), is[k]? = some i → mesh.cells[i]? = some c →
      ∃ c', out.cells[k]? = some c' ∧ (∀ v ∈ c', v < out.vertices.length) ∧
        c'.map (fun v => out.vertices[v]?) = c.map (fun v => mesh.vertices[v]?)) ∧
    ∃ kept : List Nat, kept.Pairwise (fun a b => a < b) ∧
      (∀ v, v ∈ kept ↔ ∃ i ∈ is, ∃ c, mesh.cells[i]? = some c ∧ v ∈ c) ∧
      out.vertices.map some = kept.map (fun v => mesh.vertices[v]?) := by
  have hin : ∀ i ∈ is, i < mesh.cells.length := by
    intro i hi
    apply Classical.byContradiction
    intro hge
    rw [(C15_keep_cells_panics_iff_out_of_range mesh is hmesh).2 ⟨i, hi, by omega⟩] at h
    cases h
  obtain ⟨t, t1, t2, t3⟩ := (keepTable_spec mesh.cells is
    (List.replicate mesh.vertices.length false) (by simpa using hmesh)).2 hin
  obtain ⟨kept, k1, k2, k3⟩ := mapM_getElem?_spec mesh.cells is hin
  have ht : ∀ w : Nat, t[w]? = some true ↔ ∃ i ∈ is, ∃ c, mesh.cells[i]? = some c ∧ w ∈ c := by
    intro w; rw [t3]; simp [List.getElem?_replicate]
  have hkept : ∀ c ∈ kept, ∃ i ∈ is, mesh.cells[i]? = some c := by
    intro c hc
    obtain ⟨a, ha⟩ := List.getElem?_of_mem hc
    have hal : a < is.length := by have := (List.getElem?_eq_some_iff.1 ha).1; omega
    have := k3 a _ (List.getElem?_eq_getElem hal)
    exact ⟨is[a], List.getElem_mem hal, by rw [← this, ha]⟩
  have hc' : ∀ c ∈ kept, ∃ c', c.mapM (fun v => (labelMap t 0 0).lookup v) = some c' ∧
      c'.length = c.length ∧
      ∀ (j v : Nat), c[j]? = some v → c'[j]? = (labelMap t 0 0).lookup v := by
    intro c hc
    obtain ⟨i, hi, hci⟩ := hkept c hc
    apply mapM_option_spec
    intro v hv
    obtain ⟨k, hk⟩ := (labelMap_spec t 0 0).2 v (Nat.zero_le _)
      (by simpa using (ht v).2 ⟨i, hi, c, hci, hv⟩)
    rw [hk]; rfl
  obtain ⟨cells, c1, c2, c3⟩ := mapM_option_spec
    (fun c : List Nat => c.mapM (fun v => (labelMap t 0 0).lookup v)) kept (by
      intro c hc
      obtain ⟨out, ho, -⟩ := hc' c hc
      simp only [ho, Option.isSome_some])
  have hki : ∀ v ∈ keptIndices t 0, v < mesh.vertices.length ∧ t[v]? = some true := by
    intro v hv
    rw [keptIndices_eq_filter] at hv
    have h0 := List.mem_filter.1 hv
    have := h0.1
    rw [List.mem_range'] at this
    obtain ⟨k, hk, rfl⟩ := this
    simp at t2
    exact ⟨by omega, by simpa using h0.2⟩
  obtain ⟨vs, v1, v2, v3⟩ := mapM_getElem?_spec mesh.vertices (keptIndices t 0)
    (fun v hv => (hki v hv).1)
  unfold keepCells at h
  simp only [t1, k1, c1, v1, Option.some.injEq] at h
  subst h
  refine ⟨by simp only; omega, ?_, keptIndices t 0, ?_, ?_, ?_⟩
  · intro k i c hk hi
    have hkc : kept[k]? = some c := by rw [k3 k i hk, hi]
    obtain ⟨c', e1, e2, e3⟩ := hc' c (List.mem_of_getElem? hkc)
    have hlook : ∀ (j v : Nat), c[j]? = some v → ∃ l, c'[j]? = some l ∧ l < vs.length ∧
        vs[l]? = mesh.vertices[v]? := by
      intro j v hj
      have hiis := List.mem_of_getElem? hk
      obtain ⟨l, hl⟩ := (labelMap_spec t 0 0).2 v (Nat.zero_le _)
        (by simpa using (ht v).2 ⟨i, hiis, c, hi, List.mem_of_getElem? hj⟩)
      have hl2 := ((labelMap_spec t 0 0).1 v l hl).2
      simp only [Nat.sub_zero] at hl2
      exact ⟨l, by rw [e3 j v hj, hl], by rw [v2]; exact (List.getElem?_eq_some_iff.1 hl2).1,
        v3 l v hl2⟩
    refine ⟨c', by simp only [c3 k c hkc, e1], ?_, ?_⟩
    · intro v hv
      obtain ⟨j, hj⟩ := List.getElem?_of_mem hv
      have hjl : j < c.length := by rw [← e2]; exact (List.getElem?_eq_some_iff.1 hj).1
      obtain ⟨l, h1, h2, -⟩ := hlook j _ (List.getElem?_eq_getElem hjl)
      rw [hj] at h1; cases h1; exact h2
    · apply List.ext_getElem?
      intro j
      simp only [List.getElem?_map]
      cases hj : c[j]? with
      | none =>
        have : c'[j]? = none := by rw [List.getElem?_eq_none_iff] at hj ⊢; omega
        simp [this]
      | some v =>
        obtain ⟨l, h1, -, h3⟩ := hlook j v hj
        simp [h1, h3]
  · rw [keptIndices_eq_filter]
    exact List.Pairwise.filter _ (by
      simpa using List.pairwise_lt_range')
  · intro v
    rw [← ht, keptIndices_eq_filter, List.mem_filter, List.mem_range']
    constructor
    · rintro ⟨⟨k, hk, rfl⟩, h2⟩; simpa using h2
    · intro h
      refine ⟨⟨v, ?_, by simp⟩, by simpa using h⟩
      exact (List.getElem?_eq_some_iff.1 h).1
  · simp only
    apply List.ext_getElem?
    intro k
    simp only [List.getElem?_map]
    cases hv : (keptIndices t 0)[k]? with
    | none =>
      have : vs[k]? = none := by rw [List.getElem?_eq_none_iff] at hv ⊢; omega
      simp [this]
    | some v =>
      have := v3 k v hv
      have hvl := (hki v (List.mem_of_getElem? hv)).1
      rw [List.getElem?_eq_getElem hvl] at this
      simp [this, List.getElem?_eq_getElem hvl]

example : (⟨["a", "b", "c", "d", "e"], [[0, 1, 2], [4, 1, 3], [4, 2, 1]]⟩ : Mesh String).keepCells
    [2, 2] = some ⟨["b", "c", "e"], [[2, 1, 0], [2, 1, 0]]⟩ := by decide
example : (⟨["a"], [[0]]⟩ : Mesh String).keepCells [0, 1] = none := by decide

/-- C14/C15.  The surface mesh: its cells are, in order, the boundary faces, with the same vertex
coordinates in the same order (orientation is preserved). -/
theorem C14_surface_mesh_is_boundary (facesOf : List Nat → List (List Nat)) (mesh : Mesh α)
    (hmesh : ∀ c ∈ mesh.cells, ∀ f ∈ facesOf c, ∀ v ∈ f, v < mesh.vertices.length) :
    ∃ fs out, findBoundaryFaces facesOf mesh = some fs ∧
      extractSurfaceMesh facesOf mesh = some out ∧ out.cells.length = fs.length ∧
      ∀ (k : Nat) (f : List Nat × Nat × Nat), fs[k]? = some f →
        ∃ c', out.cells[k]? = some c' ∧
          c'.map (fun v => out.vertices[v]?) = f.1.map (fun v => mesh.vertices[v]?) := by
  obtain ⟨fs, h1, -, h3⟩ := C14_boundary_faces_exact facesOf mesh
  have hv : ∀ c ∈ fs.map (fun f => f.1), ∀ v ∈ c, v < mesh.vertices.length := by
    intro c hc v hv
    obtain ⟨⟨f, ci, l⟩, hf, rfl⟩ := List.mem_map.1 hc
    obtain ⟨⟨cell, a, b⟩, -⟩ := (h3 f ci l).1 hf
    exact hmesh cell (List.mem_of_getElem? a) f (List.mem_of_getElem? b) v hv
  have hne : (Mesh.mk mesh.vertices (fs.map (fun f => f.1))).keepCells
      (List.range (fs.map (fun f => f.1)).length) ≠ none := by
    rw [ne_eq, C15_keep_cells_panics_iff_out_of_range _ _ hv]
    rintro ⟨i, hi, hlt⟩
    simp at hi hlt; omega
  obtain ⟨out, hout⟩ := Option.ne_none_iff_exists'.1 hne
  obtain ⟨g1, g2, -⟩ := C15_keep_cells_keeps_selected_cells _ out _ hv hout
  refine ⟨fs, out, h1, by simp only [extractSurfaceMesh, h1]; exact hout, by simpa using g1, ?_⟩
  intro k f hk
  have hkl := (List.getElem?_eq_some_iff.1 hk).1
  obtain ⟨c', a, -, b⟩ := g2 k k f.1 (by simp [hkl]) (by simp [hk])
  exact ⟨c', a, b⟩

end Fenris
