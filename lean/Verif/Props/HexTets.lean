import Verif.Props.PolyConvert
/-! # C80: hexahedral meshes to tetrahedral meshes -/
set_option autoImplicit false

namespace Fenris
namespace Poly
open Spec

variable {K : Type} [Field K] [LinearOrder K] [IsStrictOrderedRing K]
open Fenris.Spec Fenris.Geometry Surface.Spec

private theorem mem_fanTriangles {face : List Nat} {t : Nat × Nat × Nat} (h : t ∈ fanTriangles face) :
    t.1 ∈ face ∧ t.2.1 ∈ face ∧ t.2.2 ∈ face := by
  rw [fanTriangles] at h
  cases hv : face.min? with
  | none =>
    rw [hv] at h
    simp at h
  | some v =>
    rw [hv, Option.elim_some] at h
    obtain ⟨e, he, rfl⟩ := List.mem_map.mp h
    have hsub : ∀ w ∈ (face.rotate (face.idxOf v)).tail, w ∈ face := fun w hw => List.mem_rotate.mp (List.mem_of_mem_tail hw)
    have h1 := (List.of_mem_zip he).1
    have h2 := List.mem_of_mem_tail (List.of_mem_zip he).2
    exact ⟨(List.min?_eq_some_iff.mp hv).1, hsub _ h1, hsub _ h2⟩

private theorem cellTets_apex {P : Type} {m : PolyMesh P} {c : List Nat} {T : (Nat × Nat × Nat) × Nat} (h : T ∈ cellTets m c) :
    T.2 ∉ [T.1.1, T.1.2.1, T.1.2.2] := by
  rw [cellTets] at h
  cases hv : apex m c with
  | none =>
    rw [hv] at h
    simp at h
  | some v =>
    rw [hv, Option.elim_some] at h
    obtain ⟨face, hf, ht⟩ := List.mem_flatMap.mp h
    obtain ⟨t, ht', rfl⟩ := List.mem_map.mp ht
    have hnv := (List.mem_filter.mp hf).2
    rw [decide_eq_true_eq] at hnv
    obtain ⟨h1, h2, h3⟩ := mem_fanTriangles ht'
    simp only [List.mem_cons, List.not_mem_nil, or_false, not_or]
    exact ⟨fun h => hnv (h ▸ h1), fun h => hnv (h ▸ h2), fun h => hnv (h ▸ h3)⟩

/-- The triangulation of a valid polyhedral mesh converts to the tetrahedra of its cells. -/
private theorem tets_of_triangulate {norm : Point 3 K → K} (hn : PosNorm norm) (p : PolyMesh (Point 3 K)) (hp : Valid p)
    (h3 : ∀ f ∈ p.faces, 3 ≤ f.length) :
    ∃ q out, triangulate p = some (.ok q) ∧ toTets norm q = some (.ok out) ∧ out.vertices = p.vertices ∧
      List.Forall₂ (fun T t => t.Perm [T.1.1, T.1.2.1, T.1.2.2, T.2] ∧
        cellVol6 p.vertices t = |cellVol6 p.vertices [T.1.1, T.1.2.1, T.1.2.2, T.2]|) (p.cells.flatMap (cellTets p)) out.cells := by
  obtain ⟨q, h1, h2, hv, hl, h4, -⟩ := (C64_triangulate p hp).2 h3
  have hfit : List.Forall₂ (fun (T : (Nat × Nat × Nat) × Nat) cell => ∃ x y z, [x, y, z].Perm [T.1.1, T.1.2.1, T.1.2.2] ∧
      FitsTet q cell x y z T.2) (p.cells.flatMap (cellTets p)) q.cells := by
    rw [List.forall₂_iff_get]
    refine ⟨hl.symm, fun i i1 i2 => ?_⟩
    obtain ⟨cell, e1, e2, e3⟩ := h4 i _ (List.getElem?_eq_getElem i1)
    have hcell : q.cells.get ⟨i, i2⟩ = cell := by
      rw [List.getElem?_eq_getElem i2] at e1
      exact Option.some.inj e1
    have hT : ∃ c ∈ p.cells, (p.cells.flatMap (cellTets p)).get ⟨i, i1⟩ ∈ cellTets p c :=
      List.mem_flatMap.mp (List.get_mem _ ⟨i, i1⟩)
    rw [hcell]
    have e3' : ∀ (k : Nat) (f : List Nat), (tetFaces ((p.cells.flatMap (cellTets p)).get ⟨i, i1⟩))[k]? = some f →
        ∃ g : List Nat, (cellShape q cell)[k]? = some (some g) ∧ g.Perm f := e3
    generalize (p.cells.flatMap (cellTets p)).get ⟨i, i1⟩ = T at hT e3'
    clear e3
    obtain ⟨c, -, hT⟩ := hT
    have hd := cellTets_apex hT
    obtain ⟨⟨a, b, c⟩, d⟩ := T
    obtain ⟨g0, s0, q0⟩ := e3' 0 _ rfl
    obtain ⟨g1, s1, q1⟩ := e3' 1 _ rfl
    obtain ⟨g2, s2, q2⟩ := e3' 2 _ rfl
    obtain ⟨g3, s3, q3⟩ := e3' 3 _ rfl
    obtain ⟨x, y, z, rfl⟩ : ∃ x y z, g0 = [x, y, z] := by
      match g0, q0.length_eq with
      | [x, y, z], _ => exact ⟨x, y, z, rfl⟩
    have hsl : (cellShape q cell).length = 4 := by rw [cellShape, List.length_map]; exact e2
    have hshape : cellShape q cell = [some [x, y, z], some g1, some g2, some g3] := by
      match hm : cellShape q cell, hsl with
      | [t0, t1, t2, t3], _ =>
        rw [hm] at s0 s1 s2 s3
        simp only [List.getElem?_cons_zero, List.getElem?_cons_succ, Option.some.injEq] at s0 s1 s2 s3
        rw [s0, s1, s2, s3]
    refine ⟨x, y, z, q0, fitsTet_of hshape q0 hd ?_ ?_⟩
    · rw [q1.mem_iff]
      simp
    · clear * - q1 q2 q3
      intro g hg v hv
      simp only [List.mem_cons, List.not_mem_nil, or_false] at hg ⊢
      rcases hg with rfl | rfl | rfl
      · have := q1.mem_iff.mp hv
        simp only [List.mem_cons, List.not_mem_nil, or_false] at this
        omega
      · have := q2.mem_iff.mp hv
        simp only [List.mem_cons, List.not_mem_nil, or_false] at this
        omega
      · have := q3.mem_iff.mp hv
        simp only [List.mem_cons, List.not_mem_nil, or_false] at this
        omega
  obtain ⟨out, k1, k2, k3⟩ := toTets_of hn q h2 (fun T : (Nat × Nat × Nat) × Nat => T.1) (fun T => T.2) _ hfit
  rw [hv] at k3 k2
  exact ⟨q, out, h1, k1, k2, k3⟩

private theorem hexFaces_bound (c : List Nat) (hl : c.length = 8) (n : Nat) (hb : ∀ v ∈ c, v < n) :
    ∀ f ∈ Surface.facesOf .hex8 c, ∀ v ∈ f, v < n := by
  intro f hf v hv
  obtain ⟨g, hg, rfl⟩ := List.mem_map.mp hf
  obtain ⟨i, hi, rfl⟩ := List.mem_map.mp hv
  apply hb
  have hi8 : i < 8 := by
    simp only [Element.localFaces, List.mem_cons, List.not_mem_nil, or_false] at hg
    rcases hg with rfl | rfl | rfl | rfl | rfl | rfl <;>
    · simp only [List.mem_cons, List.not_mem_nil, or_false] at hi
      omega
  rw [List.getD_eq_getElem?_getD, List.getElem?_eq_getElem (by rw [hl]; exact hi8)]
  exact List.getElem_mem _

/-- C80: converting a hexahedral mesh to tetrahedra never panics. The vertices are those of the mesh; the tetrahedra are, in order,
those of the triangulated cells of the polyhedral mesh (C64), with volumes that are not negative. -/
theorem C80_hex_to_tets (norm : Point 3 K → K) (hn : PosNorm norm) (mesh : Mesh (Point 3 K)) (hl : ∀ c ∈ mesh.cells, c.length = 8)
    (hb : ∀ c ∈ mesh.cells, ∀ v ∈ c, v < mesh.vertices.length) :
    ∃ p out, ofMesh (Surface.facesOf .hex8) mesh = some p ∧ hexToTets norm mesh = some out ∧ out.vertices = mesh.vertices ∧
      List.Forall₂ (fun T t => t.Perm [T.1.1, T.1.2.1, T.1.2.2, T.2] ∧
        cellVol6 mesh.vertices t = |cellVol6 mesh.vertices [T.1.1, T.1.2.1, T.1.2.2, T.2]|)
        (p.cells.flatMap (cellTets p)) out.cells := by
  obtain ⟨p, h1, h2, h3, -, ⟨ks, -, -, k3⟩, -⟩ := C80_from_mesh (Surface.facesOf .hex8) mesh
    fun c hc => hexFaces_bound c (hl c hc) _ (hb c hc)
  obtain ⟨q, out, e1, e2, e3, e4⟩ := tets_of_triangulate hn p h2 (by
    intro f hf
    have hmem : some f ∈ p.faces.map some := List.mem_map.mpr ⟨f, hf, rfl⟩
    rw [k3] at hmem
    obtain ⟨k, -, hk⟩ := List.mem_map.mp hmem
    obtain ⟨c, -, hfc⟩ := List.mem_flatMap.mp (List.mem_of_getElem? hk)
    obtain ⟨g, hg, rfl⟩ := List.mem_map.mp hfc
    simp only [Element.localFaces, List.mem_cons, List.not_mem_nil, or_false] at hg
    rcases hg with rfl | rfl | rfl | rfl | rfl | rfl <;> simp)
  refine ⟨p, out, h1, ?_, e3.trans h3, by rw [h3] at e4; exact e4⟩
  rw [hexToTets, h1, Option.bind_some, e1, Option.bind_some]
  simp only [Except.toOption, Option.bind_some, e2]

/-! ### Volume -/

private theorem abs_eq_of {s t : K} (h : s = t ∨ s = -t) : |s| = |t| := by
  rcases h with h | h
  · rw [h]
  · rw [h, abs_neg]

/-- Any three corners of a parallelogram span the same volume with a point, up to the sign. -/
private theorem parallelogram_tet (vs : List (Point 3 K)) (w0 w1 w2 w3 v : Nat)
    (hw : ∀ k, coords vs w3 k = coords vs w0 k + coords vs w2 k - coords vs w1 k) (x y z u : Nat)
    (h : [x, y, z, u].Perm [w0, w1, w2, w3]) :
    |cellVol6 vs [x, y, z, v]| = |cellVol6 vs [w0, w1, w2, v]| := by
  have e : ∀ a b c d : Nat, cellVol6 vs [a, b, c, d] = tetVol6 (coords vs a) (coords vs b) (coords vs c) (coords vs d) :=
    fun _ _ _ _ => rfl
  apply abs_eq_of
  rw [e, e]
  have hu : u ∈ [w0, w1, w2, w3] := h.mem_iff.mp (by simp)
  have h' : [u, x, y, z].Perm [w0, w1, w2, w3] := (List.perm_append_comm (l₁ := [x, y, z]) (l₂ := [u])).symm.trans h
  simp only [List.mem_cons, List.not_mem_nil, or_false] at hu
  rcases hu with rfl | rfl | rfl | rfl
  · have h3 := h'.cons_inv
    rcases Surface.perm_triple h3 with ⟨rfl, rfl, rfl⟩ | ⟨rfl, rfl, rfl⟩ | ⟨rfl, rfl, rfl⟩ | ⟨rfl, rfl, rfl⟩ |
      ⟨rfl, rfl, rfl⟩ | ⟨rfl, rfl, rfl⟩ <;>
    · simp only [tetVol6, Surface.Spec.det3, hw]
      first | (left; ring1) | (right; ring1)
  · have h3 := (h'.trans (List.Perm.swap _ _ _)).cons_inv
    rcases Surface.perm_triple h3 with ⟨rfl, rfl, rfl⟩ | ⟨rfl, rfl, rfl⟩ | ⟨rfl, rfl, rfl⟩ | ⟨rfl, rfl, rfl⟩ |
      ⟨rfl, rfl, rfl⟩ | ⟨rfl, rfl, rfl⟩ <;>
    · simp only [tetVol6, Surface.Spec.det3, hw]
      first | (left; ring1) | (right; ring1)
  · have h3 := (h'.trans (((List.Perm.swap _ _ _).cons _).trans (List.Perm.swap _ _ _))).cons_inv
    rcases Surface.perm_triple h3 with ⟨rfl, rfl, rfl⟩ | ⟨rfl, rfl, rfl⟩ | ⟨rfl, rfl, rfl⟩ | ⟨rfl, rfl, rfl⟩ |
      ⟨rfl, rfl, rfl⟩ | ⟨rfl, rfl, rfl⟩ <;>
    · simp only [tetVol6, Surface.Spec.det3, hw]
      first | (left; ring1) | (right; ring1)
  · have h3 : [x, y, z].Perm [w0, w1, w2] :=
      (h'.trans (List.perm_append_comm (l₁ := [w0, w1, w2]) (l₂ := [u]))).cons_inv
    rcases Surface.perm_triple h3 with ⟨rfl, rfl, rfl⟩ | ⟨rfl, rfl, rfl⟩ | ⟨rfl, rfl, rfl⟩ | ⟨rfl, rfl, rfl⟩ |
      ⟨rfl, rfl, rfl⟩ | ⟨rfl, rfl, rfl⟩ <;>
    · first
        | exact .inl rfl
        | (simp only [tetVol6, Surface.Spec.det3]
           first | (left; ring1) | (right; ring1))

/-- The two triangles of a face with four vertices. -/
private theorem fan_of_four (g : List Nat) (hl : g.length = 4) :
    ∃ a b c d, [a, b, c, d].Perm g ∧ fanTriangles g = [(a, b, c), (a, c, d)] := by
  have hne : g ≠ [] := by
    rintro rfl
    simp at hl
  cases hv : g.min? with
  | none => exact absurd (List.min?_eq_none_iff.mp hv) hne
  | some v =>
    have hmem := (List.min?_eq_some_iff.mp hv).1
    have hr : (g.rotate (g.idxOf v)).length = 4 := by rw [List.length_rotate, hl]
    have hh : (g.rotate (g.idxOf v)).head? = some v := by
      rw [List.head?_rotate (List.idxOf_lt_length_of_mem hmem), List.getElem?_idxOf hmem]
    rw [fanTriangles, hv, Option.elim_some]
    have hp : (g.rotate (g.idxOf v)).Perm g := List.rotate_perm g _
    match hm : g.rotate (g.idxOf v), hr with
    | [a, b, c, d], _ =>
      rw [hm] at hh hp
      obtain rfl : a = v := Option.some.inj hh
      exact ⟨a, b, c, d, hp, rfl⟩

/-- The tetrahedra over a face of a parallelepiped. -/
private theorem face_tets (vs : List (Point 3 K)) (g : List Nat) (w0 w1 w2 w3 v : Nat) (hg : g.Perm [w0, w1, w2, w3])
    (hw : ∀ k, coords vs w3 k = coords vs w0 k + coords vs w2 k - coords vs w1 k) :
    (fanTriangles g).map (fun t => |cellVol6 vs [t.1, t.2.1, t.2.2, v]|) =
      [|cellVol6 vs [w0, w1, w2, v]|, |cellVol6 vs [w0, w1, w2, v]|] := by
  obtain ⟨a, b, c, d, hp, he⟩ := fan_of_four g hg.length_eq
  rw [he]
  simp only [List.map_cons, List.map_nil]
  have h1 := parallelogram_tet vs w0 w1 w2 w3 v hw a b c d (hp.trans hg)
  have h2 := parallelogram_tet vs w0 w1 w2 w3 v hw a c d b (by
    refine List.Perm.trans ?_ (hp.trans hg)
    exact (List.perm_append_comm (l₁ := [c, d]) (l₂ := [b])).cons a)
  rw [h1, h2]

/-- The part of the tetrahedra over one face. -/
private theorem part_eq (vs : List (Point 3 K)) (g : List Nat) (w0 w1 w2 w3 v : Nat) (hg : g.Perm [w0, w1, w2, w3])
    (hw : ∀ k, coords vs w3 k = coords vs w0 k + coords vs w2 k - coords vs w1 k) (D : K)
    (hD : v ∉ [w0, w1, w2, w3] → |cellVol6 vs [w0, w1, w2, v]| = D) :
    (([g].filter fun face => decide (v ∉ face)).flatMap fun face => (fanTriangles face).map fun t => (t, v)).map
        (fun T => |cellVol6 vs [T.1.1, T.1.2.1, T.1.2.2, T.2]|) =
      if v ∈ [w0, w1, w2, w3] then [] else [D, D] := by
  have hmem := hg.mem_iff (a := v)
  by_cases hv : v ∈ [w0, w1, w2, w3]
  · have hvg := hmem.mpr hv
    rw [if_pos hv, List.filter_cons_of_neg (by simp [hvg])]
    rfl
  · have hvg : v ∉ g := fun h => hv (hmem.mp h)
    rw [if_neg hv, List.filter_cons_of_pos (by simp [hvg]), List.filter_nil, List.flatMap_cons, List.flatMap_nil, List.append_nil,
      List.map_map, ← hD hv]
    exact face_tets vs g w0 w1 w2 w3 v hg hw

private theorem filter_flatMap_cons {A B C : Type} (q : A → Bool) (f : A → List B) (h : B → C) (a b : A) (l : List A) :
    (((a :: b :: l).filter q).flatMap f).map h = (([a].filter q).flatMap f).map h ++ (((b :: l).filter q).flatMap f).map h := by
  rw [← List.map_append, ← List.flatMap_append, ← List.filter_append]
  rfl

set_option maxHeartbeats 1000000 in
/-- The six tetrahedra of a parallelepiped have equal volumes. -/
private theorem cell_tets (p : PolyMesh (Point 3 K)) (c ids : List Nat) (hl : c.length = 8) (hnd : c.Nodup)
    (hpar : IsParallelepiped p.vertices c)
    (hrel : List.Forall₂ (fun f i => ∃ g, p.faces[i]? = some g ∧ g.Perm f) (Surface.facesOf .hex8 c) ids) :
    (cellTets p ids).map (fun T => |cellVol6 p.vertices [T.1.1, T.1.2.1, T.1.2.2, T.2]|) =
      List.replicate 6 |hexDet p.vertices c| := by
  obtain ⟨c0, c1, c2, c3, c4, c5, c6, c7, rfl⟩ : ∃ c0 c1 c2 c3 c4 c5 c6 c7, c = [c0, c1, c2, c3, c4, c5, c6, c7] := by
    match c, hl with
    | [c0, c1, c2, c3, c4, c5, c6, c7], _ => exact ⟨c0, c1, c2, c3, c4, c5, c6, c7, rfl⟩
  have hfaces : Surface.facesOf .hex8 [c0, c1, c2, c3, c4, c5, c6, c7] =
      [[c3, c2, c1, c0], [c0, c1, c5, c4], [c1, c2, c6, c5], [c2, c3, c7, c6], [c4, c7, c3, c0], [c5, c6, c7, c4]] := rfl
  rw [hfaces] at hrel
  cases hrel with
  | cons p0 hrel => cases hrel with
  | cons p1 hrel => cases hrel with
  | cons p2 hrel => cases hrel with
  | cons p3 hrel => cases hrel with
  | cons p4 hrel => cases hrel with
  | cons p5 hrel =>
  cases hrel
  rename_i i0 i1 i2 i3 i4 i5
  obtain ⟨g0, e0, q0⟩ := p0
  obtain ⟨g1, e1, q1⟩ := p1
  obtain ⟨g2, e2, q2⟩ := p2
  obtain ⟨g3, e3, q3⟩ := p3
  obtain ⟨g4, e4, q4⟩ := p4
  obtain ⟨g5, e5, q5⟩ := p5
  obtain ⟨o, a, b, d, hpos⟩ := hpar
  have t0 : coords p.vertices c0 = fun k => o k := by
    rw [show coords p.vertices c0 = parallelepiped o a b d 0 from hpos 0]
    funext k
    simp [parallelepiped]
  have t1 : coords p.vertices c1 = fun k => o k + a k := by
    rw [show coords p.vertices c1 = parallelepiped o a b d 1 from hpos 1]
    funext k
    simp [parallelepiped]
  have t2 : coords p.vertices c2 = fun k => o k + a k + b k := by
    rw [show coords p.vertices c2 = parallelepiped o a b d 2 from hpos 2]
    funext k
    simp [parallelepiped]
  have t3 : coords p.vertices c3 = fun k => o k + b k := by
    rw [show coords p.vertices c3 = parallelepiped o a b d 3 from hpos 3]
    funext k
    simp [parallelepiped]
  have t4 : coords p.vertices c4 = fun k => o k + d k := by
    rw [show coords p.vertices c4 = parallelepiped o a b d 4 from hpos 4]
    funext k
    simp [parallelepiped]
  have t5 : coords p.vertices c5 = fun k => o k + a k + d k := by
    rw [show coords p.vertices c5 = parallelepiped o a b d 5 from hpos 5]
    funext k
    simp [parallelepiped]
  have t6 : coords p.vertices c6 = fun k => o k + a k + b k + d k := by
    rw [show coords p.vertices c6 = parallelepiped o a b d 6 from hpos 6]
    funext k
    simp [parallelepiped]
  have t7 : coords p.vertices c7 = fun k => o k + b k + d k := by
    rw [show coords p.vertices c7 = parallelepiped o a b d 7 from hpos 7]
    funext k
    simp [parallelepiped]
  have hshape : (([i0, i1, i2, i3, i4, i5] : List Nat).map fun f => (p.faces[f]?).getD []) = [g0, g1, g2, g3, g4, g5] := by
    simp only [List.map_cons, List.map_nil, e0, e1, e2, e3, e4, e5, Option.getD_some]
  have hflat : ([i0, i1, i2, i3, i4, i5] : List Nat).flatMap (fun f => (p.faces[f]?).getD []) = [g0, g1, g2, g3, g4, g5].flatten := by
    rw [← hshape]
    rfl
  obtain ⟨v, hv⟩ : ∃ v, apex p [i0, i1, i2, i3, i4, i5] = some v := by
    rw [apex, hflat]
    cases h : [g0, g1, g2, g3, g4, g5].flatten.min? with
    | some v => exact ⟨v, rfl⟩
    | none =>
      rw [List.min?_eq_none_iff] at h
      have := congrArg List.length h
      simp only [List.length_flatten, List.map_cons, q0.length_eq, List.length_cons, List.sum_cons] at this
      simp at this
  have hvc : v ∈ [c0, c1, c2, c3, c4, c5, c6, c7] := by
    have hm := (List.min?_eq_some_iff.mp hv).1
    rw [hflat] at hm
    simp only [List.flatten_cons, List.flatten_nil, List.mem_append, List.not_mem_nil, or_false, q0.mem_iff, q1.mem_iff, q2.mem_iff,
      q3.mem_iff, q4.mem_iff, q5.mem_iff, List.mem_cons] at hm ⊢
    omega
  rw [cellTets, hv, Option.elim_some, hshape]
  generalize hD : |hexDet p.vertices [c0, c1, c2, c3, c4, c5, c6, c7]| = D
  have hdet : hexDet p.vertices [c0, c1, c2, c3, c4, c5, c6, c7] = Surface.Spec.det3 a b d := by
    simp only [hexDet, List.getD_cons_zero, List.getD_cons_succ, t0, t1, t3, t4, Surface.Spec.det3]
    ring
  rw [hdet] at hD
  have vol : ∀ x y z w : Nat, cellVol6 p.vertices [x, y, z, w] =
      tetVol6 (coords p.vertices x) (coords p.vertices y) (coords p.vertices z) (coords p.vertices w) := fun _ _ _ _ => rfl
  rw [filter_flatMap_cons, filter_flatMap_cons, filter_flatMap_cons, filter_flatMap_cons, filter_flatMap_cons,
    part_eq p.vertices g0 c3 c2 c1 c0 v q0 (by intro k; simp only [t3, t2, t1, t0]; ring) D ?_,
    part_eq p.vertices g1 c0 c1 c5 c4 v q1 (by intro k; simp only [t0, t1, t5, t4]; ring) D ?_,
    part_eq p.vertices g2 c1 c2 c6 c5 v q2 (by intro k; simp only [t1, t2, t6, t5]; ring) D ?_,
    part_eq p.vertices g3 c2 c3 c7 c6 v q3 (by intro k; simp only [t2, t3, t7, t6]; ring) D ?_,
    part_eq p.vertices g4 c4 c7 c3 c0 v q4 (by intro k; simp only [t4, t7, t3, t0]; ring) D ?_,
    part_eq p.vertices g5 c5 c6 c7 c4 v q5 (by intro k; simp only [t5, t6, t7, t4]; ring) D ?_]
  · simp only [List.nodup_cons, List.mem_cons, List.not_mem_nil, or_false, not_or, List.nodup_nil, and_true,
      not_false_eq_true] at hnd
    simp only [List.mem_cons, List.not_mem_nil, or_false] at hvc
    rcases hvc with rfl | rfl | rfl | rfl | rfl | rfl | rfl | rfl <;>
      simp [hnd, eq_comm, List.replicate]
  · intro hne
    rw [← hD]
    apply abs_eq_of
    rw [vol]
    simp only [List.mem_cons, List.not_mem_nil, or_false] at hvc hne
    rcases hvc with rfl | rfl | rfl | rfl | rfl | rfl | rfl | rfl
    all_goals first
      | (exfalso; simp at hne; done)
      | (simp only [tetVol6, Surface.Spec.det3, t0, t1, t2, t3, t4, t5, t6, t7]
         first | (left; ring1) | (right; ring1))
  · intro hne
    rw [← hD]
    apply abs_eq_of
    rw [vol]
    simp only [List.mem_cons, List.not_mem_nil, or_false] at hvc hne
    rcases hvc with rfl | rfl | rfl | rfl | rfl | rfl | rfl | rfl
    all_goals first
      | (exfalso; simp at hne; done)
      | (simp only [tetVol6, Surface.Spec.det3, t0, t1, t2, t3, t4, t5, t6, t7]
         first | (left; ring1) | (right; ring1))
  · intro hne
    rw [← hD]
    apply abs_eq_of
    rw [vol]
    simp only [List.mem_cons, List.not_mem_nil, or_false] at hvc hne
    rcases hvc with rfl | rfl | rfl | rfl | rfl | rfl | rfl | rfl
    all_goals first
      | (exfalso; simp at hne; done)
      | (simp only [tetVol6, Surface.Spec.det3, t0, t1, t2, t3, t4, t5, t6, t7]
         first | (left; ring1) | (right; ring1))
  · intro hne
    rw [← hD]
    apply abs_eq_of
    rw [vol]
    simp only [List.mem_cons, List.not_mem_nil, or_false] at hvc hne
    rcases hvc with rfl | rfl | rfl | rfl | rfl | rfl | rfl | rfl
    all_goals first
      | (exfalso; simp at hne; done)
      | (simp only [tetVol6, Surface.Spec.det3, t0, t1, t2, t3, t4, t5, t6, t7]
         first | (left; ring1) | (right; ring1))
  · intro hne
    rw [← hD]
    apply abs_eq_of
    rw [vol]
    simp only [List.mem_cons, List.not_mem_nil, or_false] at hvc hne
    rcases hvc with rfl | rfl | rfl | rfl | rfl | rfl | rfl | rfl
    all_goals first
      | (exfalso; simp at hne; done)
      | (simp only [tetVol6, Surface.Spec.det3, t0, t1, t2, t3, t4, t5, t6, t7]
         first | (left; ring1) | (right; ring1))
  · intro hne
    rw [← hD]
    apply abs_eq_of
    rw [vol]
    simp only [List.mem_cons, List.not_mem_nil, or_false] at hvc hne
    rcases hvc with rfl | rfl | rfl | rfl | rfl | rfl | rfl | rfl
    all_goals first
      | (exfalso; simp at hne; done)
      | (simp only [tetVol6, Surface.Spec.det3, t0, t1, t2, t3, t4, t5, t6, t7]
         first | (left; ring1) | (right; ring1))

/-- C80: a hexahedral mesh of parallelepipeds becomes a tetrahedral mesh of the same volume: every cell becomes six tetrahedra, each
with a sixth of its volume. -/
theorem C80_hex_volume (norm : Point 3 K → K) (hn : PosNorm norm) (mesh : Mesh (Point 3 K))
    (hl : ∀ c ∈ mesh.cells, c.length = 8 ∧ c.Nodup) (hb : ∀ c ∈ mesh.cells, ∀ v ∈ c, v < mesh.vertices.length)
    (hpar : ∀ c ∈ mesh.cells, IsParallelepiped mesh.vertices c) :
    ∃ out, hexToTets norm mesh = some out ∧ out.vertices = mesh.vertices ∧
      out.cells.map (cellVol6 mesh.vertices) = mesh.cells.flatMap fun c => List.replicate 6 |hexDet mesh.vertices c| := by
  obtain ⟨p, out, h1, h2, h3, h4⟩ := C80_hex_to_tets norm hn mesh (fun c hc => (hl c hc).1) hb
  refine ⟨out, h2, h3, ?_⟩
  obtain ⟨p', k1, -, k3, -, -, k4⟩ := C80_from_mesh (Surface.facesOf .hex8) mesh
    fun c hc => hexFaces_bound c (hl c hc).1 _ (hb c hc)
  rw [h1] at k1
  obtain rfl := Option.some.inj k1
  have e1 : out.cells.map (cellVol6 mesh.vertices) =
      (p.cells.flatMap (cellTets p)).map fun T => |cellVol6 mesh.vertices [T.1.1, T.1.2.1, T.1.2.2, T.2]| := by
    clear h1 h2 h3 k3 k4
    generalize out.cells = oc at h4
    generalize p.cells.flatMap (cellTets p) = L at h4
    induction h4 with
    | nil => rfl
    | cons hab _ ih => rw [List.map_cons, List.map_cons, ih, hab.2]
  rw [e1, List.map_flatMap]
  clear e1 h4 h1 h2
  rw [← k3] at hpar ⊢
  generalize hpc : p.cells = pc at k4
  clear hpc
  have hall : ∀ c ∈ mesh.cells, (c.length = 8 ∧ c.Nodup) ∧ IsParallelepiped p.vertices c := fun c hc => ⟨hl c hc, hpar c hc⟩
  clear hl hpar hb k3
  generalize mesh.cells = mc at k4 hall
  induction k4 with
  | nil => rfl
  | @cons c ids cs idss hab _ ih =>
    rw [List.flatMap_cons, List.flatMap_cons, ih fun x hx => hall x (by simp [hx])]
    congr 1
    have hc := hall c (by simp)
    exact cell_tets p c ids hc.1.1 hc.1.2 hc.2 hab

/-! ### Examples -/

/-- A norm on rational points: all that matters is that it is positive except at zero. -/
private def someNorm (v : Point 3 ℚ) : ℚ := if v 0 = 0 ∧ v 1 = 0 ∧ v 2 = 0 then 0 else 1

private theorem someNorm_pos : PosNorm someNorm := by
  intro v hv
  rw [someNorm, if_neg]
  · exact one_pos
  · rintro ⟨h0, h1, h2⟩
    apply hv
    funext i
    match i with
    | 0 => exact h0
    | 1 => exact h1
    | 2 => exact h2

/-- Two unit cubes side by side. -/
private def cubes : Mesh (Point 3 ℚ) :=
  ⟨[![0, 0, 0], ![1, 0, 0], ![1, 1, 0], ![0, 1, 0], ![0, 0, 1], ![1, 0, 1], ![1, 1, 1], ![0, 1, 1],
    ![2, 0, 0], ![2, 1, 0], ![2, 0, 1], ![2, 1, 1]],
    [[0, 1, 2, 3, 4, 5, 6, 7], [1, 8, 9, 2, 5, 10, 11, 6]]⟩

/-- C80 example: the hypotheses of the theorems hold for two cubes; the polyhedral mesh has eleven faces, ten of them on the
boundary, and twelve tetrahedra, each of volume `1 / 6`. -/
example : (∀ c ∈ cubes.cells, c.length = 8 ∧ c.Nodup) ∧ (∀ c ∈ cubes.cells, ∀ v ∈ c, v < cubes.vertices.length) ∧
    (∀ c ∈ cubes.cells, IsParallelepiped cubes.vertices c) ∧
    ((ofMesh (Surface.facesOf .hex8) cubes).map fun p => (p.faces.length, findBoundaryFaces p)) =
      some (11, some [0, 1, 3, 4, 5, 6, 7, 8, 9, 10]) ∧
    (hexToTets someNorm cubes).map (fun out => out.cells.map (cellVol6 out.vertices)) = some (List.replicate 12 1) := by
  refine ⟨by decide, by decide, ?_, by decide +kernel, by decide +kernel⟩
  intro c hc
  have hc' : c = [0, 1, 2, 3, 4, 5, 6, 7] ∨ c = [1, 8, 9, 2, 5, 10, 11, 6] := by simpa [cubes] using hc
  rcases hc' with rfl | rfl
  · exact ⟨![0, 0, 0], ![1, 0, 0], ![0, 1, 0], ![0, 0, 1], by decide +kernel⟩
  · exact ⟨![1, 0, 0], ![1, 0, 0], ![0, 1, 0], ![0, 0, 1], by decide +kernel⟩

/-- C80 example: a tetrahedron with negative volume is turned round. -/
example : ((ofMesh (Surface.facesOf .tet4) (⟨[![0, 0, 0], ![1, 0, 0], ![0, 1, 0], ![0, 0, 1]], [[1, 0, 2, 3]]⟩ : Mesh (Point 3 ℚ))).bind
      (toTets someNorm)).map (fun r => r.toOption.map fun out => out.cells) = some (some [[1, 2, 0, 3]]) := by
  decide +kernel

private def notTet : PolyMesh (Point 3 ℚ) :=
  ⟨[![0, 0, 0], ![1, 0, 0], ![0, 1, 0], ![0, 0, 1]], [[0, 1, 2], [0, 1, 3], [1, 2, 3], [0, 2, 1, 3]], [[0, 1, 2, 3]]⟩

/-- C80, finding: the conversion also accepts cells that are not tetrahedra: here one of the four faces has four vertices. -/
theorem C80_accepts_other_cells : ∃ m : PolyMesh (Point 3 ℚ), Valid m ∧
    (∀ cell ∈ m.cells, ∀ a b c d, ¬IsTet m cell a b c d) ∧
    ∀ norm, PosNorm norm → ∃ out, toTets norm m = some (.ok out) ∧ out.cells.length = 1 := by
  refine ⟨notTet, ⟨by decide, by decide⟩, ?_, ?_⟩
  · rintro cell hcell a b c d ⟨-, gs, hs, hs', hp, hf⟩
    have hc : cell = [0, 1, 2, 3] := by simpa [notTet] using hcell
    subst hc
    have hlen : ∀ h ∈ hs', h.length = 3 := by
      intro h hh
      have := hp.mem_iff.mp hh
      simp only [List.mem_cons, List.not_mem_nil, or_false] at this
      rcases this with rfl | rfl | rfl | rfl <;> rfl
    have hg : ∀ g ∈ gs, g.length = 3 := by
      clear hs hp
      induction hf with
      | nil => simp
      | cons hab _ ih =>
        intro g hg
        rcases List.mem_cons.mp hg with rfl | hg
        · rw [hab.length_eq]
          exact hlen _ (by simp)
        · exact ih (fun h hh => hlen h (by simp [hh])) g hg
    have hmem : some [0, 2, 1, 3] ∈ gs.map some := by
      rw [← hs]
      decide
    obtain ⟨g, h1, h2⟩ := List.mem_map.mp hmem
    cases h2
    exact absurd (hg _ h1) (by decide)
  · intro norm hn
    rcases C80_to_tets norm hn notTet ⟨by decide, by decide⟩ (by decide) with ⟨out, h1, -, h3⟩ | ⟨-, cell, hc, hno⟩
    · exact ⟨out, h1, h3.length_eq.symm⟩
    · have hc : cell = [0, 1, 2, 3] := by simpa [notTet] using hc
      subst hc
      exact absurd ⟨[0, 1, 3], [1, 2, 3], [0, 2, 1, 3], rfl, by decide, by decide, by decide⟩ (hno 0 1 2 3)

/-- C80 example: a cell with the four faces of a tetrahedron in another order. -/
example : IsTet (⟨[![0, 0, 0], ![1, 0, 0], ![0, 1, 0], ![0, 0, 1]], [[1, 3, 0], [2, 1, 3], [0, 2, 1], [3, 0, 2]], [[0, 1, 2, 3]]⟩ :
    PolyMesh (Point 3 ℚ)) [0, 1, 2, 3] 0 1 2 3 := by
  refine ⟨by decide, [[1, 3, 0], [2, 1, 3], [0, 2, 1], [3, 0, 2]], rfl, [[0, 1, 3], [1, 2, 3], [0, 1, 2], [2, 0, 3]], by decide, ?_⟩
  exact .cons (by decide) (.cons (by decide) (.cons (by decide) (.cons (by decide) .nil)))

end Poly
end Fenris
