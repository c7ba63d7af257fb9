import Verif.Model.PolyConvert
import Verif.Spec.PolyConvert
import Verif.Lemmas.NestedVec
import Verif.Lemmas.MeshOps
import Verif.Props.PolyMesh
import Verif.Props.PolyTriangulate
import Verif.Props.PolyVolume
import Verif.Props.Surface
import Verif.Props.Polyhedron
/-! # C80: conversions to and from polyhedral meshes -/
set_option autoImplicit false

namespace Fenris
namespace Poly
open Spec

variable {P : Type}

/-! ## From a mesh to a polyhedral mesh -/

private theorem convertFaces_eq (sorted : List (List Nat)) (fs : List (List Nat)) (g : Nat) (map : List (List Nat × Nat))
    (faces : List (List Nat)) (cell : List Nat)
    (hs : ∀ (i : Nat) (f : List Nat), fs[i]? = some f → sorted[g + i]? = some (Mesh.sortNat f)) :
    ∃ map' faces' new, convertFaces sorted fs g map faces cell = some (g + fs.length, map', faces', cell ++ new) ∧
      new.length = fs.length ∧
      ∀ rest rl, dedupLoop (fs ++ rest) map faces rl = dedupLoop rest map' faces' (rl ++ new) := by
  induction fs generalizing g map faces cell with
  | nil => exact ⟨map, faces, [], by simp [convertFaces], rfl, by simp⟩
  | cons f fs ih =>
    have h0 := hs 0 f rfl
    have hs' : ∀ (i : Nat) (f : List Nat), fs[i]? = some f → sorted[g + 1 + i]? = some (Mesh.sortNat f) := by
      intro i f' hf'
      have := hs (i + 1) f' hf'
      rwa [show g + 1 + i = g + (i + 1) by omega]
    rw [Nat.add_zero] at h0
    cases hl : map.lookup (Mesh.sortNat f) with
    | none =>
      obtain ⟨map', faces', new, h1, h2, h3⟩ := ih (g + 1) ((Mesh.sortNat f, faces.length) :: map) (faces ++ [f])
        (cell ++ [faces.length]) hs'
      refine ⟨map', faces', faces.length :: new, ?_, by simp [h2], ?_⟩
      · rw [convertFaces, h0, Option.bind_some, hl, Option.elim_none, h1, List.length_cons, List.append_assoc,
          show g + 1 + fs.length = g + (fs.length + 1) by omega]
        rfl
      · intro rest rl
        rw [List.cons_append, dedupLoop, hl]
        simp only
        rw [h3, List.append_assoc, List.singleton_append]
    | some i =>
      obtain ⟨map', faces', new, h1, h2, h3⟩ := ih (g + 1) map faces (cell ++ [i]) hs'
      refine ⟨map', faces', i :: new, ?_, by simp [h2], ?_⟩
      · rw [convertFaces, h0, Option.bind_some, hl, Option.elim_some, h1, List.length_cons, List.append_assoc,
          show g + 1 + fs.length = g + (fs.length + 1) by omega]
        rfl
      · intro rest rl
        rw [List.cons_append, dedupLoop, hl]
        simp only
        rw [h3, List.append_assoc, List.singleton_append]

private theorem convertCells_eq (sorted : List (List Nat)) (cs : List (List (List Nat))) (g : Nat) (map : List (List Nat × Nat))
    (faces cells : List (List Nat))
    (hs : ∀ (i : Nat) (f : List Nat), cs.flatten[i]? = some f → sorted[g + i]? = some (Mesh.sortNat f)) :
    ∃ faces' new, convertCells sorted cs g map faces cells = some (faces', cells ++ new) ∧
      new.map List.length = cs.map List.length ∧
      ∀ rl, dedupLoop cs.flatten map faces rl = (faces', rl ++ new.flatten) := by
  induction cs generalizing g map faces cells with
  | nil => exact ⟨faces, [], by simp [convertCells], rfl, by simp [dedupLoop]⟩
  | cons c cs ih =>
    obtain ⟨map', faces', new, h1, h2, h3⟩ := convertFaces_eq sorted c g map faces [] (by
      intro i f hf
      apply hs i f
      rw [List.flatten_cons, List.getElem?_append_left (List.getElem?_eq_some_iff.mp hf).1]
      exact hf)
    obtain ⟨faces'', news, k1, k2, k3⟩ := ih (g + c.length) map' faces' (cells ++ [new]) (by
      intro i f hf
      have := hs (c.length + i) f (by rw [List.flatten_cons, List.getElem?_append_right (by omega)]; simpa using hf)
      rwa [Nat.add_assoc])
    refine ⟨faces'', new :: news, ?_, by simp [h2, k2], ?_⟩
    · rw [convertCells, h1, Option.bind_some]
      simp only [List.nil_append]
      rw [k1, List.append_assoc, List.singleton_append]
    · intro rl
      rw [List.flatten_cons, h3, k3, List.flatten_cons, List.append_assoc]

private theorem forall₂_of_flatten {A B : Type} (R : A → B → Prop) (L : List (List A)) (M : List (List B))
    (hl : M.map List.length = L.map List.length) (h : List.Forall₂ R L.flatten M.flatten) :
    List.Forall₂ (List.Forall₂ R) L M := by
  induction L generalizing M with
  | nil =>
    cases M with
    | nil => exact .nil
    | cons m M => simp at hl
  | cons l L ih =>
    cases M with
    | nil => simp at hl
    | cons m M =>
      simp only [List.map_cons, List.cons.injEq] at hl
      rw [List.flatten_cons, List.flatten_cons] at h
      have h1 := List.forall₂_take l.length h
      have h2 := List.forall₂_drop l.length h
      rw [List.take_left, ← hl.1, List.take_left] at h1
      rw [List.drop_left, ← hl.1, List.drop_left] at h2
      exact .cons h1 (ih M hl.2 h2)

/-- The facts about the conversion: they follow from those about removing duplicate faces (C62). -/
private theorem ofMesh_spec (facesOf : List Nat → List (List Nat)) (mesh : Mesh P)
    (hb : ∀ c ∈ mesh.cells, ∀ f ∈ facesOf c, ∀ v ∈ f, v < mesh.vertices.length) :
    ∃ out, ofMesh facesOf mesh = some out ∧ Valid out ∧ out.vertices = mesh.vertices ∧
      out.faces.Pairwise (fun a b => ¬a.Perm b) ∧
      (∃ ks : List Nat, ks.Pairwise (· < ·) ∧
        (∀ k, k ∈ ks ↔ ∃ f, (mesh.cells.flatMap facesOf)[k]? = some f ∧
          ∀ j < k, ∀ g : List Nat, (mesh.cells.flatMap facesOf)[j]? = some g → ¬g.Perm f) ∧
        out.faces.map some = ks.map fun k => (mesh.cells.flatMap facesOf)[k]?) ∧
      List.Forall₂ (fun cell ids => List.Forall₂ (fun f i => ∃ g, out.faces[i]? = some g ∧ g.Perm f) (facesOf cell) ids)
        mesh.cells out.cells := by
  have hflat : (mesh.cells.map facesOf).flatten = mesh.cells.flatMap facesOf := rfl
  obtain ⟨faces, cells, h1, h2, h3⟩ := convertCells_eq (mesh.cells.flatMap fun c => (facesOf c).map Mesh.sortNat)
    (mesh.cells.map facesOf) 0 [] [] [] (by
      intro i f hf
      rw [hflat] at hf
      rw [Nat.zero_add, ← List.map_flatMap, List.getElem?_map, hf]
      rfl)
  have h3' := h3 []
  rw [hflat, List.nil_append] at h3'
  set A := mesh.cells.flatMap facesOf with hA
  have hval : Valid (⟨mesh.vertices, A, [List.range A.length]⟩ : PolyMesh P) := by
    constructor
    · intro f hf
      obtain ⟨c, hc, hf⟩ := List.mem_flatMap.mp hf
      exact hb c hc f hf
    · intro c hc f hf
      obtain rfl := List.mem_singleton.mp hc
      exact List.mem_range.mp hf
  obtain ⟨o, k1, k2, k3, k4, k5, k6, k7⟩ := C62_dedup_faces _ hval
  have ho : o = ⟨mesh.vertices, faces, o.cells⟩ := by
    rw [dedupFaces] at k1
    simp only [h3'] at k1
    obtain ⟨cs, -, hcs⟩ := Option.map_eq_some_iff.mp k1
    rw [← hcs]
  have hoc : o.cells = [cells.flatten] ∧ cells.flatten.length = A.length := by
    rw [dedupFaces] at k1
    simp only [h3'] at k1
    obtain ⟨cs, hcs, hcs'⟩ := Option.map_eq_some_iff.mp k1
    rw [← hcs']
    simp only
    have hlen : cells.flatten.length = A.length := by
      rw [List.length_flatten, h2, ← hflat, List.length_flatten]
    refine ⟨?_, hlen⟩
    have hm : (List.range A.length).mapM (fun f => cells.flatten[f]?) = some cells.flatten := by
      rw [← hlen]
      have : ∀ (l : List Nat), (List.range l.length).mapM (fun f => l[f]?) = some l := by
        intro l
        apply mapM_option_eq_some _ _ _ (by simp)
        intro i hi
        rw [List.getElem_range, List.getElem?_eq_getElem]
      exact this _
    rw [List.mapM_cons, hm] at hcs
    simp only [List.mapM_nil] at hcs
    exact (Option.some.inj hcs).symm
  obtain ⟨hoc, hlen⟩ := hoc
  have hrel : List.Forall₂ (fun f i => ∃ g, faces[i]? = some g ∧ g.Perm f) A cells.flatten := by
    rw [List.forall₂_iff_get]
    refine ⟨hlen.symm, fun i h1 h2 => ?_⟩
    obtain ⟨-, h⟩ := k7 (List.range A.length) cells.flatten (by rw [hoc]; simp)
    obtain ⟨f, g, e1, e2, e3⟩ := h i (cells.flatten[i]) (by
      rw [List.mem_iff_getElem?]
      exact ⟨i, by rw [List.getElem?_zip_eq_some]; simp [h1, h2]⟩)
    refine ⟨g, ?_, ?_⟩
    · rw [ho] at e2
      simpa using e2
    · have : f = A[i] := by
        have e1' : A[i]? = some f := e1
        rw [List.getElem?_eq_getElem h1] at e1'
        exact (Option.some.inj e1').symm
      rw [List.get_eq_getElem, ← this]
      exact e3
  have hfa : o.faces = faces := by rw [ho]
  have hclen : cells.length = mesh.cells.length := by simpa using congrArg List.length h2
  have hfin : Valid (⟨mesh.vertices, faces, cells⟩ : PolyMesh P) := by
    constructor
    · intro f hf
      have := k2.face f (by rw [hfa]; exact hf)
      rwa [k3] at this
    · intro c hc f hf
      have := k2.cell cells.flatten (by rw [hoc]; simp) f (List.mem_flatten.mpr ⟨c, hc, hf⟩)
      rwa [hfa] at this
  refine ⟨⟨mesh.vertices, faces, cells⟩, ?_, hfin, rfl, by rw [← hfa]; exact k4, by rw [← hfa]; exact k5, ?_⟩
  · rw [ofMesh]
    simp only [h1, Option.bind_some, List.nil_append, hclen, if_true]
    exact fromPolyData_of_valid ⟨mesh.vertices, faces, cells⟩ hfin
  · have := forall₂_of_flatten _ (mesh.cells.map facesOf) cells h2 hrel
    rw [List.forall₂_map_left_iff] at this
    exact this

/-- C80: converting a mesh whose faces have vertices in bounds does not panic. The polyhedral mesh has the vertices of the mesh
and one cell for each cell, whose faces are the faces of the cell in their order, up to the order of the vertices. Faces with the
same vertices become one face, which is the first one. -/
theorem C80_from_mesh (facesOf : List Nat → List (List Nat)) (mesh : Mesh P)
    (hb : ∀ c ∈ mesh.cells, ∀ f ∈ facesOf c, ∀ v ∈ f, v < mesh.vertices.length) :
    ∃ out, ofMesh facesOf mesh = some out ∧ Valid out ∧ out.vertices = mesh.vertices ∧
      out.faces.Pairwise (fun a b => ¬a.Perm b) ∧
      (∃ ks : List Nat, ks.Pairwise (· < ·) ∧
        (∀ k, k ∈ ks ↔ ∃ f, (mesh.cells.flatMap facesOf)[k]? = some f ∧
          ∀ j < k, ∀ g : List Nat, (mesh.cells.flatMap facesOf)[j]? = some g → ¬g.Perm f) ∧
        out.faces.map some = ks.map fun k => (mesh.cells.flatMap facesOf)[k]?) ∧
      List.Forall₂ (fun cell ids => List.Forall₂ (fun f i => ∃ g, out.faces[i]? = some g ∧ g.Perm f) (facesOf cell) ids)
        mesh.cells out.cells := ofMesh_spec facesOf mesh hb

/-! ### Boundary faces -/

private theorem faceInfo_fst (facesOf : List Nat → List (List Nat)) (cells : List (List Nat)) :
    (Mesh.faceInfo facesOf cells).map Prod.fst = cells.flatMap facesOf := by
  have key : ∀ n, ((cells.zipIdx n).flatMap fun p => (facesOf p.1).zipIdx.map fun q => ((q.1, p.2, q.2) : List Nat × Nat × Nat)).map
      Prod.fst = cells.flatMap facesOf := by
    induction cells with
    | nil => intro n; rfl
    | cons c cs ih =>
      intro n
      rw [List.zipIdx_cons, List.flatMap_cons, List.map_append, ih, List.flatMap_cons]
      congr 1
      rw [List.map_map]
      exact List.zipIdx_map_fst 0 (facesOf c)
  exact key 0

private theorem countP_le_one {A : Type} (p : A → Bool) (l : List A) (hn : l.Nodup) :
    l.countP p ≤ 1 ↔ ∀ x ∈ l, ∀ y ∈ l, p x = true → p y = true → x = y := by
  rw [List.countP_eq_length_filter]
  constructor
  · intro h x hx y hy px py
    have hx' : x ∈ l.filter p := List.mem_filter.mpr ⟨hx, px⟩
    have hy' : y ∈ l.filter p := List.mem_filter.mpr ⟨hy, py⟩
    match hm : l.filter p, h with
    | [], _ => rw [hm] at hx'; cases hx'
    | [a], _ =>
      rw [hm] at hx' hy'
      rw [List.mem_singleton.mp hx', List.mem_singleton.mp hy']
  · intro h
    have hnf := hn.filter p
    match hm : l.filter p with
    | [] => simp
    | [a] => simp
    | a :: b :: t =>
      have ha : a ∈ l.filter p := by rw [hm]; simp
      have hb : b ∈ l.filter p := by rw [hm]; simp
      rw [List.mem_filter] at ha hb
      have := h a ha.1 b hb.1 ha.2 hb.2
      rw [hm, this] at hnf
      simp at hnf

private theorem count_forall₂ {A : Type} (R : A → Nat → Prop) (p : A → Bool) (i : Nat) (A' : List A) (B : List Nat)
    (h : List.Forall₂ R A' B) (hp : ∀ a b, R a b → (b = i ↔ p a = true)) : B.count i = A'.countP p := by
  induction h with
  | nil => rfl
  | cons hab _ ih =>
    rw [List.count_cons, List.countP_cons, ih]
    congr 1
    have := hp _ _ hab
    simp only [beq_iff_eq, this]

/-- C80: the faces of the polyhedral mesh that belong to one cell only are the boundary faces of the mesh (C14), with the order of
the vertices that they have there. -/
theorem C80_boundary_faces (facesOf : List Nat → List (List Nat)) (mesh : Mesh P)
    (hb : ∀ c ∈ mesh.cells, ∀ f ∈ facesOf c, ∀ v ∈ f, v < mesh.vertices.length) :
    ∃ out bs, ofMesh facesOf mesh = some out ∧ findBoundaryFaces out = some bs ∧ bs.Nodup ∧
      (∀ i ∈ bs, ∃ g c l, out.faces[i]? = some g ∧ Fenris.Spec.IsBoundary facesOf mesh.cells c l g) ∧
      ∀ f c l, Fenris.Spec.IsBoundary facesOf mesh.cells c l f → ∃ i ∈ bs, out.faces[i]? = some f := by
  obtain ⟨out, h1, h2, h3, h4, ⟨ks, k1, k2, k3⟩, h5⟩ := ofMesh_spec facesOf mesh hb
  have hflat : List.Forall₂ (fun f i => ∃ g, out.faces[i]? = some g ∧ g.Perm f) (mesh.cells.flatMap facesOf) out.cells.flatten := by
    clear h1 h2 h3 h4 k1 k2 k3 hb
    generalize out.cells = oc at h5
    generalize mesh.cells = mc at h5
    induction h5 with
    | nil => exact .nil
    | cons hab _ ih =>
      rw [List.flatMap_cons, List.flatten_cons]
      exact List.rel_append hab ih
  have hstored : ∀ g ∈ out.faces, g ∈ mesh.cells.flatMap facesOf := by
    intro g hg
    have hmem : some g ∈ out.faces.map some := List.mem_map.mpr ⟨g, hg, rfl⟩
    rw [k3] at hmem
    obtain ⟨k, -, hk⟩ := List.mem_map.mp hmem
    exact List.mem_of_getElem? hk
  have hnd : (Mesh.faceInfo facesOf mesh.cells).Nodup := List.Nodup.of_map _ (Mesh.faceInfo_nodup facesOf mesh.cells)
  have hcount : ∀ i g, out.faces[i]? = some g →
      (out.cells.flatten.count i ≤ 1 ↔ ∀ x ∈ Mesh.faceInfo facesOf mesh.cells, ∀ y ∈ Mesh.faceInfo facesOf mesh.cells,
        x.1.Perm g → y.1.Perm g → x = y) := by
    intro i g hg
    have e1 := count_forall₂ _ (fun f : List Nat => decide (f.Perm g)) i _ _ hflat (by
      rintro f j ⟨g', hg', hp⟩
      rw [decide_eq_true_iff]
      constructor
      · rintro rfl
        rw [hg] at hg'
        cases hg'
        exact hp.symm
      · intro hfg
        by_contra hne
        have hj := List.getElem?_eq_some_iff.mp hg'
        have hi := List.getElem?_eq_some_iff.mp hg
        obtain ⟨hj1, hj2⟩ := hj
        obtain ⟨hi1, hi2⟩ := hi
        have hpw := List.pairwise_iff_getElem.mp h4
        rcases Nat.lt_or_gt_of_ne hne with hlt | hlt
        · exact hpw j i hj1 hi1 hlt (by rw [hj2, hi2]; exact hp.trans hfg)
        · exact hpw i j hi1 hj1 hlt (by rw [hj2, hi2]; exact (hp.trans hfg).symm))
    rw [e1, ← faceInfo_fst, List.countP_map, countP_le_one _ _ hnd]
    simp only [Function.comp, decide_eq_true_eq]
  refine ⟨out, _, h1, C62_boundary_faces out h2, List.nodup_range.filter _, ?_, ?_⟩
  · intro i hi
    rw [List.mem_filter, List.mem_range, decide_eq_true_eq] at hi
    have hg := List.getElem?_eq_getElem hi.1
    have hu := (hcount i _ hg).mp hi.2
    have hmem := hstored _ (List.getElem_mem hi.1)
    rw [← faceInfo_fst] at hmem
    obtain ⟨⟨f, c, l⟩, hx, hf⟩ := List.mem_map.mp hmem
    simp only at hf
    subst hf
    refine ⟨_, c, l, hg, (Mesh.mem_faceInfo facesOf mesh.cells _ c l).mp hx, ?_⟩
    intro c' l' f' hf' hp
    have := hu _ ((Mesh.mem_faceInfo facesOf mesh.cells _ c' l').mpr hf') _ hx hp (.refl _)
    simp only [Prod.mk.injEq] at this
    exact ⟨this.2.1, this.2.2⟩
  · rintro f c l ⟨hf, hu⟩
    have hx := (Mesh.mem_faceInfo facesOf mesh.cells f c l).mpr hf
    have hfA : f ∈ mesh.cells.flatMap facesOf := by
      rw [← faceInfo_fst]
      exact List.mem_map.mpr ⟨_, hx, rfl⟩
    obtain ⟨k, hk⟩ := List.mem_iff_getElem?.mp hfA
    have hklt := (List.getElem?_eq_some_iff.mp hk).1
    have hrel := (List.forall₂_iff_get.mp hflat)
    obtain ⟨g, hg, hgf⟩ := hrel.2 k hklt (by rw [← hrel.1]; exact hklt)
    have hfk : (mesh.cells.flatMap facesOf).get ⟨k, hklt⟩ = f := by
      rw [List.getElem?_eq_getElem hklt] at hk
      exact Option.some.inj hk
    rw [hfk] at hgf
    have hgm := hstored g (List.mem_of_getElem? hg)
    rw [← faceInfo_fst] at hgm
    obtain ⟨⟨g', c', l'⟩, hy, hgg⟩ := List.mem_map.mp hgm
    simp only at hgg
    subst hgg
    have hy' := (Mesh.mem_faceInfo facesOf mesh.cells _ c' l').mp hy
    obtain ⟨rfl, rfl⟩ := hu c' l' _ hy' hgf
    have hgeq : g' = f := by
      obtain ⟨cell, a1, a2⟩ := hf
      obtain ⟨cell', b1, b2⟩ := hy'
      rw [a1] at b1
      cases b1
      rw [a2] at b2
      exact (Option.some.inj b2).symm
    subst hgeq
    refine ⟨_, List.mem_filter.mpr ⟨List.mem_range.mpr (List.getElem?_eq_some_iff.mp hg).1, ?_⟩, hg⟩
    rw [decide_eq_true_eq, hcount _ _ hg]
    rintro ⟨x1, x2, x3⟩ hx' ⟨y1, y2, y3⟩ hy'' px py
    have ex := hu _ _ _ ((Mesh.mem_faceInfo facesOf mesh.cells _ _ _).mp hx') px
    have ey := hu _ _ _ ((Mesh.mem_faceInfo facesOf mesh.cells _ _ _).mp hy'') py
    obtain ⟨cx, a1, a2⟩ := (Mesh.mem_faceInfo facesOf mesh.cells _ _ _).mp hx'
    obtain ⟨cy, b1, b2⟩ := (Mesh.mem_faceInfo facesOf mesh.cells _ _ _).mp hy''
    obtain ⟨rfl, rfl⟩ := ex
    obtain ⟨rfl, rfl⟩ := ey
    rw [a1] at b1
    cases b1
    rw [a2] at b2
    cases b2
    rfl

/-! ## From a polyhedral mesh to tetrahedra -/

section
variable {K : Type} [Field K] [LinearOrder K] [IsStrictOrderedRing K]
open Fenris.Spec Fenris.Geometry Surface.Spec

private theorem negative_iff {norm : Point 3 K → K} (hn : PosNorm norm) (a b c d : Point 3 K) :
    Tetrahedron.pointOrientation norm ⟨a, b, c⟩ d = .negative ↔ tetVol6 a b c d < 0 := by
  have e : dot (Tri.normalDir ⟨a, b, c⟩) (fun k => d k - a k) = tetVol6 a b c d := by
    simp only [dot, Fin.sum_univ_three, Tri.normalDir, cross3, tetVol6, Surface.Spec.det3, Matrix.cons_val_zero, Matrix.cons_val_one,
      Matrix.cons_val]
    ring
  have e' : dot (Geometry.normalize norm (Tri.normalDir ⟨a, b, c⟩)) (fun k => d k - a k) =
      tetVol6 a b c d / norm (Tri.normalDir ⟨a, b, c⟩) := by
    rw [← e]
    simp only [Geometry.normalize, dot, Fin.sum_univ_three]
    ring
  by_cases h0 : Tri.normalDir ⟨a, b, c⟩ = 0
  · have hv : tetVol6 a b c d = 0 := by
      rw [← e, h0]
      simp [dot]
    simp only [Tetrahedron.pointOrientation, e', hv, zero_div, lt_irrefl, if_false, reduceCtorEq]
  · have hpos := hn _ h0
    simp only [Tetrahedron.pointOrientation, e']
    by_cases h : tetVol6 a b c d < 0
    · have h1 : tetVol6 a b c d / norm (Tri.normalDir ⟨a, b, c⟩) < 0 := div_neg_of_neg_of_pos h hpos
      rw [if_neg h1.le.not_gt, if_pos h1]
      simp [h]
    · have h1 : ¬ tetVol6 a b c d / norm (Tri.normalDir ⟨a, b, c⟩) < 0 := by
        push Not at h ⊢
        exact div_nonneg h hpos.le
      rw [if_neg h1]
      split <;> simp [h]

private theorem noExtraVertices_eq (faces : List (List Nat)) (base : Nat × Nat × Nat) (apex : Nat) (ids : List Nat)
    (gs : List (List Nat)) (h : ids.map (fun f => faces[f]?) = gs.map some) :
    noExtraVertices faces base apex ids =
      some (decide (∀ g ∈ gs, ∀ v ∈ g, v ∈ [base.1, base.2.1, base.2.2, apex])) := by
  induction ids generalizing gs with
  | nil =>
    cases gs with
    | nil => simp [noExtraVertices]
    | cons g gs => simp at h
  | cons f ids ih =>
    cases gs with
    | nil => simp at h
    | cons g gs =>
      simp only [List.map_cons, List.cons.injEq] at h
      rw [noExtraVertices, h.1, Option.bind_some]
      have hall : (g.all fun v => [base.1, base.2.1, base.2.2].contains v || apex == v) = true ↔
          ∀ v ∈ g, v ∈ [base.1, base.2.1, base.2.2, apex] := by
        rw [List.all_eq_true]
        apply forall₂_congr
        intro v _
        simp only [List.contains_eq_mem, List.mem_cons, List.not_mem_nil, or_false, Bool.or_eq_true, decide_eq_true_eq, beq_iff_eq,
          or_assoc, eq_comm (a := apex)]
      by_cases hg : ∀ v ∈ g, v ∈ [base.1, base.2.1, base.2.2, apex]
      · rw [if_pos (hall.mpr hg), ih gs h.2]
        congr 1
        simp only [decide_eq_decide, List.forall_mem_cons]
        exact ⟨fun hh => ⟨hg, hh⟩, fun hh => hh.2⟩
      · rw [if_neg (fun hh => hg (hall.mp hh))]
        congr 1
        symm
        rw [decide_eq_false_iff_not, List.forall_mem_cons]
        exact fun hh => hg hh.1

omit [LinearOrder K] [IsStrictOrderedRing K] in
private theorem coords_of {vs : List (Point 3 K)} {i : Nat} {p : Point 3 K} (h : vs[i]? = some p) : coords vs i = p := by
  rw [coords, List.getD_eq_getElem?_getD, h]
  rfl

private theorem tetOfCell_spec {norm : Point 3 K → K} (hn : PosNorm norm) (m : PolyMesh (Point 3 K)) (hm : Valid m)
    (cell : List Nat) (hc : cell ∈ m.cells)
    (h3 : cell.length = 4 → ∀ f, cell.head? = some f → ∀ g, m.faces[f]? = some g → g.length = 3) :
    (∃ a b c d t, tetOfCell norm m cell = some (.ok t) ∧ FitsTet m cell a b c d ∧ (t = [a, b, c, d] ∨ t = [b, a, c, d]) ∧
      0 ≤ cellVol6 m.vertices t) ∨
    (tetOfCell norm m cell = some (.error ()) ∧ ∀ a b c d, ¬FitsTet m cell a b c d) := by
  by_cases hl : cell.length = 4
  · obtain ⟨f0, f1, f2, f3, rfl⟩ : ∃ f0 f1 f2 f3, cell = [f0, f1, f2, f3] := by
      match cell, hl with
      | [f0, f1, f2, f3], _ => exact ⟨f0, f1, f2, f3, rfl⟩
    have hb := hm.cell _ hc
    simp only [List.forall_mem_cons] at hb
    obtain ⟨b0, b1, b2, b3, -⟩ := hb
    have e0 := List.getElem?_eq_getElem b0
    have e1 := List.getElem?_eq_getElem b1
    have e2 := List.getElem?_eq_getElem b2
    have e3 := List.getElem?_eq_getElem b3
    have hl3 := h3 rfl f0 rfl _ e0
    have v0 := hm.face _ (List.getElem_mem b0)
    have v1 := hm.face _ (List.getElem_mem b1)
    generalize m.faces[f0] = g0 at *
    generalize m.faces[f1] = g1 at *
    generalize m.faces[f2] = g2 at *
    generalize m.faces[f3] = g3 at *
    obtain ⟨a, b, c, rfl⟩ : ∃ a b c, g0 = [a, b, c] := by
      match g0, hl3 with
      | [a, b, c], _ => exact ⟨a, b, c, rfl⟩
    have hshape : cellShape m [f0, f1, f2, f3] = [some [a, b, c], some g1, some g2, some g3] := by
      simp only [cellShape, List.map_cons, List.map_nil, e0, e1, e2, e3]
    have hpre : tetOfCell norm m [f0, f1, f2, f3] =
        (g1.find? fun v => !([a, b, c].contains v)).elim (some (.error ())) fun apex =>
          (noExtraVertices m.faces (a, b, c) apex [f1, f2, f3]).bind fun ok =>
            if ok then (orientTet norm m.vertices (a, b, c) apex).map .ok else some (.error ()) := by
      simp only [tetOfCell, e0, e1, triple, Option.bind_some]
    cases hfind : g1.find? fun v => !([a, b, c].contains v) with
    | none =>
      right
      rw [hpre, hfind]
      refine ⟨rfl, ?_⟩
      rintro a' b' c' d ⟨g1', g2', g3', hs, hd, hd1, -⟩
      rw [hshape] at hs
      simp only [List.cons.injEq, Option.some.injEq, and_true] at hs
      obtain ⟨⟨rfl, rfl, rfl⟩, rfl, -, -⟩ := hs
      rw [List.find?_eq_none] at hfind
      have := hfind d hd1
      simp only [Bool.not_eq_true', Bool.not_eq_false, List.contains_eq_mem, decide_eq_true_eq] at this
      exact hd this
    | some d =>
      have hd1 := List.mem_of_find?_eq_some hfind
      have hd : d ∉ [a, b, c] := by
        have := List.find?_some hfind
        simpa only [Bool.not_eq_true', List.contains_eq_mem, decide_eq_false_iff_not] using this
      rw [hpre, hfind, Option.elim_some, noExtraVertices_eq m.faces (a, b, c) d [f1, f2, f3] [g1, g2, g3] (by
        simp only [List.map_cons, List.map_nil, e1, e2, e3]), Option.bind_some]
      by_cases hx : ∀ g ∈ [g1, g2, g3], ∀ v ∈ g, v ∈ [a, b, c, d]
      · left
        rw [decide_eq_true hx, if_pos rfl]
        simp only [List.forall_mem_cons] at v0
        obtain ⟨va, vb, vc, -⟩ := v0
        have pa := List.getElem?_eq_getElem va
        have pb := List.getElem?_eq_getElem vb
        have pc := List.getElem?_eq_getElem vc
        have pd := List.getElem?_eq_getElem (v1 d hd1)
        have hfit : FitsTet m [f0, f1, f2, f3] a b c d := ⟨g1, g2, g3, hshape, hd, hd1, hx⟩
        rw [orientTet]
        simp only [pa, pb, pc, pd, Option.bind_some, Option.map_some, negative_iff hn]
        rw [← coords_of pa, ← coords_of pb, ← coords_of pc, ← coords_of pd]
        by_cases hneg : tetVol6 (coords m.vertices a) (coords m.vertices b) (coords m.vertices c) (coords m.vertices d) < 0
        · rw [if_pos hneg]
          refine ⟨a, b, c, d, _, rfl, hfit, .inr rfl, ?_⟩
          have e : cellVol6 m.vertices [b, a, c, d] =
              -tetVol6 (coords m.vertices a) (coords m.vertices b) (coords m.vertices c) (coords m.vertices d) := by
            simp only [cellVol6, List.getD_cons_zero, List.getD_cons_succ, tetVol6, Surface.Spec.det3]
            ring
          rw [e]
          linarith
        · rw [if_neg hneg]
          exact ⟨a, b, c, d, _, rfl, hfit, .inl rfl, not_lt.mp hneg⟩
      · right
        rw [decide_eq_false hx]
        refine ⟨by simp, ?_⟩
        rintro a' b' c' d' ⟨g1', g2', g3', hs, hd', hd1', hx'⟩
        rw [hshape] at hs
        simp only [List.cons.injEq, Option.some.injEq, and_true] at hs
        obtain ⟨⟨rfl, rfl, rfl⟩, rfl, rfl, rfl⟩ := hs
        apply hx
        have : d = d' := by
          have := hx' g1 (by simp) d hd1
          simp only [List.mem_cons, List.not_mem_nil, or_false] at this hd
          tauto
        rw [this]
        exact hx'
  · right
    constructor
    · match cell, hl with
      | [], _ => rfl
      | [_], _ => rfl
      | [_, _], _ => rfl
      | [_, _, _], _ => rfl
      | _ :: _ :: _ :: _ :: _ :: _, _ => rfl
    · rintro a b c d ⟨g1, g2, g3, hs, -⟩
      have := congrArg List.length hs
      simp only [cellShape, List.length_map, List.length_cons, List.length_nil] at this
      exact hl this

private theorem toTetLoop_spec {norm : Point 3 K → K} (hn : PosNorm norm) (m : PolyMesh (Point 3 K)) (hm : Valid m)
    (cells : List (List Nat)) (hc : ∀ c ∈ cells, c ∈ m.cells)
    (h3 : ∀ cell ∈ cells, cell.length = 4 → ∀ f, cell.head? = some f → ∀ g, m.faces[f]? = some g → g.length = 3)
    (conn : List (List Nat)) :
    (∃ ts, toTetLoop norm m cells conn = some (.ok (conn ++ ts)) ∧
      List.Forall₂ (fun cell t => ∃ a b c d, FitsTet m cell a b c d ∧ (t = [a, b, c, d] ∨ t = [b, a, c, d]) ∧
        0 ≤ cellVol6 m.vertices t) cells ts) ∨
    (toTetLoop norm m cells conn = some (.error ()) ∧ ∃ cell ∈ cells, ∀ a b c d, ¬FitsTet m cell a b c d) := by
  induction cells generalizing conn with
  | nil => exact .inl ⟨[], by simp [toTetLoop], .nil⟩
  | cons cell cells ih =>
    rcases tetOfCell_spec hn m hm cell (hc cell (by simp)) (h3 cell (by simp)) with ⟨a, b, c, d, t, e, h⟩ | ⟨e, h⟩
    · rcases ih (fun x hx => hc x (by simp [hx])) (fun x hx => h3 x (by simp [hx])) (conn ++ [t]) with ⟨ts, e', h'⟩ | ⟨e', x, hx, h'⟩
      · left
        refine ⟨t :: ts, ?_, .cons ⟨a, b, c, d, h⟩ h'⟩
        rw [toTetLoop, e, Option.bind_some]
        simp only [Except.toOption, Option.elim_some]
        rw [e', List.append_assoc, List.singleton_append]
      · right
        refine ⟨?_, x, by simp [hx], h'⟩
        rw [toTetLoop, e, Option.bind_some]
        exact e'
    · right
      refine ⟨?_, cell, by simp, h⟩
      rw [toTetLoop, e]
      rfl

/-- C80: for a valid polyhedral mesh in which the first face of every cell with four faces is a triangle, the conversion to
tetrahedra does not panic. If every cell is made of a triangle and a fourth vertex, it succeeds: the vertices are the same, and the
tetrahedra have these vertices, in their order, and volumes that are not negative. Otherwise it is an error. -/
theorem C80_to_tets (norm : Point 3 K → K) (hn : PosNorm norm) (m : PolyMesh (Point 3 K)) (hm : Valid m)
    (h3 : ∀ cell ∈ m.cells, cell.length = 4 → ∀ f, cell.head? = some f → ∀ g, m.faces[f]? = some g → g.length = 3) :
    (∃ out, toTets norm m = some (.ok out) ∧ out.vertices = m.vertices ∧
      List.Forall₂ (fun cell t => ∃ a b c d, FitsTet m cell a b c d ∧ (t = [a, b, c, d] ∨ t = [b, a, c, d]) ∧
        0 ≤ cellVol6 m.vertices t) m.cells out.cells) ∨
    (toTets norm m = some (.error ()) ∧ ∃ cell ∈ m.cells, ∀ a b c d, ¬FitsTet m cell a b c d) := by
  rcases toTetLoop_spec hn m hm m.cells (fun _ h => h) h3 [] with ⟨ts, e, h⟩ | ⟨e, h⟩
  · exact .inl ⟨⟨m.vertices, ts⟩, by rw [toTets, e]; rfl, rfl, h⟩
  · exact .inr ⟨by rw [toTets, e]; rfl, h⟩

/-! ### Tetrahedra -/

omit [LinearOrder K] [IsStrictOrderedRing K] in
private theorem fitsTet_unique {m : PolyMesh (Point 3 K)} {cell : List Nat} {a b c d a' b' c' d' : Nat}
    (h : FitsTet m cell a b c d) (h' : FitsTet m cell a' b' c' d') : a' = a ∧ b' = b ∧ c' = c ∧ d' = d := by
  obtain ⟨g1, g2, g3, hs, hd, hd1, hx⟩ := h
  obtain ⟨g1', g2', g3', hs', hd', hd1', hx'⟩ := h'
  rw [hs] at hs'
  simp only [List.cons.injEq, Option.some.injEq, and_true] at hs'
  obtain ⟨⟨rfl, rfl, rfl⟩, rfl, rfl, rfl⟩ := hs'
  refine ⟨rfl, rfl, rfl, ?_⟩
  have := hx g1 (by simp) d' hd1'
  simp only [List.mem_cons, List.not_mem_nil, or_false] at this hd'
  tauto

/-- C80: a cell whose four faces are those of a tetrahedron is converted to this tetrahedron. -/
theorem C80_tetrahedral_cells (m : PolyMesh (Point 3 K)) (cell : List Nat) (a b c d : Nat) (h : IsTet m cell a b c d) :
    ∃ x y z w, FitsTet m cell x y z w ∧ [x, y, z, w].Perm [a, b, c, d] := by
  obtain ⟨hnd, gs, hs, hs', hp, hf⟩ := h
  have hl : gs.length = 4 := by rw [hf.length_eq, hp.length_eq]; rfl
  obtain ⟨g0, g1, g2, g3, rfl⟩ : ∃ g0 g1 g2 g3, gs = [g0, g1, g2, g3] := by
    match gs, hl with
    | [g0, g1, g2, g3], _ => exact ⟨g0, g1, g2, g3, rfl⟩
  cases hf with
  | cons p0 hf => cases hf with
  | cons p1 hf => cases hf with
  | cons p2 hf => cases hf with
  | cons p3 hf =>
  cases hf
  rename_i k0 k1 k2 k3
  simp only [List.nodup_cons, List.mem_cons, List.not_mem_nil, or_false, not_or, List.nodup_nil, and_true, not_false_eq_true] at hnd
  obtain ⟨⟨nab, nac, nad⟩, ⟨nbc, nbd⟩, ncd⟩ := hnd
  have hndf : [[a, b, c], [a, b, d], [b, c, d], [c, a, d]].Nodup := by
    simp only [List.nodup_cons, List.mem_cons, List.not_mem_nil, or_false, not_or, List.nodup_nil, and_true, not_false_eq_true,
      List.cons.injEq, true_and, not_and]
    exact ⟨⟨ncd, fun h => absurd h nab, fun h => absurd h nac⟩, ⟨fun h => absurd h nab, fun h => absurd h nac⟩,
      fun h => absurd h nbc⟩
  have hk := hp.nodup_iff.mpr hndf
  have hne : k0 ≠ k1 := by
    intro h
    rw [h] at hk
    simp at hk
  have hsub : ∀ g ∈ [g1, g2, g3], ∀ v ∈ g, v ∈ [a, b, c, d] := by
    have key : ∀ k ∈ [k0, k1, k2, k3], ∀ v ∈ k, v ∈ [a, b, c, d] := by
      intro k hk v hv
      have := hp.mem_iff.mp hk
      simp only [List.mem_cons, List.not_mem_nil, or_false] at this
      rcases this with rfl | rfl | rfl | rfl <;>
      · simp only [List.mem_cons, List.not_mem_nil, or_false] at hv ⊢
        tauto
    intro g hg v hv
    simp only [List.mem_cons, List.not_mem_nil, or_false] at hg
    rcases hg with rfl | rfl | rfl
    · exact key k1 (by simp) v (p1.mem_iff.mp hv)
    · exact key k2 (by simp) v (p2.mem_iff.mp hv)
    · exact key k3 (by simp) v (p3.mem_iff.mp hv)
  have hg0 : g0.length = 3 := by
    rw [p0.length_eq]
    have := hp.mem_iff.mp (show k0 ∈ [k0, k1, k2, k3] by simp)
    simp only [List.mem_cons, List.not_mem_nil, or_false] at this
    rcases this with rfl | rfl | rfl | rfl <;> rfl
  obtain ⟨x, y, z, rfl⟩ : ∃ x y z, g0 = [x, y, z] := by
    match g0, hg0 with
    | [x, y, z], _ => exact ⟨x, y, z, rfl⟩
  -- it suffices to find the fourth vertex
  suffices hw : ∃ w, w ∉ k0 ∧ w ∈ k1 ∧ (k0 ++ [w]).Perm [a, b, c, d] by
    obtain ⟨w, w1, w2, w3⟩ := hw
    have hperm : [x, y, z, w].Perm [a, b, c, d] := (p0.append_right [w]).trans w3
    refine ⟨x, y, z, w, ⟨g1, g2, g3, by rw [hs]; rfl, fun h => w1 (p0.mem_iff.mp h), p1.mem_iff.mpr w2, ?_⟩, hperm⟩
    intro g hg v hv
    exact hperm.mem_iff.mpr (hsub g hg v hv)
  have h0 := hp.mem_iff.mp (show k0 ∈ [k0, k1, k2, k3] by simp)
  have h1 := hp.mem_iff.mp (show k1 ∈ [k0, k1, k2, k3] by simp)
  have s1 : [a, b, d, c].Perm [a, b, c, d] := ((List.Perm.swap c d []).cons b).cons a
  have s2 : [b, c, d, a].Perm [a, b, c, d] := by
    have : [b, c, d, a] = [b, c, d] ++ [a] := rfl
    rw [this]
    exact List.perm_append_comm
  have s3 : [c, a, d, b].Perm [a, b, c, d] := by
    refine (List.Perm.swap a c _).trans (List.Perm.cons a ?_)
    exact (List.perm_append_comm (l₁ := [c, d]) (l₂ := [b]))
  simp only [List.mem_cons, List.not_mem_nil, or_false] at h0 h1
  rcases h0 with rfl | rfl | rfl | rfl
  · refine ⟨d, by simp [nad, nbd, ncd, Ne.symm nad, Ne.symm nbd, Ne.symm ncd], ?_, .refl _⟩
    rcases h1 with rfl | rfl | rfl | rfl
    · exact absurd rfl hne
    all_goals simp
  · refine ⟨c, by simp [Ne.symm nac, Ne.symm nbc, ncd], ?_, s1⟩
    rcases h1 with rfl | rfl | rfl | rfl
    · simp
    · exact absurd rfl hne
    all_goals simp
  · refine ⟨a, by simp [nab, nac, nad], ?_, s2⟩
    rcases h1 with rfl | rfl | rfl | rfl
    · simp
    · simp
    · exact absurd rfl hne
    · simp
  · refine ⟨b, by simp [nbc, Ne.symm nab, nbd], ?_, s3⟩
    rcases h1 with rfl | rfl | rfl | rfl
    · simp
    · simp
    · simp
    · exact absurd rfl hne

/-- The volume does not depend on the order of the base, up to its sign. -/
private theorem abs_tetVol6_perm (vs : List (Point 3 K)) (x y z a b c d : Nat) (h : [x, y, z].Perm [a, b, c]) :
    |tetVol6 (coords vs x) (coords vs y) (coords vs z) (coords vs d)| =
      |tetVol6 (coords vs a) (coords vs b) (coords vs c) (coords vs d)| := by
  have key : ∀ s t : K, s = t ∨ s = -t → |s| = |t| := by
    rintro s t (h | h)
    · rw [h]
    · rw [h, abs_neg]
  apply key
  rcases Surface.perm_triple h with ⟨rfl, rfl, rfl⟩ | ⟨rfl, rfl, rfl⟩ | ⟨rfl, rfl, rfl⟩ | ⟨rfl, rfl, rfl⟩ | ⟨rfl, rfl, rfl⟩ |
    ⟨rfl, rfl, rfl⟩
  · exact .inl rfl
  · right; simp only [tetVol6, Surface.Spec.det3]; ring
  · right; simp only [tetVol6, Surface.Spec.det3]; ring
  · left; simp only [tetVol6, Surface.Spec.det3]; ring
  · left; simp only [tetVol6, Surface.Spec.det3]; ring
  · right; simp only [tetVol6, Surface.Spec.det3]; ring

omit [LinearOrder K] [IsStrictOrderedRing K] in
theorem fitsTet_of {m : PolyMesh (Point 3 K)} {cell : List Nat} {x y z a b c d : Nat} {g1 g2 g3 : List Nat}
    (hs : cellShape m cell = [some [x, y, z], some g1, some g2, some g3]) (hp : [x, y, z].Perm [a, b, c]) (hd : d ∉ [a, b, c])
    (hd1 : d ∈ g1) (hx : ∀ g ∈ [g1, g2, g3], ∀ v ∈ g, v ∈ [a, b, c, d]) : FitsTet m cell x y z d :=
  ⟨g1, g2, g3, hs, fun h => hd (hp.mem_iff.mp h), hd1, fun g hg v hv => (hp.append_right [d]).mem_iff.mpr (hx g hg v hv)⟩

/-- The conversion of cells whose faces, in order, are those of tetrahedra with the given apex. -/
theorem toTets_of {norm : Point 3 K → K} (hn : PosNorm norm) (m : PolyMesh (Point 3 K)) (hm : Valid m)
    {A : Type} (base : A → Nat × Nat × Nat) (apex : A → Nat) (L : List A)
    (h : List.Forall₂ (fun T cell => ∃ x y z, [x, y, z].Perm [(base T).1, (base T).2.1, (base T).2.2] ∧
      FitsTet m cell x y z (apex T)) L m.cells) :
    ∃ out, toTets norm m = some (.ok out) ∧ out.vertices = m.vertices ∧
      List.Forall₂ (fun T t => t.Perm [(base T).1, (base T).2.1, (base T).2.2, apex T] ∧
        cellVol6 m.vertices t = |cellVol6 m.vertices [(base T).1, (base T).2.1, (base T).2.2, apex T]|) L out.cells := by
  have hfit : ∀ cell ∈ m.cells, ∃ a b c d, FitsTet m cell a b c d := by
    intro cell hc
    obtain ⟨k, hk⟩ := List.mem_iff_getElem?.mp hc
    have hk' := List.getElem?_eq_some_iff.mp hk
    obtain ⟨hlt, he⟩ := hk'
    have hh := List.forall₂_iff_get.mp h
    obtain ⟨x, y, z, -, hf⟩ := hh.2 k (by rw [hh.1]; exact hlt) hlt
    rw [List.get_eq_getElem, he] at hf
    exact ⟨x, y, z, _, hf⟩
  rcases C80_to_tets norm hn m hm (by
      intro cell hc _ f hf g hg
      obtain ⟨a, b, c, d, g1, g2, g3, hs, -⟩ := hfit cell hc
      cases cell with
      | nil => cases hf
      | cons f' fs =>
        cases hf
        simp only [cellShape, List.map_cons, List.cons.injEq, hg, Option.some.injEq] at hs
        rw [hs.1]
        rfl) with ⟨out, h1, h2, h3⟩ | ⟨-, cell, hc, hno⟩
  · refine ⟨out, h1, h2, ?_⟩
    have hh := List.forall₂_iff_get.mp h
    have hk := List.forall₂_iff_get.mp h3
    rw [List.forall₂_iff_get]
    refine ⟨hh.1.trans hk.1, fun i i1 i2 => ?_⟩
    obtain ⟨x, y, z, hp, hf⟩ := hh.2 i i1 (by rw [← hh.1]; exact i1)
    obtain ⟨a, b, c, d, hf', ht, hv⟩ := hk.2 i (by rw [← hh.1]; exact i1) i2
    obtain ⟨rfl, rfl, rfl, hd⟩ := fitsTet_unique hf hf'
    rw [hd] at ht
    have habs : cellVol6 m.vertices (out.cells.get ⟨i, i2⟩) =
        |tetVol6 (coords m.vertices a) (coords m.vertices b) (coords m.vertices c) (coords m.vertices (apex (L.get ⟨i, i1⟩)))| := by
      rw [← abs_of_nonneg hv]
      rcases ht with ht | ht
      · rw [ht]
        rfl
      · rw [ht]
        exact abs_tetVol6_perm _ _ _ _ _ _ _ _ (List.Perm.swap a b [c])
    constructor
    · have e1 : [a, b, c, apex (L.get ⟨i, i1⟩)].Perm [(base (L.get ⟨i, i1⟩)).1, (base (L.get ⟨i, i1⟩)).2.1,
          (base (L.get ⟨i, i1⟩)).2.2, apex (L.get ⟨i, i1⟩)] := hp.append_right [apex (L.get ⟨i, i1⟩)]
      rcases ht with ht | ht
      · rw [ht]
        exact e1
      · rw [ht]
        exact (List.Perm.swap a b _).trans e1
    · rw [habs, abs_tetVol6_perm _ _ _ _ _ _ _ _ hp]
      rfl
  · obtain ⟨a, b, c, d, hf⟩ := hfit cell hc
    exact absurd hf (hno a b c d)

/-- C80: a tetrahedral mesh converted to a polyhedral mesh and back has the same vertices and the same cells, up to the order of
the vertices of each cell, which is such that the volume is positive if it is not zero. -/
theorem C80_tet_round_trip (norm : Point 3 K → K) (hn : PosNorm norm) (mesh : Mesh (Point 3 K))
    (hl : ∀ c ∈ mesh.cells, c.length = 4 ∧ c.Nodup) (hb : ∀ c ∈ mesh.cells, ∀ v ∈ c, v < mesh.vertices.length) :
    ∃ p out, ofMesh (Surface.facesOf .tet4) mesh = some p ∧ toTets norm p = some (.ok out) ∧ out.vertices = mesh.vertices ∧
      List.Forall₂ (fun c t => t.Perm c ∧ cellVol6 mesh.vertices t = |cellVol6 mesh.vertices c|) mesh.cells out.cells := by
  obtain ⟨p, h1, h2, h3, -, -, h5⟩ := C80_from_mesh (Surface.facesOf .tet4) mesh (by
    intro c hc f hf v hv
    obtain ⟨g, hg, rfl⟩ := List.mem_map.mp hf
    obtain ⟨i, hi, rfl⟩ := List.mem_map.mp hv
    apply hb c hc
    have hi4 : i < 4 := by
      simp only [Element.localFaces, List.mem_cons, List.not_mem_nil, or_false] at hg
      rcases hg with rfl | rfl | rfl | rfl <;>
      · simp only [List.mem_cons, List.not_mem_nil, or_false] at hi
        omega
    rw [List.getD_eq_getElem?_getD, List.getElem?_eq_getElem (by rw [(hl c hc).1]; exact hi4)]
    exact List.getElem_mem _)
  have hcell : List.Forall₂ (fun T cell => ∃ x y z, [x, y, z].Perm [T.getD 0 0, T.getD 2 0, T.getD 1 0] ∧
      FitsTet p cell x y z (T.getD 3 0)) mesh.cells p.cells := by
    rw [List.forall₂_iff_get] at h5 ⊢
    refine ⟨h5.1, fun i i1 i2 => ?_⟩
    have hrel := h5.2 i i1 i2
    have hll := hl _ (List.get_mem mesh.cells ⟨i, i1⟩)
    generalize mesh.cells.get ⟨i, i1⟩ = T at *
    generalize p.cells.get ⟨i, i2⟩ = ids at *
    obtain ⟨a, b, c, d, rfl⟩ : ∃ a b c d, T = [a, b, c, d] := by
      match T, hll.1 with
      | [a, b, c, d], _ => exact ⟨a, b, c, d, rfl⟩
    have hfaces : Surface.facesOf .tet4 [a, b, c, d] = [[a, c, b], [a, b, d], [b, c, d], [a, d, c]] := rfl
    rw [hfaces] at hrel
    cases hrel with
    | cons p0 hrel => cases hrel with
    | cons p1 hrel => cases hrel with
    | cons p2 hrel => cases hrel with
    | cons p3 hrel =>
    cases hrel
    obtain ⟨g0, e0, q0⟩ := p0
    obtain ⟨g1, e1, q1⟩ := p1
    obtain ⟨g2, e2, q2⟩ := p2
    obtain ⟨g3, e3, q3⟩ := p3
    obtain ⟨x, y, z, rfl⟩ : ∃ x y z, g0 = [x, y, z] := by
      match g0, q0.length_eq with
      | [x, y, z], _ => exact ⟨x, y, z, rfl⟩
    have hnd := hll.2
    simp only [List.nodup_cons, List.mem_cons, List.not_mem_nil, or_false, not_or, List.nodup_nil, and_true,
      not_false_eq_true] at hnd
    obtain ⟨⟨nab, nac, nad⟩, ⟨nbc, nbd⟩, ncd⟩ := hnd
    refine ⟨x, y, z, q0, fitsTet_of (g1 := g1) (g2 := g2) (g3 := g3) (by simp [cellShape, e0, e1, e2, e3]) q0 ?_ ?_ ?_⟩
    · simp [Ne.symm nad, Ne.symm nbd, Ne.symm ncd]
    · rw [q1.mem_iff]
      simp
    · clear * - q1 q2 q3
      intro g hg v hv
      simp only [List.mem_cons, List.not_mem_nil, or_false] at hg
      simp only [List.getD_cons_succ, List.getD_cons_zero, List.mem_cons, List.not_mem_nil, or_false]
      rcases hg with rfl | rfl | rfl
      · have := q1.mem_iff.mp hv
        simp only [List.mem_cons, List.not_mem_nil, or_false] at this
        omega
      · have := q2.mem_iff.mp hv
        simp only [List.mem_cons, List.not_mem_nil, or_false] at this
        omega
      · have := q3.mem_iff.mp hv
        simp only [List.mem_cons, List.not_mem_nil, or_false] at this
        omega
  obtain ⟨out, k1, k2, k3⟩ := toTets_of hn p h2 (fun T : List Nat => (T.getD 0 0, T.getD 2 0, T.getD 1 0)) (fun T => T.getD 3 0)
    mesh.cells hcell
  refine ⟨p, out, h1, k1, k2.trans h3, ?_⟩
  rw [List.forall₂_iff_get] at k3 ⊢
  refine ⟨k3.1, fun i i1 i2 => ?_⟩
  obtain ⟨r1, r2⟩ := k3.2 i i1 i2
  have hll := hl _ (List.get_mem mesh.cells ⟨i, i1⟩)
  generalize mesh.cells.get ⟨i, i1⟩ = T at *
  obtain ⟨a, b, c, d, rfl⟩ : ∃ a b c d, T = [a, b, c, d] := by
    match T, hll.1 with
    | [a, b, c, d], _ => exact ⟨a, b, c, d, rfl⟩
  constructor
  · exact r1.trans ((List.Perm.swap b c [d]).cons a)
  · rw [h3] at r2
    rw [r2]
    exact abs_tetVol6_perm _ _ _ _ _ _ _ _ ((List.Perm.swap b c []).cons a)

end

end Poly
end Fenris
