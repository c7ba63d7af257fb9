import Verif.Props.PolySplit
/-! # C64: triangulation of polyhedral meshes -/
set_option autoImplicit false

namespace Fenris
namespace Poly

open Spec

variable {P : Type}

/-! ### The fan of a face -/

private theorem minIdxLoop_spec (vs : List Nat) : ∀ (l : List Nat) (i : Nat) (best : Nat × Nat), vs = vs →
    (∃ pre, l = pre ++ vs ∧ pre.length = i ∧ pre[best.1]? = some best.2 ∧ (∀ w ∈ pre, best.2 ≤ w) ∧
      ∀ j, j < best.1 → ∀ w, pre[j]? = some w → best.2 < w) →
    ∃ v, l[minIdxLoop vs i best]? = some v ∧ (∀ w ∈ l, v ≤ w) ∧
      ∀ j, j < minIdxLoop vs i best → ∀ w, l[j]? = some w → v < w := by
  induction vs with
  | nil =>
    rintro l i best - ⟨pre, rfl, -, h1, h2, h3⟩
    rw [List.append_nil]
    exact ⟨best.2, h1, h2, h3⟩
  | cons x vs ih =>
    rintro l i best - ⟨pre, rfl, rfl, h1, h2, h3⟩
    rw [minIdxLoop]
    refine ih _ _ _ rfl ⟨pre ++ [x], by simp, by simp, ?_, ?_, ?_⟩
    · by_cases hx : x < best.2
      · rw [if_pos hx]
        simp
      · rw [if_neg hx, List.getElem?_append_left (List.getElem?_eq_some_iff.1 h1).1, h1]
    · intro w hw
      rcases List.mem_append.1 hw with hw | hw
      · have := h2 w hw
        split
        · exact Nat.le_trans (Nat.le_of_lt ‹_›) this
        · exact this
      · rw [List.mem_singleton.1 hw]
        split
        · exact Nat.le_refl _
        · exact Nat.le_of_not_lt ‹_›
    · intro j hj w hw
      by_cases hx : x < best.2
      · rw [if_pos hx] at hj ⊢
        simp only at hj ⊢
        rw [List.getElem?_append_left hj] at hw
        have := h2 w (List.mem_of_getElem? hw)
        omega
      · rw [if_neg hx] at hj ⊢
        have hlt := (List.getElem?_eq_some_iff.1 h1).1
        rw [List.getElem?_append_left (by omega)] at hw
        exact h3 j hj w hw

private theorem idxOf_eq (l : List Nat) (p v : Nat) (h : l[p]? = some v) (hlt : ∀ j, j < p → ∀ w, l[j]? = some w → v < w) :
    l.idxOf v = p := by
  induction l generalizing p with
  | nil => cases h
  | cons a l ih =>
    rw [List.idxOf_cons]
    cases p with
    | zero =>
      obtain rfl := Option.some.inj h
      simp
    | succ p =>
      have ha := hlt 0 (by omega) a rfl
      have hne : (a == v) = false := beq_false_of_ne (by omega)
      rw [hne, cond_false, ih p (by simpa using h) fun j hj w hw => hlt (j + 1) (by omega) w (by simpa using hw)]

private theorem minIdx_spec (f : List Nat) (hf : f ≠ []) :
    ∃ p v, minIdx f = some p ∧ f[p]? = some v ∧ f.min? = some v ∧ f.idxOf v = p := by
  cases f with
  | nil => exact absurd rfl hf
  | cons x vs =>
    obtain ⟨v, h1, h2, h3⟩ := minIdxLoop_spec vs (x :: vs) 1 (0, x) rfl
      ⟨[x], rfl, rfl, rfl, by simp, by intro j hj; exact absurd hj (Nat.not_lt_zero j)⟩
    refine ⟨_, v, rfl, h1, ?_, ?_⟩
    · rw [List.min?_eq_some_iff]
      exact ⟨List.mem_of_getElem? h1, h2⟩
    · exact idxOf_eq _ _ _ h1 h3

private def asList (t : Nat × Nat × Nat) : List Nat := [t.1, t.2.1, t.2.2]

private theorem mapM_some' {α β : Type} (f : α → Option β) (g : α → β) (l : List α) (h : ∀ a ∈ l, f a = some (g a)) :
    l.mapM f = some (l.map g) := by
  induction l with
  | nil => rfl
  | cons a l ih =>
    rw [List.mapM_cons, h a (List.mem_cons_self ..), ih fun b hb => h b (List.mem_cons_of_mem _ hb)]
    rfl

private theorem fan_eq (f : List Nat) (hf : 3 ≤ f.length) : fan f = some ((fanTriangles f).map asList) := by
  have hne : f ≠ [] := by rintro rfl; simp at hf
  obtain ⟨p, v, h1, h2, h3, h4⟩ := minIdx_spec f hne
  rw [fan, h1, Option.bind_some, fanTriangles, h3, Option.elim_some, h4]
  have hm : ∀ k, k % f.length < f.length := fun k => Nat.mod_lt _ (by omega)
  rw [mapM_some' _ (fun i => [v, f[(i + 1 + p) % f.length]'(hm _), f[(i + 2 + p) % f.length]'(hm _)]) _ (by
    intro i _
    rw [h2, List.getElem?_eq_getElem (hm _), List.getElem?_eq_getElem (hm _)]
    rfl)]
  congr 1
  simp only
  refine List.ext_getElem? fun i => ?_
  have hr : ∀ j, j + 1 < f.length → ((f.rotate p).tail)[j]? = some (f[(j + 1 + p) % f.length]'(hm _)) := by
    intro j hj
    rw [List.getElem?_tail, List.getElem?_rotate hj, List.getElem?_eq_getElem (hm _)]
  by_cases hi : i < f.length - 2
  · rw [List.getElem?_map, List.getElem?_range hi]
    have hz : ((f.rotate p).tail.zip (f.rotate p).tail.tail)[i]?
        = some (f[(i + 1 + p) % f.length]'(hm _), f[(i + 2 + p) % f.length]'(hm _)) := by
      rw [List.getElem?_zip_eq_some]
      refine ⟨hr i (by omega), ?_⟩
      rw [List.getElem?_tail, hr (i + 1) (by omega)]
    rw [List.map_map, List.getElem?_map, hz]
    rfl
  · rw [List.getElem?_eq_none (by simp; omega), List.getElem?_eq_none]
    simp only [List.length_map, List.length_zip, List.length_tail, List.length_rotate]
    omega

/-- The vertices of a fan triangle are vertices of the face. -/
theorem fanTriangles_mem (f : List Nat) (t : Nat × Nat × Nat) (ht : t ∈ fanTriangles f) :
    t.1 ∈ f ∧ t.2.1 ∈ f ∧ t.2.2 ∈ f := by
  rw [fanTriangles] at ht
  cases hv : f.min? with
  | none => rw [hv] at ht; cases ht
  | some v =>
    rw [hv, Option.elim_some] at ht
    obtain ⟨⟨b, c⟩, he, rfl⟩ := List.mem_map.1 ht
    have h1 := (List.of_mem_zip he).1
    have h2 := (List.of_mem_zip he).2
    refine ⟨(List.min?_eq_some_iff.1 hv).1, ?_, ?_⟩
    · exact List.mem_rotate.1 (List.mem_of_mem_tail h1)
    · exact List.mem_rotate.1 (List.mem_of_mem_tail (List.mem_of_mem_tail h2))

/-! ### The loops -/

private theorem fanFaces_error (fs tris fmap : List (List Nat)) (h : ∃ f ∈ fs, f.length < 3) :
    fanFaces fs tris fmap = some (.error ()) := by
  induction fs generalizing tris fmap with
  | nil => obtain ⟨f, hf, -⟩ := h; cases hf
  | cons g fs ih =>
    rw [fanFaces]
    by_cases hg : g.length < 3
    · rw [if_pos hg]
    · rw [if_neg hg, fan_eq g (by omega), Option.bind_some]
      obtain ⟨f, hf, hl⟩ := h
      exact ih _ _ ⟨f, (List.mem_cons.1 hf).resolve_left (by rintro rfl; exact hg hl), hl⟩

private theorem fanFaces_ok (fs tris fmap : List (List Nat)) (h : ∀ f ∈ fs, 3 ≤ f.length) :
    ∃ fm : List (List Nat), fanFaces fs tris fmap =
        some (.ok (tris ++ fs.flatMap (fun f => (fanTriangles f).map asList), fmap ++ fm)) ∧ fm.length = fs.length ∧
      ∀ (k : Nat) (f : List Nat), fs[k]? = some f → ∃ ids : List Nat, fm[k]? = some ids ∧
        ids.map (fun i => (tris ++ fs.flatMap (fun f => (fanTriangles f).map asList))[i]?)
          = (fanTriangles f).map fun t => some (asList t) := by
  induction fs generalizing tris fmap with
  | nil => exact ⟨[], by simp [fanFaces], rfl, by simp⟩
  | cons g fs ih =>
    have hg := h g (List.mem_cons_self ..)
    obtain ⟨fm, h1, h2, h3⟩ := ih (tris ++ (fanTriangles g).map asList)
      (fmap ++ [(List.range ((fanTriangles g).map asList).length).map (tris.length + ·)])
      fun f hf => h f (List.mem_cons_of_mem _ hf)
    refine ⟨(List.range ((fanTriangles g).map asList).length).map (tris.length + ·) :: fm, ?_, by simp [h2], ?_⟩
    · rw [fanFaces, if_neg (by omega), fan_eq g hg, Option.bind_some, h1]
      simp [List.append_assoc]
    · intro k f hk
      cases k with
      | zero =>
        simp only [List.getElem?_cons_zero, Option.some.injEq] at hk
        subst hk
        refine ⟨_, rfl, ?_⟩
        refine List.ext_getElem? fun i => ?_
        rw [List.flatMap_cons, List.map_map, List.getElem?_map, List.getElem?_map]
        by_cases hi : i < (fanTriangles g).length
        · rw [List.getElem?_range (by simpa using hi)]
          simp only [Option.map_some, Function.comp_apply]
          rw [List.getElem?_append_right (by omega), List.getElem?_append_left (by simp; omega),
            List.getElem?_map, Nat.add_sub_cancel_left, List.getElem?_eq_getElem hi]
          rfl
        · rw [List.getElem?_eq_none (by simp; omega), List.getElem?_eq_none (by omega)]
          rfl
      | succ k =>
        rw [List.getElem?_cons_succ] at hk
        obtain ⟨ids, g1, g2⟩ := h3 k f hk
        refine ⟨ids, g1, ?_⟩
        rw [List.flatMap_cons, ← List.append_assoc]
        exact g2

/-- The three sides of a tetrahedron at its apex. -/
private def sides (t : (Nat × Nat × Nat) × Nat) : List (List Nat) :=
  [[t.1.1, t.1.2.1, t.2], [t.1.2.1, t.1.2.2, t.2], [t.1.2.2, t.1.1, t.2]]

/-- A cell has the faces of a tetrahedron. -/
private def Shape (tris : List (List Nat)) (cell : List Nat) (t : (Nat × Nat × Nat) × Nat) : Prop :=
  cell.map (fun i => tris[i]?) = (tetFaces t).map some

private theorem lookup_append {tris more : List (List Nat)} {ids : List Nat} {xs : List (List Nat)}
    (h : ids.map (fun i => tris[i]?) = xs.map some) : ids.map (fun i => (tris ++ more)[i]?) = xs.map some := by
  rw [← h]
  refine List.map_congr_left fun i hi => ?_
  have : tris[i]? ∈ ids.map fun i => tris[i]? := List.mem_map.2 ⟨i, hi, rfl⟩
  rw [h] at this
  obtain ⟨x, -, hx⟩ := List.mem_map.1 this
  rw [List.getElem?_append_left (List.getElem?_eq_some_iff.1 hx.symm).1]

private theorem shapes_append {tris more : List (List Nat)} {cells : List (List Nat)}
    {ts : List ((Nat × Nat × Nat) × Nat)} (h : List.Forall₂ (Shape tris) cells ts) :
    List.Forall₂ (Shape (tris ++ more)) cells ts :=
  h.imp fun _ _ hs => lookup_append hs

private theorem connect_spec (v : Nat) (ids : List Nat) (ts : List (Nat × Nat × Nat)) (tris tets : List (List Nat))
    (h : ids.map (fun i => tris[i]?) = (ts.map asList).map some) :
    ∃ cells, connect v ids tris tets = some (tris ++ (ts.map fun t => (t, v)).flatMap sides, tets ++ cells) ∧
      List.Forall₂ (Shape (tris ++ (ts.map fun t => (t, v)).flatMap sides)) cells (ts.map fun t => (t, v)) := by
  induction ids generalizing ts tris tets with
  | nil =>
    cases ts with
    | nil => exact ⟨[], by simp [connect], .nil⟩
    | cons t ts => cases h
  | cons id ids ih =>
    cases ts with
    | nil => cases h
    | cons t ts =>
      rw [List.map_cons, List.map_cons, List.map_cons, List.cons.injEq] at h
      obtain ⟨cells, h1, h2⟩ := ih ts (tris ++ sides (t, v))
        (tets ++ [[id, tris.length, tris.length + 1, tris.length + 2]]) (lookup_append h.2)
      refine ⟨[id, tris.length, tris.length + 1, tris.length + 2] :: cells, ?_, ?_⟩
      · rw [connect, h.1, Option.bind_some]
        change Option.bind (some (t.1, t.2.1, t.2.2)) _ = _
        rw [Option.bind_some]
        change connect v ids (tris ++ sides (t, v)) _ = _
        rw [h1]
        simp [List.append_assoc]
      · rw [List.map_cons, List.flatMap_cons, ← List.append_assoc]
        refine .cons ?_ h2
        refine lookup_append (tris := tris ++ sides (t, v)) ?_
        rw [List.map_cons, List.getElem?_append_left (List.getElem?_eq_some_iff.1 h.1).1, h.1]
        simp [tetFaces, sides, asList]

private theorem cellFaces_spec (faces fmap : List (List Nat)) (v : Nat) (base : List (List Nat))
    (hfm : ∀ (k : Nat) (f : List Nat), faces[k]? = some f → ∃ ids : List Nat, fmap[k]? = some ids ∧
      ids.map (fun i => base[i]?) = ((fanTriangles f).map asList).map some)
    (c : List Nat) (hc : ∀ f ∈ c, f < faces.length) (more tets : List (List Nat)) :
    ∃ cells, cellFaces faces fmap v c (base ++ more) tets =
        some (base ++ more ++ (((c.map fun f => (faces[f]?).getD []).filter fun face => decide (v ∉ face)).flatMap
          fun face => (fanTriangles face).map fun t => (t, v)).flatMap sides, tets ++ cells) ∧
      List.Forall₂ (Shape (base ++ more ++ (((c.map fun f => (faces[f]?).getD []).filter
          fun face => decide (v ∉ face)).flatMap fun face => (fanTriangles face).map fun t => (t, v)).flatMap sides)) cells
        (((c.map fun f => (faces[f]?).getD []).filter fun face => decide (v ∉ face)).flatMap
          fun face => (fanTriangles face).map fun t => (t, v)) := by
  induction c generalizing more tets with
  | nil => exact ⟨[], by simp [cellFaces], .nil⟩
  | cons f c ih =>
    have hf := hc f (List.mem_cons_self ..)
    have hc' : ∀ g ∈ c, g < faces.length := fun g hg => hc g (List.mem_cons_of_mem _ hg)
    have hget := List.getElem?_eq_getElem hf
    rw [cellFaces, hget, Option.bind_some, List.map_cons, hget, Option.getD_some]
    by_cases hv : v ∈ faces[f]
    · rw [if_pos (by simpa using hv), List.filter_cons_of_neg (by simpa using hv)]
      exact ih hc' more tets
    · rw [if_neg (by simpa using hv), List.filter_cons_of_pos (by simpa using hv), List.flatMap_cons]
      obtain ⟨ids, g1, g2⟩ := hfm f faces[f] hget
      obtain ⟨cells1, a1, a2⟩ := connect_spec v ids (fanTriangles faces[f]) (base ++ more) tets (lookup_append g2)
      rw [List.append_assoc base more] at a1 a2
      obtain ⟨cells2, b1, b2⟩ := ih hc' (more ++ ((fanTriangles faces[f]).map fun t => (t, v)).flatMap sides)
        (tets ++ cells1)
      refine ⟨cells1 ++ cells2, ?_, ?_⟩
      · rw [g1, Option.bind_some]
        rw [List.append_assoc base more] at *
        rw [a1, Option.bind_some]
        simp only
        rw [b1]
        simp [List.append_assoc, List.flatMap_append]
      · rw [List.flatMap_append, ← List.append_assoc, List.append_assoc base more]
        exact List.rel_append (shapes_append a2) b2

private theorem minVertex_eq (m : PolyMesh P) (c : List Nat) (hc : ∀ f ∈ c, f < m.faces.length) :
    minVertex m.faces c = apex m c := by
  rw [minVertex, mapM_some' _ (fun f => (m.faces[f]?).getD []) c (by
    intro f hf
    rw [List.getElem?_eq_getElem (hc f hf), Option.getD_some]), Option.bind_some, apex, List.flatMap_def]
  cases (c.map fun f => (m.faces[f]?).getD []).flatten <;> rfl

private theorem cellsLoop_spec (m : PolyMesh P) (h3 : ∀ f ∈ m.faces, 3 ≤ f.length) (fmap base : List (List Nat))
    (hfm : ∀ (k : Nat) (f : List Nat), m.faces[k]? = some f → ∃ ids : List Nat, fmap[k]? = some ids ∧
      ids.map (fun i => base[i]?) = ((fanTriangles f).map asList).map some)
    (cs : List (List Nat)) (hcs : ∀ c ∈ cs, ∀ f ∈ c, f < m.faces.length) (more tets : List (List Nat)) :
    ∃ cells, cellsLoop m.faces fmap cs (base ++ more) tets =
        some (base ++ more ++ (cs.flatMap (cellTets m)).flatMap sides, tets ++ cells) ∧
      List.Forall₂ (Shape (base ++ more ++ (cs.flatMap (cellTets m)).flatMap sides)) cells (cs.flatMap (cellTets m)) := by
  induction cs generalizing more tets with
  | nil => exact ⟨[], by simp [cellsLoop], .nil⟩
  | cons c cs ih =>
    have hc := hcs c (List.mem_cons_self ..)
    have hcs' : ∀ c ∈ cs, ∀ f ∈ c, f < m.faces.length := fun d hd => hcs d (List.mem_cons_of_mem _ hd)
    rw [cellsLoop]
    cases c with
    | nil =>
      rw [if_neg (by simp), List.flatMap_cons]
      have : cellTets m [] = [] := rfl
      rw [this, List.nil_append]
      exact ih hcs' more tets
    | cons f c =>
      have hf := hc f (List.mem_cons_self ..)
      obtain ⟨v, hv⟩ : ∃ v, apex m (f :: c) = some v := by
        rw [apex, List.flatMap_cons, List.getElem?_eq_getElem hf, Option.getD_some]
        have := h3 m.faces[f] (List.getElem_mem hf)
        cases hm : m.faces[f] with
        | nil => rw [hm] at this; simp at this
        | cons a l => exact ⟨_, rfl⟩
      have htets : cellTets m (f :: c) = (((f :: c).map fun f => (m.faces[f]?).getD []).filter
          fun face => decide (v ∉ face)).flatMap fun face => (fanTriangles face).map fun t => (t, v) := by
        rw [cellTets, hv]
        rfl
      rw [if_pos (by simp), minVertex_eq m (f :: c) hc, hv, Option.bind_some, List.flatMap_cons]
      obtain ⟨cells1, a1, a2⟩ := cellFaces_spec m.faces fmap v base hfm (f :: c) hc more tets
      rw [← htets] at a1 a2
      rw [List.append_assoc base more] at a1 a2
      obtain ⟨cells2, b1, b2⟩ := ih hcs' (more ++ (cellTets m (f :: c)).flatMap sides) (tets ++ cells1)
      refine ⟨cells1 ++ cells2, ?_, ?_⟩
      · rw [a1, Option.bind_some]
        simp only
        rw [b1]
        simp [List.append_assoc, List.flatMap_append]
      · rw [List.flatMap_append, ← List.append_assoc, List.append_assoc base more]
        exact List.rel_append (shapes_append a2) b2

private theorem tet_vertices (m : PolyMesh P) (c : List Nat) (t : (Nat × Nat × Nat) × Nat) (ht : t ∈ cellTets m c) :
    apex m c = some t.2 ∧ ∃ f ∈ c, t.1 ∈ fanTriangles ((m.faces[f]?).getD []) ∧ t.2 ∉ (m.faces[f]?).getD [] := by
  rw [cellTets] at ht
  cases hv : apex m c with
  | none => rw [hv] at ht; cases ht
  | some v =>
    rw [hv, Option.elim_some] at ht
    obtain ⟨face, hface, ht⟩ := List.mem_flatMap.1 ht
    obtain ⟨t', ht', rfl⟩ := List.mem_map.1 ht
    obtain ⟨hmem, hnot⟩ := List.mem_filter.1 hface
    obtain ⟨f, hf, rfl⟩ := List.mem_map.1 hmem
    exact ⟨rfl, f, hf, ht', by simpa using hnot⟩

private theorem face_lt {m : PolyMesh P} (hm : Valid m) (f v : Nat) (hv : v ∈ (m.faces[f]?).getD []) :
    v < m.vertices.length := by
  cases hf : m.faces[f]? with
  | none => rw [hf] at hv; cases hv
  | some vs =>
    rw [hf] at hv
    exact hm.face vs (List.mem_of_getElem? hf) v hv

private theorem apex_mem {m : PolyMesh P} {c : List Nat} {v : Nat} (h : apex m c = some v) :
    (∃ f ∈ c, v ∈ (m.faces[f]?).getD []) ∧ ∀ f ∈ c, ∀ w ∈ (m.faces[f]?).getD [], v ≤ w := by
  rw [apex, List.min?_eq_some_iff] at h
  obtain ⟨f, hf, hv⟩ := List.mem_flatMap.1 h.1
  exact ⟨⟨f, hf, hv⟩, fun f hf w hw => h.2 w (List.mem_flatMap.2 ⟨f, hf, hw⟩)⟩

private theorem forall₂_getElem? {α β : Type} {R : α → β → Prop} {l : List α} {l' : List β} (h : List.Forall₂ R l l')
    (k : Nat) (b : β) (hb : l'[k]? = some b) : ∃ a, l[k]? = some a ∧ R a b := by
  induction h generalizing k with
  | nil => cases hb
  | cons hr _ ih =>
    cases k with
    | zero =>
      obtain rfl := Option.some.inj hb
      exact ⟨_, rfl, hr⟩
    | succ k => exact ih k (by simpa using hb)

/-- C64: `triangulate` of a valid mesh never panics; it fails exactly if some face has fewer than three vertices.
Otherwise the vertices are unchanged and the cells of the result are, in order, the tetrahedra of the cells (`cellTets`:
the least vertex of the cell joined to the fans of the faces that do not contain it; the fan of a face depends on the face
alone). Each has the four faces of its tetrahedron, up to the order of the vertices of a face. No two faces of the result
have the same vertices, and each is a triangle of a fan or a face of a tetrahedron. -/
theorem C64_triangulate (m : PolyMesh P) (hm : Valid m) :
    ((∃ f ∈ m.faces, f.length < 3) → triangulate m = some (.error ())) ∧
    ((∀ f ∈ m.faces, 3 ≤ f.length) → ∃ out, triangulate m = some (.ok out) ∧ Valid out ∧ out.vertices = m.vertices ∧
      out.cells.length = (m.cells.flatMap (cellTets m)).length ∧
      (∀ (k : Nat) (t : (Nat × Nat × Nat) × Nat), (m.cells.flatMap (cellTets m))[k]? = some t →
        ∃ cell : List Nat, out.cells[k]? = some cell ∧ cell.length = 4 ∧
          ∀ (i : Nat) (f : List Nat), (tetFaces t)[i]? = some f → ∃ g : List Nat, (cellShape out cell)[i]? = some (some g) ∧
            g.Perm f) ∧
      out.faces.Pairwise (fun a b => ¬a.Perm b) ∧
      (∀ g ∈ out.faces, (∃ f ∈ m.faces, ∃ t ∈ fanTriangles f, g = [t.1, t.2.1, t.2.2]) ∨
        ∃ t ∈ m.cells.flatMap (cellTets m), g ∈ tetFaces t) ∧
      ∀ f ∈ m.faces, ∀ t ∈ fanTriangles f, ∃ g ∈ out.faces, g.Perm [t.1, t.2.1, t.2.2]) := by
  constructor
  · intro h
    rw [triangulate, fanFaces_error _ _ _ h]
    rfl
  · intro h
    obtain ⟨fm, h1, -, h2⟩ := fanFaces_ok m.faces [] [] h
    rw [List.nil_append, List.nil_append] at h1
    simp only [List.nil_append] at h2
    obtain ⟨cells, c1, c2⟩ := cellsLoop_spec m h fm _ (fun k f hk => by
      obtain ⟨ids, g1, g2⟩ := h2 k f hk
      exact ⟨ids, g1, by rw [g2, List.map_map]; rfl⟩) m.cells hm.cell [] []
    rw [List.append_nil, List.nil_append] at c1
    rw [List.append_nil] at c2
    generalize hF : m.faces.flatMap (fun f => (fanTriangles f).map asList) ++ (m.cells.flatMap (cellTets m)).flatMap sides
      = F at c1 c2
    have hvalid : Valid (⟨m.vertices, F, cells⟩ : PolyMesh P) := by
      refine ⟨?_, ?_⟩
      · intro g hg v hv
        change v < m.vertices.length
        rw [← hF] at hg
        rcases List.mem_append.1 hg with hg | hg
        · obtain ⟨f, hf, hg⟩ := List.mem_flatMap.1 hg
          obtain ⟨t, ht, rfl⟩ := List.mem_map.1 hg
          obtain ⟨t1, t2, t3⟩ := fanTriangles_mem f t ht
          simp only [asList, List.mem_cons, List.not_mem_nil, or_false] at hv
          rcases hv with rfl | rfl | rfl
          · exact hm.face f hf _ t1
          · exact hm.face f hf _ t2
          · exact hm.face f hf _ t3
        · obtain ⟨t, ht, hg⟩ := List.mem_flatMap.1 hg
          obtain ⟨c, hc, ht⟩ := List.mem_flatMap.1 ht
          obtain ⟨ha, f, hf, ht1, -⟩ := tet_vertices m c t ht
          obtain ⟨t1, t2, t3⟩ := fanTriangles_mem _ _ ht1
          obtain ⟨⟨f', hf', ha⟩, -⟩ := apex_mem ha
          have q0 := face_lt hm f' _ ha
          have q1 := face_lt hm f _ t1
          have q2 := face_lt hm f _ t2
          have q3 := face_lt hm f _ t3
          simp only [sides, List.mem_cons, List.not_mem_nil, or_false] at hg
          rcases hg with rfl | rfl | rfl <;>
          · simp only [List.mem_cons, List.not_mem_nil, or_false] at hv
            rcases hv with rfl | rfl | rfl <;> assumption
      · intro c hc f hf
        obtain ⟨k, hk⟩ := List.getElem?_of_mem hc
        have hlt := (List.getElem?_eq_some_iff.1 hk).1
        rw [c2.length_eq] at hlt
        obtain ⟨c', hk', hs⟩ := forall₂_getElem? c2 k _ (List.getElem?_eq_getElem hlt)
        rw [hk] at hk'
        obtain rfl := Option.some.inj hk'
        have : F[f]? ∈ c.map fun i => F[i]? := List.mem_map.2 ⟨f, hf, rfl⟩
        rw [hs] at this
        obtain ⟨x, -, hx⟩ := List.mem_map.1 this
        exact (List.getElem?_eq_some_iff.1 hx.symm).1
    obtain ⟨out, d1, d2, d3, d4, ⟨ks, -, k2, k3⟩, d5, d6⟩ := C62_dedup_faces _ hvalid
    have hfrom : ∀ g ∈ out.faces, g ∈ F := by
      intro g hg
      have : some g ∈ out.faces.map some := List.mem_map.2 ⟨g, hg, rfl⟩
      rw [k3] at this
      obtain ⟨k, -, hk⟩ := List.mem_map.1 this
      exact List.mem_of_getElem? hk
    refine ⟨out, ?_, d2, d3, ?_, ?_, d4, ?_, ?_⟩
    · rw [triangulate, h1, Option.bind_some, triangulateRest, triangulateCells, c1, Option.bind_some,
        fromPolyData_of_valid ⟨m.vertices, F, cells⟩ hvalid, Option.bind_some, d1]
      rfl
    · rw [d5]
      exact c2.length_eq
    · intro k t hk
      obtain ⟨c, hc, hs⟩ := forall₂_getElem? c2 k t hk
      have hlt : k < out.cells.length := by
        rw [d5]
        exact (List.getElem?_eq_some_iff.1 hc).1
      have hlen : c.length = 4 := by
        have := congrArg List.length hs
        simpa [tetFaces] using this
      obtain ⟨e1, e2⟩ := d6 c out.cells[k] (List.mem_of_getElem? (i := k) (by
        rw [List.getElem?_zip_eq_some]
        exact ⟨hc, List.getElem?_eq_getElem hlt⟩))
      refine ⟨out.cells[k], List.getElem?_eq_getElem hlt, by rw [e1, hlen], ?_⟩
      intro i f hi
      have hi4 : i < 4 := by
        have := (List.getElem?_eq_some_iff.1 hi).1
        simpa [tetFaces] using this
      have hsi : (c.map fun i => F[i]?)[i]? = some (some f) := by
        rw [hs, List.getElem?_map, hi]
        rfl
      rw [List.getElem?_map] at hsi
      have hic : i < c.length := by omega
      have hio : i < (out.cells[k]).length := by omega
      obtain ⟨f', g, q1, q2, q3⟩ := e2 c[i] (out.cells[k])[i] (List.mem_of_getElem? (i := i) (by
        rw [List.getElem?_zip_eq_some]
        exact ⟨List.getElem?_eq_getElem hic, List.getElem?_eq_getElem hio⟩))
      rw [List.getElem?_eq_getElem hic, Option.map_some] at hsi
      have hff : F[c[i]]? = some f := Option.some.inj hsi
      rw [show (⟨m.vertices, F, cells⟩ : PolyMesh P).faces = F from rfl, hff] at q1
      obtain rfl := Option.some.inj q1
      refine ⟨g, ?_, q3⟩
      rw [cellShape, List.getElem?_map, List.getElem?_eq_getElem hio, Option.map_some, q2]
    · intro g hg
      have := hfrom g hg
      rw [← hF] at this
      rcases List.mem_append.1 this with hg | hg
      · left
        obtain ⟨f, hf, hg⟩ := List.mem_flatMap.1 hg
        obtain ⟨t, ht, rfl⟩ := List.mem_map.1 hg
        exact ⟨f, hf, t, ht, rfl⟩
      · right
        obtain ⟨t, ht, hg⟩ := List.mem_flatMap.1 hg
        exact ⟨t, ht, List.mem_cons_of_mem _ hg⟩
    · intro f hf t ht
      have hmem : asList t ∈ F := by
        rw [← hF]
        exact List.mem_append_left _ (List.mem_flatMap.2 ⟨f, hf, List.mem_map.2 ⟨t, ht, rfl⟩⟩)
      obtain ⟨k0, hk0⟩ := List.getElem?_of_mem hmem
      have hex : ∃ (k : Nat) (g : List Nat), F[k]? = some g ∧ g.Perm (asList t) := ⟨k0, _, hk0, List.Perm.refl _⟩
      classical
      obtain ⟨g, hg, hp⟩ := Nat.find_spec hex
      have hks : Nat.find hex ∈ ks := (k2 _).2 ⟨g, hg, fun j hj g' hg' hp' =>
        Nat.find_min hex hj ⟨g', hg', hp'.trans hp⟩⟩
      have : F[Nat.find hex]? ∈ ks.map fun k => F[k]? := List.mem_map.2 ⟨_, hks, rfl⟩
      rw [← show out.faces.map some = ks.map fun k => F[k]? from k3] at this
      obtain ⟨g', hg', he⟩ := List.mem_map.1 this
      rw [hg] at he
      cases he
      exact ⟨_, hg', hp⟩

/-! ### Conformity -/

theorem edges_rotate {α : Type} (f : List α) (p : Nat) : edges (f.rotate p) = (edges f).rotate p := by
  refine List.ext_getElem? fun j => ?_
  by_cases hj : j < f.length
  · have hj' : j < (f.rotate p).length := by rwa [List.length_rotate]
    rw [edges_getElem? _ j hj', List.getElem?_rotate (by rwa [edges_length]), edges_length,
      edges_getElem? f _ (Nat.mod_lt _ (by omega))]
    have : ((j + 1) % f.length + p) % f.length = ((j + p) % f.length + 1) % f.length := by
      rw [Nat.mod_add_mod, Nat.mod_add_mod]
      congr 1
      omega
    simp only [List.getElem_rotate, List.length_rotate, this]
  · rw [List.getElem?_eq_none (by rw [edges_length, List.length_rotate]; omega),
      List.getElem?_eq_none (by rw [List.length_rotate, edges_length]; omega)]

/-- A face, seen from its least vertex, and its fan. -/
theorem fan_form (f : List Nat) (hf : f ≠ []) : ∃ p v o, f.rotate p = v :: o ∧ f.min? = some v ∧
    fanTriangles f = (o.zip o.tail).map fun e => (v, e.1, e.2) := by
  obtain ⟨p, v, -, h2, h3, h4⟩ := minIdx_spec f hf
  have hp := (List.getElem?_eq_some_iff.1 h2).1
  have hhead : (f.rotate p)[0]? = some v := by
    rw [List.getElem?_rotate (by omega), Nat.zero_add, Nat.mod_eq_of_lt hp, h2]
  cases hr : f.rotate p with
  | nil => rw [hr] at hhead; cases hhead
  | cons a o =>
    rw [hr] at hhead
    obtain rfl := Option.some.inj hhead
    refine ⟨p, a, o, hr, h3, ?_⟩
    rw [fanTriangles, h3, Option.elim_some, h4, hr]
    rfl

private theorem edges_cons (v a : Nat) (o : List Nat) (e : Nat × Nat) :
    e ∈ edges (v :: a :: o) ↔ e = (v, a) ∨ e ∈ (a :: o).zip o ∨ e = ((a :: o).getLast (by simp), v) := by
  have h : ∀ (a : Nat) (o : List Nat), (a :: o ++ [v]).zip (o ++ [v])
      = (a :: o).zip o ++ [((a :: o).getLast (by simp), v)] := by
    intro a o
    induction o generalizing a with
    | nil => rfl
    | cons b o ih =>
      have := ih b
      simp only [List.cons_append, List.zip_cons_cons, List.getLast_cons_cons] at this ⊢
      rw [this]
  have he : edges (v :: a :: o) = (v, a) :: ((a :: o ++ [v]).zip (o ++ [v])) := rfl
  rw [he, h, List.mem_cons, List.mem_append, List.mem_singleton]

private theorem zip_last (a b : Nat) (o : List Nat) :
    ∃ x, (x, (a :: b :: o).getLast (by simp)) ∈ (a :: b :: o).zip (b :: o) := by
  induction o generalizing a b with
  | nil => exact ⟨a, by simp⟩
  | cons c o ih =>
    obtain ⟨x, hx⟩ := ih b c
    exact ⟨x, by rw [List.getLast_cons_cons, List.zip_cons_cons]; exact List.mem_cons_of_mem _ hx⟩

/-- Every edge of a face is an edge of a triangle of its fan. -/
private theorem edge_in_fan (f : List Nat) (hf : 3 ≤ f.length) (b c : Nat) (he : (b, c) ∈ edges f) :
    ∃ t ∈ fanTriangles f, (b, c) = (t.1, t.2.1) ∨ (b, c) = (t.2.1, t.2.2) ∨ (b, c) = (t.2.2, t.1) := by
  obtain ⟨p, v, o, h1, -, h2⟩ := fan_form f (by rintro rfl; simp at hf)
  have he' : (b, c) ∈ edges (v :: o) := by
    rw [← h1, edges_rotate]
    exact List.mem_rotate.2 he
  have hl : o.length + 1 = f.length := by
    rw [← List.length_rotate (l := f) (n := p), h1]
    rfl
  rw [h2]
  rcases o with _ | ⟨a, _ | ⟨a', o⟩⟩
  · simp at hl; omega
  · simp at hl; omega
  · rw [edges_cons] at he'
    rcases he' with h | h | h
    · exact ⟨(v, a, a'), by simp, Or.inl h⟩
    · exact ⟨(v, b, c), List.mem_map.2 ⟨(b, c), h, rfl⟩, Or.inr (Or.inl rfl)⟩
    · obtain ⟨x, hx⟩ := zip_last a a' o
      exact ⟨(v, x, _), List.mem_map.2 ⟨_, hx, rfl⟩, Or.inr (Or.inr h)⟩

/-- The edge of a fan triangle opposite to the least vertex is an edge of the face. -/
private theorem fan_edge (f : List Nat) (t : Nat × Nat × Nat) (ht : t ∈ fanTriangles f) :
    f.min? = some t.1 ∧ (t.2.1, t.2.2) ∈ edges f := by
  by_cases hf : f = []
  · subst hf
    cases ht
  obtain ⟨p, v, o, h1, h3, h2⟩ := fan_form f hf
  rw [h2] at ht
  obtain ⟨⟨b, c⟩, he, rfl⟩ := List.mem_map.1 ht
  refine ⟨h3, ?_⟩
  have : (b, c) ∈ edges (v :: o) := by
    rcases o with _ | ⟨a, o⟩
    · cases he
    · exact (edges_cons v a o _).2 (Or.inr (Or.inl he))
  rw [← h1, edges_rotate] at this
  exact List.mem_rotate.1 this

private theorem perm3 {a b c : Nat} : ∀ l : List Nat, l = [b, c, a] ∨ l = [c, b, a] → l.Perm [a, b, c] := by
  rintro l (rfl | rfl)
  · exact List.perm_append_comm (l₁ := [b, c]) (l₂ := [a])
  · exact (List.reverse_perm [a, b, c])

/-- C64: the subdivision conforms. Let every edge of a face of a cell that does not touch the least vertex `v` of the cell
also be an edge (in one of the two directions) of a face of the cell that does not contain `v`, as it is for a convex
cell. Then every triangle of the fan of every face of the cell is a face of one of the tetrahedra of the cell, so the
cells on both sides of a face have tetrahedra with the same triangles of that face. -/
theorem C64_conforming (m out : PolyMesh P) (hm : Valid m) (hout : triangulate m = some (.ok out)) (c : List Nat)
    (hc : c ∈ m.cells) (v : Nat) (hv : apex m c = some v)
    (hclosed : ∀ f ∈ c, ∀ face, m.faces[f]? = some face → v ∈ face → ∀ a b, (a, b) ∈ edges face → a ≠ v → b ≠ v →
      ∃ g ∈ c, ∃ face', m.faces[g]? = some face' ∧ v ∉ face' ∧ ((a, b) ∈ edges face' ∨ (b, a) ∈ edges face'))
    (hnd : ∀ f ∈ m.faces, f.Nodup)
    (f : Nat) (hf : f ∈ c) (face : List Nat) (hface : m.faces[f]? = some face) (t : Nat × Nat × Nat)
    (ht : t ∈ fanTriangles face) :
    ∃ (k : Nat) (T : (Nat × Nat × Nat) × Nat) (cell g : List Nat), (m.cells.flatMap (cellTets m))[k]? = some T ∧
      T ∈ cellTets m c ∧ out.cells[k]? = some cell ∧ some g ∈ cellShape out cell ∧ g.Perm [t.1, t.2.1, t.2.2] := by
  by_cases h3 : ∃ f ∈ m.faces, f.length < 3
  · rw [(C64_triangulate m hm).1 h3] at hout
    cases hout
  push Not at h3
  obtain ⟨out', h1, -, -, -, h2, -⟩ := (C64_triangulate m hm).2 h3
  rw [hout] at h1
  cases h1
  -- it suffices to find the tetrahedron
  suffices h : ∃ T ∈ cellTets m c, ∃ g ∈ tetFaces T, g.Perm [t.1, t.2.1, t.2.2] by
    obtain ⟨T, hT, g, hg, hp⟩ := h
    obtain ⟨k, hk⟩ := List.getElem?_of_mem (List.mem_flatMap.2 ⟨c, hc, hT⟩)
    obtain ⟨cell, q1, -, q3⟩ := h2 k T hk
    obtain ⟨i, hi⟩ := List.getElem?_of_mem hg
    obtain ⟨g', q4, q5⟩ := q3 i g hi
    exact ⟨k, T, cell, g', hk, hT, q1, List.mem_of_getElem? q4, q5.trans hp⟩
  have hmem : ∀ g ∈ c, ∀ face', m.faces[g]? = some face' → v ∉ face' → ∀ s ∈ fanTriangles face', (s, v) ∈ cellTets m c := by
    intro g hg face' hface' hnot s hs
    rw [cellTets, hv, Option.elim_some]
    exact List.mem_flatMap.2 ⟨face', List.mem_filter.2 ⟨List.mem_map.2 ⟨g, hg, by rw [hface']; rfl⟩, by simpa using hnot⟩,
      List.mem_map.2 ⟨s, hs, rfl⟩⟩
  by_cases hvf : v ∈ face
  · obtain ⟨e1, e2⟩ := fan_edge face t ht
    have htv : t.1 = v := by
      rw [List.min?_eq_some_iff] at e1
      have := (apex_mem hv).2 f hf t.1 (by rw [hface]; exact e1.1)
      have := e1.2 v hvf
      omega
    have hface_mem := List.mem_of_getElem? hface
    have hne : t.2.1 ≠ v ∧ t.2.2 ≠ v := by
      obtain ⟨p, w, o, r1, r2, r3⟩ := fan_form face (by rintro rfl; cases hvf)
      have hwv : w = v := by
        rw [e1] at r2
        exact (Option.some.inj r2).symm.trans htv
      have hndr : (w :: o).Nodup := by rw [← r1]; exact List.nodup_rotate.2 (hnd face hface_mem)
      rw [r3] at ht
      obtain ⟨⟨b, d⟩, he, rfl⟩ := List.mem_map.1 ht
      have hb := (List.of_mem_zip he).1
      have hd := List.mem_of_mem_tail (List.of_mem_zip he).2
      have hno := (List.nodup_cons.1 hndr).1
      rw [hwv] at hno
      exact ⟨fun h => hno (h ▸ hb), fun h => hno (h ▸ hd)⟩
    obtain ⟨g, hg, face', hg1, hg2, hg3⟩ := hclosed f hf face hface hvf t.2.1 t.2.2 e2 hne.1 hne.2
    have hl := h3 face' (List.mem_of_getElem? hg1)
    have key : ∀ a b, (a, b) ∈ edges face' → ∃ T ∈ cellTets m c, [a, b, v] ∈ tetFaces T := by
      intro a b hab
      obtain ⟨s, hs, hse⟩ := edge_in_fan face' hl a b hab
      refine ⟨(s, v), hmem g hg face' hg1 hg2 s hs, ?_⟩
      rcases hse with h | h | h <;>
      · rw [Prod.mk.injEq] at h
        simp [tetFaces, h.1, h.2]
    rcases hg3 with hg3 | hg3
    · obtain ⟨T, hT, hTf⟩ := key _ _ hg3
      exact ⟨T, hT, _, hTf, by rw [htv]; exact perm3 _ (Or.inl rfl)⟩
    · obtain ⟨T, hT, hTf⟩ := key _ _ hg3
      exact ⟨T, hT, _, hTf, by rw [htv]; exact perm3 _ (Or.inr rfl)⟩
  · exact ⟨(t, v), hmem f hf face hface hvf t ht, _, List.mem_cons_self .., List.Perm.refl _⟩

/-- A pyramid over a quadrilateral. -/
private def pyramid : PolyMesh Unit :=
  ⟨[(), (), (), (), ()], [[3, 2, 1, 0], [0, 1, 4], [1, 2, 4], [2, 3, 4], [3, 0, 4]], [[0, 1, 2, 3, 4]]⟩

example : Valid pyramid := ⟨by decide, by decide⟩

/-- It becomes two tetrahedra with seven faces: the two triangles of the base are shared with its fan. -/
example : (triangulate pyramid).map (fun r => r.toOption.map fun m => (m.faces, m.cells))
    = some (some ([[0, 3, 2], [0, 2, 1], [0, 1, 4], [1, 2, 4], [2, 3, 4], [0, 4, 3], [2, 4, 0]],
        [[3, 1, 6, 2], [4, 0, 5, 6]])) := by decide +kernel

/-- It satisfies the closedness hypothesis of `C64_conforming`. -/
example : apex pyramid [0, 1, 2, 3, 4] = some 0 := by decide +kernel
example : (pyramid.faces.all fun face => !face.contains 0 || (edges face).all fun e => e.1 == 0 || e.2 == 0 ||
    pyramid.faces.any fun face' => !face'.contains 0 && ((edges face').contains e || (edges face').contains e.swap)) := by
  decide +kernel

end Poly
end Fenris
