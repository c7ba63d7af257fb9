import Mathlib.Data.List.Basic
import Verif.Lemmas.MeshOps
import Verif.Lemmas.Permutation
import Verif.Spec.PolyMesh
/-! # C62: polyhedral meshes -/
set_option autoImplicit false

namespace Fenris
namespace Poly

open Spec

variable {P : Type}

/-- C62: `from_poly_data` accepts exactly descriptions whose indices are all in bounds, and stores them unchanged. -/
theorem C62_from_poly_data (vs : List P) (fs cs : List (List Nat)) :
    (fromPolyData vs fs cs = some ⟨vs, fs, cs⟩ ∧ Valid (⟨vs, fs, cs⟩ : PolyMesh P)) ∨
    (fromPolyData vs fs cs = none ∧ ¬Valid (⟨vs, fs, cs⟩ : PolyMesh P)) := by
  rw [fromPolyData]
  by_cases h1 : fs.flatten.any (fun i => decide (vs.length ≤ i))
  · right
    rw [if_pos h1]
    refine ⟨rfl, fun h => ?_⟩
    rw [List.any_eq_true] at h1
    obtain ⟨v, hv, hle⟩ := h1
    obtain ⟨f, hf, hv⟩ := List.mem_flatten.1 hv
    have := h.face f hf v hv
    simp at hle
    exact absurd this (by simpa using hle)
  · rw [if_neg h1]
    by_cases h2 : cs.flatten.any (fun i => decide (fs.length ≤ i))
    · right
      rw [if_pos h2]
      refine ⟨rfl, fun h => ?_⟩
      rw [List.any_eq_true] at h2
      obtain ⟨v, hv, hle⟩ := h2
      obtain ⟨c, hc, hv⟩ := List.mem_flatten.1 hv
      have := h.cell c hc v hv
      simp at hle
      exact absurd this (by simpa using hle)
    · left
      rw [if_neg h2]
      refine ⟨rfl, ⟨?_, ?_⟩⟩
      · intro f hf v hv
        by_contra hge
        exact h1 (List.any_eq_true.2 ⟨v, List.mem_flatten.2 ⟨f, hf, hv⟩, by simpa using hge⟩)
      · intro c hc f hf
        by_contra hge
        exact h2 (List.any_eq_true.2 ⟨f, List.mem_flatten.2 ⟨c, hc, hf⟩, by simpa using hge⟩)

theorem fromPolyData_of_valid (m : PolyMesh P) (h : Valid m) : fromPolyData m.vertices m.faces m.cells = some m := by
  rcases C62_from_poly_data m.vertices m.faces m.cells with h1 | h1
  · exact h1.1
  · exact absurd h h1.2

/-! ### Cells of a face, boundary faces -/

private theorem pushCell_spec (k : Nat) (c : List Nat) (conn : List (List Nat)) (h : ∀ f ∈ c, f < conn.length) :
    ∃ out, pushCell k c conn = some out ∧ out.length = conn.length ∧
      ∀ f, out[f]? = (conn[f]?).map fun l => l ++ List.replicate (c.count f) k := by
  induction c generalizing conn with
  | nil => exact ⟨conn, rfl, rfl, fun f => by simp⟩
  | cons g c ih =>
    have hg := h g (List.mem_cons_self ..)
    obtain ⟨out, h1, h2, h3⟩ := ih (conn.set g (conn[g] ++ [k])) (by
      intro f hf; rw [List.length_set]; exact h f (List.mem_cons_of_mem _ hf))
    refine ⟨out, ?_, by rw [h2, List.length_set], fun f => ?_⟩
    · rw [pushCell, List.getElem?_eq_getElem hg, Option.bind_some, h1]
    · rw [h3, List.getElem?_set]
      by_cases hfg : g = f
      · subst hfg
        rw [if_pos rfl, if_pos hg, List.getElem?_eq_getElem hg, List.count_cons_self]
        simp only [Option.map_some, List.append_assoc, Option.some.injEq]
        rw [Nat.add_comm, List.replicate_add]
        rfl
      · rw [if_neg hfg, List.count_cons_of_ne hfg]

private theorem pushCells_spec (cs : List (List Nat)) (k : Nat) (conn : List (List Nat))
    (h : ∀ c ∈ cs, ∀ f ∈ c, f < conn.length) :
    ∃ out, pushCells cs k conn = some out ∧ out.length = conn.length ∧
      ∀ f, out[f]? = (conn[f]?).map fun l =>
        l ++ (cs.zipIdx k).flatMap fun ck => List.replicate (ck.1.count f) ck.2 := by
  induction cs generalizing k conn with
  | nil => exact ⟨conn, rfl, rfl, fun f => by simp⟩
  | cons c cs ih =>
    obtain ⟨o1, h1, h2, h3⟩ := pushCell_spec k c conn (h c (List.mem_cons_self ..))
    obtain ⟨o2, h4, h5, h6⟩ := ih (k + 1) o1 (by
      intro c' hc' f hf; rw [h2]; exact h c' (List.mem_cons_of_mem _ hc') f hf)
    refine ⟨o2, by rw [pushCells, h1, Option.bind_some, h4], by rw [h5, h2], fun f => ?_⟩
    rw [h6, h3, Option.map_map]
    simp only [Function.comp_def, List.append_assoc, List.zipIdx_cons, List.flatMap_cons]

/-- C62: `compute_face_cell_connectivity` lists, for each face, the cells that mention it, in order, as often as they
mention it. -/
theorem C62_face_cell_connectivity (m : PolyMesh P) (h : Valid m) :
    ∃ conn, faceCellConnectivity m = some conn ∧ conn.length = m.faces.length ∧
      ∀ f < m.faces.length, conn[f]? = some (m.cells.zipIdx.flatMap fun ck => List.replicate (ck.1.count f) ck.2) := by
  obtain ⟨out, h1, h2, h3⟩ := pushCells_spec m.cells 0 (List.replicate m.faces.length []) (by
    intro c hc f hf; rw [List.length_replicate]; exact h.cell c hc f hf)
  refine ⟨out, h1, by rw [h2, List.length_replicate], fun f hf => ?_⟩
  rw [h3, List.getElem?_replicate, if_pos hf]
  simp

private theorem countFaces_spec (c : List Nat) (occ : List Nat) (h : ∀ f ∈ c, f < occ.length) :
    ∃ out, countFaces c occ = some out ∧ out.length = occ.length ∧
      ∀ f, out[f]? = (occ[f]?).map fun n => n + c.count f := by
  induction c generalizing occ with
  | nil => exact ⟨occ, rfl, rfl, fun f => by simp⟩
  | cons g c ih =>
    have hg := h g (List.mem_cons_self ..)
    obtain ⟨out, h1, h2, h3⟩ := ih (occ.set g (occ[g] + 1)) (by
      intro f hf; rw [List.length_set]; exact h f (List.mem_cons_of_mem _ hf))
    refine ⟨out, ?_, by rw [h2, List.length_set], fun f => ?_⟩
    · rw [countFaces, List.getElem?_eq_getElem hg, Option.bind_some, h1]
    · rw [h3, List.getElem?_set]
      by_cases hfg : g = f
      · subst hfg
        rw [if_pos rfl, if_pos hg, List.getElem?_eq_getElem hg, List.count_cons_self]
        simp only [Option.map_some, Option.some.injEq]
        omega
      · rw [if_neg hfg, List.count_cons_of_ne hfg]

private theorem countCells_spec (cs : List (List Nat)) (occ : List Nat) (h : ∀ c ∈ cs, ∀ f ∈ c, f < occ.length) :
    ∃ out, countCells cs occ = some out ∧ out.length = occ.length ∧
      ∀ f, out[f]? = (occ[f]?).map fun n => n + cs.flatten.count f := by
  induction cs generalizing occ with
  | nil => exact ⟨occ, rfl, rfl, fun f => by simp⟩
  | cons c cs ih =>
    obtain ⟨o1, h1, h2, h3⟩ := countFaces_spec c occ (h c (List.mem_cons_self ..))
    obtain ⟨o2, h4, h5, h6⟩ := ih o1 (by
      intro c' hc' f hf; rw [h2]; exact h c' (List.mem_cons_of_mem _ hc') f hf)
    refine ⟨o2, by rw [countCells, h1, Option.bind_some, h4], by rw [h5, h2], fun f => ?_⟩
    rw [h6, h3, Option.map_map]
    simp only [Function.comp_def, List.flatten_cons, List.count_append, Nat.add_assoc]

private theorem zipIdx_filter (p : Nat → Bool) (l : List Nat) (k : Nat) :
    ((l.zipIdx k).filter fun ci => p ci.1).map (·.2) =
      (List.range l.length).filterMap fun i => (l[i]?).bind fun x => if p x then some (k + i) else none := by
  induction l generalizing k with
  | nil => rfl
  | cons x l ih =>
    rw [List.zipIdx_cons, List.length_cons, List.range_succ_eq_map, List.filterMap_cons]
    simp only [List.getElem?_cons_zero, Option.bind_some, List.filterMap_map, Function.comp_def,
      List.getElem?_cons_succ, Nat.add_zero]
    have e : (fun i => (l[i]?).bind fun x => if p x then some (k + (i + 1)) else none)
        = fun i => (l[i]?).bind fun x => if p x then some (k + 1 + i) else none := by
      funext i
      rw [Nat.add_assoc, Nat.add_comm 1]
    simp only [Nat.succ_eq_add_one]
    rw [e, ← ih (k + 1)]
    by_cases hx : p x
    · simp [hx]
    · simp [hx]

/-- C62: `find_boundary_faces` returns, in increasing order, exactly the faces that the cells mention at most once in
total. -/
theorem C62_boundary_faces (m : PolyMesh P) (h : Valid m) :
    findBoundaryFaces m = some ((List.range m.faces.length).filter fun f => decide (m.cells.flatten.count f ≤ 1)) := by
  obtain ⟨occ, h1, h2, h3⟩ := countCells_spec m.cells (List.replicate m.faces.length 0) (by
    intro c hc f hf; rw [List.length_replicate]; exact h.cell c hc f hf)
  rw [List.length_replicate] at h2
  rw [findBoundaryFaces, h1, Option.map_some, zipIdx_filter (fun n => decide (n ≤ 1)), h2]
  congr 1
  rw [← List.filterMap_eq_filter]
  refine List.filterMap_congr fun f hf => ?_
  have hf' := List.mem_range.1 hf
  rw [h3, List.getElem?_replicate, if_pos hf', Nat.zero_add]
  simp [Option.guard]

/-! ### Removing duplicate faces -/

/-- The state of the loop after the faces `done`. -/
private structure DedupInv (done : List (List Nat)) (map : List (List Nat × Nat)) (newFaces : List (List Nat))
    (relabel : List Nat) : Prop where
  lookup : ∀ (f : List Nat) (i : Nat), map.lookup (Mesh.sortNat f) = some i → ∃ g : List Nat, newFaces[i]? = some g ∧ g.Perm f
  lookup_none : ∀ f, map.lookup (Mesh.sortNat f) = none → ∀ g ∈ done, ¬g.Perm f
  len : relabel.length = done.length
  rel : ∀ (k : Nat) (f : List Nat), done[k]? = some f → ∃ (i : Nat) (g : List Nat), relabel[k]? = some i ∧ newFaces[i]? = some g ∧ g.Perm f
  apart : newFaces.Pairwise fun a b => ¬a.Perm b
  first : ∃ ks : List Nat, ks.Pairwise (· < ·) ∧
    (∀ k, k ∈ ks ↔ ∃ f, done[k]? = some f ∧ ∀ j < k, ∀ g : List Nat, done[j]? = some g → ¬g.Perm f) ∧
    newFaces.map some = ks.map fun k => done[k]?

private theorem lookup_cons {β : Type} (k k' : List Nat) (b : β) (m : List (List Nat × β)) :
    ((k', b) :: m).lookup k = if k = k' then some b else m.lookup k := by
  rw [List.lookup_cons]
  by_cases h : k = k'
  · simp [h]
  · rw [if_neg h, beq_false_of_ne h]

private theorem dedupLoop_inv (fs done : List (List Nat)) (map : List (List Nat × Nat)) (newFaces : List (List Nat))
    (relabel : List Nat) (h : DedupInv done map newFaces relabel) :
    ∃ map', DedupInv (done ++ fs) map' (dedupLoop fs map newFaces relabel).1 (dedupLoop fs map newFaces relabel).2 := by
  induction fs generalizing done map newFaces relabel with
  | nil => exact ⟨map, by simpa [dedupLoop] using h⟩
  | cons f fs ih =>
    rw [dedupLoop]
    obtain ⟨ks, ks1, ks2, ks3⟩ := h.first
    have hdone : ∀ k, k < done.length → (done ++ [f])[k]? = done[k]? := fun k hk => List.getElem?_append_left hk
    have hlast : (done ++ [f])[done.length]? = some f := by simp
    have hbound : ∀ k g, done[k]? = some g → k < done.length := fun k g hk => (List.getElem?_eq_some_iff.1 hk).1
    have hksb : ∀ k ∈ ks, k < done.length := fun k hk => by
      obtain ⟨g, hg, -⟩ := (ks2 k).1 hk
      exact hbound k g hg
    cases hl : map.lookup (Mesh.sortNat f) with
    | some i =>
      obtain ⟨g, hg, hgf⟩ := h.lookup f i hl
      simp only
      have := ih (done ++ [f]) map newFaces (relabel ++ [i]) ?_
      · simpa using this
      · refine ⟨h.lookup, ?_, by simp [h.len], ?_, h.apart, ks, ks1, ?_, ?_⟩
        · intro f' hf' g' hg'
          rcases List.mem_append.1 hg' with hg' | hg'
          · exact h.lookup_none f' hf' g' hg'
          · obtain rfl := List.mem_singleton.1 hg'
            intro hp
            rw [(Mesh.sortNat_eq_iff _ _).2 hp.symm, hl] at hf'
            cases hf'
        · intro k f' hk
          rcases Nat.lt_or_ge k done.length with hlt | hge
          · rw [hdone k hlt] at hk
            obtain ⟨i', g', a, b, c⟩ := h.rel k f' hk
            exact ⟨i', g', by rw [List.getElem?_append_left (by rw [h.len]; exact hlt)]; exact a, b, c⟩
          · have hk2 := (List.getElem?_eq_some_iff.1 hk).1
            rw [List.length_append, List.length_singleton] at hk2
            obtain rfl : k = done.length := by omega
            rw [hlast] at hk
            cases hk
            exact ⟨i, g, by rw [← h.len]; simp, hg, hgf⟩
        · intro k
          rw [ks2]
          constructor
          · rintro ⟨f', hf', hj⟩
            have hb := hbound k f' hf'
            refine ⟨f', by rw [hdone k hb]; exact hf', fun j hjk g' hg' => hj j hjk g' ?_⟩
            rwa [hdone j (by omega)] at hg'
          · rintro ⟨f', hf', hj⟩
            rcases Nat.lt_or_ge k done.length with hlt | hge
            · rw [hdone k hlt] at hf'
              exact ⟨f', hf', fun j hjk g' hg' => hj j hjk g' (by rw [hdone j (by omega)]; exact hg')⟩
            · exfalso
              have hk2 := (List.getElem?_eq_some_iff.1 hf').1
              rw [List.length_append, List.length_singleton] at hk2
              obtain rfl : k = done.length := by omega
              rw [hlast] at hf'
              cases hf'
              have hmem : some g ∈ newFaces.map some := List.mem_map.2 ⟨g, List.mem_of_getElem? hg, rfl⟩
              rw [ks3] at hmem
              obtain ⟨j, hj1, hj2⟩ := List.mem_map.1 hmem
              exact hj j (hksb j hj1) g (by rw [hdone j (hksb j hj1)]; exact hj2) hgf
        · rw [ks3]
          exact List.map_congr_left fun k hk => (hdone k (hksb k hk)).symm
    | none =>
      simp only
      have := ih (done ++ [f]) ((Mesh.sortNat f, newFaces.length) :: map) (newFaces ++ [f])
        (relabel ++ [newFaces.length]) ?_
      · simpa using this
      · refine ⟨?_, ?_, by simp [h.len], ?_, ?_, ks ++ [done.length], ?_, ?_, ?_⟩
        · intro f' i hi
          rw [lookup_cons] at hi
          split_ifs at hi with he
          · cases hi
            exact ⟨f, by simp, (Mesh.sortNat_eq_iff _ _).1 he.symm⟩
          · obtain ⟨g, hg, hp⟩ := h.lookup f' i hi
            exact ⟨g, by rw [List.getElem?_append_left (List.getElem?_eq_some_iff.1 hg).1]; exact hg, hp⟩
        · intro f' hf' g' hg'
          rw [lookup_cons] at hf'
          split_ifs at hf' with he
          rcases List.mem_append.1 hg' with hg' | hg'
          · exact h.lookup_none f' hf' g' hg'
          · obtain rfl := List.mem_singleton.1 hg'
            intro hp
            exact he ((Mesh.sortNat_eq_iff _ _).2 hp.symm)
        · intro k f' hk
          rcases Nat.lt_or_ge k done.length with hlt | hge
          · rw [hdone k hlt] at hk
            obtain ⟨i', g', a, b, c⟩ := h.rel k f' hk
            exact ⟨i', g', by rw [List.getElem?_append_left (by rw [h.len]; exact hlt)]; exact a,
              by rw [List.getElem?_append_left (List.getElem?_eq_some_iff.1 b).1]; exact b, c⟩
          · have hk2 := (List.getElem?_eq_some_iff.1 hk).1
            rw [List.length_append, List.length_singleton] at hk2
            obtain rfl : k = done.length := by omega
            rw [hlast] at hk
            cases hk
            exact ⟨newFaces.length, f, by rw [← h.len]; simp, by simp, .refl _⟩
        · refine List.pairwise_append.2 ⟨h.apart, List.pairwise_singleton _ _, ?_⟩
          intro a ha b hb
          obtain rfl := List.mem_singleton.1 hb
          have hmem : some a ∈ newFaces.map some := List.mem_map.2 ⟨a, ha, rfl⟩
          rw [ks3] at hmem
          obtain ⟨j, hj1, hj2⟩ := List.mem_map.1 hmem
          exact h.lookup_none b hl a (List.mem_of_getElem? hj2)
        · refine List.pairwise_append.2 ⟨ks1, List.pairwise_singleton _ _, ?_⟩
          intro a ha b hb
          obtain rfl := List.mem_singleton.1 hb
          exact hksb a ha
        · intro k
          rw [List.mem_append, ks2, List.mem_singleton]
          constructor
          · rintro (⟨f', hf', hj⟩ | rfl)
            · have hb := hbound k f' hf'
              refine ⟨f', by rw [hdone k hb]; exact hf', fun j hjk g' hg' => hj j hjk g' ?_⟩
              rwa [hdone j (by omega)] at hg'
            · refine ⟨f, hlast, fun j hjk g' hg' => ?_⟩
              rw [hdone j hjk] at hg'
              exact h.lookup_none f hl g' (List.mem_of_getElem? hg')
          · rintro ⟨f', hf', hj⟩
            rcases Nat.lt_or_ge k done.length with hlt | hge
            · left
              rw [hdone k hlt] at hf'
              exact ⟨f', hf', fun j hjk g' hg' => hj j hjk g' (by rw [hdone j (by omega)]; exact hg')⟩
            · right
              have hk2 := (List.getElem?_eq_some_iff.1 hf').1
              rw [List.length_append, List.length_singleton] at hk2
              omega
        · rw [List.map_append, ks3, List.map_append, List.map_singleton, List.map_singleton, hlast]
          congr 1
          exact List.map_congr_left fun k hk => (hdone k (hksb k hk)).symm

/-- C62: `dedup_faces` never panics on a valid mesh. It keeps the vertices; the new faces are, in order, those faces that
are not a rearrangement of an earlier face, so no two of them are rearrangements of each other; every cell keeps its
faces in order, each replaced by its representative, a rearrangement of the same vertices. -/
theorem C62_dedup_faces (m : PolyMesh P) (h : Valid m) :
    ∃ out, dedupFaces m = some out ∧ Valid out ∧ out.vertices = m.vertices ∧
      out.faces.Pairwise (fun a b => ¬a.Perm b) ∧
      (∃ ks : List Nat, ks.Pairwise (· < ·) ∧
        (∀ k, k ∈ ks ↔ ∃ f, m.faces[k]? = some f ∧ ∀ j < k, ∀ g : List Nat, m.faces[j]? = some g → ¬g.Perm f) ∧
        out.faces.map some = ks.map fun k => m.faces[k]?) ∧
      out.cells.length = m.cells.length ∧
      ∀ c c' : List Nat, (c, c') ∈ m.cells.zip out.cells → c'.length = c.length ∧
        ∀ i i', (i, i') ∈ c.zip c' → ∃ f g, m.faces[i]? = some f ∧ out.faces[i']? = some g ∧ g.Perm f := by
  obtain ⟨map, inv⟩ := dedupLoop_inv m.faces [] [] [] [] ⟨(by intro f i h; cases h), by simp, rfl, by simp, .nil, [], .nil,
    by simp, rfl⟩
  rw [List.nil_append] at inv
  rw [dedupFaces]
  generalize dedupLoop m.faces [] [] [] = r at inv
  obtain ⟨nf, rl⟩ := r
  simp only at inv ⊢
  have hrl : ∀ (f : Nat) (hf : f < m.faces.length), ∃ i g, rl[f]? = some i ∧ nf[i]? = some g ∧ g.Perm m.faces[f] := fun f hf =>
    inv.rel f _ (List.getElem?_eq_getElem hf)
  have hcell : ∀ c ∈ m.cells, ∃ c', c.mapM (fun f => rl[f]?) = some c' ∧ c'.length = c.length ∧
      ∀ (k i : Nat), c[k]? = some i → c'[k]? = rl[i]? := fun c hc =>
    Permutation.mapM_getElem?_spec rl c fun f hf => by rw [inv.len]; exact h.cell c hc f hf
  obtain ⟨cells, hc1, hc2, hc3⟩ := Permutation.mapM_option_spec (fun (c : List Nat) => c.mapM fun f => rl[f]?) m.cells (by
    intro c hc
    obtain ⟨c', h1, -⟩ := hcell c hc
    rw [h1]; rfl)
  have hzip : ∀ c c' : List Nat, (c, c') ∈ m.cells.zip cells → c'.length = c.length ∧
      ∀ i i', (i, i') ∈ c.zip c' → ∃ f g, m.faces[i]? = some f ∧ nf[i']? = some g ∧ g.Perm f := by
    intro c c' hcc
    obtain ⟨k, hk⟩ := List.getElem?_of_mem hcc
    rw [List.getElem?_zip_eq_some] at hk
    obtain ⟨hk1, hk2⟩ := hk
    have hcm := List.mem_of_getElem? hk1
    obtain ⟨c'', h1, h2, h3⟩ := hcell c hcm
    have h4 := hc3 k c hk1
    rw [hk2, h1] at h4
    cases h4
    refine ⟨h2, fun i i' hii => ?_⟩
    obtain ⟨l, hl⟩ := List.getElem?_of_mem hii
    rw [List.getElem?_zip_eq_some] at hl
    have hi := h.cell c hcm i (List.mem_of_getElem? hl.1)
    obtain ⟨i'', g, a, b, d⟩ := hrl i hi
    have h5 := h3 l i hl.1
    rw [hl.2, a] at h5
    cases h5
    exact ⟨_, g, List.getElem?_eq_getElem hi, b, d⟩
  rw [hc1, Option.map_some]
  refine ⟨_, rfl, ⟨?_, ?_⟩, rfl, inv.apart, inv.first, hc2, hzip⟩
  · intro f hf v hv
    obtain ⟨ks, -, -, ks3⟩ := inv.first
    have hmem : some f ∈ nf.map some := List.mem_map.2 ⟨f, hf, rfl⟩
    rw [ks3] at hmem
    obtain ⟨j, hj1, hj2⟩ := List.mem_map.1 hmem
    exact h.face f (List.mem_of_getElem? hj2) v hv
  · intro c' hc' i' hi'
    obtain ⟨k, hk⟩ := List.getElem?_of_mem hc'
    have hkl : k < m.cells.length := by rw [← hc2]; exact (List.getElem?_eq_some_iff.1 hk).1
    have hz := hzip m.cells[k] c' (List.mem_of_getElem? (i := k) (by
      rw [List.getElem?_zip_eq_some]; exact ⟨List.getElem?_eq_getElem hkl, hk⟩))
    obtain ⟨l, hl⟩ := List.getElem?_of_mem hi'
    have hll : l < m.cells[k].length := by rw [← hz.1]; exact (List.getElem?_eq_some_iff.1 hl).1
    obtain ⟨f, g, -, hg, -⟩ := hz.2 m.cells[k][l] i' (List.mem_of_getElem? (i := l) (by
      rw [List.getElem?_zip_eq_some]; exact ⟨List.getElem?_eq_getElem hll, hl⟩))
    exact (List.getElem?_eq_some_iff.1 hg).1

/-- C62: faces without repeated vertices are merged exactly if their sets of vertices agree, as documented. -/
theorem C62_dedup_is_by_vertex_sets (m out : PolyMesh P) (h : Valid m) (hd : ∀ f ∈ m.faces, f.Nodup)
    (ho : dedupFaces m = some out) :
    (∀ i j (hi : i < out.faces.length) (hj : j < out.faces.length),
      (∀ v, v ∈ out.faces[i] ↔ v ∈ out.faces[j]) → i = j) ∧
    ∀ f ∈ m.faces, ∃ g ∈ out.faces, ∀ v, v ∈ g ↔ v ∈ f := by
  obtain ⟨o, h1, -, -, h4, ⟨ks, -, k2, k3⟩, -⟩ := C62_dedup_faces m h
  rw [ho] at h1
  cases h1
  have hsub : ∀ g ∈ out.faces, g ∈ m.faces := by
    intro g hg
    have hmem : some g ∈ out.faces.map some := List.mem_map.2 ⟨g, hg, rfl⟩
    rw [k3] at hmem
    obtain ⟨j, -, hj2⟩ := List.mem_map.1 hmem
    exact List.mem_of_getElem? hj2
  have hperm : ∀ a ∈ m.faces, ∀ b ∈ m.faces, (∀ v, v ∈ a ↔ v ∈ b) → a.Perm b := fun a ha b hb hv =>
    (List.perm_ext_iff_of_nodup (hd a ha) (hd b hb)).2 hv
  constructor
  · intro i j hi hj hv
    have hp := hperm _ (hsub _ (List.getElem_mem hi)) _ (hsub _ (List.getElem_mem hj)) hv
    rcases Nat.lt_trichotomy i j with hlt | heq | hgt
    · exact absurd hp (List.pairwise_iff_getElem.1 h4 i j hi hj hlt)
    · exact heq
    · exact absurd hp.symm (List.pairwise_iff_getElem.1 h4 j i hj hi hgt)
  · intro f hf
    obtain ⟨k, hk⟩ := List.getElem?_of_mem hf
    induction k using Nat.strong_induction_on generalizing f with
    | _ k ih =>
      by_cases hex : ∃ j < k, ∃ g : List Nat, m.faces[j]? = some g ∧ g.Perm f
      · obtain ⟨j, hj, g, hg, hp⟩ := hex
        obtain ⟨g', hg', hv⟩ := ih j hj g (List.mem_of_getElem? hg) hg
        exact ⟨g', hg', fun v => (hv v).trans hp.mem_iff⟩
      · have hkk : k ∈ ks := (k2 k).2 ⟨f, hk, fun j hj g hg hp => hex ⟨j, hj, g, hg, hp⟩⟩
        have hmem : m.faces[k]? ∈ ks.map fun k => m.faces[k]? := List.mem_map.2 ⟨k, hkk, rfl⟩
        rw [← k3, hk] at hmem
        obtain ⟨g, hg, hgf⟩ := List.mem_map.1 hmem
        cases hgf
        exact ⟨f, hg, fun v => Iff.rfl⟩

private theorem dedupLoop_id (fs : List (List Nat)) (map : List (List Nat × Nat)) (nf : List (List Nat)) (rl : List Nat)
    (hmap : ∀ f ∈ fs, map.lookup (Mesh.sortNat f) = none) (hap : fs.Pairwise fun a b => ¬a.Perm b) :
    dedupLoop fs map nf rl = (nf ++ fs, rl ++ List.range' nf.length fs.length) := by
  induction fs generalizing map nf rl with
  | nil => simp [dedupLoop]
  | cons f fs ih =>
    obtain ⟨h1, h2⟩ := List.pairwise_cons.1 hap
    rw [dedupLoop, hmap f (List.mem_cons_self ..)]
    simp only
    rw [ih _ _ _ (fun g hg => ?_) h2]
    · simp [List.range'_succ]
    · rw [lookup_cons, if_neg, hmap g (List.mem_cons_of_mem _ hg)]
      intro he
      exact h1 g hg ((Mesh.sortNat_eq_iff _ _).1 he).symm

/-- C62: `dedup_faces` does nothing to a mesh without duplicate faces; in particular doing it twice is doing it once. -/
theorem C62_dedup_idempotent (m : PolyMesh P) (h : Valid m) :
    (m.faces.Pairwise (fun a b => ¬a.Perm b) → dedupFaces m = some m) ∧
    ∀ out, dedupFaces m = some out → dedupFaces out = some out := by
  have key : ∀ m : PolyMesh P, Valid m → m.faces.Pairwise (fun a b => ¬a.Perm b) → dedupFaces m = some m := by
    intro m h hap
    rw [dedupFaces, dedupLoop_id m.faces [] [] [] (fun _ _ => rfl) hap]
    simp only [List.nil_append, List.length_nil]
    have hc : m.cells.mapM (fun (c : List Nat) => c.mapM fun f => (List.range' 0 m.faces.length)[f]?) = some m.cells := by
      have h1 : ∀ c ∈ m.cells, c.mapM (fun f => (List.range' 0 m.faces.length)[f]?) = some c := by
        intro c hc
        have hb := h.cell c hc
        clear hc
        induction c with
        | nil => rfl
        | cons f c ih =>
          rw [List.mapM_cons, List.getElem?_range' (hb f (List.mem_cons_self ..)),
            ih fun g hg => hb g (List.mem_cons_of_mem _ hg)]
          simp
      have h2 : ∀ cs : List (List Nat), (∀ c ∈ cs, c.mapM (fun f => (List.range' 0 m.faces.length)[f]?) = some c) →
          cs.mapM (fun (c : List Nat) => c.mapM fun f => (List.range' 0 m.faces.length)[f]?) = some cs := by
        intro cs
        induction cs with
        | nil => intro _; rfl
        | cons c cs ih =>
          intro hcs
          rw [List.mapM_cons, hcs c (List.mem_cons_self ..), ih fun c' hc' => hcs c' (List.mem_cons_of_mem _ hc')]
          rfl
      exact h2 _ h1
    rw [hc]
    rfl
  refine ⟨key m h, fun out ho => ?_⟩
  obtain ⟨o, h1, h2, -, h4, -⟩ := C62_dedup_faces m h
  rw [ho] at h1
  cases h1
  exact key out h2 h4

/-! ### Concatenation -/

private theorem concatLoop_spec (ms : List (PolyMesh P)) (vs : List P) (fs cs : List (List Nat)) (vo fo : Nat)
    (hvo : vo = vs.length) (hfo : fo = fs.length)
    (hf : ∀ f ∈ fs, ∀ v ∈ f, v < vs.length) (hc : ∀ c ∈ cs, ∀ f ∈ c, f < fs.length) (hms : ∀ m ∈ ms, Valid m) :
    ∃ V F C, concatLoop ms vs fs cs vo fo = (V, F, C) ∧
      V = vs ++ ms.flatMap (·.vertices) ∧ F.length = fs.length + (ms.map (·.faces.length)).sum ∧
      C.length = cs.length + (ms.map (·.cells.length)).sum ∧
      fs <+: F ∧ cs <+: C ∧
      (∀ f ∈ F, ∀ v ∈ f, v < V.length) ∧ (∀ c ∈ C, ∀ f ∈ c, f < F.length) ∧
      ∀ pre m post, ms = pre ++ m :: post →
        (∀ k f, m.faces[k]? = some f → F[fs.length + (pre.map (·.faces.length)).sum + k]?
          = some (f.map (· + (vs.length + (pre.map (·.vertices.length)).sum)))) ∧
        (∀ k c, m.cells[k]? = some c → C[cs.length + (pre.map (·.cells.length)).sum + k]?
          = some (c.map (· + (fs.length + (pre.map (·.faces.length)).sum)))) := by
  induction ms generalizing vs fs cs vo fo with
  | nil =>
    refine ⟨vs, fs, cs, rfl, by simp, by simp, by simp, List.prefix_rfl, List.prefix_rfl, hf, hc, ?_⟩
    intro pre m post h
    simp at h
  | cons m ms ih =>
    subst hvo hfo
    have hm := hms m (List.mem_cons_self ..)
    obtain ⟨V, F, C, h1, h2, h3, h4, h5, h6, h7, h8, h9⟩ := ih (vs ++ m.vertices)
      (fs ++ m.faces.map fun f => f.map (· + vs.length)) (cs ++ m.cells.map fun c => c.map (· + fs.length))
      (vs.length + m.vertices.length) (fs.length + m.faces.length) (by simp) (by simp)
      (by
        intro f hfm v hv
        rw [List.length_append]
        rcases List.mem_append.1 hfm with hfm | hfm
        · exact Nat.lt_add_right _ (hf f hfm v hv)
        · obtain ⟨f', hf', rfl⟩ := List.mem_map.1 hfm
          obtain ⟨v', hv', rfl⟩ := List.mem_map.1 hv
          have := hm.face f' hf' v' hv'
          omega)
      (by
        intro c hcm f hfc
        rw [List.length_append, List.length_map]
        rcases List.mem_append.1 hcm with hcm | hcm
        · exact Nat.lt_add_right _ (hc c hcm f hfc)
        · obtain ⟨c', hc', rfl⟩ := List.mem_map.1 hcm
          obtain ⟨f', hf', rfl⟩ := List.mem_map.1 hfc
          have := hm.cell c' hc' f' hf'
          omega)
      fun m' hm' => hms m' (List.mem_cons_of_mem _ hm')
    refine ⟨V, F, C, by rw [concatLoop, h1], by rw [h2]; simp, ?_, ?_, (List.prefix_append _ _).trans h5,
      (List.prefix_append _ _).trans h6, h7, h8, ?_⟩
    · rw [h3]; simp; omega
    · rw [h4]; simp; omega
    · intro pre m' post hms'
      cases pre with
      | nil =>
        simp only [List.nil_append, List.cons.injEq] at hms'
        obtain ⟨rfl, rfl⟩ := hms'
        constructor
        · intro k f hk
          have hkl := (List.getElem?_eq_some_iff.1 hk).1
          obtain ⟨t, ht⟩ := h5
          rw [← ht, List.getElem?_append_left (by simp; omega), List.getElem?_append_right (by simp)]
          simp [hk]
        · intro k c hk
          have hkl := (List.getElem?_eq_some_iff.1 hk).1
          obtain ⟨t, ht⟩ := h6
          rw [← ht, List.getElem?_append_left (by simp; omega), List.getElem?_append_right (by simp)]
          simp [hk]
      | cons p pre =>
        simp only [List.cons_append, List.cons.injEq] at hms'
        obtain ⟨rfl, rfl⟩ := hms'
        obtain ⟨h10, h11⟩ := h9 pre m' post rfl
        constructor
        · intro k f hk
          have := h10 k f hk
          simpa [Nat.add_assoc] using this
        · intro k c hk
          have := h11 k c hk
          simpa [Nat.add_assoc] using this

private theorem faceVertices_map (V : List P) (A B W : List P) (f : List Nat) (h : V = A ++ W ++ B)
    (hf : ∀ v ∈ f, v < W.length) :
    (f.map (· + A.length)).mapM (fun v => V[v]?) = f.mapM fun v => W[v]? := by
  subst h
  induction f with
  | nil => rfl
  | cons v f ih =>
    rw [List.map_cons, List.mapM_cons, List.mapM_cons, ih fun w hw => hf w (List.mem_cons_of_mem _ hw),
      List.append_assoc, List.getElem?_append_right (by omega), Nat.add_sub_cancel,
      List.getElem?_append_left (hf v (List.mem_cons_self ..))]

/-- C62: concatenating valid meshes never panics and gives a valid mesh whose vertices are all their vertices, in order.
The faces and cells of each mesh follow those of the meshes before it: its face `k` comes with the same
coordinates, and its cell `k` mentions the faces that its faces have become. -/
theorem C62_concatenate (ms : List (PolyMesh P)) (hms : ∀ m ∈ ms, Valid m) :
    ∃ out, concatenate ms = some out ∧ Valid out ∧ out.vertices = ms.flatMap (·.vertices) ∧
      out.faces.length = (ms.map (·.faces.length)).sum ∧ out.cells.length = (ms.map (·.cells.length)).sum ∧
      ∀ pre m post, ms = pre ++ m :: post →
        (∀ k < m.faces.length, faceVertices out ((pre.map (·.faces.length)).sum + k) = faceVertices m k) ∧
        (∀ k c, m.cells[k]? = some c → out.cells[(pre.map (·.cells.length)).sum + k]?
          = some (c.map fun f => f + (pre.map (·.faces.length)).sum)) := by
  obtain ⟨V, F, C, h1, h2, h3, h4, -, -, h7, h8, h9⟩ := concatLoop_spec ms [] [] [] 0 0 rfl rfl (by simp) (by simp) hms
  refine ⟨⟨V, F, C⟩, ?_, ⟨h7, h8⟩, by simpa using h2, by simpa using h3, by simpa using h4, ?_⟩
  · rw [concatenate, h1]
    exact fromPolyData_of_valid ⟨V, F, C⟩ ⟨h7, h8⟩
  · intro pre m post hpm
    obtain ⟨h10, h11⟩ := h9 pre m post hpm
    simp only [List.length_nil, Nat.zero_add] at h10 h11
    refine ⟨fun k hk => ?_, fun k c hk => h11 k c hk⟩
    rw [faceVertices, faceVertices, h10 k _ (List.getElem?_eq_getElem hk), List.getElem?_eq_getElem hk]
    simp only [Option.getD_some]
    have hm : m ∈ ms := by rw [hpm]; simp
    have e : (pre.map (·.vertices.length)).sum = (pre.flatMap (·.vertices)).length := by
      rw [List.length_flatMap]
    rw [e]
    refine faceVertices_map V (pre.flatMap (·.vertices)) (post.flatMap (·.vertices)) m.vertices m.faces[k] ?_
      ((hms m hm).face _ (List.getElem_mem hk))
    rw [h2, hpm]
    simp

/-! ### A concrete mesh -/

/-- Two tetrahedra given with their own copies of the shared face. -/
private def twoTets : PolyMesh Nat :=
  ⟨[10, 11, 12, 13, 14], [[0, 1, 2], [0, 3, 1], [1, 3, 2], [0, 2, 3], [1, 4, 2], [0, 4, 1], [2, 1, 0], [0, 2, 4]],
    [[0, 1, 2, 3], [6, 5, 4, 7]]⟩

private theorem twoTets_valid : Valid twoTets := ⟨by decide, by decide⟩

/-- The hypotheses hold for a mesh of two tetrahedra, where one face is a duplicate. -/
example : Valid twoTets ∧ (∀ f ∈ twoTets.faces, f.Nodup) ∧
    (dedupFaces twoTets).map (fun m => (m.faces.length, m.cells)) = some (7, [[0, 1, 2, 3], [0, 5, 4, 6]]) ∧
    (dedupFaces twoTets).bind findBoundaryFaces = some [1, 2, 3, 4, 5, 6] ∧
    (concatenate [twoTets, twoTets]).map (fun m => m.cells) = some [[0, 1, 2, 3], [6, 5, 4, 7], [8, 9, 10, 11],
      [14, 13, 12, 15]] :=
  ⟨twoTets_valid, by decide, by decide +kernel, by decide +kernel, by decide +kernel⟩

end Poly
end Fenris
