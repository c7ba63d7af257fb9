import Verif.Props.PolyMesh
/-! # C15: sub-meshes of polyhedral meshes -/
set_option autoImplicit false

namespace Fenris
namespace Poly

open Spec

variable {P : Type}

private theorem idxOf?_spec (l : List Nat) (v : Nat) :
    (v ∈ l → ∃ j, l.idxOf? v = some j ∧ l[j]? = some v) := by
  intro h
  induction l with
  | nil => cases h
  | cons a l ih =>
    rw [List.idxOf?_cons]
    by_cases ha : a = v
    · subst ha
      exact ⟨0, by simp, rfl⟩
    · obtain ⟨j, h1, h2⟩ := ih ((List.mem_cons.1 h).resolve_left (Ne.symm ha))
      exact ⟨j + 1, by simp [ha, h1], by simpa using h2⟩

/-- Relabelling a list through the list of kept indices. -/
private theorem relabel (kept l : List Nat) (h : ∀ v ∈ l, v ∈ kept) :
    ∃ l', l.mapM (fun v => kept.idxOf? v) = some l' ∧ l'.map (fun j => kept[j]?) = l.map some ∧
      ∀ j ∈ l', j < kept.length := by
  induction l with
  | nil => exact ⟨[], rfl, rfl, by simp⟩
  | cons v l ih =>
    obtain ⟨l', h1, h2, h3⟩ := ih fun w hw => h w (List.mem_cons_of_mem _ hw)
    obtain ⟨j, hj1, hj2⟩ := idxOf?_spec kept v (h v (List.mem_cons_self ..))
    refine ⟨j :: l', by rw [List.mapM_cons, hj1, h1]; rfl, by simp [hj2, h2], ?_⟩
    intro i hi
    rcases List.mem_cons.1 hi with rfl | hi
    · exact (List.getElem?_eq_some_iff.1 hj2).1
    · exact h3 i hi

private theorem relabels (kept : List Nat) (ls : List (List Nat)) (h : ∀ l ∈ ls, ∀ v ∈ l, v ∈ kept) :
    ∃ ls', ls.mapM (fun (l : List Nat) => l.mapM fun v => kept.idxOf? v) = some ls' ∧ ls'.length = ls.length ∧
      (∀ (k : Nat) (l : List Nat), ls[k]? = some l → ∃ l' : List Nat, ls'[k]? = some l' ∧
        l'.map (fun j => kept[j]?) = l.map some) ∧ ∀ l' ∈ ls', ∀ j ∈ l', j < kept.length := by
  induction ls with
  | nil => exact ⟨[], rfl, rfl, by simp, by simp⟩
  | cons l ls ih =>
    obtain ⟨ls', h1, h2, h3, h4⟩ := ih fun l' hl' => h l' (List.mem_cons_of_mem _ hl')
    obtain ⟨l', g1, g2, g3⟩ := relabel kept l (h l (List.mem_cons_self ..))
    refine ⟨l' :: ls', by rw [List.mapM_cons, g1, h1]; rfl, by simp [h2], ?_, ?_⟩
    · intro k l0 hk
      cases k with
      | zero =>
        simp only [List.getElem?_cons_zero, Option.some.injEq] at hk
        subst hk
        exact ⟨l', rfl, g2⟩
      | succ k => exact h3 k l0 (by simpa using hk)
    · intro l0 hl0
      rcases List.mem_cons.1 hl0 with rfl | hl0
      · exact g3
      · exact h4 l0 hl0

private theorem btreeSet_spec (l : List Nat) : (btreeSet l).Pairwise (· < ·) ∧ ∀ x, x ∈ btreeSet l ↔ x ∈ l := by
  obtain ⟨h1, h2⟩ := Mesh.dedup_spec (Mesh.sortNat l) (Mesh.sortNat_sorted l)
  exact ⟨h1, fun x => (h2 x).trans (Mesh.sortNat_perm l).mem_iff⟩

private theorem mapM_lookup {α : Type} (xs : List α) (l : List Nat) (h : ∀ i ∈ l, i < xs.length) :
    ∃ out, l.mapM (fun i => xs[i]?) = some out ∧ out.map some = l.map fun i => xs[i]? := by
  induction l with
  | nil => exact ⟨[], rfl, rfl⟩
  | cons i l ih =>
    obtain ⟨out, h1, h2⟩ := ih fun j hj => h j (List.mem_cons_of_mem _ hj)
    have hi := h i (List.mem_cons_self ..)
    exact ⟨xs[i] :: out, by rw [List.mapM_cons, List.getElem?_eq_getElem hi, h1]; rfl, by
      simp [h2, List.getElem?_eq_getElem hi]⟩

private theorem mapM_lookup_none {α : Type} (xs : List α) (l : List Nat) (h : ∃ i ∈ l, xs.length ≤ i) :
    l.mapM (fun i => xs[i]?) = none := by
  induction l with
  | nil => obtain ⟨i, hi, -⟩ := h; cases hi
  | cons j l ih =>
    rw [List.mapM_cons]
    by_cases hj : xs.length ≤ j
    · rw [List.getElem?_eq_none hj]
      rfl
    · obtain ⟨i, hi, hle⟩ := h
      rw [ih ⟨i, (List.mem_cons.1 hi).resolve_left (by rintro rfl; exact hj hle), hle⟩]
      cases xs[j]? <;> rfl

private theorem getElem?_of_map_some {α : Type} (out : List α) (l : List (Option α)) (h : out.map some = l) (k : Nat) :
    out[k]? = (l[k]?).join := by
  subst h
  rw [List.getElem?_map]
  cases out[k]? <;> rfl

/-- C15 for polyhedral meshes: `keep_cells` panics exactly if an index is out of range. Otherwise the `k`-th cell of the
result has the faces of cell `idx[k]` in the same order, each with the same vertices in the same order and at the
same coordinates; the faces are exactly the faces of the kept cells, once each and in their original order; the vertices
are exactly the vertices of those faces, once each and in their original order. -/
theorem C15_poly_keep_cells (m : PolyMesh P) (hm : Valid m) (idx : List Nat) :
    ((∃ i ∈ idx, m.cells.length ≤ i) → keepCells m idx = none) ∧
    ((∀ i ∈ idx, i < m.cells.length) → ∃ out, keepCells m idx = some out ∧ Valid out ∧
      out.cells.length = idx.length ∧
      (∀ (k i : Nat) (c : List Nat), idx[k]? = some i → m.cells[i]? = some c →
        ∃ c', out.cells[k]? = some c' ∧ cellCoords out c' = cellCoords m c) ∧
      ∃ keptF keptV : List Nat, keptF.Pairwise (· < ·) ∧ keptV.Pairwise (· < ·) ∧
        (∀ f, f ∈ keptF ↔ ∃ i ∈ idx, ∃ c, m.cells[i]? = some c ∧ f ∈ c) ∧
        (∀ v, v ∈ keptV ↔ ∃ f ∈ keptF, ∃ vs, m.faces[f]? = some vs ∧ v ∈ vs) ∧
        out.faces.map (fun f => some (faceCoords out f)) = keptF.map (fun f => (m.faces[f]?).map (faceCoords m)) ∧
        out.vertices.map some = keptV.map fun v => m.vertices[v]?) := by
  constructor
  · intro h
    rw [keepCells, mapM_lookup_none m.cells idx h]
    rfl
  · intro h
    obtain ⟨kept, a1, a2⟩ := mapM_lookup m.cells idx h
    have hkept : ∀ c ∈ kept, ∃ i ∈ idx, m.cells[i]? = some c := by
      intro c hc
      have : some c ∈ kept.map some := List.mem_map.2 ⟨c, hc, rfl⟩
      rw [a2] at this
      obtain ⟨i, hi, he⟩ := List.mem_map.1 this
      exact ⟨i, hi, he⟩
    have hkept' : ∀ i ∈ idx, ∀ c, m.cells[i]? = some c → c ∈ kept := by
      intro i hi c hc
      have : some c ∈ idx.map fun i => m.cells[i]? := List.mem_map.2 ⟨i, hi, hc⟩
      rw [← a2] at this
      obtain ⟨c', hc', he⟩ := List.mem_map.1 this
      cases he
      exact hc'
    obtain ⟨kfp, kfm⟩ := btreeSet_spec kept.flatten
    generalize hkf : btreeSet kept.flatten = keptF at kfp kfm
    have hfb : ∀ f ∈ keptF, f < m.faces.length := by
      intro f hf
      obtain ⟨c, hc, hfc⟩ := List.mem_flatten.1 ((kfm f).1 hf)
      obtain ⟨i, -, hi⟩ := hkept c hc
      exact hm.cell c (List.mem_of_getElem? hi) f hfc
    obtain ⟨oldF, b1, b2⟩ := mapM_lookup m.faces keptF hfb
    have holdF : ∀ vs ∈ oldF, ∃ f ∈ keptF, m.faces[f]? = some vs := by
      intro c hc
      have : some c ∈ oldF.map some := List.mem_map.2 ⟨c, hc, rfl⟩
      rw [b2] at this
      obtain ⟨i, hi, he⟩ := List.mem_map.1 this
      exact ⟨i, hi, he⟩
    have holdF' : ∀ f ∈ keptF, ∀ vs, m.faces[f]? = some vs → vs ∈ oldF := by
      intro i hi c hc
      have : some c ∈ keptF.map fun i => m.faces[i]? := List.mem_map.2 ⟨i, hi, hc⟩
      rw [← b2] at this
      obtain ⟨c', hc', he⟩ := List.mem_map.1 this
      cases he
      exact hc'
    obtain ⟨kvp, kvm⟩ := btreeSet_spec oldF.flatten
    generalize hkv : btreeSet oldF.flatten = keptV at kvp kvm
    have hvb : ∀ v ∈ keptV, v < m.vertices.length := by
      intro v hv
      obtain ⟨vs, hvs, hvv⟩ := List.mem_flatten.1 ((kvm v).1 hv)
      obtain ⟨i, -, hi⟩ := holdF vs hvs
      exact hm.face vs (List.mem_of_getElem? hi) v hvv
    obtain ⟨newV, c1, c2⟩ := mapM_lookup m.vertices keptV hvb
    obtain ⟨newF, d1, d2, d3, d4⟩ := relabels keptV oldF (by
      intro l hl v hv
      exact (kvm v).2 (List.mem_flatten.2 ⟨l, hl, hv⟩))
    obtain ⟨newC, e1, e2, e3, e4⟩ := relabels keptF kept (by
      intro l hl v hv
      exact (kfm v).2 (List.mem_flatten.2 ⟨l, hl, hv⟩))
    have hlV : newV.length = keptV.length := by have := congrArg List.length c2; simpa using this
    have hlF : newF.length = keptF.length := by
      rw [d2]; have := congrArg List.length b2; simpa using this
    have hvalid : Valid (⟨newV, newF, newC⟩ : PolyMesh P) :=
      ⟨fun f hf v hv => by rw [hlV]; exact d4 f hf v hv, fun c hc f hf => by rw [hlF]; exact e4 c hc f hf⟩
    -- one face
    have hface : ∀ (vs vs' : List Nat), vs'.map (fun j => keptV[j]?) = vs.map some →
        faceCoords (⟨newV, newF, newC⟩ : PolyMesh P) vs' = faceCoords m vs := by
      intro vs vs' hvv
      have h1 : vs.map (fun v => m.vertices[v]?) = (vs.map some).map fun o => o.bind fun v => m.vertices[v]? := by
        simp
      rw [faceCoords, faceCoords, h1, ← hvv, List.map_map]
      refine List.map_congr_left fun j _ => ?_
      simp only [Function.comp_def]
      rw [getElem?_of_map_some newV _ c2, List.getElem?_map]
      cases keptV[j]? <;> rfl
    have hfaces : ∀ k : Nat, (newF[k]?).map (faceCoords (⟨newV, newF, newC⟩ : PolyMesh P))
        = ((keptF[k]?).bind fun f => m.faces[f]?).map (faceCoords m) := by
      intro k
      have hb : oldF[k]? = ((keptF[k]?).bind fun f => m.faces[f]?) := by
        rw [getElem?_of_map_some oldF _ b2, List.getElem?_map]
        cases keptF[k]? <;> rfl
      rw [← hb]
      cases ho : oldF[k]? with
      | none =>
        have hnf : newF[k]? = none := by
          rw [List.getElem?_eq_none_iff] at ho ⊢
          omega
        rw [hnf]
        rfl
      | some vs =>
        obtain ⟨vs', h1, h2⟩ := d3 k vs ho
        rw [h1, Option.map_some, Option.map_some, hface vs vs' h2]
    refine ⟨⟨newV, newF, newC⟩, ?_, hvalid, ?_, ?_, keptF, keptV, kfp, kvp, ?_, ?_, ?_, c2⟩
    · rw [keepCells, a1, Option.bind_some]
      simp only [hkf]
      rw [b1, Option.bind_some]
      simp only [hkv]
      rw [c1, Option.bind_some, d1, Option.bind_some, e1, Option.bind_some]
      exact fromPolyData_of_valid _ hvalid
    · change newC.length = idx.length
      rw [e2]
      have := congrArg List.length a2
      simpa using this
    · intro k i c hk hi
      have hkc : kept[k]? = some c := by
        rw [getElem?_of_map_some kept _ a2, List.getElem?_map, hk]
        exact congrArg Option.join (congrArg some hi)
      obtain ⟨c', h1, h2⟩ := e3 k c hkc
      refine ⟨c', h1, ?_⟩
      have h3 : c.map (fun f => (m.faces[f]?).map (faceCoords m))
          = (c.map some).map fun o => (o.bind fun f => m.faces[f]?).map (faceCoords m) := by simp
      rw [cellCoords, cellCoords, h3, ← h2, List.map_map]
      exact List.map_congr_left fun j _ => hfaces j
    · intro f
      rw [kfm]
      constructor
      · intro hf
        obtain ⟨c, hc, hfc⟩ := List.mem_flatten.1 hf
        obtain ⟨i, hi, hic⟩ := hkept c hc
        exact ⟨i, hi, c, hic, hfc⟩
      · rintro ⟨i, hi, c, hic, hfc⟩
        exact List.mem_flatten.2 ⟨c, hkept' i hi c hic, hfc⟩
    · intro v
      rw [kvm]
      constructor
      · intro hv
        obtain ⟨c, hc, hfc⟩ := List.mem_flatten.1 hv
        obtain ⟨i, hi, hic⟩ := holdF c hc
        exact ⟨i, hi, c, hic, hfc⟩
      · rintro ⟨i, hi, c, hic, hfc⟩
        exact List.mem_flatten.2 ⟨c, holdF' i hi c hic, hfc⟩
    · refine List.ext_getElem? fun k => ?_
      rw [List.getElem?_map, List.getElem?_map]
      have := hfaces k
      change (newF[k]?).map (fun f => some (faceCoords (⟨newV, newF, newC⟩ : PolyMesh P) f)) = _
      cases hk : keptF[k]? with
      | none =>
        have hnf : newF[k]? = none := by
          rw [List.getElem?_eq_none_iff] at hk ⊢
          omega
        rw [hnf]
        rfl
      | some f =>
        rw [hk, Option.bind_some] at this
        have hkl := (List.getElem?_eq_some_iff.1 hk).1
        rw [List.getElem?_eq_getElem (by omega : k < newF.length)] at this ⊢
        simp only [Option.map_some] at this ⊢
        rw [← this]

/-- Keeping one cell of two, with unused vertices and faces before it. -/
example : (keepCells (⟨[7, 8, 9, 10], [[0, 1], [1, 2], [3, 2]], [[0], [1, 2]]⟩ : PolyMesh Nat) [1]).map
    (fun m => (m.vertices, m.faces, m.cells)) = some ([8, 9, 10], [[0, 1], [2, 1]], [[0, 1]]) := by decide +kernel

end Poly
end Fenris
