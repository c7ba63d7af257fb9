import Verif.Model.ReorderPar
import Verif.Props.Reorder
import Verif.Props.Pattern
/-! # C13, end to end: `reorder_mesh_par` followed by `apply` -/
set_option autoImplicit false

namespace Fenris
open Permutation CuthillMcKee Assembly

private theorem keyLe_trans (a b c : Option Nat) (h1 : MeshPermutation.keyLe a b = true)
    (h2 : MeshPermutation.keyLe b c = true) : MeshPermutation.keyLe a c = true := by
  cases a <;> cases b <;> cases c <;> simp_all [MeshPermutation.keyLe]; omega

private theorem keyLe_total (a b : Option Nat) :
    (MeshPermutation.keyLe a b || MeshPermutation.keyLe b a) = true := by
  cases a <;> cases b <;> simp [MeshPermutation.keyLe]; omega

private theorem keyLe_min (a b : List Nat) (h : MeshPermutation.keyLe a.min? b.min? = true) :
    a = [] ∨ (b ≠ [] ∧ ∀ x ∈ b, ∃ y ∈ a, y ≤ x) := by
  cases ha : a.min? with
  | none => rw [List.min?_eq_none_iff] at ha; exact .inl ha
  | some m =>
    cases hb : b.min? with
    | none => rw [ha, hb] at h; simp [MeshPermutation.keyLe] at h
    | some k =>
      rw [ha, hb] at h
      simp only [MeshPermutation.keyLe, decide_eq_true_eq] at h
      rw [List.min?_eq_some_iff] at ha hb
      refine .inr ⟨List.ne_nil_of_mem hb.1, fun x hx => ⟨m, ha.1, ?_⟩⟩
      have := hb.2 x hx; omega

/-- C13.  The cells of the reordered mesh are ordered by their least (new) vertex index. -/
theorem C13_cells_ordered_by_least_vertex {α : Type} (mx : Nat)
    (sortAdj : List Nat → List Nat) (pattern : Pattern) (mesh : Mesh α) (mp : MeshPermutation)
    (out : Mesh α) (h1 : MeshPermutation.reorderMesh mx sortAdj pattern mesh = some mp)
    (h2 : mp.apply mx mesh = some out) :
    out.cells.Pairwise (fun a b => a = [] ∨ (b ≠ [] ∧ ∀ x ∈ b, ∃ y ∈ a, y ≤ x)) := by
  unfold MeshPermutation.reorderMesh at h1
  split at h1
  · cases h1
  · rename_i vp hvp
    split at h1
    · cases h1
    · rename_i inv hinv
      split at h1
      · cases h1
      · rename_i keys hkeys
        simp only at h1
        rw [perm_stableSort_range] at h1
        simp only [Option.some.injEq] at h1
        subst h1
        unfold MeshPermutation.apply at h2
        simp only [hinv] at h2
        split at h2
        · rename_i nv inv' nc _ hi hnc
          cases hi
          split at h2
          · rename_i cells hcells
            cases h2
            simp only
            have hsort := stableSort_pairwise
              (fun i j => MeshPermutation.keyLe (keys[i]?.getD none) (keys[j]?.getD none))
              (fun a b c => keyLe_trans _ _ _) (fun a b => keyLe_total _ _)
              (List.range mesh.cells.length)
            generalize stableSort _ _ = order at *
            unfold applyToSlice at hnc
            split at hnc
            · simp only at hnc
              clear hvp
              -- relate each output cell to its key
              have hmem : ∀ (i k : Nat) (c : List Nat), order[i]? = some k → cells[i]? = some c →
                  keys[k]?.getD none = c.min? := by
                intro i k c hi hc
                have e1 : ∀ (l : List Nat) (o : List (List Nat)),
                    l.mapM (fun i => mesh.cells[i]?) = some o → ∀ (i : Nat) (k : Nat),
                    l[i]? = some k → o[i]? = mesh.cells[k]? := by
                  intro l
                  induction l with
                  | nil => intro o _ i k h; simp at h
                  | cons a l ih =>
                    intro o ho i k h
                    rw [List.mapM_cons] at ho
                    cases ha : mesh.cells[a]? with
                    | none => rw [ha] at ho; cases ho
                    | some ca =>
                      cases hl : l.mapM (fun i => mesh.cells[i]?) with
                      | none => rw [ha, hl] at ho; cases ho
                      | some lo =>
                        rw [ha, hl] at ho; cases ho
                        cases i with
                        | zero => simp at h; subst h; simp [ha]
                        | succ i => simpa using ih lo hl i k (by simpa using h)
                have e2 : ∀ {β γ : Type} (f : β → Option γ) (l : List β) (o : List γ),
                    l.mapM f = some o → ∀ (i : Nat) (c : γ), o[i]? = some c →
                    ∃ b, l[i]? = some b ∧ f b = some c := by
                  intro β γ f l
                  induction l with
                  | nil => intro o ho i c h; cases ho; simp at h
                  | cons a l ih =>
                    intro o ho i c h
                    rw [List.mapM_cons] at ho
                    cases ha : f a with
                    | none => rw [ha] at ho; cases ho
                    | some ca =>
                      cases hl : l.mapM f with
                      | none => rw [ha, hl] at ho; cases ho
                      | some lo =>
                        rw [ha, hl] at ho; cases ho
                        cases i with
                        | zero => simp at h; subst h; exact ⟨a, rfl, ha⟩
                        | succ i => simpa using ih lo hl i c (by simpa using h)
                have e3 : ∀ {β γ : Type} (f : β → Option γ) (l : List β) (o : List γ),
                    l.mapM f = some o → ∀ (i : Nat) (b : β), l[i]? = some b → o[i]? = f b := by
                  intro β γ f l
                  induction l with
                  | nil => intro o _ i b h; simp at h
                  | cons a l ih =>
                    intro o ho i b h
                    rw [List.mapM_cons] at ho
                    cases ha : f a with
                    | none => rw [ha] at ho; cases ho
                    | some ca =>
                      cases hl : l.mapM f with
                      | none => rw [ha, hl] at ho; cases ho
                      | some lo =>
                        rw [ha, hl] at ho; cases ho
                        cases i with
                        | zero => simp at h; subst h; simp [ha]
                        | succ i => simpa using ih lo hl i b (by simpa using h)
                obtain ⟨c0, hc0, hc1⟩ := e2 _ nc cells hcells i c hc
                have := e1 order nc hnc i k hi
                rw [hc0] at this
                have hk := e3 _ mesh.cells keys hkeys k c0 this.symm
                simp only [MeshPermutation.cellKey, hc1, Option.map_some] at hk
                rw [hk]; rfl
              have hlen : cells.length = order.length := by
                have a1 : nc.length = order.length := by
                  have : ∀ (l : List Nat) (o : List (List Nat)),
                      l.mapM (fun i => mesh.cells[i]?) = some o → o.length = l.length := by
                    intro l
                    induction l with
                    | nil => intro o ho; cases ho; rfl
                    | cons a l ih =>
                      intro o ho
                      rw [List.mapM_cons] at ho
                      cases ha : mesh.cells[a]? with
                      | none => rw [ha] at ho; cases ho
                      | some ca =>
                        cases hl : l.mapM (fun i => mesh.cells[i]?) with
                        | none => rw [ha, hl] at ho; cases ho
                        | some lo => rw [ha, hl] at ho; cases ho; simp [ih lo hl]
                  exact this _ _ hnc
                have a2 : cells.length = nc.length := by
                  have : ∀ (l o : List (List Nat)),
                      l.mapM (fun c => c.mapM inv.sourceIndex) = some o → o.length = l.length := by
                    intro l
                    induction l with
                    | nil => intro o ho; cases ho; rfl
                    | cons a l ih =>
                      intro o ho
                      rw [List.mapM_cons] at ho
                      cases ha : a.mapM inv.sourceIndex with
                      | none => rw [ha] at ho; cases ho
                      | some ca =>
                        cases hl : l.mapM (fun c => c.mapM inv.sourceIndex) with
                        | none => rw [ha, hl] at ho; cases ho
                        | some lo => rw [ha, hl] at ho; cases ho; simp [ih lo hl]
                  exact this _ _ hcells
                omega
              rw [List.pairwise_iff_getElem] at hsort ⊢
              intro i j hi hj hij
              apply keyLe_min
              have := hsort i j (by omega) (by omega) hij
              rw [hmem i _ cells[i] (List.getElem?_eq_getElem (by omega))
                  (List.getElem?_eq_getElem hi),
                hmem j _ cells[j] (List.getElem?_eq_getElem (by omega))
                  (List.getElem?_eq_getElem hj)] at this
              exact this
            · cases hnc
          · cases h2
        · cases h2

/-- `reorder_mesh_par` computes a pair of permutations of the vertices and the cells. -/
theorem reorderMeshPar_valid {α : Type} (mx : Nat)
    (sortAdj : List Nat → List Nat) (hs : ∀ l, (sortAdj l).Perm l) (ord : List Nat → List Nat)
    (hord : ∀ l, (ord l).Perm l) (mesh : Mesh α)
    (hmesh : ∀ c ∈ mesh.cells, ∀ i ∈ c, i < mesh.vertices.length)
    (sched₁ : List (Nat × List Nat))
    (hs₁ : sched₁.Perm ((batches mesh.cells.length).map
      (lockOps ⟨1, mesh.vertices.length, mesh.cells⟩)).flatten)
    (sched₂ : List (Nat × Nat) → List (Nat × Nat)) (hs₂ : ∀ l, (sched₂ l).Perm l) :
    ∃ mp pattern, MeshPermutation.reorderMeshPar mx sortAdj ord sched₁ sched₂ mesh = some mp ∧
      MeshPermutation.reorderMesh mx sortAdj pattern mesh = some mp ∧
      fromVec mp.vertexPerm.perm = .ok mp.vertexPerm ∧ fromVec mp.connectivityPerm.perm = .ok mp.connectivityPerm ∧
      mp.vertexPerm.len = mesh.vertices.length ∧ mp.connectivityPerm.len = mesh.cells.length := by
  have hc : Spec.NodesInBounds ⟨1, mesh.vertices.length, mesh.cells⟩ := hmesh
  obtain ⟨p, p1, p2, p3, p4, -⟩ := C20_pattern_is_exact ord hord _ hc
  have p5 := C20_parallel_pattern_equals_serial ord ord hord hord _ hc sched₁ hs₁ sched₂ hs₂
  obtain ⟨lanes, l1, l2, l3⟩ := mapM_option_spec p.lane (List.range p.nrows) (by
    intro i hi
    obtain ⟨lane, hl, -⟩ := p2.lanes i (List.mem_range.1 hi)
    rw [hl]; rfl)
  have hpat : p.toPattern = some ⟨lanes, p.ncols⟩ := by simp [CsrPattern.toPattern, l1]
  simp only [Nat.one_mul] at p3 p4
  obtain ⟨mp, m1, m2, m3, m4, m5⟩ := C13_reorder_produces_valid_permutations mx sortAdj hs
    ⟨lanes, p.ncols⟩ mesh (by simp [Pattern.majorDim, l2, p3]) p4 (by
      intro l hl w hw
      obtain ⟨i, hi⟩ := List.getElem?_of_mem hl
      have hil : i < p.nrows := by
        have := (List.getElem?_eq_some_iff.1 hi).1; rw [l2, List.length_range] at this; exact this
      have := l3 i i (List.getElem?_range hil)
      rw [hi] at this
      obtain ⟨lane, e1, e2, e3⟩ := p2.lanes i hil
      rw [e1] at this; cases this
      exact e3 w hw) hmesh
  refine ⟨mp, _, ?_, m1, m2, m3, m4, m5⟩
  unfold MeshPermutation.reorderMeshPar
  rw [p5, p1]
  simp only [hpat]
  exact m1

/-- C13, end to end.  For every mesh with in-range cells, every schedule of the parallel
construction of the graph and every tie-breaking: `reorder_mesh_par` followed by `apply` does not
panic and only renumbers the mesh: there are permutations of the vertices and of the cells such that
cell `k` of the result has the same sequence of vertex coordinates as the cell it comes from; cells
are ordered by least new vertex index. -/
theorem C13_reorder_mesh_par_only_renumbers {α : Type} (mx : Nat)
    (sortAdj : List Nat → List Nat) (hs : ∀ l, (sortAdj l).Perm l) (ord : List Nat → List Nat)
    (hord : ∀ l, (ord l).Perm l) (mesh : Mesh α)
    (hmesh : ∀ c ∈ mesh.cells, ∀ i ∈ c, i < mesh.vertices.length)
    (sched₁ : List (Nat × List Nat))
    (hs₁ : sched₁.Perm ((batches mesh.cells.length).map
      (lockOps ⟨1, mesh.vertices.length, mesh.cells⟩)).flatten)
    (sched₂ : List (Nat × Nat) → List (Nat × Nat)) (hs₂ : ∀ l, (sched₂ l).Perm l) :
    ∃ mp out, MeshPermutation.reorderMeshPar mx sortAdj ord sched₁ sched₂ mesh = some mp ∧
      mp.apply mx mesh = some out ∧ out.vertices.Perm mesh.vertices ∧
      out.cells.length = mesh.cells.length ∧
      (∃ cp : List Nat, cp.Perm (List.range mesh.cells.length) ∧
        ∀ (k s : Nat) (c : List Nat), cp[k]? = some s → mesh.cells[s]? = some c →
        ∃ c', out.cells[k]? = some c' ∧ (∀ i ∈ c', i < out.vertices.length) ∧
          c'.map (fun i => out.vertices[i]?) = c.map (fun i => mesh.vertices[i]?)) ∧
      out.cells.Pairwise (fun a b => a = [] ∨ (b ≠ [] ∧ ∀ x ∈ b, ∃ y ∈ a, y ≤ x)) := by
  obtain ⟨mp, pattern, m0, m1, m2, m3, m4, m5⟩ := reorderMeshPar_valid mx sortAdj hs ord hord mesh hmesh sched₁ hs₁ sched₂ hs₂
  obtain ⟨out, o1, o2, o3, o4, o5⟩ := C13_apply_only_renumbers mx _ _ mp m2 m3 mesh m4 m5 hmesh
  refine ⟨mp, out, m0, o1, o2, o4, ⟨mp.connectivityPerm.perm, ?_, ?_⟩,
    C13_cells_ordered_by_least_vertex mx sortAdj _ mesh mp out m1 o1⟩
  · have := (C10_from_vec_ok_iff_permutation mp.connectivityPerm.perm).1.1 m3
    simp only [len] at m5
    rwa [m5] at this
  · intro k s c hk hsc
    obtain ⟨c', q1, q2, -, q3⟩ := o5 k s c hk hsc
    exact ⟨c', q1, q2, q3⟩

example : (MeshPermutation.reorderMeshPar 99 id id
    [(0, [0, 3]), (3, [0, 3]), (3, [3, 1]), (1, [3, 1])] id
    (⟨["a", "b", "c", "d"], [[0, 3], [3, 1]]⟩ : Mesh String)).map
      (fun mp => (mp.apply 99 ⟨["a", "b", "c", "d"], [[0, 3], [3, 1]]⟩).map (fun m => m)) =
    some (some ⟨["b", "d", "a", "c"], [[1, 0], [2, 1]]⟩) := by decide

end Fenris
