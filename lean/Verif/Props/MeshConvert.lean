import Verif.Lemmas.MeshConvert
import Verif.Props.MeshOps
/-! # C19: order elevation -/
set_option autoImplicit false
set_option linter.unusedSectionVars false
set_option linter.unusedSimpArgs false

namespace Fenris
open MeshConvert Element Refine Spec
variable {K : Type} [Field K] [CharZero K]

/-- C19, Tet4 → Tet10. -/
theorem C19_tet10_elevation (mesh : Mesh (Point 3 K)) (hv : ValidCells 4 mesh) :
    ∃ out idx, toTet10 mesh = some out ∧ IsElevation .tet10 mesh out idx :=
  fromTemp_spec .tet10 (fun c => by simp [elevatedNodes, cellParents, Function.comp_def]) _ mesh
    (fun c hc => cellParents_bound .tet10 4 _ (by decide) c (hv c hc).1 (hv c hc).2)
    (fun c hc => tet10_refine _ c (hv c hc).1 (hv c hc).2)

/-- C19, Hex8 → Hex20. -/
theorem C19_hex20_elevation (mesh : Mesh (Point 3 K)) (hv : ValidCells 8 mesh) :
    ∃ out idx, toHex20 mesh = some out ∧ IsElevation .hex20 mesh out idx :=
  fromTemp_spec .hex20 (fun c => by simp [elevatedNodes, cellParents, Function.comp_def]) _ mesh
    (fun c hc => cellParents_bound .hex20 8 _ (by decide) c (hv c hc).1 (hv c hc).2)
    (fun c hc => hex20_refine _ c (hv c hc).1 (hv c hc).2)

/-- C19, Hex8 → Hex27. -/
theorem C19_hex27_elevation (mesh : Mesh (Point 3 K)) (hv : ValidCells 8 mesh) :
    ∃ out idx, toHex27 mesh = some out ∧ IsElevation .hex27 mesh out idx :=
  fromTemp_spec .hex27 (fun c => by simp [elevatedNodes, cellParents, Function.comp_def]) _ mesh
    (fun c hc => cellParents_bound .hex27 8 _ (by decide) c (hv c hc).1 (hv c hc).2)
    (fun c hc => hex27_refine _ c (hv c hc).1 (hv c hc).2)

private theorem mapM_some {α β : Type} (f : α → Option β) (g : α → β) (l : List α)
    (h : ∀ a ∈ l, f a = some (g a)) : l.mapM f = some (l.map g) := by
  induction l with
  | nil => rfl
  | cons a l ih =>
    rw [List.mapM_cons, h a (by simp), ih (fun a ha => h a (by simp [ha]))]
    rfl

/-- C19, Tet4 → Tet20 (the cells must not repeat a vertex: the two nodes of a degenerate edge have
different labels but no distinguishable names). -/
theorem C19_tet20_elevation (mesh : Mesh (Point 3 K)) (hv : ValidCells 4 mesh)
    (hd : ∀ c ∈ mesh.cells, c.Nodup) :
    ∃ out idx, toTet20 mesh = some out ∧ IsElevation .tet20 mesh out idx := by
  have hlab : mesh.cells.mapM tet20Labels =
      some (mesh.cells.map (fun c => (elevatedNodes .tet20 c).map toLabel)) :=
    mapM_some _ _ _ (fun c hc => (tet20_labels (hv c hc).1 (hd c hc)).1)
  obtain ⟨hnd, hmem⟩ := sortDedup_spec
    (mesh.cells.map (fun c => (elevatedNodes .tet20 c).map toLabel)).flatten
  generalize hU : dedupLabels (stableSort Mesh.lexLe
    (mesh.cells.map (fun c => (elevatedNodes .tet20 c).map toLabel)).flatten) = U at hnd hmem
  have hin : ∀ c ∈ mesh.cells, ∀ n ∈ elevatedNodes .tet20 c, toLabel n ∈ U := by
    intro c hc n hn
    rw [hmem]
    exact List.mem_flatten.2 ⟨_, List.mem_map.2 ⟨c, hc, rfl⟩, List.mem_map.2 ⟨n, hn, rfl⟩⟩
  have hsearch : ∀ c ∈ mesh.cells, ∀ n ∈ elevatedNodes .tet20 c,
      searchLabel (toLabel n) U = some ((searchLabel (toLabel n) U).getD 0) ∧
      U[(searchLabel (toLabel n) U).getD 0]? = some (toLabel n) := by
    intro c hc n hn
    obtain ⟨i, h1, h2⟩ := searchLabel_spec (hin c hc n hn)
    rw [h1]; exact ⟨rfl, h2⟩
  have hback : ∀ l ∈ U, ∃ c ∈ mesh.cells, ∃ n ∈ elevatedNodes .tet20 c, toLabel n = l := by
    intro l hl
    rw [hmem] at hl
    obtain ⟨ls, hls, hl⟩ := List.mem_flatten.1 hl
    obtain ⟨c, hc, rfl⟩ := List.mem_map.1 hls
    obtain ⟨n, hn, rfl⟩ := List.mem_map.1 hl
    exact ⟨c, hc, n, hn, rfl⟩
  have hpos : ∀ c ∈ mesh.cells, ∀ n ∈ elevatedNodes .tet20 c,
      ∃ p, tet20Vertex mesh.vertices (toLabel n) = some p ∧ n.IsAt mesh.vertices p := by
    intro c hc n hn
    refine tet20_position _ ((tet20_labels (hv c hc).1 (hd c hc)).2 n hn) ?_
    have hb := (hv c hc).2
    have hl := (hv c hc).1
    match c, hl with
    | [v0, v1, v2, v3], _ =>
      simp only [List.mem_cons, List.not_mem_nil, or_false, forall_eq_or_imp, forall_eq] at hb
      obtain ⟨h0, h1, h2, h3⟩ := hb
      simp only [elevatedNodes, List.mem_cons, List.not_mem_nil, or_false] at hn
      rcases hn with rfl | rfl | rfl | rfl | rfl | rfl | rfl | rfl | rfl | rfl | rfl | rfl | rfl |
        rfl | rfl | rfl | rfl | rfl | rfl | rfl <;> simp [h0, h1, h2, h3]
  have hvs : U.mapM (tet20Vertex mesh.vertices) =
      some (U.map (fun l => (tet20Vertex mesh.vertices l).getD (fun _ => 0))) := by
    refine mapM_some _ _ _ (fun l hl => ?_)
    obtain ⟨c, hc, n, hn, rfl⟩ := hback l hl
    obtain ⟨p, hp, -⟩ := hpos c hc n hn
    rw [hp]; rfl
  have hcells : (mesh.cells.map (fun c => (elevatedNodes .tet20 c).map toLabel)).mapM
      (fun ls => ls.mapM (fun l => searchLabel l U)) =
      some (mesh.cells.map (fun c => (elevatedNodes .tet20 c).map
        (fun n => (searchLabel (toLabel n) U).getD 0))) := by
    have : ∀ ls ∈ mesh.cells.map (fun c => (elevatedNodes .tet20 c).map toLabel),
        ls.mapM (fun l => searchLabel l U) = some (ls.map (fun l => (searchLabel l U).getD 0)) := by
      intro ls hls
      obtain ⟨c, hc, rfl⟩ := List.mem_map.1 hls
      refine mapM_some _ _ _ (fun l hl => ?_)
      obtain ⟨n, hn, rfl⟩ := List.mem_map.1 hl
      exact (hsearch c hc n hn).1
    rw [mapM_some _ _ _ this, List.map_map]
    congr 1
    apply List.map_congr_left
    intro c _
    simp [Function.comp_def]
  refine ⟨⟨U.map (fun l => (tet20Vertex mesh.vertices l).getD (fun _ => 0)), _⟩,
    fun n => (searchLabel (toLabel n) U).getD 0, ?_, ⟨rfl, ?_, ?_, ?_⟩⟩
  · unfold toTet20
    rw [hlab]
    simp only [hU]
    rw [hcells, hvs]
  · intro c hc n hn
    obtain ⟨p, hp, hat⟩ := hpos c hc n hn
    refine ⟨p, ?_, hat⟩
    simp only [List.getElem?_map, (hsearch c hc n hn).2, Option.map_some, hp, Option.getD_some]
  · intro c hc n hn c' hc' n' hn'
    rw [← toLabel_eq_iff ((tet20_labels (hv c hc).1 (hd c hc)).2 n hn)
      ((tet20_labels (hv c' hc').1 (hd c' hc')).2 n' hn')]
    constructor
    · intro h
      have h1 := (hsearch c hc n hn).2
      have h2 := (hsearch c' hc' n' hn').2
      rw [h, h2] at h1
      exact (Option.some.inj h1).symm
    · intro h; rw [h]
  · intro i hi
    simp only [List.length_map] at hi
    obtain ⟨c, hc, n, hn, h⟩ := hback _ (List.getElem_mem hi)
    refine ⟨c, hc, n, hn, ?_⟩
    refine Mesh.nodup_getElem?_inj hnd (hsearch c hc n hn).2 ?_
    rw [h, List.getElem?_eq_getElem hi]

private def conv : ENode → L2
  | .centre [v] => .vertex v
  | .centre [a, b] => .edge a b
  | _ => .cell 0

private theorem perm_pair (a b c e : Nat) :
    [a, b].Perm [c, e] ↔ (a = c ∧ b = e) ∨ (a = e ∧ b = c) := by
  constructor
  · intro h
    have ha := h.mem_iff (a := a)
    have hb := h.mem_iff (a := b)
    have hc := h.mem_iff (a := c)
    have he := h.mem_iff (a := e)
    simp at ha hb hc he
    omega
  · rintro (⟨rfl, rfl⟩ | ⟨rfl, rfl⟩)
    · exact List.Perm.refl _
    · exact List.Perm.swap _ _ _

private theorem canon_conv {n n' : ENode} (hn : ∃ l, n = .centre l ∧ (l.length = 1 ∨ l.length = 2))
    (hn' : ∃ l, n' = .centre l ∧ (l.length = 1 ∨ l.length = 2)) :
    (conv n).canon = (conv n').canon ↔ n.Same n' := by
  obtain ⟨l, rfl, hl⟩ := hn
  obtain ⟨l', rfl, hl'⟩ := hn'
  match l, hl, l', hl' with
  | [a], _, [b], _ => simp [conv, L2.canon, ENode.Same]
  | [a], _, [b, c], _ =>
    simp only [conv, L2.canon, ENode.Same]
    exact Iff.intro (fun h => by cases h) (fun h : List.Perm _ _ => by simpa using h.length_eq)
  | [a, b], _, [c], _ =>
    simp only [conv, L2.canon, ENode.Same]
    exact Iff.intro (fun h => by cases h) (fun h : List.Perm _ _ => by simpa using h.length_eq)
  | [a, b], _, [c, e], _ =>
    simp only [conv, L2.canon, ENode.Same, perm_pair, L2.edge.injEq]
    omega

private theorem pos_canon (vs : List (Point 2 K)) (cells : List (List Nat)) {l l' : L2}
    (h : l.canon = l'.canon) : l.pos vs cells = l'.pos vs cells := by
  cases l <;> cases l' <;> simp [L2.canon] at h
  · rw [h]
  · rename_i a b c e
    have : (a = c ∧ b = e) ∨ (a = e ∧ b = c) := by omega
    exact centrePos_perm vs ((perm_pair a b c e).2 this)
  · rw [h]

private theorem conv_nodes (c : List Nat) : (Spec.boundaryNodes c).map conv = nodes2 c := by
  simp [Spec.boundaryNodes, nodes2, cyclicEdges, conv, Function.comp_def]

private theorem boundary_shape {c : List Nat} {n : ENode} (h : n ∈ Spec.boundaryNodes c) :
    ∃ l, n = .centre l ∧ (l.length = 1 ∨ l.length = 2) := by
  unfold Spec.boundaryNodes at h
  rcases List.mem_append.1 h with h | h
  · obtain ⟨v, -, rfl⟩ := List.mem_map.1 h
    exact ⟨[v], rfl, .inl rfl⟩
  · obtain ⟨e, -, rfl⟩ := List.mem_map.1 h
    exact ⟨[e.1, e.2], rfl, .inr rfl⟩

private theorem boundary_isAt (vs : List (Point 2 K)) (cells : List (List Nat)) {c : List Nat}
    (hc : ∀ v ∈ c, v < vs.length) {n : ENode} (h : n ∈ Spec.boundaryNodes c) :
    n.IsAt vs ((conv n).pos vs cells) := by
  unfold Spec.boundaryNodes at h
  rcases List.mem_append.1 h with h | h
  · obtain ⟨v, hv, rfl⟩ := List.mem_map.1 h
    have := centrePos_isAt vs [v] (by simpa using hc v hv)
    rwa [← single_eq vs (hc v hv), ← show (conv (.centre [v])).pos vs cells = vs[v]'(hc v hv) by
      simp [conv, L2.pos, hc v hv]] at this
  · obtain ⟨e, he, rfl⟩ := List.mem_map.1 h
    have he := cyclicEdges_mem (c := c) he
    exact centrePos_isAt vs [e.1, e.2] (by
      simp only [List.mem_cons, List.not_mem_nil, or_false, forall_eq_or_imp, forall_eq]
      exact ⟨hc _ he.1, hc _ he.2⟩)

/-- For triangles these are all the nodes of the quadratic triangle. -/
theorem C19_boundaryNodes_tri6 (a b c : Nat) :
    Spec.boundaryNodes [a, b, c] = elevatedNodes .tri6 [a, b, c] := rfl

/-- For quadrilaterals these are all the nodes of the biquadratic quadrilateral but the last. -/
theorem C19_boundaryNodes_quad9 (a b c e : Nat) :
    Spec.boundaryNodes [a, b, c, e] ++ [.centre [a, b, c, e]] = elevatedNodes .quad9 [a, b, c, e] :=
  rfl

/-- What interning says about the boundary nodes, given the final table. -/
private theorem table_facts (mesh : Mesh (Point 2 K)) (hb : ∀ c ∈ mesh.cells, ∀ v ∈ c, v < mesh.vertices.length)
    (m : List (L2 × Nat) × Nat) (idx : L2 → Nat) (st : EdgeState K)
    (hinv : TableInv L2.canon m) (hsim : Sim mesh.vertices mesh.cells st m)
    (hidx : ∀ c ∈ mesh.cells, ∀ l ∈ nodes2 c, Idx L2.canon m.1 l (idx l)) :
    mesh.vertices <+: st.1 ∧
    (∀ c ∈ mesh.cells, ∀ v ∈ c, idx (.vertex v) = v) ∧
    (∀ c ∈ mesh.cells, ∀ n ∈ Spec.boundaryNodes c,
      ∃ p, st.1[idx (conv n)]? = some p ∧ n.IsAt mesh.vertices p) ∧
    (∀ c ∈ mesh.cells, ∀ n ∈ Spec.boundaryNodes c, ∀ c' ∈ mesh.cells,
      ∀ n' ∈ Spec.boundaryNodes c', (idx (conv n) = idx (conv n') ↔ n.Same n')) := by
  have hmemn : ∀ c n, n ∈ Spec.boundaryNodes c → conv n ∈ nodes2 c := by
    intro c n hn
    rw [← conv_nodes]
    exact List.mem_map.2 ⟨n, hn, rfl⟩
  refine ⟨?_, ?_, ?_, ?_⟩
  · obtain ⟨t, ht⟩ := hsim.pre
    rw [hsim.verts, ← ht, List.map_append]
    have := (Sim.init mesh.vertices mesh.cells).verts
    simp only at this
    rw [← this]
    exact List.prefix_append _ _
  · intro c hc v hv
    have hi := hidx c hc (.vertex v) (by
      unfold nodes2
      exact List.mem_append_left _ (List.mem_map.2 ⟨v, hv, rfl⟩))
    refine (hinv.idx_iff hi ⟨.vertex v, ?_, rfl⟩).2 rfl
    exact hsim.pre.subset (List.mem_map.2 ⟨v, List.mem_range.2 (hb c hc v hv), rfl⟩)
  · intro c hc n hn
    obtain ⟨l0, hl, hk⟩ := hidx c hc (conv n) (hmemn c n hn)
    refine ⟨l0.pos mesh.vertices mesh.cells, ?_, ?_⟩
    · rw [hsim.verts, List.getElem?_map, TableInv.getElem? hinv hl]
      rfl
    · rw [pos_canon _ _ hk]
      exact boundary_isAt _ _ (hb c hc) hn
  · intro c hc n hn c' hc' n' hn'
    rw [hinv.idx_iff (hidx c hc _ (hmemn c n hn)) (hidx c' hc' _ (hmemn c' n' hn')),
      canon_conv (boundary_shape hn) (boundary_shape hn')]

/-- C19, Tri3 → Tri6: all original vertices keep their indices, edge nodes are appended. -/
theorem C19_tri6_elevation (mesh : Mesh (Point 2 K)) (hv : ValidCells 3 mesh) :
    ∃ out idx, toTri6 mesh = some out ∧ mesh.vertices <+: out.vertices ∧
      (∀ c ∈ mesh.cells, ∀ v ∈ c, idx (.centre [v]) = v) ∧
      out.cells = mesh.cells.map (fun c => (elevatedNodes .tri6 c).map idx) ∧
      (∀ c ∈ mesh.cells, ∀ n ∈ elevatedNodes .tri6 c,
        ∃ p, out.vertices[idx n]? = some p ∧ n.IsAt mesh.vertices p) ∧
      (∀ c ∈ mesh.cells, ∀ n ∈ elevatedNodes .tri6 c, ∀ c' ∈ mesh.cells,
        ∀ n' ∈ elevatedNodes .tri6 c', (idx n = idx n' ↔ n.Same n')) ∧
      ∀ i, mesh.vertices.length ≤ i → i < out.vertices.length →
        ∃ c ∈ mesh.cells, ∃ n ∈ elevatedNodes .tri6 c, idx n = i := by
  have hb : ∀ c ∈ mesh.cells, ∀ v ∈ c, v < mesh.vertices.length := fun c hc => (hv c hc).2
  have hn6 : ∀ c ∈ mesh.cells, Spec.boundaryNodes c = elevatedNodes .tri6 c := by
    intro c hc
    match c, (hv c hc).1 with
    | [a, b, e], _ => rfl
  obtain ⟨st, h1, h2⟩ := tri6Loop_sim mesh.cells (Sim.init mesh.vertices mesh.cells) hb
  obtain ⟨idx, k1, k2, k3, k4, k5⟩ := internCells_numbering L2.canon (id : L2 → L2)
    (mesh.cells.map nodes2) (table0 mesh.vertices.length) (table0_inv _)
  have hid : (mesh.cells.map nodes2).map (·.map (id : L2 → L2)) = mesh.cells.map nodes2 := by
    simp
  rw [hid] at k1 k2 k3 k4 k5
  obtain ⟨f1, f2, f3, f4⟩ := table_facts mesh hb _ idx st k2 h2
    (fun c hc l hl => k4 _ (List.mem_map.2 ⟨c, hc, rfl⟩) l hl)
  refine ⟨⟨st.1, _⟩, fun n => idx (conv n), by unfold toTri6; rw [h1], f1, f2, ?_, ?_, ?_, ?_⟩
  · refine k1.trans ?_
    rw [List.map_map]
    apply List.map_congr_left
    intro c hc
    simp only [Function.comp_def]
    rw [← conv_nodes, hn6 c hc, List.map_map]
    rfl
  · intro c hc n hn
    exact f3 c hc n (by rw [hn6 c hc]; exact hn)
  · intro c hc n hn c' hc' n' hn'
    exact f4 c hc n (by rw [hn6 c hc]; exact hn) c' hc' n' (by rw [hn6 c' hc']; exact hn')
  · intro i hi1 hi2
    simp only at hi2
    rw [← h2.next, ← List.mem_range, ← k2.idx] at hi2
    obtain ⟨⟨l, i'⟩, hl, rfl⟩ := List.mem_map.1 hi2
    rcases k5 _ hl with h | ⟨ns, hns, l', hl', hq⟩
    · obtain ⟨v, hv', h⟩ := List.mem_map.1 h
      cases h
      have := List.mem_range.1 hv'
      simp only at hi1
      omega
    · obtain ⟨c, hc, rfl⟩ := List.mem_map.1 hns
      simp only [id] at hq
      subst hq
      have hl2 := hl'
      rw [← conv_nodes] at hl2
      obtain ⟨n, hn, hnl⟩ := List.mem_map.1 hl2
      refine ⟨c, hc, n, by rw [← hn6 c hc]; exact hn, ?_⟩
      simp only [hnl]
      exact (k2.idx_iff (k4 _ hns l hl') ⟨l, hl, rfl⟩).2 rfl

/-- C19, Quad4 → Quad9: all original vertices keep their indices, edge nodes and cell centres are
appended; cell number `t` gets the centre node `ctr t` of its own. -/
theorem C19_quad9_elevation (mesh : Mesh (Point 2 K)) (hv : ValidCells 4 mesh) :
    ∃ (out : Mesh (Point 2 K)) (idx : ENode → Nat) (ctr : Nat → Nat), toQuad9 mesh = some out ∧ mesh.vertices <+: out.vertices ∧
      (∀ c ∈ mesh.cells, ∀ v ∈ c, idx (.centre [v]) = v) ∧
      out.cells.length = mesh.cells.length ∧
      (∀ t c, mesh.cells[t]? = some c →
        out.cells[t]? = some ((Spec.boundaryNodes c).map idx ++ [ctr t])) ∧
      (∀ c ∈ mesh.cells, ∀ n ∈ Spec.boundaryNodes c,
        ∃ p, out.vertices[idx n]? = some p ∧ n.IsAt mesh.vertices p) ∧
      (∀ t c, mesh.cells[t]? = some c →
        ∃ p, out.vertices[ctr t]? = some p ∧ (ENode.centre c).IsAt mesh.vertices p) ∧
      (∀ c ∈ mesh.cells, ∀ n ∈ Spec.boundaryNodes c, ∀ c' ∈ mesh.cells,
        ∀ n' ∈ Spec.boundaryNodes c', (idx n = idx n' ↔ n.Same n')) ∧
      (∀ t < mesh.cells.length, (∀ c ∈ mesh.cells, ∀ n ∈ Spec.boundaryNodes c, idx n ≠ ctr t) ∧
        ∀ t' < mesh.cells.length, ctr t = ctr t' → t = t') ∧
      ∀ i, mesh.vertices.length ≤ i → i < out.vertices.length →
        (∃ c ∈ mesh.cells, ∃ n ∈ Spec.boundaryNodes c, idx n = i) ∨
          ∃ t < mesh.cells.length, ctr t = i := by
  have hb : ∀ c ∈ mesh.cells, ∀ v ∈ c, v < mesh.vertices.length := fun c hc => (hv c hc).2
  obtain ⟨st, h1, h2⟩ := quad9Loop_sim mesh.cells 0 (fun i c hi => by simpa using hi)
    (Sim.init mesh.vertices mesh.cells)
    (fun s i hs => by
      obtain ⟨v, -, h⟩ := List.mem_map.1 hs
      cases h) hv
  obtain ⟨idx, k1, k2, k3, k4, k5⟩ := internCells_numbering L2.canon (id : L2 → L2)
    (mesh.cells.zipIdx.map nodes9) (table0 mesh.vertices.length) (table0_inv _)
  have hid : (mesh.cells.zipIdx.map nodes9).map (·.map (id : L2 → L2)) =
      mesh.cells.zipIdx.map nodes9 := by
    simp
  rw [hid] at k1 k2 k3 k4 k5
  have hz : ∀ c ∈ mesh.cells, ∃ t : Nat, mesh.cells[t]? = some c := by
    intro c hc
    obtain ⟨t, ht, rfl⟩ := List.getElem_of_mem hc
    exact ⟨t, List.getElem?_eq_getElem ht⟩
  have hzip : ∀ t c, mesh.cells[t]? = some c → nodes9 (c, t) ∈ mesh.cells.zipIdx.map nodes9 := by
    intro t c ht
    refine List.mem_map.2 ⟨(c, t), ?_, rfl⟩
    rw [List.mem_zipIdx_iff_getElem?]
    exact ht
  have hbd : ∀ c ∈ mesh.cells, ∀ l ∈ nodes2 c, Idx L2.canon
      (internCells L2.canon (mesh.cells.zipIdx.map nodes9) (table0 mesh.vertices.length)).2.1 l
      (idx l) := by
    intro c hc l hl
    obtain ⟨t, ht⟩ := hz c hc
    exact k4 _ (hzip t c ht) l (List.mem_append_left _ hl)
  have hct : ∀ t c, mesh.cells[t]? = some c → Idx L2.canon
      (internCells L2.canon (mesh.cells.zipIdx.map nodes9) (table0 mesh.vertices.length)).2.1
      (.cell t) (idx (.cell t)) := by
    intro t c ht
    exact k4 _ (hzip t c ht) (.cell t) (List.mem_append_right _ (by simp))
  obtain ⟨f1, f2, f3, f4⟩ := table_facts mesh hb _ idx st k2 h2 hbd
  have hmemn : ∀ c n, n ∈ Spec.boundaryNodes c → conv n ∈ nodes2 c := by
    intro c n hn
    rw [← conv_nodes]
    exact List.mem_map.2 ⟨n, hn, rfl⟩
  refine ⟨⟨st.1, _⟩, fun n => idx (conv n), fun t => idx (.cell t),
    by unfold toQuad9; rw [h1], f1, f2, ?_, ?_, f3, ?_, f4, ?_, ?_⟩
  · simp only [k1, List.length_map, List.length_zipIdx]
  · intro t c ht
    simp only [k1, List.getElem?_map, List.getElem?_zipIdx, ht, Option.map_some, Nat.zero_add]
    simp only [nodes9, List.map_append, ← conv_nodes, List.map_map]
    rfl
  · intro t c ht
    obtain ⟨l0, hl, hk⟩ := hct t c ht
    refine ⟨l0.pos mesh.vertices mesh.cells, ?_, ?_⟩
    · simp only
      rw [h2.verts, List.getElem?_map, TableInv.getElem? k2 hl]
      rfl
    · rw [pos_canon _ _ hk]
      have : L2.pos mesh.vertices mesh.cells (.cell t) = centrePos mesh.vertices c := by
        simp [L2.pos, List.getD_eq_getElem?_getD, ht]
      rw [this]
      exact centrePos_isAt _ _ (hb c (List.mem_of_getElem? ht))
  · intro t ht
    have ht' := List.getElem?_eq_getElem ht
    constructor
    · intro c hc n hn h
      have := (k2.idx_iff (hbd c hc _ (hmemn c n hn)) (hct t _ ht')).1 h
      obtain ⟨l, rfl, hl⟩ := boundary_shape hn
      match l, hl with
      | [a], _ => simp [conv, L2.canon] at this
      | [a, b], _ => simp [conv, L2.canon] at this
    · intro s hs h
      have := (k2.idx_iff (hct t _ ht') (hct s _ (List.getElem?_eq_getElem hs))).1 h
      simpa [L2.canon] using this
  · intro i hi1 hi2
    simp only at hi2
    rw [← h2.next, ← List.mem_range, ← k2.idx] at hi2
    obtain ⟨⟨l, i'⟩, hl, rfl⟩ := List.mem_map.1 hi2
    rcases k5 _ hl with h | ⟨ns, hns, l', hl', hq⟩
    · obtain ⟨v, hv', h⟩ := List.mem_map.1 h
      cases h
      have := List.mem_range.1 hv'
      simp only at hi1
      omega
    · simp only [id] at hq
      subst hq
      have hi := (k2.idx_iff (k4 _ hns l hl') ⟨l, hl, rfl⟩).2 rfl
      obtain ⟨⟨c, t⟩, hc, rfl⟩ := List.mem_map.1 hns
      rw [List.mem_zipIdx_iff_getElem?] at hc
      simp only at hc
      rcases List.mem_append.1 hl' with hl2 | hl2
      · left
        rw [← conv_nodes] at hl2
        obtain ⟨n, hn, hnl⟩ := List.mem_map.1 hl2
        exact ⟨c, List.mem_of_getElem? hc, n, hn, by simp only [hnl]; exact hi⟩
      · right
        simp only [List.mem_cons, List.not_mem_nil, or_false] at hl2
        refine ⟨t, (List.getElem?_eq_some_iff.1 hc).1, ?_⟩
        rw [hl2] at hi
        exact hi

/-- C19, back from Tet10 to Tet4: converting a Tet4 mesh to Tet10 and back gives a mesh whose cells,
in the same order, have the same vertex coordinates, and which has no vertices but those of the
cells. -/
theorem C19_tet10_round_trip (mesh : Mesh (Point 3 K)) (hv : ValidCells 4 mesh) :
    ∃ mid out, toTet10 mesh = some mid ∧ tet10ToTet4 mid = some out ∧
      out.cells.map (fun c => c.map (fun v => out.vertices[v]?)) =
        mesh.cells.map (fun c => c.map (fun v => mesh.vertices[v]?)) := by
  obtain ⟨mid, idx, h1, h2⟩ := C19_tet10_elevation mesh hv
  have hfirst : ∀ c ∈ mesh.cells,
      ((elevatedNodes .tet10 c).map idx).take 4 = c.map (fun v => idx (.centre [v])) := by
    intro c hc
    match c, (hv c hc).1 with
    | [a, b, e, f], _ => rfl
  have hpos : ∀ c ∈ mesh.cells, ∀ v ∈ c, mid.vertices[idx (.centre [v])]? = mesh.vertices[v]? := by
    intro c hc v hv'
    have hmem : ENode.centre [v] ∈ elevatedNodes .tet10 c := by
      match c, (hv c hc).1 with
      | [a, b, e, f], _ =>
        simp only [List.mem_cons, List.not_mem_nil, or_false] at hv'
        rcases hv' with rfl | rfl | rfl | rfl <;> simp [elevatedNodes, entities]
    obtain ⟨p, hp, ps, hps, rfl⟩ := h2.position c hc _ hmem
    have hlt := (hv c hc).2 v hv'
    rw [hp, List.getElem?_eq_getElem hlt]
    simp [List.getElem?_eq_getElem hlt] at hps
    subst hps
    congr 1
    funext r
    simp [average]
  have hvalid : ∀ c ∈ mid.cells.map (·.take 4), ∀ v ∈ c, v < mid.vertices.length := by
    intro c hc v hv'
    rw [h2.cells, List.map_map] at hc
    obtain ⟨c0, hc0, rfl⟩ := List.mem_map.1 hc
    simp only [Function.comp_apply] at hv'
    rw [hfirst c0 hc0] at hv'
    obtain ⟨w, hw, rfl⟩ := List.mem_map.1 hv'
    have := hpos c0 hc0 w hw
    have hlt := (hv c0 hc0).2 w hw
    rw [List.getElem?_eq_getElem hlt] at this
    exact (List.getElem?_eq_some_iff.1 this).1
  cases hk : tet10ToTet4 mid with
  | none =>
    unfold tet10ToTet4 at hk
    obtain ⟨i, hi, hle⟩ := (C15_keep_cells_panics_iff_out_of_range
      (⟨mid.vertices, mid.cells.map (·.take 4)⟩ : Mesh (Point 3 K)) _ hvalid).1 hk
    simp only [List.length_map, List.mem_range] at hi hle
    omega
  | some out =>
    refine ⟨mid, out, h1, hk, ?_⟩
    unfold tet10ToTet4 at hk
    obtain ⟨g1, g2, -⟩ := C15_keep_cells_keeps_selected_cells _ out _ hvalid hk
    simp only [List.length_range] at g1
    have hlen : mid.cells.length = mesh.cells.length := by rw [h2.cells, List.length_map]
    apply List.ext_getElem?
    intro k
    by_cases hk2 : k < mesh.cells.length
    · have hmc : (mid.cells.map (·.take 4))[k]? =
          some (mesh.cells[k].map (fun v => idx (.centre [v]))) := by
        rw [h2.cells, List.map_map, List.getElem?_map, List.getElem?_eq_getElem hk2,
          Option.map_some, Function.comp_apply, hfirst _ (List.getElem_mem hk2)]
      obtain ⟨c', e1, -, e3⟩ := g2 k k _ (by rw [List.getElem?_range]; omega) hmc
      rw [List.getElem?_map, e1, Option.map_some, e3, List.getElem?_map,
        List.getElem?_eq_getElem hk2, Option.map_some, List.map_map]
      congr 1
      apply List.map_congr_left
      intro v hv'
      exact hpos _ (List.getElem_mem hk2) v hv'
    · rw [List.getElem?_eq_none (by rw [List.length_map]; omega),
        List.getElem?_eq_none (by rw [List.length_map]; omega)]

private theorem explicit3' {c : List Nat} (h : c.length = 3) : ∃ v0 v1 v2, c = [v0, v1, v2] := by
  match c, h with
  | [v0, v1, v2], _ => exact ⟨_, _, _, rfl⟩

private theorem explicit4' {c : List Nat} (h : c.length = 4) : ∃ v0 v1 v2 v3, c = [v0, v1, v2, v3] := by
  match c, h with
  | [v0, v1, v2, v3], _ => exact ⟨_, _, _, _, rfl⟩

private theorem explicit8' {c : List Nat} (h : c.length = 8) :
    ∃ v0 v1 v2 v3 v4 v5 v6 v7, c = [v0, v1, v2, v3, v4, v5, v6, v7] := by
  match c, h with
  | [v0, v1, v2, v3, v4, v5, v6, v7], _ => exact ⟨_, _, _, _, _, _, _, _, rfl⟩

private theorem coords_of {g : Nat} (ws : List (Point g K)) (c : List Nat)
    (elem : List (Point g K)) (he : c.mapM (ws[·]?) = some elem) : elem.length = c.length ∧
    ∀ i (h : i < elem.length), ws[c.getD i 0]? = some elem[i] := by
  induction c generalizing elem with
  | nil => cases he; simp
  | cons v c ih =>
    rw [List.mapM_cons] at he
    cases hv : ws[v]? with
    | none => rw [hv] at he; cases he
    | some p =>
      cases hc : c.mapM (ws[·]?) with
      | none => rw [hv, hc] at he; cases he
      | some ps =>
        rw [hv, hc] at he
        cases he
        obtain ⟨h1, h2⟩ := ih ps hc
        refine ⟨by simp [h1], ?_⟩
        intro i hi
        cases i with
        | zero => simpa using hv
        | succ i => simpa using h2 i (by simpa using hi)

set_option maxHeartbeats 2000000 in
private theorem images_tri6 {g : Nat} (vs : List (Point g K)) (v0 v1 v2 : Nat)
    (q0 q1 q2 : Point g K)
    (g0 : vs[v0]? = some q0)
    (g1 : vs[v1]? = some q1)
    (g2 : vs[v2]? = some q2) :
    List.Forall₂ (fun n x => ∀ p, n.IsAt vs p → p = mapReferenceCoords .tri6 [q0, q1, q2] x)
      (elevatedNodes .tri6 [v0, v1, v2]) (refNodes .tri6) := by
    unfold refNodes
    simp only [elevatedNodes, entities, tri6Nodes, List.map_cons, List.map_nil, List.getD_cons_zero,
      List.getD_cons_succ, List.cons_append, List.nil_append]
    repeat' first | exact List.Forall₂.nil | refine List.Forall₂.cons ?_ ?_
    all_goals
      intro p hp
      first
      | (obtain ⟨qs, h1, rfl⟩ := hp
         simp [g0, g1, g2] at h1
         subst h1
         funext r
         simp [average, mapReferenceCoords, geometryBasis, weightedSum, Kind.numNodes, tri3Basis, tri3Psi]
         try ring)

set_option maxHeartbeats 2000000 in
private theorem images_quad9 {g : Nat} (vs : List (Point g K)) (v0 v1 v2 v3 : Nat)
    (q0 q1 q2 q3 : Point g K)
    (g0 : vs[v0]? = some q0)
    (g1 : vs[v1]? = some q1)
    (g2 : vs[v2]? = some q2)
    (g3 : vs[v3]? = some q3) :
    List.Forall₂ (fun n x => ∀ p, n.IsAt vs p → p = mapReferenceCoords .quad9 [q0, q1, q2, q3] x)
      (elevatedNodes .quad9 [v0, v1, v2, v3]) (refNodes .quad9) := by
    unfold refNodes
    simp only [elevatedNodes, entities, quad9Nodes, List.map_cons, List.map_nil, List.getD_cons_zero,
      List.getD_cons_succ, List.cons_append, List.nil_append]
    repeat' first | exact List.Forall₂.nil | refine List.Forall₂.cons ?_ ?_
    all_goals
      intro p hp
      first
      | (obtain ⟨qs, h1, rfl⟩ := hp
         simp [g0, g1, g2, g3] at h1
         subst h1
         funext r
         simp [average, mapReferenceCoords, geometryBasis, weightedSum, Kind.numNodes, quad4Basis, quad4Phi]
         try ring)

set_option maxHeartbeats 2000000 in
private theorem images_tet10 {g : Nat} (vs : List (Point g K)) (v0 v1 v2 v3 : Nat)
    (q0 q1 q2 q3 : Point g K)
    (g0 : vs[v0]? = some q0)
    (g1 : vs[v1]? = some q1)
    (g2 : vs[v2]? = some q2)
    (g3 : vs[v3]? = some q3) :
    List.Forall₂ (fun n x => ∀ p, n.IsAt vs p → p = mapReferenceCoords .tet10 [q0, q1, q2, q3] x)
      (elevatedNodes .tet10 [v0, v1, v2, v3]) (refNodes .tet10) := by
    unfold refNodes
    simp only [elevatedNodes, entities, Element.tet10Nodes, List.map_cons, List.map_nil, List.getD_cons_zero,
      List.getD_cons_succ, List.cons_append, List.nil_append]
    repeat' first | exact List.Forall₂.nil | refine List.Forall₂.cons ?_ ?_
    all_goals
      intro p hp
      first
      | (obtain ⟨qs, h1, rfl⟩ := hp
         simp [g0, g1, g2, g3] at h1
         subst h1
         funext r
         simp [average, mapReferenceCoords, geometryBasis, weightedSum, Kind.numNodes, tet4Basis, tet4Psi]
         try ring)

set_option maxHeartbeats 2000000 in
private theorem images_tet20 {g : Nat} (vs : List (Point g K)) (v0 v1 v2 v3 : Nat)
    (q0 q1 q2 q3 : Point g K)
    (g0 : vs[v0]? = some q0)
    (g1 : vs[v1]? = some q1)
    (g2 : vs[v2]? = some q2)
    (g3 : vs[v3]? = some q3) :
    List.Forall₂ (fun n x => ∀ p, n.IsAt vs p → p = mapReferenceCoords .tet20 [q0, q1, q2, q3] x)
      (elevatedNodes .tet20 [v0, v1, v2, v3]) (refNodes .tet20) := by
    unfold refNodes
    simp only [elevatedNodes, tet20Nodes, List.map_cons, List.map_nil, List.getD_cons_zero,
      List.getD_cons_succ, List.cons_append, List.nil_append]
    repeat' first | exact List.Forall₂.nil | refine List.Forall₂.cons ?_ ?_
    all_goals
      intro p hp
      first
      | (obtain ⟨qs, h1, rfl⟩ := hp
         simp [g0, g1, g2, g3] at h1
         subst h1
         funext r
         simp [average, mapReferenceCoords, geometryBasis, weightedSum, Kind.numNodes, tet4Basis, tet4Psi]
         try ring)
      | (obtain ⟨x, y, h1, h2, rfl⟩ := hp
         simp [g0, g1, g2, g3] at h1 h2
         subst h1 h2
         funext r
         simp [mapReferenceCoords, geometryBasis, weightedSum, Kind.numNodes, tet4Basis, tet4Psi]
         ring)

set_option maxHeartbeats 2000000 in
private theorem images_hex20 {g : Nat} (vs : List (Point g K)) (v0 v1 v2 v3 v4 v5 v6 v7 : Nat)
    (q0 q1 q2 q3 q4 q5 q6 q7 : Point g K)
    (g0 : vs[v0]? = some q0)
    (g1 : vs[v1]? = some q1)
    (g2 : vs[v2]? = some q2)
    (g3 : vs[v3]? = some q3)
    (g4 : vs[v4]? = some q4)
    (g5 : vs[v5]? = some q5)
    (g6 : vs[v6]? = some q6)
    (g7 : vs[v7]? = some q7) :
    List.Forall₂ (fun n x => ∀ p, n.IsAt vs p → p = mapReferenceCoords .hex20 [q0, q1, q2, q3, q4, q5, q6, q7] x)
      (elevatedNodes .hex20 [v0, v1, v2, v3, v4, v5, v6, v7]) (refNodes .hex20) := by
    unfold refNodes
    simp only [elevatedNodes, entities, hex20Nodes, hex8Nodes, hexEdgeNodes, List.map_cons, List.map_nil, List.getD_cons_zero,
      List.getD_cons_succ, List.cons_append, List.nil_append]
    repeat' first | exact List.Forall₂.nil | refine List.Forall₂.cons ?_ ?_
    all_goals
      intro p hp
      first
      | (obtain ⟨qs, h1, rfl⟩ := hp
         simp [g0, g1, g2, g3, g4, g5, g6, g7] at h1
         subst h1
         funext r
         simp [average, mapReferenceCoords, geometryBasis, weightedSum, Kind.numNodes, hex8Basis, hex8Phi, phiLinear1d]
         try ring)

set_option maxHeartbeats 2000000 in
private theorem images_hex27 {g : Nat} (vs : List (Point g K)) (v0 v1 v2 v3 v4 v5 v6 v7 : Nat)
    (q0 q1 q2 q3 q4 q5 q6 q7 : Point g K)
    (g0 : vs[v0]? = some q0)
    (g1 : vs[v1]? = some q1)
    (g2 : vs[v2]? = some q2)
    (g3 : vs[v3]? = some q3)
    (g4 : vs[v4]? = some q4)
    (g5 : vs[v5]? = some q5)
    (g6 : vs[v6]? = some q6)
    (g7 : vs[v7]? = some q7) :
    List.Forall₂ (fun n x => ∀ p, n.IsAt vs p → p = mapReferenceCoords .hex27 [q0, q1, q2, q3, q4, q5, q6, q7] x)
      (elevatedNodes .hex27 [v0, v1, v2, v3, v4, v5, v6, v7]) (refNodes .hex27) := by
    unfold refNodes
    simp only [elevatedNodes, entities, hex27Nodes, hex8Nodes, hexEdgeNodes, List.map_cons, List.map_nil, List.getD_cons_zero,
      List.getD_cons_succ, List.cons_append, List.nil_append]
    repeat' first | exact List.Forall₂.nil | refine List.Forall₂.cons ?_ ?_
    all_goals
      intro p hp
      first
      | (obtain ⟨qs, h1, rfl⟩ := hp
         simp [g0, g1, g2, g3, g4, g5, g6, g7] at h1
         subst h1
         funext r
         simp [average, mapReferenceCoords, geometryBasis, weightedSum, Kind.numNodes, hex8Basis, hex8Phi, phiLinear1d]
         try ring)

/-- C19, geometry: node number `j` of the elevated cell lies at the image, under the geometry map of
the cell, of node number `j` of the reference element.  So the elevated mesh parametrises the same
cells, with the nodes in the order the higher-order elements expect. -/
theorem C19_nodes_are_images_of_reference_nodes {g : Nat} (e : Kind)
    (he : e ∈ [Kind.tri6, .quad9, .tet10, .tet20, .hex20, .hex27]) (vs : List (Point g K))
    (c : List Nat) (elem : List (Point g K)) (hc : c.length = e.geometry.numNodes)
    (hel : c.mapM (vs[·]?) = some elem) :
    List.Forall₂ (fun n x => ∀ p, n.IsAt vs p → p = mapReferenceCoords e elem x)
      (elevatedNodes e c) (refNodes e) := by
  simp only [List.mem_cons, List.not_mem_nil, or_false] at he
  obtain ⟨hlen, hget⟩ := coords_of vs c elem hel
  rw [hc] at hlen
  rcases he with rfl | rfl | rfl | rfl | rfl | rfl
  · obtain ⟨v0, v1, v2, rfl⟩ := explicit3' (show c.length = 3 from hc)
    match elem, (show elem.length = 3 from hlen) with
    | [q0, q1, q2], _ =>
      exact images_tri6 vs v0 v1 v2 q0 q1 q2
        (hget 0 (by simp)) (hget 1 (by simp)) (hget 2 (by simp))
  · obtain ⟨v0, v1, v2, v3, rfl⟩ := explicit4' (show c.length = 4 from hc)
    match elem, (show elem.length = 4 from hlen) with
    | [q0, q1, q2, q3], _ =>
      exact images_quad9 vs v0 v1 v2 v3 q0 q1 q2 q3
        (hget 0 (by simp)) (hget 1 (by simp)) (hget 2 (by simp)) (hget 3 (by simp))
  · obtain ⟨v0, v1, v2, v3, rfl⟩ := explicit4' (show c.length = 4 from hc)
    match elem, (show elem.length = 4 from hlen) with
    | [q0, q1, q2, q3], _ =>
      exact images_tet10 vs v0 v1 v2 v3 q0 q1 q2 q3
        (hget 0 (by simp)) (hget 1 (by simp)) (hget 2 (by simp)) (hget 3 (by simp))
  · obtain ⟨v0, v1, v2, v3, rfl⟩ := explicit4' (show c.length = 4 from hc)
    match elem, (show elem.length = 4 from hlen) with
    | [q0, q1, q2, q3], _ =>
      exact images_tet20 vs v0 v1 v2 v3 q0 q1 q2 q3
        (hget 0 (by simp)) (hget 1 (by simp)) (hget 2 (by simp)) (hget 3 (by simp))
  · obtain ⟨v0, v1, v2, v3, v4, v5, v6, v7, rfl⟩ := explicit8' (show c.length = 8 from hc)
    match elem, (show elem.length = 8 from hlen) with
    | [q0, q1, q2, q3, q4, q5, q6, q7], _ =>
      exact images_hex20 vs v0 v1 v2 v3 v4 v5 v6 v7 q0 q1 q2 q3 q4 q5 q6 q7
        (hget 0 (by simp)) (hget 1 (by simp)) (hget 2 (by simp)) (hget 3 (by simp)) (hget 4 (by simp)) (hget 5 (by simp)) (hget 6 (by simp)) (hget 7 (by simp))
  · obtain ⟨v0, v1, v2, v3, v4, v5, v6, v7, rfl⟩ := explicit8' (show c.length = 8 from hc)
    match elem, (show elem.length = 8 from hlen) with
    | [q0, q1, q2, q3, q4, q5, q6, q7], _ =>
      exact images_hex27 vs v0 v1 v2 v3 v4 v5 v6 v7 q0 q1 q2 q3 q4 q5 q6 q7
        (hget 0 (by simp)) (hget 1 (by simp)) (hget 2 (by simp)) (hget 3 (by simp)) (hget 4 (by simp)) (hget 5 (by simp)) (hget 6 (by simp)) (hget 7 (by simp))

/-- Two tetrahedra glued along a face meet the hypotheses of the conversions of tetrahedra. -/
example : ValidCells 4 (⟨[![0, 0, 0], ![1, 0, 0], ![0, 1, 0], ![0, 0, 1], ![1, 1, 1]],
    [[0, 1, 2, 3], [4, 2, 1, 3]]⟩ : Mesh (Point 3 ℚ)) ∧
    ∀ c ∈ [[0, 1, 2, 3], [4, 2, 1, 3]], c.Nodup := by
  constructor
  · intro c hc
    simp only [List.mem_cons, List.not_mem_nil, or_false] at hc
    rcases hc with rfl | rfl <;> simp
  · decide

/-- Two quadrilaterals glued along an edge meet the hypotheses of the Quad9 conversion. -/
example : ValidCells 4 (⟨[![0, 0], ![1, 0], ![2, 0], ![0, 1], ![1, 1], ![2, 1]],
    [[0, 1, 4, 3], [1, 2, 5, 4]]⟩ : Mesh (Point 2 ℚ)) := by
  intro c hc
  simp only [List.mem_cons, List.not_mem_nil, or_false] at hc
  rcases hc with rfl | rfl <;> simp

/-- The shared edge `1-4` of that mesh gets one node (number 7), the cells get centres 10 and 14. -/
example : (toQuad9 (⟨[![0, 0], ![1, 0], ![2, 0], ![0, 1], ![1, 1], ![2, 1]],
    [[0, 1, 4, 3], [1, 2, 5, 4]]⟩ : Mesh (Point 2 ℚ))).map (·.cells) =
    some [[0, 1, 4, 3, 6, 7, 8, 9, 10], [1, 2, 5, 4, 11, 12, 13, 7, 14]] := by
  decide +kernel

end Fenris
