import Verif.Lemmas.Refinement
import Verif.Lemmas.MeshOps
import Verif.Lemmas.Permutation
import Verif.Spec.MeshConvert
import Mathlib.Tactic.Ring
import Mathlib.Tactic.FieldSimp
import Mathlib.Tactic.NormNum
import Mathlib.Tactic.FinCases
import Mathlib.Algebra.CharZero.Defs
import Mathlib.Algebra.BigOperators.Group.List.Basic
/-! Lemmas for order elevation (C19). -/
set_option autoImplicit false
set_option linter.unusedSectionVars false

namespace Fenris
namespace MeshConvert
open Element Refine Spec

section Intern
variable {L κ N : Type} [DecidableEq κ]

/-- Interning the labels of nodes gives a numbering of the nodes. -/
theorem internCells_numbering (key : L → κ) (toL : N → L) (nss : List (List N))
    (st0 : List (L × Nat) × Nat) (h0 : TableInv key st0) :
    ∃ idx : N → Nat,
      (internCells key (nss.map (·.map toL)) st0).1 = nss.map (·.map idx) ∧
      TableInv key (internCells key (nss.map (·.map toL)) st0).2 ∧
      st0.1 <+: (internCells key (nss.map (·.map toL)) st0).2.1 ∧
      (∀ ns ∈ nss, ∀ n ∈ ns,
        Idx key (internCells key (nss.map (·.map toL)) st0).2.1 (toL n) (idx n)) ∧
      ∀ e ∈ (internCells key (nss.map (·.map toL)) st0).2.1,
        e ∈ st0.1 ∨ ∃ ns ∈ nss, ∃ n ∈ ns, e.1 = toL n := by
  obtain ⟨s1, s2, s3, s4⟩ := internCells_spec (key := key) (nss.map (·.map toL)) st0 h0
  generalize internCells key (nss.map (·.map toL)) st0 = r at s1 s2 s3 s4 ⊢
  obtain ⟨out, m⟩ := r
  simp only at s1 s2 s3 s4 ⊢
  have one : ∀ (n : N) (i : Nat), Idx key m.1 (toL n) i →
      i = (lookup key (toL n) m.1).getD 0 := by
    rintro n i ⟨l0, hl, hk⟩
    cases hlk : lookup key (toL n) m.1 with
    | none => exact absurd hk (lookup_none hlk _ hl)
    | some j => exact (s1.idx_iff ⟨l0, hl, hk⟩ (lookup_some hlk)).2 rfl
  have row : ∀ (ns : List N) (os : List Nat), List.Forall₂ (Idx key m.1) (ns.map toL) os →
      os = ns.map (fun n => (lookup key (toL n) m.1).getD 0) ∧
      ∀ n ∈ ns, Idx key m.1 (toL n) ((lookup key (toL n) m.1).getD 0) := by
    intro ns
    induction ns with
    | nil => intro os h; cases h; exact ⟨rfl, by simp⟩
    | cons n ns ih =>
      intro os h
      cases h with
      | cons h1 h2 =>
        obtain ⟨g1, g2⟩ := ih _ h2
        have hi := one n _ h1
        refine ⟨by rw [List.map_cons, ← g1, ← hi], ?_⟩
        intro n' hn'
        rcases List.mem_cons.1 hn' with rfl | hn'
        · rw [← hi]; exact h1
        · exact g2 n' hn'
  have rows : ∀ (nss : List (List N)) (os : List (List Nat)),
      List.Forall₂ (List.Forall₂ (Idx key m.1)) (nss.map (·.map toL)) os →
      os = nss.map (·.map (fun n => (lookup key (toL n) m.1).getD 0)) ∧
      ∀ ns ∈ nss, ∀ n ∈ ns, Idx key m.1 (toL n) ((lookup key (toL n) m.1).getD 0) := by
    intro nss
    induction nss with
    | nil => intro os h; cases h; exact ⟨rfl, by simp⟩
    | cons ns nss ih =>
      intro os h
      cases h with
      | cons h1 h2 =>
        obtain ⟨g1, g2⟩ := ih _ h2
        obtain ⟨r1, r2⟩ := row ns _ h1
        refine ⟨by rw [List.map_cons, ← g1, ← r1], ?_⟩
        intro ns' hns'
        rcases List.mem_cons.1 hns' with rfl | hns'
        · exact r2
        · exact g2 ns' hns'
  obtain ⟨r1, r2⟩ := rows nss out s2
  refine ⟨_, r1, s1, s3, r2, ?_⟩
  intro e he
  rcases s4 e he with h | ⟨c, hc, hec⟩
  · exact .inl h
  · obtain ⟨ns, hns, rfl⟩ := List.mem_map.1 hc
    obtain ⟨n, hn, hne⟩ := List.mem_map.1 hec
    exact .inr ⟨ns, hns, n, hn, hne.symm⟩

/-- Entry number `i` of the table carries index `i`. -/
theorem TableInv.getElem? {key : L → κ} {m : List (L × Nat) × Nat} (h : TableInv key m)
    {l : L} {i : Nat} (hm : (l, i) ∈ m.1) : m.1[i]? = some (l, i) := by
  obtain ⟨j, hj, hje⟩ := List.getElem_of_mem hm
  have h1 : (m.1.map (·.2))[j]? = some i := by
    rw [List.getElem?_map, List.getElem?_eq_getElem hj, hje]; rfl
  rw [h.idx, List.getElem?_range (by
    have := congrArg List.length h.idx
    simp only [List.length_map, List.length_range] at this
    omega)] at h1
  cases h1
  rw [List.getElem?_eq_getElem hj, hje]

theorem TableInv.length {key : L → κ} {m : List (L × Nat) × Nat} (h : TableInv key m) :
    m.1.length = m.2 := by
  have := congrArg List.length h.idx
  simpa using this
end Intern

variable {K : Type} [Field K] [CharZero K] {d : Nat}

/-- Position of the centre of an entity. -/
def centrePos (vs : List (Point d K)) (ps : List Nat) : Point d K :=
  average (ps.map (fun v => (vs[v]?).getD (fun _ => 0)))

theorem centrePos_perm (vs : List (Point d K)) {ps qs : List Nat} (h : ps.Perm qs) :
    centrePos vs ps = centrePos vs qs := by
  funext r
  unfold centrePos average
  rw [List.length_map, List.length_map, h.length_eq]
  congr 1
  exact ((h.map _).map _).sum_eq

theorem centrePos_isAt (vs : List (Point d K)) (ps : List Nat) (h : ∀ v ∈ ps, v < vs.length) :
    (ENode.centre ps).IsAt vs (centrePos vs ps) := by
  refine ⟨ps.map (fun v => (vs[v]?).getD (fun _ => 0)), ?_, rfl⟩
  induction ps with
  | nil => rfl
  | cons v ps ih =>
    have hv := h v (by simp)
    rw [List.mapM_cons, ih (fun w hw => h w (by simp [hw])), List.getElem?_eq_getElem hv]
    simp [List.getElem?_eq_getElem hv]

/-- The parents of the nodes that replace a cell. -/
def cellParents (e : Kind) (c : List Nat) : List (List Nat) :=
  (entities e).map (fun l => l.map (fun i => c.getD i 0))

/-- If the nodes pushed for each cell are the centres of its entities, `fromTemp` is an
elevation. -/
theorem fromTemp_spec (e : Kind) (he : ∀ c, elevatedNodes e c = (cellParents e c).map .centre)
    (refine' : List (Point d K) → List Nat → Option (List (NewNode (Point d K))))
    (mesh : Mesh (Point d K))
    (hb : ∀ c ∈ mesh.cells, ∀ ps ∈ cellParents e c, ∀ v ∈ ps, v < mesh.vertices.length)
    (hr : ∀ c ∈ mesh.cells, refine' mesh.vertices c =
      some ((cellParents e c).map (fun ps => ⟨0, ps, centrePos mesh.vertices ps⟩))) :
    ∃ out idx, fromTemp refine' mesh = some out ∧ IsElevation e mesh out idx := by
  have hm : mesh.cells.mapM (refine' mesh.vertices) = some ((mesh.cells.map (cellParents e)).map
      (·.map (fun ps => (⟨0, ps, centrePos mesh.vertices ps⟩ : NewNode (Point d K))))) := by
    have : ∀ cs : List (List Nat), (∀ c ∈ cs, refine' mesh.vertices c =
        some ((cellParents e c).map (fun ps => ⟨0, ps, centrePos mesh.vertices ps⟩))) →
        cs.mapM (refine' mesh.vertices) = some ((cs.map (cellParents e)).map
      (·.map (fun ps => (⟨0, ps, centrePos mesh.vertices ps⟩ : NewNode (Point d K))))) := by
      intro cs
      induction cs with
      | nil => intro _; rfl
      | cons c cs ih =>
        intro h
        rw [List.mapM_cons, h c (by simp), ih (fun c hc => h c (by simp [hc]))]
        rfl
    exact this _ hr
  obtain ⟨idx, h1, h2, -, h4, h5⟩ := internCells_numbering NewNode.key
    (fun ps => (⟨0, ps, centrePos mesh.vertices ps⟩ : NewNode (Point d K)))
    (mesh.cells.map (cellParents e)) ([], 0) (TableInv.nil _)
  have hkey : ∀ ps qs, NewNode.key (⟨0, ps, centrePos mesh.vertices ps⟩ : NewNode (Point d K)) =
      NewNode.key (⟨0, qs, centrePos mesh.vertices qs⟩ : NewNode (Point d K)) ↔ ps.Perm qs := by
    intro ps qs
    simp only [NewNode.key, Prod.mk.injEq, true_and]
    exact Mesh.sortNat_eq_iff ps qs
  have hmem : ∀ c ∈ mesh.cells, ∀ n ∈ elevatedNodes e c, ∃ ps, n = .centre ps ∧
      ps ∈ cellParents e c ∧ cellParents e c ∈ mesh.cells.map (cellParents e) := by
    intro c hc n hn
    rw [he] at hn
    obtain ⟨ps, hps, rfl⟩ := List.mem_map.1 hn
    exact ⟨ps, rfl, hps, List.mem_map.2 ⟨c, hc, rfl⟩⟩
  refine ⟨⟨_, _⟩, fun n => match n with | .centre ps => idx ps | .third _ _ => 0, by
    unfold fromTemp; rw [hm], ⟨?_, ?_, ?_, ?_⟩⟩
  · refine h1.trans ?_
    rw [List.map_map]
    apply List.map_congr_left
    intro c _
    rw [he, List.map_map]
    rfl
  · intro c hc n hn
    obtain ⟨ps, rfl, hps, hcs⟩ := hmem c hc n hn
    obtain ⟨l0, hl, hk⟩ := h4 _ hcs ps hps
    have hlt := TableInv.getElem? h2 hl
    refine ⟨l0.vertex, ?_, ?_⟩
    · simp only [List.getElem?_map, hlt]; rfl
    · rcases h5 _ hl with h | ⟨ns, -, qs, -, hq⟩
      · cases h
      · simp only at hq
        rw [hq] at hk ⊢
        have := centrePos_perm mesh.vertices ((hkey qs ps).1 hk)
        simp only
        rw [this]
        exact centrePos_isAt _ _ (hb c hc ps hps)
  · intro c hc n hn c' hc' n' hn'
    obtain ⟨ps, rfl, hps, hcs⟩ := hmem c hc n hn
    obtain ⟨qs, rfl, hqs, hcs'⟩ := hmem c' hc' n' hn'
    exact (h2.idx_iff (h4 _ hcs ps hps) (h4 _ hcs' qs hqs)).trans (hkey ps qs)
  · intro i hi
    rw [List.length_map, TableInv.length h2, ← List.mem_range, ← h2.idx] at hi
    obtain ⟨⟨l, i'⟩, hl, rfl⟩ := List.mem_map.1 hi
    rcases h5 _ hl with h | ⟨ns, hns, qs, hqs, hq⟩
    · cases h
    · obtain ⟨c, hc, rfl⟩ := List.mem_map.1 hns
      refine ⟨c, hc, .centre qs, by rw [he]; exact List.mem_map.2 ⟨qs, hqs, rfl⟩, ?_⟩
      exact (h2.idx_iff (h4 _ hns qs hqs) ⟨l, hl, by rw [← hq]⟩).2 rfl

/-! ### The nodes pushed for a cell -/

private theorem explicit4 {c : List Nat} (h : c.length = 4) : ∃ v0 v1 v2 v3, c = [v0, v1, v2, v3] := by
  match c, h with
  | [v0, v1, v2, v3], _ => exact ⟨_, _, _, _, rfl⟩

private theorem explicit8 {c : List Nat} (h : c.length = 8) :
    ∃ v0 v1 v2 v3 v4 v5 v6 v7, c = [v0, v1, v2, v3, v4, v5, v6, v7] := by
  match c, h with
  | [v0, v1, v2, v3, v4, v5, v6, v7], _ => exact ⟨_, _, _, _, _, _, _, _, rfl⟩

theorem lerpHalf_eq (vs : List (Point d K)) (a b : Nat) :
    lerpHalf (centrePos vs [a]) (centrePos vs [b]) = centrePos vs [a, b] := by
  funext r
  simp [lerpHalf, centrePos, average]
  ring

theorem single_eq (vs : List (Point d K)) {a : Nat} (ha : a < vs.length) :
    vs[a] = centrePos vs [a] := by
  funext r
  simp [centrePos, average, ha]

theorem tet10_refine (vs : List (Point 3 K)) (c : List Nat) (hl : c.length = 4)
    (hb : ∀ v ∈ c, v < vs.length) :
    tet10Nodes' vs c = some ((cellParents .tet10 c).map (fun ps => ⟨0, ps, centrePos vs ps⟩)) := by
  obtain ⟨v0, v1, v2, v3, rfl⟩ := explicit4 hl
  simp only [List.mem_cons, List.not_mem_nil, or_false, forall_eq_or_imp, forall_eq] at hb
  obtain ⟨h0, h1, h2, h3⟩ := hb
  simp [tet10Nodes', allNodes, vertexNode, edgeNode, tet10Edges, cellParents, entities,
    h0, h1, h2, h3, single_eq, lerpHalf_eq]

theorem hex20_refine (vs : List (Point 3 K)) (c : List Nat) (hl : c.length = 8)
    (hb : ∀ v ∈ c, v < vs.length) :
    hex20Nodes' vs c = some ((cellParents .hex20 c).map (fun ps => ⟨0, ps, centrePos vs ps⟩)) := by
  obtain ⟨v0, v1, v2, v3, v4, v5, v6, v7, rfl⟩ := explicit8 hl
  simp only [List.mem_cons, List.not_mem_nil, or_false, forall_eq_or_imp, forall_eq] at hb
  obtain ⟨h0, h1, h2, h3, h4, h5, h6, h7⟩ := hb
  simp [hex20Nodes', allNodes, vertexNode, edgeNode, hexEdges, cellParents, entities,
    h0, h1, h2, h3, h4, h5, h6, h7, single_eq, lerpHalf_eq]

theorem hex27_refine (vs : List (Point 3 K)) (c : List Nat) (hl : c.length = 8)
    (hb : ∀ v ∈ c, v < vs.length) :
    hex27Nodes' vs c = some ((cellParents .hex27 c).map (fun ps => ⟨0, ps, centrePos vs ps⟩)) := by
  obtain ⟨v0, v1, v2, v3, v4, v5, v6, v7, rfl⟩ := explicit8 hl
  simp only [List.mem_cons, List.not_mem_nil, or_false, forall_eq_or_imp, forall_eq] at hb
  obtain ⟨h0, h1, h2, h3, h4, h5, h6, h7⟩ := hb
  have hf : ∀ (f : List Nat × Point 3 K), f ∈ hexFaces →
      mappedNode [vs[v0], vs[v1], vs[v2], vs[v3], vs[v4], vs[v5], vs[v6], vs[v7]]
        [v0, v1, v2, v3, v4, v5, v6, v7] f =
      some ⟨0, f.1.map (fun i => [v0, v1, v2, v3, v4, v5, v6, v7].getD i 0),
        centrePos vs (f.1.map (fun i => [v0, v1, v2, v3, v4, v5, v6, v7].getD i 0))⟩ := by
    intro f hf
    simp only [hexFaces, List.mem_cons, List.not_mem_nil, or_false] at hf
    rcases hf with rfl | rfl | rfl | rfl | rfl | rfl | rfl <;>
    · simp only [mappedNode, List.mapM_cons, List.mapM_nil, List.getElem?_cons_zero,
        List.getElem?_cons_succ, Option.bind_eq_bind, Option.bind_some, Option.pure_def,
        Option.some.injEq, NewNode.mk.injEq, true_and]
      refine ⟨rfl, ?_⟩
      funext r
      simp [mapReferenceCoords, geometryBasis, hex8Basis, hex8Phi, phiLinear1d, weightedSum,
        Kind.numNodes, centrePos, average, h0, h1, h2, h3, h4, h5, h6, h7]
      ring
  have hfs : hexFaces.mapM (mappedNode [vs[v0], vs[v1], vs[v2], vs[v3], vs[v4], vs[v5], vs[v6],
      vs[v7]] [v0, v1, v2, v3, v4, v5, v6, v7]) = some ((hexFaces (K := K)).map (fun f =>
      ⟨0, f.1.map (fun i => [v0, v1, v2, v3, v4, v5, v6, v7].getD i 0),
        centrePos vs (f.1.map (fun i => [v0, v1, v2, v3, v4, v5, v6, v7].getD i 0))⟩)) := by
    generalize hexFaces (K := K) = fs at hf
    induction fs with
    | nil => rfl
    | cons f fs ih =>
      rw [List.mapM_cons, hf f (by simp), ih (fun f h => hf f (by simp [h]))]
      rfl
  have he : [v0, v1, v2, v3, v4, v5, v6, v7].mapM (vs[·]?) =
      some [vs[v0], vs[v1], vs[v2], vs[v3], vs[v4], vs[v5], vs[v6], vs[v7]] := by
    simp [List.mapM_cons, h0, h1, h2, h3, h4, h5, h6, h7]
  unfold hex27Nodes'
  rw [he]
  simp only [hfs]
  simp [allNodes, vertexNode, edgeNode, hexEdges, cellParents, entities, hexFaces,
    h0, h1, h2, h3, h4, h5, h6, h7, single_eq, lerpHalf_eq]

theorem cellParents_bound (e : Kind) (n N : Nat) (hn : ∀ l ∈ entities e, ∀ i ∈ l, i < n)
    (c : List Nat) (hl : c.length = n) (hb : ∀ v ∈ c, v < N) :
    ∀ ps ∈ cellParents e c, ∀ v ∈ ps, v < N := by
  intro ps hps v hv
  obtain ⟨l, hl', rfl⟩ := List.mem_map.1 hps
  obtain ⟨i, hi, rfl⟩ := List.mem_map.1 hv
  have hi := hn l hl' i hi
  apply hb
  rw [← hl] at hi
  simp [List.getD_eq_getElem?_getD, List.getElem?_eq_getElem hi]

/-! ### Tri3 → Tri6 and Quad4 → Quad9 -/

/-- Nodes of the two-dimensional conversions. -/
inductive L2 where
  | vertex (v : Nat)
  | edge (a b : Nat)
  | cell (t : Nat)
deriving DecidableEq

def L2.canon : L2 → L2
  | .vertex v => .vertex v
  | .edge a b => .edge (min a b) (max a b)
  | .cell t => .cell t

/-- Position of a node. -/
def L2.pos (vs : List (Point 2 K)) (cells : List (List Nat)) : L2 → Point 2 K
  | .vertex v => (vs[v]?).getD (fun _ => 0)
  | .edge a b => centrePos vs [a, b]
  | .cell t => centrePos vs (cells.getD t [])

/-- The table in which the original vertices carry their own numbers. -/
def table0 (n : Nat) : List (L2 × Nat) × Nat := ((List.range n).map (fun v => (.vertex v, v)), n)

theorem table0_inv (n : Nat) : TableInv L2.canon (table0 n) := by
  refine ⟨?_, ?_⟩
  · simp [table0, Function.comp_def]
  · simp only [table0, List.map_map]
    have : (List.map ((fun e => L2.canon e.1) ∘ fun v => ((L2.vertex v, v) : L2 × Nat))
        (List.range n)) = (List.range n).map L2.vertex := rfl
    rw [this]
    exact List.nodup_range.map (fun a b h => by cases h; rfl)

theorem lookup_append (l : L2) (m m' : List (L2 × Nat)) :
    lookup L2.canon l (m ++ m') = (lookup L2.canon l m).or (lookup L2.canon l m') := by
  induction m with
  | nil => rfl
  | cons e m ih =>
    rw [List.cons_append, lookup, lookup]
    split
    · rfl
    · exact ih

theorem edgeLookup_append (k : Nat × Nat) (m m' : List ((Nat × Nat) × Nat)) :
    edgeLookup k (m ++ m') = (edgeLookup k m).or (edgeLookup k m') := by
  induction m with
  | nil => rfl
  | cons e m ih =>
    obtain ⟨k', i⟩ := e
    rw [List.cons_append, edgeLookup, edgeLookup]
    split
    · rfl
    · exact ih

/-- Correspondence between the state of the loops and the table. -/
structure Sim (vs : List (Point 2 K)) (cells : List (List Nat)) (st : EdgeState K)
    (m : List (L2 × Nat) × Nat) : Prop where
  next : m.2 = st.1.length
  verts : st.1 = m.1.map (fun e => e.1.pos vs cells)
  look : ∀ a b, edgeLookup (min a b, max a b) st.2 = lookup L2.canon (.edge a b) m.1
  pre : (table0 vs.length).1 <+: m.1

theorem Sim.init (vs : List (Point 2 K)) (cells : List (List Nat)) :
    Sim vs cells (vs, []) (table0 vs.length) := by
  refine ⟨rfl, ?_, ?_, List.prefix_refl _⟩
  · simp only [table0, List.map_map]
    apply List.ext_getElem (by simp)
    intro i h1 h2
    simp [L2.pos, h1]
  · intro a b
    simp only [edgeLookup]
    symm
    cases h : lookup L2.canon (.edge a b) (table0 vs.length).1 with
    | none => rfl
    | some i =>
      obtain ⟨l0, hl, hk⟩ := lookup_some h
      obtain ⟨v, -, hv⟩ := List.mem_map.1 hl
      cases hv
      simp [L2.canon] at hk

theorem Sim.vertex {vs : List (Point 2 K)} {cells : List (List Nat)} {st : EdgeState K}
    {m : List (L2 × Nat) × Nat} (h : Sim vs cells st m) {v : Nat} (hv : v < vs.length) :
    st.1[v]? = some vs[v] := by
  obtain ⟨t, ht⟩ := h.pre
  rw [h.verts, ← ht, List.getElem?_map, List.getElem?_append_left (by simpa [table0] using hv)]
  simp [table0, hv, L2.pos]

theorem Sim.internVertex {vs : List (Point 2 K)} {cells : List (List Nat)} {st : EdgeState K}
    {m : List (L2 × Nat) × Nat} (h : Sim vs cells st m) {v : Nat} (hv : v < vs.length) :
    internOne L2.canon (.vertex v) m = (v, m) := by
  have : lookup L2.canon (.vertex v) m.1 = some v := by
    obtain ⟨t, ht⟩ := h.pre
    rw [← ht, lookup_append]
    have : lookup L2.canon (.vertex v) (table0 vs.length).1 = some v := by
      cases hl : lookup L2.canon (.vertex v) (table0 vs.length).1 with
      | none =>
        exact absurd rfl (lookup_none hl (.vertex v, v)
          (List.mem_map.2 ⟨v, List.mem_range.2 hv, rfl⟩))
      | some i =>
        obtain ⟨l0, hl, hk⟩ := lookup_some hl
        obtain ⟨w, -, hw⟩ := List.mem_map.1 hl
        cases hw
        simp [L2.canon] at hk
        rw [hk]
    rw [this]; rfl
  unfold internOne
  rw [this]

theorem Sim.addEdge {vs : List (Point 2 K)} {cells : List (List Nat)} {st : EdgeState K}
    {m : List (L2 × Nat) × Nat} (h : Sim vs cells st m) {a b : Nat} (ha : a < vs.length)
    (hb : b < vs.length) :
    ∃ st', MeshConvert.addEdge st (a, b) = some ((internOne L2.canon (.edge a b) m).1, st') ∧
      Sim vs cells st' (internOne L2.canon (.edge a b) m).2 ∧
      ∀ t i, (L2.cell t, i) ∈ (internOne L2.canon (.edge a b) m).2.1 → (L2.cell t, i) ∈ m.1 := by
  unfold MeshConvert.addEdge internOne
  simp only
  rw [h.look a b]
  cases hl : lookup L2.canon (.edge a b) m.1 with
  | some i => exact ⟨st, rfl, h, fun _ _ h => h⟩
  | none =>
    simp only
    rw [h.vertex ha, h.vertex hb, h.next]
    refine ⟨_, rfl, ⟨by simp, ?_, ?_, ?_⟩, ?_⟩
    · simp only [List.map_append, ← h.verts, List.map_cons, List.map_nil]
      congr 2
      funext r
      simp [L2.pos, centrePos, average, ha, hb]
    · intro a' b'
      rw [edgeLookup_append, lookup_append, h.look]
      congr 1
      simp only [edgeLookup, lookup, L2.canon, L2.edge.injEq, Prod.mk.injEq]
    · exact h.pre.trans (List.prefix_append _ _)
    · intro t i ht
      simpa using ht

theorem Sim.addEdges {vs : List (Point 2 K)} {cells : List (List Nat)} (es : List (Nat × Nat))
    {st : EdgeState K} {m : List (L2 × Nat) × Nat} (h : Sim vs cells st m)
    (hes : ∀ e ∈ es, e.1 < vs.length ∧ e.2 < vs.length) :
    ∃ st', MeshConvert.addEdges es st =
        some ((internCell L2.canon (es.map (fun e => L2.edge e.1 e.2)) m).1, st') ∧
      Sim vs cells st' (internCell L2.canon (es.map (fun e => L2.edge e.1 e.2)) m).2 ∧
      ∀ t i, (L2.cell t, i) ∈ (internCell L2.canon (es.map (fun e => L2.edge e.1 e.2)) m).2.1 →
        (L2.cell t, i) ∈ m.1 := by
  induction es generalizing st m with
  | nil => exact ⟨st, rfl, h, fun _ _ h => h⟩
  | cons e es ih =>
    obtain ⟨a, b⟩ := e
    obtain ⟨h1, h2⟩ := hes (a, b) (by simp)
    obtain ⟨st1, g1, g2, g3⟩ := h.addEdge h1 h2
    obtain ⟨st2, k1, k2, k3⟩ := ih g2 (fun e he => hes e (by simp [he]))
    refine ⟨st2, ?_, k2, fun t i ht => g3 t i (k3 t i ht)⟩
    simp only [MeshConvert.addEdges, g1, k1, List.map_cons, internCell]

theorem internCell_append {L κ : Type} [DecidableEq κ] (key : L → κ) (l l' : List L)
    (m : List (L × Nat) × Nat) :
    internCell key (l ++ l') m = ((internCell key l m).1 ++ (internCell key l' (internCell key l m).2).1,
      (internCell key l' (internCell key l m).2).2) := by
  induction l generalizing m with
  | nil => rfl
  | cons a l ih => simp only [List.cons_append, internCell, ih]

theorem Sim.internVertices {vs : List (Point 2 K)} {cells : List (List Nat)} {st : EdgeState K}
    {m : List (L2 × Nat) × Nat} (h : Sim vs cells st m) (c : List Nat)
    (hc : ∀ v ∈ c, v < vs.length) : internCell L2.canon (c.map .vertex) m = (c, m) := by
  induction c with
  | nil => rfl
  | cons v c ih =>
    simp only [List.map_cons, internCell, h.internVertex (hc v (by simp)),
      ih (fun w hw => hc w (by simp [hw]))]

theorem cyclicEdges_mem {c : List Nat} {e : Nat × Nat} (h : e ∈ cyclicEdges c) :
    e.1 ∈ c ∧ e.2 ∈ c := by
  unfold cyclicEdges at h
  have h' := List.of_mem_zip (a := e.1) (b := e.2) h
  refine ⟨h'.1, ?_⟩
  rcases List.mem_append.1 h'.2 with h | h
  · exact List.mem_of_mem_tail h
  · exact List.mem_of_mem_take h

/-- Nodes of a triangle or quadrilateral without its centre. -/
def nodes2 (c : List Nat) : List L2 :=
  c.map .vertex ++ (cyclicEdges c).map (fun e => .edge e.1 e.2)

theorem tri6Loop_sim {vs : List (Point 2 K)} {cells : List (List Nat)} (cs : List (List Nat))
    {st : EdgeState K} {m : List (L2 × Nat) × Nat} (h : Sim vs cells st m)
    (hcs : ∀ c ∈ cs, ∀ v ∈ c, v < vs.length) :
    ∃ st', tri6Loop cs st = some ((internCells L2.canon (cs.map nodes2) m).1, st') ∧
      Sim vs cells st' (internCells L2.canon (cs.map nodes2) m).2 := by
  induction cs generalizing st m with
  | nil => exact ⟨st, rfl, h⟩
  | cons c cs ih =>
    have hc := hcs c (by simp)
    obtain ⟨st1, g1, g2, -⟩ := h.addEdges (cyclicEdges c) (fun e he =>
      ⟨hc _ (cyclicEdges_mem he).1, hc _ (cyclicEdges_mem he).2⟩)
    have e1 : internCell L2.canon (nodes2 c) m = (c ++ (internCell L2.canon
        ((cyclicEdges c).map (fun e => L2.edge e.1 e.2)) m).1, (internCell L2.canon
        ((cyclicEdges c).map (fun e => L2.edge e.1 e.2)) m).2) := by
      unfold nodes2
      rw [internCell_append, h.internVertices c hc]
    obtain ⟨st2, k1, k2⟩ := ih (st := st1) (m := (internCell L2.canon (nodes2 c) m).2)
      (by rw [e1]; exact g2) (fun c hc => hcs c (by simp [hc]))
    refine ⟨st2, ?_, k2⟩
    simp only [tri6Loop, g1, k1, List.map_cons, internCells]
    rw [e1]

theorem Sim.addCell {vs : List (Point 2 K)} {cells : List (List Nat)} {st : EdgeState K}
    {m : List (L2 × Nat) × Nat} (h : Sim vs cells st m) (t : Nat)
    (ht : ∀ s i, (L2.cell s, i) ∈ m.1 → s < t) :
    internOne L2.canon (.cell t) m = (st.1.length, (m.1 ++ [(.cell t, m.2)], m.2 + 1)) ∧
    Sim vs cells (st.1 ++ [L2.pos vs cells (.cell t)], st.2)
      (m.1 ++ [(.cell t, m.2)], m.2 + 1) := by
  have hl : lookup L2.canon (.cell t) m.1 = none := by
    cases hl : lookup L2.canon (.cell t) m.1 with
    | none => rfl
    | some i =>
      obtain ⟨l0, hm, hk⟩ := lookup_some hl
      cases l0 with
      | vertex v => simp [L2.canon] at hk
      | edge a b => simp [L2.canon] at hk
      | cell s =>
        simp [L2.canon] at hk
        have := ht s i hm
        omega
  refine ⟨by unfold internOne; rw [hl, h.next], ⟨by simp [h.next], ?_, ?_, ?_⟩⟩
  · simp only [List.map_append, ← h.verts]
    rfl
  · intro a b
    rw [lookup_append, h.look]
    simp [lookup, L2.canon]
  · exact h.pre.trans (List.prefix_append _ _)

/-- Nodes of a quadrilateral with number `t`. -/
def nodes9 (p : List Nat × Nat) : List L2 := nodes2 p.1 ++ [.cell p.2]

theorem quad9Loop_sim {vs : List (Point 2 K)} {cells : List (List Nat)} (cs : List (List Nat))
    (t : Nat) (hpos : ∀ i c, cs[i]? = some c → cells[t + i]? = some c)
    {st : EdgeState K} {m : List (L2 × Nat) × Nat} (h : Sim vs cells st m)
    (ht : ∀ s i, (L2.cell s, i) ∈ m.1 → s < t)
    (hcs : ∀ c ∈ cs, c.length = 4 ∧ ∀ v ∈ c, v < vs.length) :
    ∃ st', quad9Loop vs cs st =
        some ((internCells L2.canon ((cs.zipIdx t).map nodes9) m).1, st') ∧
      Sim vs cells st' (internCells L2.canon ((cs.zipIdx t).map nodes9) m).2 := by
  induction cs generalizing st m t with
  | nil => exact ⟨st, rfl, h⟩
  | cons c cs ih =>
    obtain ⟨hc4, hc⟩ := hcs c (by simp)
    obtain ⟨st1, g1, g2, g3⟩ := h.addEdges (cyclicEdges c) (fun e he =>
      ⟨hc _ (cyclicEdges_mem he).1, hc _ (cyclicEdges_mem he).2⟩)
    obtain ⟨a1, a2⟩ := g2.addCell t (fun s i hs => ht s i (g3 s i hs))
    have hct : cells[t]? = some c := hpos 0 c rfl
    have e1 : internCell L2.canon (nodes9 (c, t)) m = (c ++ (internCell L2.canon
        ((cyclicEdges c).map (fun e => L2.edge e.1 e.2)) m).1 ++ [st1.1.length],
        ((internCell L2.canon ((cyclicEdges c).map (fun e => L2.edge e.1 e.2)) m).2.1 ++
          [(.cell t, (internCell L2.canon ((cyclicEdges c).map (fun e => L2.edge e.1 e.2)) m).2.2)],
         (internCell L2.canon ((cyclicEdges c).map (fun e => L2.edge e.1 e.2)) m).2.2 + 1)) := by
      unfold nodes9 nodes2
      rw [internCell_append, internCell_append, h.internVertices c hc]
      simp only [internCell, a1]
    have hmid : c.mapM (vs[·]?) = some (c.map (fun v => (vs[v]?).getD (fun _ => 0))) := by
      clear hct e1 a1 a2 g1 g2 g3 hpos hcs hc4
      induction c with
      | nil => rfl
      | cons v c ih =>
        have hv := hc v (by simp)
        rw [List.mapM_cons, ih (fun w hw => hc w (by simp [hw])), List.getElem?_eq_getElem hv]
        simp [List.getElem?_eq_getElem hv]
    have hp : mapReferenceCoords .quad4 (c.map (fun v => (vs[v]?).getD (fun _ => 0))) (fun _ => 0) =
        L2.pos vs cells (.cell t) := by
      obtain ⟨v0, v1, v2, v3, rfl⟩ := explicit4 hc4
      funext r
      simp [L2.pos, List.getD_eq_getElem?_getD, hct, centrePos, average, mapReferenceCoords,
        geometryBasis, quad4Basis, quad4Phi, weightedSum, Kind.numNodes]
      ring
    obtain ⟨st2, k1, k2⟩ := ih (t + 1)
      (fun i c' hi => by rw [Nat.add_assoc, Nat.add_comm 1]; exact hpos (i + 1) c' hi)
      (st := (st1.1 ++ [L2.pos vs cells (.cell t)], st1.2))
      (m := (internCell L2.canon (nodes9 (c, t)) m).2)
      (by rw [e1]; exact a2)
      (by
        intro s i hs
        rw [e1] at hs
        rcases List.mem_append.1 hs with hs | hs
        · have := ht s i (g3 s i hs); omega
        · simp at hs; omega)
      (fun c hc => hcs c (by simp [hc]))
    refine ⟨st2, ?_, k2⟩
    simp only [quad9Loop, g1, hmid, hp, k1, List.zipIdx_cons, List.map_cons, internCells]
    rw [e1]

/-! ### Tet4 → Tet20 -/

theorem lexLe_total (a b : List Nat) : (Mesh.lexLe a b || Mesh.lexLe b a) = true := by
  induction a generalizing b with
  | nil => simp [Mesh.lexLe]
  | cons x a ih =>
    cases b with
    | nil => simp [Mesh.lexLe]
    | cons y b =>
      have := ih b
      rcases Nat.lt_trichotomy x y with h | h | h
      · simp [Mesh.lexLe, h]
      · subst h; simpa [Mesh.lexLe] using this
      · simp [Mesh.lexLe, h]

theorem lexLe_trans (a b c : List Nat) (h1 : Mesh.lexLe a b = true) (h2 : Mesh.lexLe b c = true) :
    Mesh.lexLe a c = true := by
  induction a generalizing b c with
  | nil => simp [Mesh.lexLe]
  | cons x a ih =>
    cases b with
    | nil => simp [Mesh.lexLe] at h1
    | cons y b =>
      cases c with
      | nil => simp [Mesh.lexLe] at h2
      | cons z c =>
        simp only [Mesh.lexLe] at h1 h2 ⊢
        rcases Nat.lt_trichotomy x y with h | h | h
        · rcases Nat.lt_trichotomy y z with h' | h' | h'
          · simp [Nat.lt_trans h h']
          · subst h'; simp [h]
          · simp [h', Nat.lt_asymm h'] at h2
        · subst h
          rcases Nat.lt_trichotomy x z with h' | h' | h'
          · simp [h']
          · subst h'
            simp only [Nat.lt_irrefl, if_false] at h1 h2 ⊢
            exact ih b c h1 h2
          · simp [h', Nat.lt_asymm h'] at h2
        · simp [h, Nat.lt_asymm h] at h1

theorem lexLe_antisymm (a b : List Nat) (h1 : Mesh.lexLe a b = true)
    (h2 : Mesh.lexLe b a = true) : a = b := by
  induction a generalizing b with
  | nil =>
    cases b with
    | nil => rfl
    | cons y b => simp [Mesh.lexLe] at h2
  | cons x a ih =>
    cases b with
    | nil => simp [Mesh.lexLe] at h1
    | cons y b =>
      simp only [Mesh.lexLe] at h1 h2
      rcases Nat.lt_trichotomy x y with h | h | h
      · simp [h, Nat.lt_asymm h] at h2
      · subst h
        simp only [Nat.lt_irrefl, if_false] at h1 h2
        rw [ih b h1 h2]
      · simp [h, Nat.lt_asymm h] at h1

theorem dedupLabels_cons_spec (l : List (List Nat)) : ∀ a,
    (a :: l).Pairwise (fun a b => Mesh.lexLe a b = true) →
    (dedupLabels (a :: l)).Nodup ∧ (∀ x, x ∈ dedupLabels (a :: l) ↔ x ∈ a :: l) := by
  induction l with
  | nil => intro a _; simp [dedupLabels]
  | cons b l ih =>
    intro a h
    obtain ⟨h1, h2⟩ := List.pairwise_cons.1 h
    obtain ⟨g1, g2⟩ := ih b h2
    unfold dedupLabels
    split
    · rename_i hab
      subst hab
      refine ⟨g1, fun x => ?_⟩
      rw [g2 x]; simp
    · rename_i hab
      refine ⟨List.nodup_cons.2 ⟨?_, g1⟩, fun x => ?_⟩
      · rw [g2]
        intro hm
        rcases List.mem_cons.1 hm with rfl | hm
        · exact hab rfl
        · exact hab (lexLe_antisymm a b (h1 b (by simp)) ((List.pairwise_cons.1 h2).1 a hm))
      · rw [List.mem_cons, List.mem_cons, g2 x]

theorem sortDedup_spec (l : List (List Nat)) :
    (dedupLabels (stableSort Mesh.lexLe l)).Nodup ∧
      ∀ x, x ∈ dedupLabels (stableSort Mesh.lexLe l) ↔ x ∈ l := by
  have hs := stableSort_pairwise Mesh.lexLe lexLe_trans lexLe_total l
  have hp := stableSort_perm Mesh.lexLe l
  cases h : stableSort Mesh.lexLe l with
  | nil =>
    rw [h] at hp
    refine ⟨by simp [dedupLabels], fun x => ?_⟩
    rw [← hp.mem_iff]; simp [dedupLabels]
  | cons a l' =>
    rw [h] at hs hp
    obtain ⟨g1, g2⟩ := dedupLabels_cons_spec l' a hs
    exact ⟨g1, fun x => by rw [g2 x, hp.mem_iff]⟩

theorem searchLabel_spec {l : List (List Nat)} {x : List Nat} (hx : x ∈ l) :
    ∃ i, searchLabel x l = some i ∧ l[i]? = some x := by
  unfold searchLabel
  cases h : l.findIdx? (· == x) with
  | none =>
    rw [List.findIdx?_eq_none_iff] at h
    have := h x hx
    simp at this
  | some i =>
    refine ⟨i, rfl, ?_⟩
    rw [List.findIdx?_eq_some_iff_getElem] at h
    obtain ⟨hi, h1, -⟩ := h
    rw [List.getElem?_eq_getElem hi, eq_of_beq h1]

/-- The label the code gives to a node. -/
def toLabel : ENode → List Nat
  | .centre [v] => [v, 0, 0, 0]
  | .centre l => Mesh.sortNat l ++ [2]
  | .third a b => if a < b then [a, b, 0, 1] else [b, a, 1, 1]

/-- The nodes that occur in Tet20 cells with distinct vertices. -/
def IsTet20Node : ENode → Prop
  | .centre l => l.length = 1 ∨ l.length = 3
  | .third a b => a ≠ b

theorem tet20_labels {c : List Nat} (hl : c.length = 4) (hn : c.Nodup) :
    tet20Labels c = some ((elevatedNodes .tet20 c).map toLabel) ∧
      ∀ n ∈ elevatedNodes .tet20 c, IsTet20Node n := by
  obtain ⟨v0, v1, v2, v3, rfl⟩ := explicit4 hl
  simp only [List.nodup_cons, List.mem_cons, List.not_mem_nil, or_false, not_or,
    not_false_eq_true, List.nodup_nil, and_true] at hn
  obtain ⟨⟨h01, h02, h03⟩, ⟨h12, h13⟩, h23⟩ := hn
  have e0 : ∀ a b : Nat, a ≠ b → normalizedEdge a b 0 = toLabel (.third a b) := by
    intro a b h
    by_cases hab : a < b
    · have : ¬ a > b := by omega
      simp [normalizedEdge, toLabel, hab, this]
    · have : a > b := by omega
      simp [normalizedEdge, toLabel, hab, this]
  have e1 : ∀ a b : Nat, a ≠ b → normalizedEdge a b 1 = toLabel (.third b a) := by
    intro a b h
    by_cases hab : b < a
    · have : a > b := by omega
      simp [normalizedEdge, toLabel, hab]
    · have : ¬ a > b := by omega
      simp [normalizedEdge, toLabel, hab]
  constructor
  · simp only [tet20Labels, elevatedNodes, List.map_cons, List.map_nil]
    rw [e0 _ _ h01, e0 _ _ h02, e0 _ _ h03, e0 _ _ h12, e0 _ _ h13, e0 _ _ h23,
      e1 _ _ h01, e1 _ _ h02, e1 _ _ h03, e1 _ _ h12, e1 _ _ h13, e1 _ _ h23]
    rfl
  · simp [elevatedNodes, IsTet20Node, h01, h02, h03, h12, h13, h23, Ne.symm h01, Ne.symm h02,
      Ne.symm h03, Ne.symm h12, Ne.symm h13, Ne.symm h23]

private theorem sort3 {l : List Nat} (h : l.length = 3) :
    ∃ a b c, Mesh.sortNat l = [a, b, c] ∧ l.Perm [a, b, c] := by
  have hp := Mesh.sortNat_perm l
  have := hp.length_eq
  rw [h] at this
  match hs : Mesh.sortNat l, this with
  | [a, b, c], _ => exact ⟨a, b, c, rfl, by rw [← hs]; exact hp.symm⟩

private theorem centre_cases {l : List Nat} (h : l.length = 1 ∨ l.length = 3) :
    (∃ v, l = [v] ∧ toLabel (.centre l) = [v, 0, 0, 0]) ∨
    ∃ a b c, toLabel (.centre l) = [a, b, c, 2] ∧ Mesh.sortNat l = [a, b, c] ∧ l.Perm [a, b, c] := by
  rcases h with h | h
  · match l, h with
    | [v], _ => exact .inl ⟨v, rfl, rfl⟩
  · obtain ⟨a, b, c, h1, h2⟩ := sort3 h
    right
    refine ⟨a, b, c, ?_, h1, h2⟩
    match l, h with
    | [x, y, z], _ => simp only [toLabel, h1]; rfl

theorem toLabel_eq_iff {n n' : ENode} (hn : IsTet20Node n) (hn' : IsTet20Node n') :
    toLabel n = toLabel n' ↔ n.Same n' := by
  cases n with
  | centre l =>
    cases n' with
    | centre l' =>
      rcases centre_cases hn with ⟨v, rfl, h1⟩ | ⟨a, b, c, h1, h2, h3⟩ <;>
        rcases centre_cases hn' with ⟨v', rfl, h1'⟩ | ⟨a', b', c', h1', h2', h3'⟩ <;>
        rw [h1, h1'] <;> simp only [ENode.Same]
      · constructor
        · intro h; cases h; exact List.Perm.refl _
        · intro h; rw [List.singleton_perm_singleton.1 h]
      · constructor
        · intro h; simp at h
        · intro h; have := h.length_eq; rw [h3'.length_eq] at this; simp at this
      · constructor
        · intro h; simp at h
        · intro h; have := h.length_eq; rw [h3.length_eq] at this; simp at this
      · rw [← Mesh.sortNat_eq_iff, h2, h2']
        simp
    | third a' b' =>
      simp only [ENode.Same, iff_false]
      rcases centre_cases hn with ⟨v, rfl, h1⟩ | ⟨a, b, c, h1, h2, h3⟩ <;> rw [h1] <;>
        simp only [toLabel] <;> split <;> simp
  | third a b =>
    cases n' with
    | centre l' =>
      simp only [ENode.Same, iff_false]
      rcases centre_cases hn' with ⟨v, rfl, h1⟩ | ⟨a, b, c, h1, h2, h3⟩ <;> rw [h1] <;>
        simp only [toLabel] <;> split <;> simp
    | third a' b' =>
      simp only [IsTet20Node] at hn hn'
      simp only [ENode.Same, toLabel]
      split <;> split <;> simp <;> omega

theorem tet20_position (vs : List (Point 3 K)) {n : ENode} (hn : IsTet20Node n)
    (hb : match n with | .centre l => ∀ v ∈ l, v < vs.length | .third a b => a < vs.length ∧ b < vs.length) :
    ∃ p, tet20Vertex vs (toLabel n) = some p ∧ n.IsAt vs p := by
  cases n with
  | centre l =>
    simp only at hb
    have hat := centrePos_isAt vs l hb
    rcases centre_cases hn with ⟨v, rfl, h1⟩ | ⟨a, b, c, h1, h2, h3⟩
    · rw [h1]
      have hv := hb v (by simp)
      refine ⟨_, ?_, hat⟩
      simp [tet20Vertex, hv, single_eq]
    · rw [h1]
      have ha := hb a (h3.mem_iff.2 (by simp))
      have hb' := hb b (h3.mem_iff.2 (by simp))
      have hc := hb c (h3.mem_iff.2 (by simp))
      refine ⟨_, ?_, hat⟩
      rw [centrePos_perm vs h3]
      simp only [tet20Vertex, List.getElem?_eq_getElem ha, List.getElem?_eq_getElem hb',
        List.getElem?_eq_getElem hc]
      simp only [show (2 : Nat) ≠ 0 by decide, show (2 : Nat) ≠ 1 by decide, if_false, if_true,
        Option.some.injEq]
      funext r
      simp [centrePos, average, ha, hb', hc, add_assoc]
  | third a b =>
    simp only at hb
    obtain ⟨ha, hb⟩ := hb
    simp only [toLabel]
    split
    · refine ⟨fun r => vs[a] r + (vs[b] r - vs[a] r) / 3, ?_, vs[a], vs[b], by simp, by simp, rfl⟩
      simp only [tet20Vertex, List.getElem?_eq_getElem ha, List.getElem?_eq_getElem hb]
      simp only [show (1 : Nat) ≠ 0 by decide, if_false, if_true, Option.some.injEq]
      funext r
      push_cast
      ring
    · refine ⟨fun r => vs[a] r + (vs[b] r - vs[a] r) / 3, ?_, vs[a], vs[b], by simp, by simp, rfl⟩
      simp only [tet20Vertex, List.getElem?_eq_getElem ha, List.getElem?_eq_getElem hb]
      simp only [show (1 : Nat) ≠ 0 by decide, if_false, if_true, Option.some.injEq]
      funext r
      push_cast
      ring

end MeshConvert
end Fenris
