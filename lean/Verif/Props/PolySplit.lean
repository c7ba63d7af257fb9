import Mathlib.Data.Fin.VecNotation
import Mathlib.Data.Rat.Defs
import Mathlib.Algebra.CharZero.Defs
import Mathlib.Tactic.NormNum
import Mathlib.Algebra.Field.Rat
import Mathlib.Tactic.FieldSimp
import Mathlib.Tactic.Ring
import Mathlib.Tactic.LinearCombination
import Verif.Props.PolyMesh
/-! # C63: splitting the edges of polyhedral meshes -/
set_option autoImplicit false

namespace Fenris
namespace Poly

open Spec

variable {P : Type}

/-! ### Edges of a face -/

/-- The `j`-th edge of a face. -/
theorem edges_getElem? {α : Type} (f : List α) (j : Nat) (hj : j < f.length) :
    (edges f)[j]? = some (f[j], f[(j + 1) % f.length]'(Nat.mod_lt _ (by omega))) := by
  have h1 : ((f ++ f.take 1))[j]? = some f[j] := by
    rw [List.getElem?_append_left hj, List.getElem?_eq_getElem hj]
  have h2 : ((f ++ f.take 1).tail)[j]? = some (f[(j + 1) % f.length]'(Nat.mod_lt _ (by omega))) := by
    rw [List.getElem?_tail]
    by_cases hl : j + 1 < f.length
    · rw [List.getElem?_append_left hl, List.getElem?_eq_getElem hl]
      simp only [Nat.mod_eq_of_lt hl]
    · have he : j + 1 = f.length := by omega
      rw [List.getElem?_append_right (by omega)]
      simp only [he, Nat.mod_self, Nat.sub_self]
      rw [List.getElem?_take, if_pos (by omega), List.getElem?_eq_getElem]
  rw [edges, List.getElem?_zip_eq_some]
  exact ⟨h1, h2⟩

theorem edges_length {α : Type} (f : List α) : (edges f).length = f.length := by
  rw [edges, List.length_zip, List.length_tail, List.length_append, List.length_take]
  omega

/-- The edges of a face in terms of positions. -/
theorem mem_edges {α : Type} (f : List α) (a b : α) :
    (a, b) ∈ edges f ↔ ∃ j, f[j]? = some a ∧ f[(j + 1) % f.length]? = some b := by
  constructor
  · intro h
    obtain ⟨j, hj⟩ := List.mem_iff_getElem?.1 h
    have hlt : j < f.length := by
      rw [← edges_length f]
      exact (List.getElem?_eq_some_iff.1 hj).1
    rw [edges_getElem? f j hlt] at hj
    simp only [Option.some.injEq, Prod.mk.injEq] at hj
    exact ⟨j, by rw [List.getElem?_eq_getElem hlt, hj.1], by
      rw [List.getElem?_eq_getElem (Nat.mod_lt _ (by omega)), hj.2]⟩
  · rintro ⟨j, h1, h2⟩
    have hlt := (List.getElem?_eq_some_iff.1 h1).1
    have := edges_getElem? f j hlt
    rw [List.getElem?_eq_getElem hlt] at h1
    rw [List.getElem?_eq_getElem (Nat.mod_lt _ (by omega))] at h2
    rw [Option.some.inj h1, Option.some.inj h2] at this
    exact List.mem_of_getElem? this

private theorem edgeKey_eq (u v u' v' : Nat) :
    edgeKey (u, v) = edgeKey (u', v') ↔ (u = u' ∧ v = v') ∨ (u = v' ∧ v = u') := by
  simp only [edgeKey, Prod.mk.injEq]
  omega

/-! ### The loops -/

/-- The vertex on an edge. -/
private def num (st : SplitState P) (e : Nat × Nat) : Nat := (st.map.lookup (edgeKey e)).getD 0

private structure Inv (mid : P → P → P) (vs : List P) (es : List (Nat × Nat)) (st : SplitState P) : Prop where
  entry : ∀ k i, st.map.lookup k = some i → vs.length ≤ i ∧ ∃ u v a b, (u, v) ∈ es ∧ k = edgeKey (u, v) ∧
    vs[u]? = some a ∧ vs[v]? = some b ∧ st.added[i - vs.length]? = some (mid a b)
  inj : ∀ k k' i, st.map.lookup k = some i → st.map.lookup k' = some i → k = k'
  surj : ∀ i, i < st.added.length → ∃ k, st.map.lookup k = some (vs.length + i)
  all : ∀ e ∈ es, ∃ i, st.map.lookup (edgeKey e) = some i

private def Ext (st st' : SplitState P) : Prop := ∀ k i, st.map.lookup k = some i → st'.map.lookup k = some i

private theorem lookup_cons' (k k' : Nat × Nat) (i : Nat) (m : List ((Nat × Nat) × Nat)) :
    ((k', i) :: m).lookup k = if k = k' then some i else m.lookup k := by
  rw [List.lookup_cons]
  by_cases h : k = k'
  · subst h; simp
  · rw [if_neg h, beq_false_of_ne h]

private theorem splitEdge_spec (mid : P → P → P) (vs : List P) (es : List (Nat × Nat)) (st : SplitState P)
    (e : Nat × Nat) (hst : Inv mid vs es st) (h1 : e.1 < vs.length) (h2 : e.2 < vs.length) :
    ∃ i st', splitEdge mid vs st e = some (i, st') ∧ Inv mid vs (es ++ [e]) st' ∧ Ext st st' ∧
      st'.map.lookup (edgeKey e) = some i := by
  rw [splitEdge]
  cases hl : st.map.lookup (edgeKey e) with
  | some i =>
    refine ⟨i, st, rfl, ⟨?_, hst.inj, hst.surj, ?_⟩, fun _ _ h => h, hl⟩
    · intro k j hk
      obtain ⟨h, u, v, a, b, hm, r⟩ := hst.entry k j hk
      exact ⟨h, u, v, a, b, List.mem_append_left _ hm, r⟩
    · intro e' he'
      rcases List.mem_append.1 he' with he' | he'
      · exact hst.all e' he'
      · rw [List.mem_singleton.1 he']
        exact ⟨i, hl⟩
  | none =>
    simp only [List.getElem?_eq_getElem h1, List.getElem?_eq_getElem h2, Option.bind_some, Option.map_some]
    have hbound : ∀ k j, st.map.lookup k = some j → vs.length ≤ j ∧ j < vs.length + st.added.length := by
      intro k j hk
      obtain ⟨h, u, v, a, b, -, -, -, -, hadd⟩ := hst.entry k j hk
      have := (List.getElem?_eq_some_iff.1 hadd).1
      exact ⟨h, by omega⟩
    refine ⟨_, _, rfl, ⟨?_, ?_, ?_, ?_⟩, ?_, ?_⟩
    · intro k j hk
      rw [lookup_cons'] at hk
      by_cases hke : k = edgeKey e
      · rw [if_pos hke] at hk
        obtain rfl := Option.some.inj hk
        refine ⟨by omega, e.1, e.2, vs[e.1], vs[e.2], by simp, hke, List.getElem?_eq_getElem h1,
          List.getElem?_eq_getElem h2, ?_⟩
        rw [List.getElem?_append_right (by omega)]
        simp
      · rw [if_neg hke] at hk
        obtain ⟨h, u, v, a, b, hm, g1, g2, g3, g4⟩ := hst.entry k j hk
        refine ⟨h, u, v, a, b, List.mem_append_left _ hm, g1, g2, g3, ?_⟩
        rw [List.getElem?_append_left (List.getElem?_eq_some_iff.1 g4).1, g4]
    · intro k k' i hk hk'
      rw [lookup_cons'] at hk hk'
      split at hk <;> split at hk'
      · rename_i a b
        rw [a, b]
      · have := hbound k' i hk'
        have := Option.some.inj hk
        omega
      · have := hbound k i hk
        have := Option.some.inj hk'
        omega
      · exact hst.inj k k' i hk hk'
    · intro i hi
      rw [List.length_append, List.length_singleton] at hi
      by_cases hlt : i < st.added.length
      · obtain ⟨k, hk⟩ := hst.surj i hlt
        refine ⟨k, ?_⟩
        rw [lookup_cons', if_neg, hk]
        rintro rfl
        rw [hl] at hk
        cases hk
      · refine ⟨edgeKey e, ?_⟩
        rw [lookup_cons', if_pos rfl]
        congr 1
        omega
    · intro e' he'
      simp only [lookup_cons']
      by_cases hke : edgeKey e' = edgeKey e
      · exact ⟨_, if_pos hke⟩
      · simp only [if_neg hke]
        rcases List.mem_append.1 he' with he' | he'
        · exact hst.all e' he'
        · rw [List.mem_singleton.1 he'] at hke
          exact absurd rfl hke
    · intro k i hk
      change ((edgeKey e, vs.length + st.added.length) :: st.map).lookup k = some i
      rw [lookup_cons', if_neg, hk]
      rintro rfl
      rw [hl] at hk
      cases hk
    · change ((edgeKey e, vs.length + st.added.length) :: st.map).lookup _ = _
      rw [lookup_cons', if_pos rfl]

private def newFace (st : SplitState P) (es : List (Nat × Nat)) : List Nat := es.flatMap fun e => [e.1, num st e]

private theorem newFace_ext {mid : P → P → P} {vs : List P} {es0 : List (Nat × Nat)} {st st' : SplitState P}
    (hst : Inv mid vs es0 st) (hext : Ext st st') (es : List (Nat × Nat)) (hsub : ∀ e ∈ es, e ∈ es0) :
    newFace st' es = newFace st es := by
  induction es with
  | nil => rfl
  | cons e es ih =>
    obtain ⟨i, hi⟩ := hst.all e (hsub e (List.mem_cons_self ..))
    have h1 : num st e = i := by rw [num, hi]; rfl
    have h2 : num st' e = i := by rw [num, hext _ _ hi]; rfl
    have := ih fun e' he' => hsub e' (List.mem_cons_of_mem _ he')
    rw [newFace] at this ⊢
    rw [List.flatMap_cons, this, h2, ← h1]
    rfl

private theorem splitFace_spec (mid : P → P → P) (vs : List P) (es : List (Nat × Nat)) (face : List Nat)
    (es0 : List (Nat × Nat)) (st : SplitState P) (hst : Inv mid vs es0 st)
    (hb : ∀ e ∈ es, e.1 < vs.length ∧ e.2 < vs.length) :
    ∃ st', splitFace mid vs es face st = some (face ++ newFace st' es, st') ∧ Inv mid vs (es0 ++ es) st' ∧
      Ext st st' := by
  induction es generalizing face es0 st with
  | nil => exact ⟨st, by simp [splitFace, newFace], by simpa using hst, fun _ _ h => h⟩
  | cons e es ih =>
    obtain ⟨i, st1, h1, h2, h3, h4⟩ := splitEdge_spec mid vs es0 st e hst (hb e (List.mem_cons_self ..)).1
      (hb e (List.mem_cons_self ..)).2
    obtain ⟨st2, g1, g2, g3⟩ := ih (face ++ [e.1, i]) (es0 ++ [e]) st1 h2
      fun e' he' => hb e' (List.mem_cons_of_mem _ he')
    refine ⟨st2, ?_, by simpa using g2, fun k j hk => g3 k j (h3 k j hk)⟩
    rw [splitFace, h1, Option.bind_some, g1]
    have : num st2 e = i := by rw [num, g3 _ _ h4]; rfl
    simp [newFace, this]

private theorem splitFaces_spec (mid : P → P → P) (vs : List P) (fs faces : List (List Nat))
    (es0 : List (Nat × Nat)) (st : SplitState P) (hst : Inv mid vs es0 st)
    (hb : ∀ f ∈ fs, ∀ v ∈ f, v < vs.length) :
    ∃ st', splitFaces mid vs fs faces st = some (faces ++ fs.map (fun f => newFace st' (edges f)), st') ∧
      Inv mid vs (es0 ++ fs.flatMap edges) st' ∧ Ext st st' := by
  induction fs generalizing faces es0 st with
  | nil => exact ⟨st, by simp [splitFaces], by simpa using hst, fun _ _ h => h⟩
  | cons f fs ih =>
    have hbe : ∀ e ∈ edges f, e.1 < vs.length ∧ e.2 < vs.length := by
      rintro ⟨u, v⟩ he
      obtain ⟨j, h1, h2⟩ := (mem_edges f u v).1 he
      exact ⟨hb f (List.mem_cons_self ..) u (List.mem_of_getElem? h1),
        hb f (List.mem_cons_self ..) v (List.mem_of_getElem? h2)⟩
    obtain ⟨st1, h1, h2, h3⟩ := splitFace_spec mid vs (edges f) [] es0 st hst hbe
    obtain ⟨st2, g1, g2, g3⟩ := ih (faces ++ [[] ++ newFace st1 (edges f)]) _ st1 h2
      fun f' hf' => hb f' (List.mem_cons_of_mem _ hf')
    refine ⟨st2, ?_, by simpa using g2, fun k j hk => g3 k j (h3 k j hk)⟩
    rw [splitFaces, h1, Option.bind_some, g1]
    have := newFace_ext h2 g3 (edges f) fun e he => List.mem_append_right _ he
    simp [this]

private theorem newFace_length (st : SplitState P) (es : List (Nat × Nat)) :
    (newFace st es).length = 2 * es.length := by
  induction es with
  | nil => rfl
  | cons e es ih =>
    rw [newFace] at ih ⊢
    rw [List.flatMap_cons, List.length_append, ih]
    simp
    omega

private theorem newFace_getElem? (st : SplitState P) (es : List (Nat × Nat)) (j : Nat) :
    (newFace st es)[2 * j]? = (es[j]?).map (·.1) ∧ (newFace st es)[2 * j + 1]? = (es[j]?).map (num st) := by
  induction es generalizing j with
  | nil => simp [newFace]
  | cons e es ih =>
    rw [newFace] at ih ⊢
    rw [List.flatMap_cons]
    cases j with
    | zero => simp
    | succ j =>
      have := ih j
      rw [show 2 * (j + 1) = 2 * j + 1 + 1 by ring]
      simpa using this

private theorem newFace_bound {mid : P → P → P} {vs : List P} {es0 : List (Nat × Nat)} {st : SplitState P}
    (hst : Inv mid vs es0 st) (es : List (Nat × Nat)) (hsub : ∀ e ∈ es, e ∈ es0)
    (hb : ∀ e ∈ es, e.1 < vs.length) : ∀ v ∈ newFace st es, v < vs.length + st.added.length := by
  intro v hv
  obtain ⟨e, he, hv⟩ := List.mem_flatMap.1 hv
  rcases List.mem_cons.1 hv with rfl | hv
  · have := hb e he
    omega
  · rw [List.mem_singleton.1 hv]
    obtain ⟨i, hi⟩ := hst.all e (hsub e he)
    have hn : num st e = i := by rw [num, hi]; rfl
    obtain ⟨h, u, w, a, b, -, -, -, -, hadd⟩ := hst.entry _ i hi
    have := (List.getElem?_eq_some_iff.1 hadd).1
    omega

/-- C63: `split_edges` of a valid mesh does not panic. The result is valid, has the same cells and keeps the vertices.
There is exactly one new vertex for each undirected edge of the mesh, at the midpoint of its ends: `vertexOf u v` is its
number, edges are given the same vertex exactly if they have the same ends, and every new vertex belongs to an edge. Each
face has twice as many vertices: the old ones in the old order, each followed by the vertex of the edge to the next one. -/
theorem C63_split_edges (mid : P → P → P) (hsym : ∀ a b, mid a b = mid b a) (m : PolyMesh P) (hm : Valid m) :
    ∃ out, splitEdges mid m = some out ∧ Valid out ∧ out.cells = m.cells ∧ m.vertices <+: out.vertices ∧
      out.faces.length = m.faces.length ∧
      ∃ vertexOf : Nat → Nat → Nat,
        (∀ u v u' v', IsEdge m u v → IsEdge m u' v' →
          (vertexOf u v = vertexOf u' v' ↔ (u = u' ∧ v = v') ∨ (u = v' ∧ v = u'))) ∧
        (∀ u v, IsEdge m u v → m.vertices.length ≤ vertexOf u v ∧ ∃ a b, m.vertices[u]? = some a ∧
          m.vertices[v]? = some b ∧ out.vertices[vertexOf u v]? = some (mid a b)) ∧
        (∀ i, m.vertices.length ≤ i → i < out.vertices.length → ∃ u v, IsEdge m u v ∧ vertexOf u v = i) ∧
        ∀ (k : Nat) (f : List Nat), m.faces[k]? = some f → ∃ g : List Nat, out.faces[k]? = some g ∧
          g.length = 2 * f.length ∧
          ∀ (j u v : Nat), f[j]? = some u → f[(j + 1) % f.length]? = some v →
            g[2 * j]? = some u ∧ g[2 * j + 1]? = some (vertexOf u v) := by
  have hinit : Inv mid m.vertices [] (⟨[], []⟩ : SplitState P) :=
    ⟨by simp, by simp, by simp, by simp⟩
  obtain ⟨st, h1, h2, -⟩ := splitFaces_spec mid m.vertices m.faces [] [] ⟨[], []⟩ hinit hm.face
  rw [List.nil_append] at h1 h2
  have hedge : ∀ u v, IsEdge m u v ↔ (u, v) ∈ m.faces.flatMap edges := by
    intro u v
    rw [List.mem_flatMap]
    constructor
    · rintro ⟨f, hf, j, hj⟩
      exact ⟨f, hf, (mem_edges f u v).2 ⟨j, hj⟩⟩
    · rintro ⟨f, hf, hj⟩
      obtain ⟨j, hj⟩ := (mem_edges f u v).1 hj
      exact ⟨f, hf, j, hj⟩
  have hbf : ∀ f ∈ m.faces, ∀ e ∈ edges f, e.1 < m.vertices.length := by
    rintro f hf ⟨u, v⟩ he
    obtain ⟨j, h1, -⟩ := (mem_edges f u v).1 he
    exact hm.face f hf u (List.mem_of_getElem? h1)
  have hvert : ∀ u v, IsEdge m u v → m.vertices.length ≤ num st (u, v) ∧ ∃ a b, m.vertices[u]? = some a ∧
      m.vertices[v]? = some b ∧ (m.vertices ++ st.added)[num st (u, v)]? = some (mid a b) := by
    intro u v he
    obtain ⟨i, hi⟩ := h2.all _ ((hedge u v).1 he)
    have hn : num st (u, v) = i := by rw [num, hi]; rfl
    obtain ⟨hle, u', v', a, b, -, hk, ha, hb, hadd⟩ := h2.entry _ i hi
    rw [hn]
    refine ⟨hle, ?_⟩
    have hout : (m.vertices ++ st.added)[i]? = some (mid a b) := by
      rw [List.getElem?_append_right hle, hadd]
    rcases (edgeKey_eq u v u' v').1 hk with ⟨rfl, rfl⟩ | ⟨rfl, rfl⟩
    · exact ⟨a, b, ha, hb, hout⟩
    · exact ⟨b, a, hb, ha, by rw [hout, hsym]⟩
  refine ⟨⟨m.vertices ++ st.added, m.faces.map fun f => newFace st (edges f), m.cells⟩, ?_, ⟨?_, ?_⟩, rfl,
    List.prefix_append .., by simp, fun u v => num st (u, v), ?_, hvert, ?_, ?_⟩
  · rw [splitEdges, h1]
    rfl
  · intro g hg v hv
    obtain ⟨f, hf, rfl⟩ := List.mem_map.1 hg
    rw [List.length_append]
    exact newFace_bound h2 (edges f) (fun e he => List.mem_flatMap.2 ⟨f, hf, he⟩) (hbf f hf) v hv
  · intro c hc f hf
    rw [List.length_map]
    exact hm.cell c hc f hf
  · intro u v u' v' he he'
    obtain ⟨i, hi⟩ := h2.all _ ((hedge u v).1 he)
    obtain ⟨i', hi'⟩ := h2.all _ ((hedge u' v').1 he')
    have hn : num st (u, v) = i := by rw [num, hi]; rfl
    have hn' : num st (u', v') = i' := by rw [num, hi']; rfl
    change num st (u, v) = num st (u', v') ↔ _
    rw [hn, hn', ← edgeKey_eq]
    constructor
    · rintro rfl
      exact h2.inj _ _ i hi hi'
    · intro hk
      rw [hk, hi'] at hi
      exact (Option.some.inj hi).symm
  · intro i hle hlt
    rw [List.length_append] at hlt
    obtain ⟨k, hk⟩ := h2.surj (i - m.vertices.length) (by omega)
    rw [show m.vertices.length + (i - m.vertices.length) = i by omega] at hk
    obtain ⟨-, u, v, a, b, hmem, rfl, -⟩ := h2.entry k i hk
    refine ⟨u, v, (hedge u v).2 hmem, ?_⟩
    change num st (u, v) = i
    rw [num, hk]
    rfl
  · intro k f hk
    refine ⟨newFace st (edges f), by rw [List.getElem?_map, hk]; rfl, by rw [newFace_length, edges_length], ?_⟩
    intro j u v hu hv
    have hlt := (List.getElem?_eq_some_iff.1 hu).1
    have he := edges_getElem? f j hlt
    rw [List.getElem?_eq_getElem hlt] at hu
    rw [List.getElem?_eq_getElem (Nat.mod_lt _ (by omega))] at hv
    rw [Option.some.inj hu, Option.some.inj hv] at he
    obtain ⟨g1, g2⟩ := newFace_getElem? st (edges f) j
    rw [he] at g1 g2
    exact ⟨g1, g2⟩

/-- Coordinates of old vertices do not change. -/
private theorem prefix_getElem? {α : Type} {l l' : List α} (h : l <+: l') {i : Nat} {a : α} (hi : l[i]? = some a) :
    l'[i]? = some a := by
  obtain ⟨t, rfl⟩ := h
  rw [List.getElem?_append_left (List.getElem?_eq_some_iff.1 hi).1, hi]

private theorem mod_double (j n : Nat) : (2 * j + 1 + 1) % (2 * n) = 2 * ((j + 1) % n) := by
  rw [show 2 * j + 1 + 1 = 2 * (j + 1) by ring, Nat.mul_mod_mul_left]

/-- C63: after `n` rounds of `split_edges` each face has `2 ^ n` times as many vertices. Its old vertices are at the
multiples of `2 ^ n`, in the old order, and the vertices between two of them cut the edge from `a` to `b` into `2 ^ n`
equal parts. -/
theorem C63_split_edges_n {K : Type} [Field K] [CharZero K] {d : Nat} (n : Nat) (m : PolyMesh (Point d K))
    (hm : Valid m) :
    ∃ out, splitEdgesN midpoint n m = some out ∧ Valid out ∧ out.cells = m.cells ∧ m.vertices <+: out.vertices ∧
      out.faces.length = m.faces.length ∧
      ∀ (k : Nat) (f : List Nat), m.faces[k]? = some f → ∃ g : List Nat, out.faces[k]? = some g ∧
        g.length = 2 ^ n * f.length ∧ (∀ j : Nat, j < f.length → g[2 ^ n * j]? = f[j]?) ∧
        ∀ (j : Nat) (a b : Point d K), (faceCoords m f)[j]? = some (some a) →
          (faceCoords m f)[(j + 1) % f.length]? = some (some b) → ∀ i : Nat, i < 2 ^ n →
            (faceCoords out g)[2 ^ n * j + i]? =
              some (some fun q => a q + ((i : K) / (2 : K) ^ n) * (b q - a q)) := by
  induction n generalizing m with
  | zero =>
    refine ⟨m, rfl, hm, rfl, List.prefix_refl _, rfl, fun k f hk => ⟨f, hk, by simp, by simp, ?_⟩⟩
    intro j a b ha hb i hi
    obtain rfl : i = 0 := by simpa using hi
    simp [ha]
  | succ n ih =>
    obtain ⟨m1, h1, h2, h3, h4, h5, vo, -, h7, -, h9⟩ := C63_split_edges (midpoint (K := K) (d := d))
      (fun a b => by funext q; simp only [midpoint]; ring) m hm
    obtain ⟨out, g1, g2, g3, g4, g5, g6⟩ := ih m1 h2
    refine ⟨out, ?_, g2, g3.trans h3, h4.trans g4, g5.trans h5, ?_⟩
    · rw [splitEdgesN, h1, Option.bind_some, g1]
    intro k f hk
    obtain ⟨f1, e1, e2, e3⟩ := h9 k f hk
    obtain ⟨g, e4, e5, e6, e7⟩ := g6 k f1 e1
    refine ⟨g, e4, by rw [e5, e2]; ring, ?_, ?_⟩
    · intro j hj
      have := e6 (2 * j) (by omega)
      have h8 := (e3 j f[j] (f[(j + 1) % f.length]'(Nat.mod_lt _ (by omega))) (List.getElem?_eq_getElem _)
        (List.getElem?_eq_getElem _)).1
      rw [show 2 ^ (n + 1) * j = 2 ^ n * (2 * j) by ring, this, h8, List.getElem?_eq_getElem hj]
    · intro j a b ha hb i hi
      simp only [faceCoords, List.getElem?_map, Option.map_eq_some_iff] at ha hb
      obtain ⟨u, hu, hua⟩ := ha
      obtain ⟨v, hv, hvb⟩ := hb
      have hju := (List.getElem?_eq_some_iff.1 hu).1
      obtain ⟨q1, q2⟩ := e3 j u v hu hv
      have q3 : f1[(2 * j + 1 + 1) % f1.length]? = some v := by
        rw [e2, mod_double]
        have hlt := (List.getElem?_eq_some_iff.1 hv).1
        exact (e3 ((j + 1) % f.length) v (f[((j + 1) % f.length + 1) % f.length]'(Nat.mod_lt _ (by omega))) hv
          (List.getElem?_eq_getElem _)).1
      obtain ⟨-, a', b', r1, r2, r3⟩ := h7 u v ⟨f, List.mem_of_getElem? hk, j, hu, hv⟩
      rw [r1] at hua
      rw [r2] at hvb
      obtain rfl := Option.some.inj hua
      obtain rfl := Option.some.inj hvb
      have c1 : (faceCoords m1 f1)[2 * j]? = some (some a') := by
        rw [faceCoords, List.getElem?_map, q1, Option.map_some, prefix_getElem? h4 r1]
      have c2 : (faceCoords m1 f1)[2 * j + 1]? = some (some (midpoint a' b')) := by
        rw [faceCoords, List.getElem?_map, q2, Option.map_some, r3]
      have c3 : (faceCoords m1 f1)[(2 * j + 1 + 1) % f1.length]? = some (some b') := by
        rw [faceCoords, List.getElem?_map, q3, Option.map_some, prefix_getElem? h4 r2]
      have htwo : (2 : K) ^ n ≠ 0 := pow_ne_zero _ (by exact_mod_cast (by decide : (2 : Nat) ≠ 0))
      by_cases hlt : i < 2 ^ n
      · have := e7 (2 * j) a' (midpoint a' b') c1 (by
          rw [Nat.mod_eq_of_lt (by omega)]
          exact c2) i hlt
        rw [show 2 ^ (n + 1) * j + i = 2 ^ n * (2 * j) + i by ring, this]
        congr 2
        funext q
        simp only [midpoint, pow_succ]
        field_simp
        ring
      · obtain ⟨i', rfl⟩ := Nat.exists_eq_add_of_le (Nat.le_of_not_lt hlt)
        have := e7 (2 * j + 1) (midpoint a' b') b' c2 c3 i' (by rw [pow_succ] at hi; omega)
        rw [show 2 ^ (n + 1) * j + (2 ^ n + i') = 2 ^ n * (2 * j + 1) + i' by ring, this]
        congr 2
        funext q
        simp only [midpoint, pow_succ]
        push_cast
        field_simp
        ring

/-- Two triangles that share an edge: five edges, five new vertices, and the shared edge is split once. -/
private def twoTriangles : PolyMesh (Point 1 ℚ) := ⟨[![0], ![2], ![4], ![8]], [[0, 1, 2], [2, 1, 3]], [[0, 1]]⟩

example : Valid twoTriangles := ⟨by decide, by decide⟩

example : (splitEdges midpoint twoTriangles).map (fun m => (m.faces, m.cells, m.vertices.map (· 0)))
    = some ([[0, 4, 1, 5, 2, 6], [2, 5, 1, 7, 3, 8]], [[0, 1]], [0, 2, 4, 8, 1, 3, 2, 5, 6]) := by decide +kernel

end Poly
end Fenris
