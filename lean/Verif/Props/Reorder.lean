import Verif.Lemmas.CuthillMckee
import Verif.Props.Permutation
/-! # C12, C13: Cuthill–McKee and mesh reordering -/
set_option autoImplicit false

namespace Fenris
open Permutation CuthillMcKee

/-! ## C12 -/

/-- C12.  For every square pattern with in-range indices — connected or not, symmetric or not — and
whatever order ties are sorted in, both algorithms terminate without panic and return a permutation
of all rows; the reverse variant is the reversal.  Non-square patterns panic. -/
theorem C12_cuthill_mckee_is_permutation (sortAdj : List Nat → List Nat)
    (hs : ∀ l, (sortAdj l).Perm l) (p : Pattern) :
    (p.majorDim ≠ p.minorDim → cuthillMckee sortAdj p = none) ∧
    (p.majorDim = p.minorDim → (∀ l ∈ p.lanes, ∀ w ∈ l, w < p.minorDim) →
      ∃ v, cuthillMckee sortAdj p = some ⟨v⟩ ∧ v.Perm (List.range p.majorDim) ∧
        reverseCuthillMckee sortAdj p = some ⟨v.reverse⟩ ∧
        v.reverse.Perm (List.range p.majorDim)) := by
  constructor
  · intro h; unfold cuthillMckee; rw [if_neg h]
  · intro hsq hwf
    obtain ⟨v, blocks, h1, h2, -, -⟩ := cuthillMckee_spec sortAdj hs p hsq hwf
    refine ⟨v, h1, h2, ?_, (List.reverse_perm v).trans h2⟩
    simp [reverseCuthillMckee, h1, Permutation.reverse]

/-- C12.  For structurally symmetric patterns, the numbering is a concatenation of blocks, one per
connected component: a block consists of exactly the vertices connected to its first vertex, which
has least degree among them, and every other vertex of the block is adjacent to an earlier vertex
of the same block. -/
theorem C12_components_numbered_consecutively (sortAdj : List Nat → List Nat)
    (hs : ∀ l, (sortAdj l).Perm l) (p : Pattern) (hsq : p.majorDim = p.minorDim)
    (hwf : ∀ l ∈ p.lanes, ∀ w ∈ l, w < p.minorDim)
    (hsym : ∀ v w, Spec.Adj p.lanes v w → Spec.Adj p.lanes w v) :
    ∃ (v : List Nat) (blocks : List (List Nat)),
      cuthillMckee sortAdj p = some ⟨v⟩ ∧ v = blocks.flatten ∧
      ∀ b ∈ blocks, ∃ start rest, b = start :: rest ∧
        (∀ w, w ∈ b ↔ Spec.Connected p.lanes start w) ∧
        (∀ w ∈ b, ∀ ls lw, p.lanes[start]? = some ls → p.lanes[w]? = some lw →
          ls.length ≤ lw.length) ∧
        (∀ (i w : Nat), 0 < i → b[i]? = some w →
          ∃ j u, j < i ∧ b[j]? = some u ∧ Spec.Adj p.lanes u w) := by
  obtain ⟨v, blocks, h1, h2, h3, h4⟩ := cuthillMckee_spec sortAdj hs p hsq hwf
  refine ⟨v, blocks, h1, h3, ?_⟩
  intro b hb
  obtain ⟨pre, post, rfl⟩ := List.append_of_mem hb
  have hB := h4 pre b post rfl
  obtain ⟨start, rest, hst, hdeg⟩ := hB.head
  have hnd : v.Nodup := h2.nodup_iff.2 List.nodup_range
  have hdisj : ∀ w ∈ b, w ∉ pre.flatten := by
    intro w hw hp
    rw [h3] at hnd
    simp only [List.flatten_append, List.flatten_cons] at hnd
    rw [List.nodup_append] at hnd
    exact hnd.2.2 w hp w (by simp [hw]) rfl
  refine ⟨start, rest, hst, ?_, ?_, hB.preds⟩
  · intro w
    constructor
    · intro hw
      obtain ⟨i, hi⟩ := List.getElem?_of_mem hw
      clear hw
      induction i using Nat.strongRecOn generalizing w with
      | ind i ih =>
        by_cases h0 : i = 0
        · subst h0
          rw [hst] at hi; simp at hi; subst hi; exact .refl
        · obtain ⟨j, u, a, b, c⟩ := hB.preds i w (by omega) hi
          exact .step u w (ih j a u b) c
    · intro hc
      induction hc with
      | refl => simp [hst]
      | step u w _ hadj ih =>
        have := hB.closed u ih w hadj
        rcases List.mem_append.1 this with hp | hp
        · exfalso
          obtain ⟨b', hb', hwb'⟩ := List.mem_flatten.1 hp
          obtain ⟨pre', post', rfl⟩ := List.append_of_mem hb'
          have hB' := h4 pre' b' (post' ++ b :: post) (by simp)
          have hu := hB'.closed w hwb' u (hsym u w hadj)
          apply hdisj u ih
          simp only [List.flatten_append, List.flatten_cons, List.mem_append] at hu ⊢
          tauto
        · exact hp
  · intro w hw ls lw hls hlw
    have hwl : w < p.lanes.length := (List.getElem?_eq_some_iff.1 hlw).1
    have := hdeg w hwl (hdisj w hw)
    simpa [degree, hls, hlw] using this

/- Non-vacuity: two components, one isolated vertex. -/
example : cuthillMckee id ⟨[[0, 2], [1], [0, 2, 3], [2, 3]], 4⟩ = some ⟨[1, 0, 2, 3]⟩ := by decide
example : reverseCuthillMckee id ⟨[[0, 2], [1], [0, 2, 3], [2, 3]], 4⟩ = some ⟨[3, 2, 0, 1]⟩ := by
  decide

/-! ## C13 -/

/-- C13.  Applying a mesh permutation only renumbers: no panic, the vertices are rearranged
(position `i` holds the old vertex `source_index(i)`), and cell `k` of the result has the same
vertices, with the same coordinates and in the same order, as cell `source_index(k)` of the input,
with in-range indices. -/
theorem C13_apply_only_renumbers {α : Type} (mx : Nat) (vv cv : List Nat) (mp : MeshPermutation)
    (hv : fromVec vv = .ok mp.vertexPerm) (hc : fromVec cv = .ok mp.connectivityPerm)
    (mesh : Mesh α) (hvl : mp.vertexPerm.len = mesh.vertices.length)
    (hcl : mp.connectivityPerm.len = mesh.cells.length)
    (hmesh : ∀ c ∈ mesh.cells, ∀ i ∈ c, i < mesh.vertices.length) :
    ∃ out, mp.apply mx mesh = some out ∧ out.vertices.Perm mesh.vertices ∧
      (∀ i s, mp.vertexPerm.sourceIndex i = some s → out.vertices[i]? = mesh.vertices[s]?) ∧
      out.cells.length = mesh.cells.length ∧
      ∀ (k s : Nat) (c : List Nat), mp.connectivityPerm.sourceIndex k = some s →
        mesh.cells[s]? = some c →
        ∃ c', out.cells[k]? = some c' ∧ (∀ i ∈ c', i < out.vertices.length) ∧
          c'.map mp.vertexPerm.sourceIndex = c.map some ∧
          c'.map (fun i => out.vertices[i]?) = c.map (fun i => mesh.vertices[i]?) := by
  obtain ⟨nv, v1, v2, v3, v4⟩ :=
    (C11_apply_moves_source_to_target vv mp.vertexPerm hv mesh.vertices).2 hvl.symm
  obtain ⟨nc, c1, c2, c3, c4⟩ :=
    (C11_apply_moves_source_to_target cv mp.connectivityPerm hc mesh.cells).2 hcl.symm
  obtain ⟨inv, i1, i2, i3, i4, i5, -⟩ := C11_inverse_laws mx mx vv mp.vertexPerm hv
  have hib : ∀ i, i < mesh.vertices.length →
      ∃ t, inv.sourceIndex i = some t ∧ t < mesh.vertices.length := by
    intro i hi
    have hil : i < inv.perm.length := by simp only [len] at *; omega
    refine ⟨inv.perm[i], List.getElem?_eq_getElem hil, ?_⟩
    obtain ⟨-, -, hb⟩ := (fromVec_ok_iff _ _).1 i2
    have := hb _ (List.getElem_mem hil)
    simp only [len] at *; omega
  have hcell : ∀ c ∈ nc, ∃ c', c.mapM inv.sourceIndex = some c' ∧ c'.length = c.length ∧
      ∀ (k a : Nat), c[k]? = some a → c'[k]? = inv.sourceIndex a := by
    intro c hcm
    apply mapM_option_spec
    intro a ha
    obtain ⟨t, ht, -⟩ := hib a (hmesh c (c4.mem_iff.1 hcm) a ha)
    rw [ht]; rfl
  obtain ⟨cells, d1, d2, d3⟩ := mapM_option_spec (fun c : List Nat => c.mapM inv.sourceIndex) nc
    (fun c hcm => by obtain ⟨c', h, -⟩ := hcell c hcm; rw [h]; rfl)
  refine ⟨⟨nv, cells⟩, ?_, v4, v3, by simp only; omega, ?_⟩
  · unfold MeshPermutation.apply
    rw [v1, i1, c1]
    simp only [d1]
  · intro k s c hk hs
    have hck : nc[k]? = some c := by rw [c3 k s hk, hs]
    obtain ⟨c', e1, e2, e3⟩ := hcell c (List.mem_of_getElem? hck)
    refine ⟨c', by simp only [d3 k c hck, e1], ?_, ?_, ?_⟩
    · intro i hi
      obtain ⟨j, hj⟩ := List.getElem?_of_mem hi
      have hjl : j < c.length := by
        rw [← e2]; exact (List.getElem?_eq_some_iff.1 hj).1
      have := e3 j _ (List.getElem?_eq_getElem hjl)
      rw [hj] at this
      obtain ⟨t, ht, htl⟩ := hib c[j] (hmesh c (List.mem_of_getElem? hs) _ (List.getElem_mem hjl))
      rw [ht] at this; cases this
      simp only; omega
    · apply List.ext_getElem?
      intro j
      simp only [List.getElem?_map]
      cases hj : c[j]? with
      | none =>
        have : c'[j]? = none := by
          rw [List.getElem?_eq_none_iff] at hj ⊢; omega
        simp [this]
      | some a =>
        have hal := hmesh c (List.mem_of_getElem? hs) a (List.mem_of_getElem? hj)
        obtain ⟨t, ht, htl⟩ := hib a hal
        have := e3 j a hj
        rw [ht] at this
        simp only [this, Option.map_some, Option.some.injEq]
        exact (i4 t a).2 ht
    · apply List.ext_getElem?
      intro j
      simp only [List.getElem?_map]
      cases hj : c[j]? with
      | none =>
        have : c'[j]? = none := by
          rw [List.getElem?_eq_none_iff] at hj ⊢; omega
        simp [this]
      | some a =>
        have hal := hmesh c (List.mem_of_getElem? hs) a (List.mem_of_getElem? hj)
        obtain ⟨t, ht, htl⟩ := hib a hal
        have := e3 j a hj
        rw [ht] at this
        simp only [this, Option.map_some, Option.some.injEq]
        exact v3 t a ((i4 t a).2 ht)

theorem perm_stableSort_range (n : Nat) (le : Nat → Nat → Bool) :
    fromVec (stableSort le (List.range n)) = .ok ⟨stableSort le (List.range n)⟩ := by
  rw [fromVec_ok_iff]
  have hp := stableSort_perm le (List.range n)
  refine ⟨rfl, hp.nodup_iff.2 List.nodup_range, ?_⟩
  intro i hi
  have := hp.mem_iff.1 hi
  rw [hp.length_eq]; simpa using this

/-- C13.  For every mesh with in-range cells, and every square sparsity pattern on its vertices
(line 66 of the code computes one; its shape is established by C20), `reorder_mesh_par` does not
panic and its result satisfies the hypotheses of `C13_apply_only_renumbers`. -/
theorem C13_reorder_produces_valid_permutations {α : Type} (mx : Nat)
    (sortAdj : List Nat → List Nat) (hs : ∀ l, (sortAdj l).Perm l) (pattern : Pattern)
    (mesh : Mesh α) (h1 : pattern.majorDim = mesh.vertices.length)
    (h2 : pattern.minorDim = mesh.vertices.length)
    (hwf : ∀ l ∈ pattern.lanes, ∀ w ∈ l, w < pattern.minorDim)
    (hmesh : ∀ c ∈ mesh.cells, ∀ i ∈ c, i < mesh.vertices.length) :
    ∃ mp, MeshPermutation.reorderMesh mx sortAdj pattern mesh = some mp ∧
      fromVec mp.vertexPerm.perm = .ok mp.vertexPerm ∧
      fromVec mp.connectivityPerm.perm = .ok mp.connectivityPerm ∧
      mp.vertexPerm.len = mesh.vertices.length ∧
      mp.connectivityPerm.len = mesh.cells.length := by
  obtain ⟨v, -, -, e3, e4⟩ := (C12_cuthill_mckee_is_permutation sortAdj hs pattern).2
    (by omega) hwf
  have hlen : v.reverse.length = mesh.vertices.length := by
    have := e4.length_eq; simpa [h1] using this
  have hv : fromVec v.reverse = .ok ⟨v.reverse⟩ := by
    rw [(C10_from_vec_ok_iff_permutation _).1, hlen, ← h1]; exact e4
  obtain ⟨inv, i1, i2, i3, i4, -, -⟩ := C11_inverse_laws mx mx _ _ hv
  have hkey : ∀ c ∈ mesh.cells, (MeshPermutation.cellKey inv c).isSome := by
    intro c hc
    obtain ⟨out, ho, -⟩ := mapM_option_spec inv.sourceIndex c (fun a ha => by
      have := hmesh c hc a ha
      have hil : a < inv.perm.length := by simp only [len] at *; omega
      simp [sourceIndex, hil])
    simp [MeshPermutation.cellKey, ho]
  obtain ⟨keys, k1, -, -⟩ := mapM_option_spec (MeshPermutation.cellKey inv) mesh.cells hkey
  unfold MeshPermutation.reorderMesh
  rw [e3]
  simp only [i1, k1, perm_stableSort_range]
  refine ⟨_, rfl, hv, perm_stableSort_range _ _, hlen, ?_⟩
  simp only [len, (stableSort_perm _ _).length_eq, List.length_range]

example : ∃ out, MeshPermutation.apply 99 ⟨⟨[2, 0, 1]⟩, ⟨[1, 0]⟩⟩
    (⟨["a", "b", "c"], [[0, 1, 2], [2, 1, 1]]⟩ : Mesh String) = some out ∧
    out = ⟨["c", "a", "b"], [[0, 2, 2], [1, 2, 0]]⟩ := ⟨_, rfl, by decide⟩

end Fenris
