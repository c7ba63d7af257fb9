import Verif.Spec.Renumber
import Verif.Props.PatchTest
import Verif.Props.MapNodes
import Verif.Props.MassAssembler
import Verif.Props.ReorderPar
/-! # C110: reordering a mesh relabels what is computed on it -/
set_option autoImplicit false
set_option linter.unusedSectionVars false

namespace Fenris.Renumber
open Fenris.Element Fenris.Local Fenris.Local.Spec Fenris.PatchTest Fenris.PatchTest.Spec Quadrature Fenris.Spec
open Fenris.Surface.Spec Fenris.Renumber.Spec Fenris.Mass Fenris.Mass.Spec

attribute [local instance] zeroFill

variable {K : Type} [Field K] [LinearOrder K] [IsStrictOrderedRing K]

/-! ## Permutations as functions -/

/-- The old number of new number `i`. -/
private def src (p : Permutation) (i : Nat) : Nat := p.perm.getD i 0

private theorem src_some {p : Permutation} {n : Nat} (hp : Permutes p n) {i : Nat} (hi : i < n) : p.sourceIndex i = some (src p i) := by
  have : i < p.perm.length := by rw [hp.length_eq, List.length_range]; exact hi
  simp [Permutation.sourceIndex, src, List.getElem?_eq_getElem this]

private theorem src_of {p : Permutation} {i m : Nat} (h : p.sourceIndex i = some m) : src p i = m := by
  simp only [Permutation.sourceIndex] at h
  simp [src, h]

private theorem src_dom {p : Permutation} {n i m : Nat} (hp : Permutes p n) (h : p.sourceIndex i = some m) : i < n := by
  have := (List.getElem?_eq_some_iff.1 h).1
  rwa [hp.length_eq, List.length_range] at this

private theorem src_lt {p : Permutation} {n : Nat} (hp : Permutes p n) {i : Nat} (hi : i < n) : src p i < n := by
  have := src_some hp hi
  have := hp.mem_iff.1 (List.mem_of_getElem? this)
  exact List.mem_range.1 this

private theorem src_inj {p : Permutation} {n : Nat} (hp : Permutes p n) {i j : Nat} (hi : i < n) (hj : j < n) (h : src p i = src p j) : i = j := by
  have hnd : p.perm.Nodup := hp.nodup_iff.2 List.nodup_range
  have e1 := src_some hp hi
  have e2 := src_some hp hj
  obtain ⟨l1, e1⟩ := List.getElem?_eq_some_iff.1 e1
  obtain ⟨l2, e2⟩ := List.getElem?_eq_some_iff.1 e2
  exact (hnd.getElem_inj_iff).1 (by rw [e1, e2, h])

private theorem sum_src {p : Permutation} {n : Nat} (hp : Permutes p n) (f : Nat → K) :
    ∑ i ∈ Finset.range n, f (src p i) = ∑ i ∈ Finset.range n, f i := by
  refine Finset.sum_nbij (src p) (fun i hi => Finset.mem_range.2 (src_lt hp (Finset.mem_range.1 hi))) (fun i hi j hj h => ?_) ?_ fun _ _ => rfl
  · exact src_inj hp (Finset.mem_range.1 hi) (Finset.mem_range.1 hj) h
  · exact Finset.surjOn_of_injOn_of_card_le _ (fun i hi => by
      simpa using src_lt hp (by simpa using hi)) (fun i hi j hj h => src_inj hp (by simpa using hi) (by simpa using hj) h) le_rfl

private theorem permutes_of {p : Permutation} {n : Nat} {v : List Nat} (h : Permutation.fromVec v = .ok p) (hl : p.len = n) : Permutes p n := by
  obtain ⟨h1, h2⟩ := C10_from_vec_ok_iff_permutation v
  have := h2 p h
  subst this
  have := h1.1 h
  simp only [Permutation.len] at hl
  rw [Permutes, ← hl]
  exact this

/-! ## The reordered space -/

section space
variable {kind : Kind} {s : Nat} {Param : Type} [Inhabited Param] {mx : Nat} {mp : MeshPermutation} {mesh out : Mesh (Point kind.dim K)}

/-- A mesh permutation that fits the mesh. -/
private theorem apply_cells (hv : Permutes mp.vertexPerm mesh.vertices.length) (hc : Permutes mp.connectivityPerm mesh.cells.length)
    (hb : ∀ c ∈ mesh.cells, ∀ v ∈ c, v < mesh.vertices.length) (hout : mp.apply mx mesh = some out) :
    out.vertices.length = mesh.vertices.length ∧ out.cells.length = mesh.cells.length ∧ (∀ c ∈ out.cells, ∀ v ∈ c, v < out.vertices.length) ∧
    ∀ (k : Nat) (c' : List Nat), out.cells[k]? = some c' → k < mesh.cells.length ∧
      mesh.cells[src mp.connectivityPerm k]? = some (c'.map (src mp.vertexPerm)) ∧
      c'.map (coords out.vertices) = (c'.map (src mp.vertexPerm)).map (coords mesh.vertices) := by
  have hl1 : mp.vertexPerm.len = mesh.vertices.length := by rw [Permutation.len, hv.length_eq, List.length_range]
  have hl2 : mp.connectivityPerm.len = mesh.cells.length := by rw [Permutation.len, hc.length_eq, List.length_range]
  obtain ⟨out', h1, h2, h3, h4, h5⟩ := C13_apply_only_renumbers mx mp.vertexPerm.perm mp.connectivityPerm.perm mp
    ((C10_from_vec_ok_iff_permutation _).1.2 (by rw [show mp.vertexPerm.perm.length = _ from hl1]; exact hv))
    ((C10_from_vec_ok_iff_permutation _).1.2 (by rw [show mp.connectivityPerm.perm.length = _ from hl2]; exact hc)) mesh hl1 hl2 hb
  rw [hout] at h1
  injection h1 with h1
  subst h1
  have main : ∀ (k : Nat) (c' : List Nat), out.cells[k]? = some c' → k < mesh.cells.length ∧
      mesh.cells[src mp.connectivityPerm k]? = some (c'.map (src mp.vertexPerm)) ∧ (∀ i ∈ c', i < out.vertices.length) ∧
      c'.map (coords out.vertices) = (c'.map (src mp.vertexPerm)).map (coords mesh.vertices) := by
    intro k c' hk
    have hkl : k < mesh.cells.length := by rw [← h4]; exact (List.getElem?_eq_some_iff.1 hk).1
    have hsl := src_lt hc hkl
    obtain ⟨c'', g1, g2, g3, g4⟩ := h5 k _ _ (src_some hc hkl) (List.getElem?_eq_getElem hsl)
    rw [hk] at g1
    injection g1 with g1
    subst g1
    have e : mesh.cells[src mp.connectivityPerm k] = c'.map (src mp.vertexPerm) := by
      apply List.map_injective_iff.2 (Option.some_injective Nat)
      rw [← g3, List.map_map]
      refine List.map_congr_left fun i hi => ?_
      exact src_some hv (by rw [← h2.length_eq]; exact g2 i hi)
    refine ⟨hkl, by rw [List.getElem?_eq_getElem hsl, e], g2, ?_⟩
    rw [List.map_map]
    refine List.map_congr_left fun i hi => ?_
    have hi' : i < mesh.vertices.length := by rw [← h2.length_eq]; exact g2 i hi
    have := h3 i _ (src_some hv hi')
    simp only [coords, Function.comp_apply, List.getD_eq_getElem?_getD, this]
  refine ⟨h2.length_eq, h4, ?_, fun k c' hk => ⟨(main k c' hk).1, (main k c' hk).2.1, (main k c' hk).2.2.2⟩⟩
  intro c hcm
  obtain ⟨k, hk⟩ := List.getElem?_of_mem hcm
  exact (main k c hk).2.2.1

/-- The elements of the reordered mesh are those of the mesh, with renumbered nodes. -/
private theorem space_spec (hv : Permutes mp.vertexPerm mesh.vertices.length) (hc : Permutes mp.connectivityPerm mesh.cells.length)
    (hb : ∀ c ∈ mesh.cells, ∀ v ∈ c, v < mesh.vertices.length) (hout : mp.apply mx mesh = some out) {space : Space kind.dim K}
    (hspace : meshSpace kind mesh = some space) :
    ∃ space', meshSpace kind out = some space' ∧ space'.length = space.length ∧ space.length = mesh.cells.length ∧
      ∀ (k : Nat) (el : VolElement kind.dim K) (c' : List Nat), space'[k]? = some (el, c') →
        space[src mp.connectivityPerm k]? = some (el, c'.map (src mp.vertexPerm)) ∧ ∀ n ∈ c', n < mesh.vertices.length := by
  obtain ⟨h1, h2, h3, h4⟩ := apply_cells hv hc hb hout
  rw [C89_mesh_space kind mesh hb] at hspace
  injection hspace with hs
  refine ⟨_, C89_mesh_space kind out h3, by simp [← hs, h2], by simp [← hs], fun k el c' hk => ?_⟩
  rw [List.getElem?_map, Option.map_eq_some_iff] at hk
  obtain ⟨c, hk, he⟩ := hk
  simp only [Prod.mk.injEq] at he
  obtain ⟨rfl, rfl⟩ := he
  obtain ⟨-, g1, g2⟩ := h4 k c hk
  refine ⟨?_, fun n hn => by rw [← h1]; exact h3 c (List.mem_of_getElem? hk) n hn⟩
  rw [← hs, List.getElem?_map, g1, g2]
  rfl

private theorem local_follow {p : Permutation} {N : Nat} (hp : Permutes p N) {u u' : List K} (hu : ValuesFollow s p u u') (c' : List Nat)
    (hc : ∀ n ∈ c', n < N) : localPart s u' c' = localPart s u (c'.map (src p)) := by
  unfold localPart
  rw [List.flatMap_map]
  refine List.flatMap_congr fun n hn => List.map_congr_left fun a ha => ?_
  simp only [List.getD_eq_getElem?_getD, hu.2 n _ a (src_some hp (hc n hn)) (List.mem_range.1 ha)]

/-- **C110.** A mesh with any permutation of its vertices and cells applied to it is a mesh on which one can compute whenever one can compute
on the original: with the nodal values and the quadrature rules following the renumbering, everything that assembling needs is there. -/
theorem C110_reordered_mesh (hv : Permutes mp.vertexPerm mesh.vertices.length) (hc : Permutes mp.connectivityPerm mesh.cells.length)
    (hb : ∀ c ∈ mesh.cells, ∀ v ∈ c, v < mesh.vertices.length) (hout : mp.apply mx mesh = some out) {space : Space kind.dim K}
    (hspace : meshSpace kind mesh = some space) {table table' : Table (Point kind.dim K) K Param} {rules : Nat → List (QPoint kind.dim K Param)}
    {u u' : List K} (h : Discretisation space mesh.vertices.length table rules u s) (hnd : ∀ en ∈ space, en.2.Nodup)
    (hu : ValuesFollow s mp.vertexPerm u u') (ht : RulesFollow mp.connectivityPerm table table') :
    ∃ (space' : Space kind.dim K) (rules' : Nat → List (QPoint kind.dim K Param)), meshSpace kind out = some space' ∧ space'.length = space.length ∧
      Discretisation space' mesh.vertices.length table' rules' u' s ∧ (∀ en ∈ space', en.2.Nodup) ∧
      ∀ k e, mp.connectivityPerm.sourceIndex k = some e → rules' k = rules e := by
  obtain ⟨space', h1, h2, h3, h4⟩ := space_spec hv hc hb hout hspace
  have hk : ∀ en' ∈ space', ∃ k, (space[src mp.connectivityPerm k]? = some (en'.1, en'.2.map (src mp.vertexPerm)) ∧
      ∀ n ∈ en'.2, n < mesh.vertices.length) := by
    intro en' hen
    obtain ⟨k, hk⟩ := List.getElem?_of_mem hen
    exact ⟨k, h4 k en'.1 en'.2 hk⟩
  refine ⟨space', fun k => rules (src mp.connectivityPerm k), h1, h2, ⟨?_, ?_, ?_, ?_, ?_, ?_⟩, ?_, ?_⟩
  · intro en' hen
    obtain ⟨k, g, -⟩ := hk en' hen
    exact h.wellFormed (en'.1, en'.2.map (src mp.vertexPerm)) (List.mem_of_getElem? g)
  · intro en' hen
    obtain ⟨k, g, -⟩ := hk en' hen
    have := h.nodeCount _ (List.mem_of_getElem? g)
    simpa using this
  · intro en' hen
    obtain ⟨k, -, g⟩ := hk en' hen
    exact g
  · rw [hu.1, h.uLength]
  · intro e he b
    rw [ht e _ b (src_some hc (by omega))]
    exact h.rule _ (by rw [h3]; exact src_lt hc (by omega)) b
  · intro e en' hen q hq
    exact h.regular _ _ (h4 e en'.1 en'.2 hen).1 q hq
  · intro en' hen
    obtain ⟨k, g, -⟩ := hk en' hen
    exact (hnd _ (List.mem_of_getElem? g)).of_map _
  · intro k e hke
    simp only [src_of hke]

private theorem sum_elements {p : Permutation} {M n' n : Nat} (hp : Permutes p M) (h' : n' = M) (h : n = M) (f' : Fin n' → K) (f : Fin n → K)
    (hf : ∀ (k : Fin n') (e : Fin n), (e : Nat) = src p k → f' k = f e) : ∑ k, f' k = ∑ e, f e := by
  subst h'
  subst h
  have hinj : Function.Injective fun k : Fin n => (⟨src p k, src_lt hp k.2⟩ : Fin n) := by
    intro i j hij
    exact Fin.ext (src_inj hp i.2 j.2 (congrArg Fin.val hij))
  exact Fintype.sum_bijective _ (Finite.injective_iff_bijective.1 hinj) _ _ fun k => hf k _ rfl

/-- **C110.** The matrix: the matrix assembled on the reordered mesh is the matrix assembled on the mesh, with rows and columns renumbered with
the nodes, whatever the order of assembly and the content of workspaces and outputs. -/
theorem C110_matrix (hs : 0 < s) (hv : Permutes mp.vertexPerm mesh.vertices.length) (hc : Permutes mp.connectivityPerm mesh.cells.length)
    (hb : ∀ c ∈ mesh.cells, ∀ v ∈ c, v < mesh.vertices.length) (hout : mp.apply mx mesh = some out) {space space' : Space kind.dim K}
    (hspace : meshSpace kind mesh = some space) (hspace' : meshSpace kind out = some space')
    {table table' : Table (Point kind.dim K) K Param} {rules : Nat → List (QPoint kind.dim K Param)}
    {u u' : List K} (h : Discretisation space mesh.vertices.length table rules u s) (hnd : ∀ en ∈ space, en.2.Nodup)
    (hu : ValuesFollow s mp.vertexPerm u u') (ht : RulesFollow mp.connectivityPerm table table')
    (o : Operator kind.dim s K Param) (hsym : SymmetryLaw o)
    (ord ord' : List Nat → List Nat) (hord : ∀ l, (ord l).Perm l) (hord' : ∀ l, (ord' l).Perm l)
    (sortNodes sortNodes' : List (Nat × Nat) → List (Nat × Nat)) (hsort : SortsNodes sortNodes) (hsort' : SortsNodes sortNodes')
    (bufs bufs' : Nat → Buffer (Point kind.dim K) K Param) (outs outs' : Nat → Mat K) (elemMat elemMat' : Nat → Except String (Mat K))
    (hem : ∀ e, e < space.length → ∃ buf', elementMatrix space o table u (bufs e) (outs e) e = some (elemMat e, buf'))
    (hem' : ∀ e, e < space'.length → ∃ buf', elementMatrix space' o table' u' (bufs' e) (outs' e) e = some (elemMat' e, buf')) :
    ∃ m m', Assembly.assemble ord sortNodes ⟨s, mesh.vertices.length, space.map (·.2)⟩ elemMat = some (.ok m) ∧
      Assembly.assemble ord' sortNodes' ⟨s, out.vertices.length, space'.map (·.2)⟩ elemMat' = some (.ok m') ∧
      MatrixFollows s mp.vertexPerm m m' := by
  obtain ⟨sp, rules', h1, h2, h', hnd', hr⟩ := C110_reordered_mesh hv hc hb hout hspace h hnd hu ht
  obtain ⟨sp', g1, -, g3, g4⟩ := space_spec hv hc hb hout hspace
  rw [hspace'] at h1 g1
  injection h1 with h1
  injection g1 with g1
  subst h1
  subst g1
  have hlen := (apply_cells hv hc hb hout).1
  rw [hlen]
  have hex : ∀ e, ∃ A : Mat K, ∀ (el : VolElement kind.dim K) (nodes : List Nat), space[e]? = some (el, nodes) →
      ∀ (I J : Nat) (i j : Fin s), I < nodes.length → J < nodes.length →
        A (s * I + i) (s * J + j) = quadSum el (rules e) (fun p param =>
          o.contract (gradU s (el.jacobian p) (el.gradients p) (localPart s u nodes))
            (physGrad (el.jacobian p) ((el.gradients p)[I]?.getD 0))
            (physGrad (el.jacobian p) ((el.gradients p)[J]?.getD 0)) param i j) := by
    intro e
    cases he : space[e]? with
    | none => exact ⟨fun _ _ => 0, fun el nodes h => by cases h⟩
    | some en =>
      obtain ⟨A, -, -, hA⟩ := C69_element_matrix space _ table rules u h o hsym (bufs e) (outs e) e en.1 en.2 he
      refine ⟨A, fun el nodes hh => ?_⟩
      cases hh
      exact hA
  choose A hA using hex
  obtain ⟨m, m1, m2⟩ := C69_global_matrix space _ table rules u hs h hnd o hsym ord hord sortNodes hsort bufs outs elemMat hem A hA
  obtain ⟨m', m1', m2'⟩ := C69_global_matrix space' _ table' rules' u' hs h' hnd' o hsym ord' hord' sortNodes' hsort' bufs' outs' elemMat' hem'
    (fun k => A (src mp.connectivityPerm k)) (by
      intro k el c' hk I J i j hI hJ
      obtain ⟨q1, q2⟩ := g4 k el c' hk
      have hkl : k < mesh.cells.length := by
        have := (List.getElem?_eq_some_iff.1 hk).1
        omega
      rw [hA _ _ _ q1 I J i j (by simpa using hI) (by simpa using hJ), local_follow hv hu c' q2, hr k _ (src_some hc hkl)])
  refine ⟨m, m', m1, m1', fun i j n n' a b hi hj ha hb' => ?_⟩
  rw [m2, m2']
  refine sum_elements hc (h2.trans g3) g3 _ _ fun k e hke => ?_
  obtain ⟨q1, q2⟩ := g4 k (space'[k]).1 (space'[k]).2 (List.getElem?_eq_getElem k.2)
  have q3 : space[e].2 = (space'[k]).2.map (src mp.vertexPerm) := by
    have : space[(e : Nat)]? = some (space'[k].1, (space'[k]).2.map (src mp.vertexPerm)) := by rw [hke]; exact q1
    rw [List.getElem?_eq_getElem e.2] at this
    exact congrArg Prod.snd (Option.some.inj this)
  rw [q3, ← hke]
  refine (Assembly.contribution_map s _ _ _ _ _ _ _ fun n₁ hn₁ n₂ hn₂ i₁ i₂ hi₁ hi₂ => ?_).symm
  rw [Assembly.dof_eq hi₁ ha, Assembly.dof_eq hi₂ hb', Assembly.dof_eq hi₁ ha, Assembly.dof_eq hi₂ hb']
  have inj : ∀ x y y', x < mesh.vertices.length → mp.vertexPerm.sourceIndex y = some y' → (src mp.vertexPerm x = y' ↔ x = y) := by
    intro x y y' hx hy
    have hyl := src_dom hv hy
    rw [← src_of hy]
    exact ⟨fun hh => src_inj hv hx hyl hh, fun hh => by rw [hh]⟩
  rw [inj n₁ i n (q2 _ hn₁) hi, inj n₂ j n' (q2 _ hn₂) hj]

private theorem vcontribution_map (nodes : List Nat) (f : Nat → Nat) (A : Nat → K) (r r' : Nat)
    (h : ∀ n ∈ nodes, ∀ i, i < s → (s * f n + i = r ↔ s * n + i = r')) :
    vectorContribution s (nodes.map f) A r = vectorContribution s nodes A r' := by
  unfold vectorContribution
  have hl : (nodes.map f).length = nodes.length := by simp
  refine Fintype.sum_equiv (finCongr hl) _ _ (fun a => ?_)
  refine Finset.sum_congr rfl (fun i _ => ?_)
  have ha : (nodes.map f)[a] = f (nodes[(finCongr hl) a]) := by simp
  have := h (nodes[(finCongr hl) a]) (List.getElem_mem _) i i.2
  rw [ha]
  simp only [this]
  rfl

private theorem dof_lt {N i a : Nat} (hi : i < N) (ha : a < s) : s * i + a < s * N :=
  calc s * i + a < s * i + s := by omega
    _ = s * (i + 1) := by ring
    _ ≤ s * N := Nat.mul_le_mul_left s hi

/-- **C110.** The vector: the vector assembled on the reordered mesh has the same components at every node. -/
theorem C110_vector (hv : Permutes mp.vertexPerm mesh.vertices.length) (hc : Permutes mp.connectivityPerm mesh.cells.length)
    (hb : ∀ c ∈ mesh.cells, ∀ v ∈ c, v < mesh.vertices.length) (hout : mp.apply mx mesh = some out) {space space' : Space kind.dim K}
    (hspace : meshSpace kind mesh = some space) (hspace' : meshSpace kind out = some space')
    {table table' : Table (Point kind.dim K) K Param} {rules : Nat → List (QPoint kind.dim K Param)}
    {u u' : List K} (h : Discretisation space mesh.vertices.length table rules u s) (hnd : ∀ en ∈ space, en.2.Nodup)
    (hu : ValuesFollow s mp.vertexPerm u u') (ht : RulesFollow mp.connectivityPerm table table')
    (o : Operator kind.dim s K Param) (bufs bufs' : Nat → Buffer (Point kind.dim K) K Param) (outs outs' : Nat → Nat → K)
    (elemVec elemVec' : Nat → Except String (Nat → K))
    (hev : ∀ e, e < space.length → ∃ buf', elementVector space o table u (bufs e) (outs e) e = some (elemVec e, buf'))
    (hev' : ∀ e, e < space'.length → ∃ buf', elementVector space' o table' u' (bufs' e) (outs' e) e = some (elemVec' e, buf')) :
    ∃ f f', Assembly.assembleVector ⟨s, mesh.vertices.length, space.map (·.2)⟩ elemVec = some (.ok f) ∧
      Assembly.assembleVector ⟨s, out.vertices.length, space'.map (·.2)⟩ elemVec' = some (.ok f') ∧
      ValuesFollow s mp.vertexPerm f f' := by
  obtain ⟨sp, rules', h1, h2, h', hnd', hr⟩ := C110_reordered_mesh hv hc hb hout hspace h hnd hu ht
  obtain ⟨sp', g1, -, g3, g4⟩ := space_spec hv hc hb hout hspace
  rw [hspace'] at h1 g1
  injection h1 with h1
  injection g1 with g1
  subst h1
  subst g1
  have hlen := (apply_cells hv hc hb hout).1
  rw [hlen]
  have hex : ∀ e, ∃ A : Nat → K, ∀ (el : VolElement kind.dim K) (nodes : List Nat), space[e]? = some (el, nodes) →
      ∀ (I : Nat) (i : Fin s), I < nodes.length →
        A (s * I + i) = quadSum el (rules e) (fun p param =>
          ∑ k, o.op (gradU s (el.jacobian p) (el.gradients p) (localPart s u nodes)) param k i *
            physGrad (el.jacobian p) ((el.gradients p)[I]?.getD 0) k) := by
    intro e
    cases he : space[e]? with
    | none => exact ⟨fun _ => 0, fun el nodes h => by cases h⟩
    | some en =>
      obtain ⟨A, -, -, hA⟩ := C69_element_vector space _ table rules u h o (bufs e) (outs e) e en.1 en.2 he
      refine ⟨A, fun el nodes hh => ?_⟩
      cases hh
      exact hA
  choose A hA using hex
  have m1 := C69_global_vector space _ table rules u h o bufs outs elemVec hev A hA
  have m1' := C69_global_vector space' _ table' rules' u' h' o bufs' outs' elemVec' hev'
    (fun k => A (src mp.connectivityPerm k)) (by
      intro k el c' hk I i hI
      obtain ⟨q1, q2⟩ := g4 k el c' hk
      have hkl : k < mesh.cells.length := by
        have := (List.getElem?_eq_some_iff.1 hk).1
        omega
      rw [hA _ _ _ q1 I i (by simpa using hI), local_follow hv hu c' q2, hr k _ (src_some hc hkl)])
  refine ⟨_, _, m1, m1', by simp, fun i n a hi ha => ?_⟩
  have hi' := src_dom hv hi
  have hn : n < mesh.vertices.length := by rw [← src_of hi]; exact src_lt hv hi'
  rw [List.getElem?_map, List.getElem?_map, List.getElem?_range (dof_lt hi' ha), List.getElem?_range (dof_lt hn ha)]
  simp only [Option.map_some]
  congr 1
  refine sum_elements hc (h2.trans g3) g3 _ _ fun k e hke => ?_
  obtain ⟨q1, q2⟩ := g4 k (space'[k]).1 (space'[k]).2 (List.getElem?_eq_getElem k.2)
  have q3 : space[e].2 = (space'[k]).2.map (src mp.vertexPerm) := by
    have : space[(e : Nat)]? = some (space'[k].1, (space'[k]).2.map (src mp.vertexPerm)) := by rw [hke]; exact q1
    rw [List.getElem?_eq_getElem e.2] at this
    exact congrArg Prod.snd (Option.some.inj this)
  rw [q3, ← hke]
  refine (vcontribution_map _ _ _ _ _ fun n₁ hn₁ i₁ hi₁ => ?_).symm
  rw [Assembly.dof_eq hi₁ ha, Assembly.dof_eq hi₁ ha, ← src_of hi]
  exact and_congr_left fun _ => ⟨fun hh => src_inj hv (q2 _ hn₁) hi' hh, fun hh => by rw [hh]⟩

/-- **C110.** The energy: the same energy is assembled, serially and in parallel. -/
theorem C110_energy (hv : Permutes mp.vertexPerm mesh.vertices.length) (hc : Permutes mp.connectivityPerm mesh.cells.length)
    (hb : ∀ c ∈ mesh.cells, ∀ v ∈ c, v < mesh.vertices.length) (hout : mp.apply mx mesh = some out) {space space' : Space kind.dim K}
    (hspace : meshSpace kind mesh = some space) (hspace' : meshSpace kind out = some space')
    {table table' : Table (Point kind.dim K) K Param} {rules : Nat → List (QPoint kind.dim K Param)}
    {u u' : List K} (h : Discretisation space mesh.vertices.length table rules u s) (hnd : ∀ en ∈ space, en.2.Nodup)
    (hu : ValuesFollow s mp.vertexPerm u u') (ht : RulesFollow mp.connectivityPerm table table')
    (o : Operator kind.dim s K Param) (bufs bufs' : Nat → Buffer (Point kind.dim K) K Param) (elem elem' : Nat → Except String K)
    (hee : ∀ e, e < space.length → ∃ buf', elementEnergy space o table u (bufs e) e = some (elem e, buf'))
    (hee' : ∀ e, e < space'.length → ∃ buf', elementEnergy space' o table' u' (bufs' e) e = some (elem' e, buf'))
    (tree tree' : Assembly.ReduceTree) :
    ∃ E, Assembly.assembleScalar space.length elem = .ok E ∧ Assembly.assembleScalar space'.length elem' = .ok E ∧
      Assembly.parAssembleScalar tree space.length elem = .ok E ∧ Assembly.parAssembleScalar tree' space'.length elem' = .ok E := by
  obtain ⟨sp, rules', h1, h2, h', hnd', hr⟩ := C110_reordered_mesh hv hc hb hout hspace h hnd hu ht
  obtain ⟨sp', g1, -, g3, g4⟩ := space_spec hv hc hb hout hspace
  rw [hspace'] at h1 g1
  injection h1 with h1
  injection g1 with g1
  subst h1
  subst g1
  obtain ⟨m1, p1⟩ := C69_global_energy space _ table rules u h o bufs elem hee tree
  obtain ⟨m2, p2⟩ := C69_global_energy space' _ table' rules' u' h' o bufs' elem' hee' tree'
  rw [p1, p2]
  refine ⟨_, m1, m2.trans ?_, m1, m2.trans ?_⟩ <;>
  · congr 1
    refine sum_elements hc (h2.trans g3) g3 _ _ fun k e hke => ?_
    obtain ⟨q1, q2⟩ := g4 k (space'[k]).1 (space'[k]).2 (List.getElem?_eq_getElem k.2)
    have q3 : space[e] = (space'[k].1, (space'[k]).2.map (src mp.vertexPerm)) := by
      have : space[(e : Nat)]? = some (space'[k].1, (space'[k]).2.map (src mp.vertexPerm)) := by rw [hke]; exact q1
      rw [List.getElem?_eq_getElem e.2] at this
      exact Option.some.inj this
    have hkl : (k : Nat) < mesh.cells.length := by
      have := k.2
      omega
    rw [q3, local_follow hv hu _ q2, hr k _ (src_some hc hkl), ← hke]

end space

/-! ## Solutions -/

section solve
variable {p : Permutation} {N s : Nat}

/-- The old degree of freedom of a new one. -/
private def dsrc (s : Nat) (p : Permutation) (r : Nat) : Nat := s * src p (r / s) + r % s

private theorem split_dof {r : Nat} (hr : r < s * N) : r / s < N ∧ r % s < s ∧ s * (r / s) + r % s = r := by
  have hs : 0 < s := by
    rcases Nat.eq_zero_or_pos s with rfl | h
    · simp at hr
    · exact h
  exact ⟨Nat.div_lt_of_lt_mul hr, Nat.mod_lt _ hs, Nat.div_add_mod r s⟩

private theorem dsrc_lt (hp : Permutes p N) {r : Nat} (hr : r < s * N) : dsrc s p r < s * N :=
  dof_lt (src_lt hp (split_dof hr).1) (split_dof hr).2.1

private theorem dsrc_inj (hp : Permutes p N) {r r' : Nat} (hr : r < s * N) (hr' : r' < s * N) (h : dsrc s p r = dsrc s p r') : r = r' := by
  obtain ⟨a1, a2, a3⟩ := split_dof hr
  obtain ⟨b1, b2, b3⟩ := split_dof hr'
  obtain ⟨c1, c2⟩ := (Assembly.dof_eq a2 b2).1 h
  rw [← a3, ← b3, src_inj hp a1 b1 c1, c2]

private theorem dsrc_surj (hp : Permutes p N) {r : Nat} (hr : r < s * N) : ∃ r', r' < s * N ∧ dsrc s p r' = r := by
  have := Finset.surjOn_of_injOn_of_card_le (s := Finset.range (s * N)) (t := Finset.range (s * N)) (dsrc s p) (fun i hi => by
      simpa using dsrc_lt hp (by simpa using hi)) (fun i hi j hj h => dsrc_inj hp (by simpa using hi) (by simpa using hj) h) le_rfl
  obtain ⟨r', h1, h2⟩ := this (by simpa using hr : r ∈ ((Finset.range (s * N) : Finset Nat) : Set Nat))
  exact ⟨r', by simpa using h1, h2⟩

private theorem sum_dsrc (hp : Permutes p N) (f : Nat → K) : ∑ r ∈ Finset.range (s * N), f (dsrc s p r) = ∑ r ∈ Finset.range (s * N), f r :=
  Finset.sum_nbij (dsrc s p) (fun i hi => Finset.mem_range.2 (dsrc_lt hp (Finset.mem_range.1 hi)))
    (fun i hi j hj h => dsrc_inj hp (by simpa using hi) (by simpa using hj) h) (fun r hr => by
      obtain ⟨r', h1, h2⟩ := dsrc_surj hp (by simpa using hr : r < s * N)
      exact ⟨r', by simpa using h1, h2⟩) fun _ _ => rfl

private theorem follow_getD (hp : Permutes p N) {u u' : List K} (hu : ValuesFollow s p u u') {r : Nat} (hr : r < s * N) :
    u'.getD r 0 = u.getD (dsrc s p r) 0 := by
  obtain ⟨a1, a2, a3⟩ := split_dof hr
  have := hu.2 _ _ _ (src_some hp a1) a2
  rw [a3] at this
  simp only [List.getD_eq_getElem?_getD, this, dsrc]

private theorem follow_constrained (hp : Permutes p N) {nodes nodes' : List Nat} (hn : NodesFollow p nodes nodes') {r : Nat} (hr : r < s * N) :
    Constrained s nodes' r ↔ Constrained s nodes (dsrc s p r) := by
  obtain ⟨a1, a2, a3⟩ := split_dof hr
  have key : ∀ (l : List Nat) (n a : Nat), a < s → (Constrained s l (s * n + a) ↔ n ∈ l) := by
    intro l n a ha
    constructor
    · rintro ⟨n', h1, i, h2, h3⟩
      rw [((Assembly.dof_eq ha h2).1 h3).1]
      exact h1
    · exact fun h => ⟨n, h, a, ha, rfl⟩
  rw [← a3, key _ _ _ a2, a3, dsrc, key _ _ _ a2]
  exact hn _ _ (src_some hp a1)

/-- **C110.** Any nodal values can be carried over to the new numbering, in one way. -/
theorem C110_values (hp : Permutes p N) (u : List K) (hu : u.length = s * N) : ∃! u', ValuesFollow s p u u' := by
  refine ⟨(List.range (s * N)).map fun r => u.getD (dsrc s p r) 0, ⟨by simp [hu], fun i n a hi ha => ?_⟩, fun u' hu' => ?_⟩
  · have hi' := src_dom hp hi
    have hn : n < N := by rw [← src_of hi]; exact src_lt hp hi'
    have hs : 0 < s := by omega
    rw [List.getElem?_map, List.getElem?_range (dof_lt hi' ha), Option.map_some, dsrc, Nat.mul_add_div hs, Nat.div_eq_of_lt ha, Nat.add_zero,
      Nat.mul_add_mod, Nat.mod_eq_of_lt ha, src_of hi, List.getD_eq_getElem?_getD, List.getElem?_eq_getElem (by rw [hu]; exact dof_lt hn ha)]
    rfl
  · apply List.ext_getElem
    · simp [hu'.1, hu]
    · intro r h1 h2
      have hr : r < s * N := by simpa using h2
      have := follow_getD hp hu' hr
      rw [List.getD_eq_getElem?_getD, List.getElem?_eq_getElem h1] at this
      simpa using this

/-- **C110.** Solutions: the equations of the reordered problem, with the right-hand side and the Dirichlet nodes carried over, are solved by
exactly those nodal values that are the carried over solutions of the original problem. -/
theorem C110_solutions (hp : Permutes p N) {m m' : Assembly.Csr K} (hm : MatrixFollows s p m m') {rhs rhs' x x' : List K}
    (hr : ValuesFollow s p rhs rhs') (hx : ValuesFollow s p x x') {nodes nodes' : List Nat} (hn : NodesFollow p nodes nodes') :
    SolvesConstrained (s * N) s nodes' (entry m') (fun r => rhs'.getD r 0) (fun r => x'.getD r 0) ↔
      SolvesConstrained (s * N) s nodes (entry m) (fun r => rhs.getD r 0) (fun r => x.getD r 0) := by
  have hme : ∀ r c, r < s * N → c < s * N → entry m' r c = entry m (dsrc s p r) (dsrc s p c) := by
    intro r c hr hc
    obtain ⟨a1, a2, a3⟩ := split_dof hr
    obtain ⟨b1, b2, b3⟩ := split_dof hc
    have := hm _ _ _ _ _ _ (src_some hp a1) (src_some hp b1) a2 b2
    rw [a3, b3] at this
    exact this
  have hsum : ∀ r, r < s * N → ∑ c ∈ Finset.range (s * N), entry m' r c * x'.getD c 0 =
      ∑ c ∈ Finset.range (s * N), entry m (dsrc s p r) c * x.getD c 0 := by
    intro r hr
    rw [← sum_dsrc hp fun c => entry m (dsrc s p r) c * x.getD c 0]
    refine Finset.sum_congr rfl fun c hc => ?_
    rw [hme r c hr (Finset.mem_range.1 hc), follow_getD hp hx (Finset.mem_range.1 hc)]
  have hall : ∀ P : Nat → Prop, (∀ r, r < s * N → P r) ↔ ∀ r, r < s * N → P (dsrc s p r) := by
    intro P
    refine ⟨fun h r hr => h _ (dsrc_lt hp hr), fun h r hr => ?_⟩
    obtain ⟨r', h1, rfl⟩ := dsrc_surj hp hr
    exact h r' h1
  unfold SolvesConstrained
  rw [hall fun r => Constrained s nodes r → x.getD r 0 = 0,
    hall fun r => ¬ Constrained s nodes r → ∑ c ∈ Finset.range (s * N), entry m r c * x.getD c 0 = rhs.getD r 0]
  refine and_congr (forall_congr' fun r => forall_congr' fun hr' => ?_) (forall_congr' fun r => forall_congr' fun hr' => ?_)
  · simp only [follow_constrained hp hn hr', follow_getD hp hx hr']
  · simp only [follow_constrained hp hn hr', hsum r hr', follow_getD hp hr hr']

end solve

/-! ## Sources and masses -/

section mass
variable {kind : Kind} {s : Nat} {Param : Type} [Inhabited Param] {mx : Nat} {mp : MeshPermutation} {mesh out : Mesh (Point kind.dim K)}

/-- The unit vector of an old degree of freedom. -/
private def unit (n r : Nat) : List K := (List.range n).map fun r' => if r' = r then 1 else 0

private theorem sum_unit {n r : Nat} (hr : r < n) (f : Nat → K) : ∑ c ∈ Finset.range n, (unit n r).getD c 0 * f c = f r := by
  rw [Finset.sum_eq_single r]
  · rw [unit, getD_map_range _ hr, if_pos rfl, one_mul]
  · intro c hc hne
    rw [unit, getD_map_range _ (Finset.mem_range.1 hc), if_neg hne, zero_mul]
  · exact fun h => absurd (Finset.mem_range.2 hr) h

private theorem unit_follows {p : Permutation} {N : Nat} (hp : Permutes p N) {r : Nat} (hr : r < s * N) :
    ValuesFollow s p (unit (s * N) (dsrc s p r) : List K) (unit (s * N) r) := by
  refine ⟨by simp [unit], fun i n a hi ha => ?_⟩
  have hi' := src_dom hp hi
  have hn : n < N := by rw [← src_of hi]; exact src_lt hp hi'
  have hs : 0 < s := by omega
  rw [unit, unit, List.getElem?_map, List.getElem?_map, List.getElem?_range (dof_lt hi' ha), List.getElem?_range (dof_lt hn ha)]
  simp only [Option.map_some]
  congr 1
  have e : s * n + a = dsrc s p (s * i + a) := by
    rw [dsrc, Nat.mul_add_div hs, Nat.div_eq_of_lt ha, Nat.add_zero, Nat.mul_add_mod, Nat.mod_eq_of_lt ha, src_of hi]
  rw [e]
  exact if_congr ⟨fun h => by rw [h], fun h => dsrc_inj hp (dof_lt hi' ha) hr h⟩ rfl rfl

private theorem dsrc_dof {p : Permutation} {i n a : Nat} (hi : p.sourceIndex i = some n) (ha : a < s) : dsrc s p (s * i + a) = s * n + a := by
  have hs : 0 < s := by omega
  rw [dsrc, Nat.mul_add_div hs, Nat.div_eq_of_lt ha, Nat.add_zero, Nat.mul_add_mod, Nat.mod_eq_of_lt ha, src_of hi]

/-- The reordered mesh can be sampled. -/
private theorem sampled (hv : Permutes mp.vertexPerm mesh.vertices.length) (hc : Permutes mp.connectivityPerm mesh.cells.length)
    (hb : ∀ c ∈ mesh.cells, ∀ v ∈ c, v < mesh.vertices.length) (hout : mp.apply mx mesh = some out) {space space' : Space kind.dim K}
    (hspace : meshSpace kind mesh = some space) (hspace' : meshSpace kind out = some space') {table table' : Table (Point kind.dim K) K Param}
    {rules : Nat → List (QPoint kind.dim K Param)} (h : Sampled space mesh.vertices.length table rules)
    (ht : RulesFollow mp.connectivityPerm table table') :
    Sampled space' mesh.vertices.length table' (fun k => rules (src mp.connectivityPerm k)) ∧ space'.length = mesh.cells.length ∧
      space.length = mesh.cells.length ∧ ∀ (k : Fin space'.length) (e : Fin space.length), (e : Nat) = src mp.connectivityPerm k →
        space[e] = ((space'[k]).1, (space'[k]).2.map (src mp.vertexPerm)) ∧ ∀ n ∈ (space'[k]).2, n < mesh.vertices.length := by
  obtain ⟨sp', g1, g2, g3, g4⟩ := space_spec hv hc hb hout hspace
  rw [hspace'] at g1
  injection g1 with g1
  subst g1
  have hk : ∀ en' ∈ space', ∃ k, (space[src mp.connectivityPerm k]? = some (en'.1, en'.2.map (src mp.vertexPerm)) ∧
      ∀ n ∈ en'.2, n < mesh.vertices.length) := by
    intro en' hen
    obtain ⟨k, hk⟩ := List.getElem?_of_mem hen
    exact ⟨k, g4 k en'.1 en'.2 hk⟩
  refine ⟨⟨?_, ?_, ?_, ?_⟩, g2.trans g3, g3, ?_⟩
  · intro en' hen
    obtain ⟨k, g, -⟩ := hk en' hen
    exact h.wellFormed (en'.1, en'.2.map (src mp.vertexPerm)) (List.mem_of_getElem? g)
  · intro en' hen
    obtain ⟨k, g, -⟩ := hk en' hen
    have := h.nodeCount _ (List.mem_of_getElem? g)
    simpa using this
  · intro en' hen
    obtain ⟨k, -, g⟩ := hk en' hen
    exact g
  · intro e he b
    rw [ht e _ b (src_some hc (by omega))]
    exact h.rule _ (by rw [g3]; exact src_lt hc (by omega)) b
  · intro k e hke
    obtain ⟨q1, q2⟩ := g4 k (space'[k]).1 (space'[k]).2 (List.getElem?_eq_getElem k.2)
    refine ⟨?_, q2⟩
    have : space[(e : Nat)]? = some (space'[k].1, (space'[k]).2.map (src mp.vertexPerm)) := by rw [hke]; exact q1
    rw [List.getElem?_eq_getElem e.2] at this
    exact Option.some.inj this

/-- **C110.** The load vector of a source: the same components at every node. -/
theorem C110_source (hv : Permutes mp.vertexPerm mesh.vertices.length) (hc : Permutes mp.connectivityPerm mesh.cells.length)
    (hb : ∀ c ∈ mesh.cells, ∀ v ∈ c, v < mesh.vertices.length) (hout : mp.apply mx mesh = some out) {space space' : Space kind.dim K}
    (hspace : meshSpace kind mesh = some space) (hspace' : meshSpace kind out = some space') {table table' : Table (Point kind.dim K) K Param}
    {rules : Nat → List (QPoint kind.dim K Param)} (h : Sampled space mesh.vertices.length table rules)
    (ht : RulesFollow mp.connectivityPerm table table') (source : Point kind.dim K → Param → Fin s → K)
    (bufs bufs' : Nat → Buffer (Point kind.dim K) K Param) (outs outs' : Nat → Nat → K) (elemVec elemVec' : Nat → Except String (Nat → K))
    (hev : ∀ e, e < space.length → ∃ buf', sourceElementVector space source table (bufs e) (outs e) e = some (elemVec e, buf'))
    (hev' : ∀ e, e < space'.length → ∃ buf', sourceElementVector space' source table' (bufs' e) (outs' e) e = some (elemVec' e, buf')) :
    ∃ b b', Assembly.assembleVector ⟨s, mesh.vertices.length, space.map (·.2)⟩ elemVec = some (.ok b) ∧
      Assembly.assembleVector ⟨s, out.vertices.length, space'.map (·.2)⟩ elemVec' = some (.ok b') ∧ ValuesFollow s mp.vertexPerm b b' := by
  obtain ⟨h', l', l, hel⟩ := sampled hv hc hb hout hspace hspace' h ht
  have hlen := (apply_cells hv hc hb hout).1
  rw [hlen]
  obtain ⟨b, h1, h2, h3⟩ := C98_source_form h source bufs outs elemVec hev
  obtain ⟨b', h1', h2', h3'⟩ := C98_source_form h' source bufs' outs' elemVec' hev'
  refine ⟨b, b', h1, h1', h2'.trans h2.symm, fun i n a hi ha => ?_⟩
  have hi' := src_dom hv hi
  have hn : n < mesh.vertices.length := by rw [← src_of hi]; exact src_lt hv hi'
  have hr := dof_lt hi' ha
  have key : b'.getD (s * i + a) 0 = b.getD (s * n + a) 0 := by
    rw [← sum_unit hr fun c => b'.getD c 0, ← sum_unit (dof_lt hn ha) fun c => b.getD c 0, h3, h3', ← dsrc_dof hi ha]
    refine sum_elements hc l' l _ _ fun k e hke => ?_
    obtain ⟨q1, q2⟩ := hel k e hke
    rw [local_follow hv (unit_follows hv hr) _ q2, q1, ← hke]
  have e1 : s * i + a < b'.length := by rw [h2']; exact hr
  have e2 : s * n + a < b.length := by rw [h2]; exact dof_lt hn ha
  rw [List.getD_eq_getElem?_getD, List.getD_eq_getElem?_getD, List.getElem?_eq_getElem e1, List.getElem?_eq_getElem e2] at key
  rw [List.getElem?_eq_getElem e1, List.getElem?_eq_getElem e2]
  exact congrArg some key

/-- **C110.** The mass matrix: rows and columns are renumbered with the nodes. -/
theorem C110_mass (hs : 0 < s) (hv : Permutes mp.vertexPerm mesh.vertices.length) (hc : Permutes mp.connectivityPerm mesh.cells.length)
    (hb : ∀ c ∈ mesh.cells, ∀ v ∈ c, v < mesh.vertices.length) (hout : mp.apply mx mesh = some out) {space space' : Space kind.dim K}
    (hspace : meshSpace kind mesh = some space) (hspace' : meshSpace kind out = some space') {table table' : Table (Point kind.dim K) K K}
    {rules : Nat → List (QPoint kind.dim K K)} (h : Sampled space mesh.vertices.length table rules) (hnd : ∀ en ∈ space, en.2.Nodup)
    (ht : RulesFollow mp.connectivityPerm table table')
    (ord ord' : List Nat → List Nat) (hord : ∀ l, (ord l).Perm l) (hord' : ∀ l, (ord' l).Perm l)
    (sortNodes sortNodes' : List (Nat × Nat) → List (Nat × Nat)) (hsort : SortsNodes sortNodes) (hsort' : SortsNodes sortNodes')
    (bufs bufs' : Nat → Buffer (Point kind.dim K) K K) (outs outs' : Nat → Mat K) (elemMat elemMat' : Nat → Except String (Mat K))
    (hem : ∀ e, e < space.length → ∃ buf', massElementMatrix space s table (bufs e) (outs e) e = some (elemMat e, buf'))
    (hem' : ∀ e, e < space'.length → ∃ buf', massElementMatrix space' s table' (bufs' e) (outs' e) e = some (elemMat' e, buf')) :
    ∃ m m', Assembly.assemble ord sortNodes ⟨s, mesh.vertices.length, space.map (·.2)⟩ elemMat = some (.ok m) ∧
      Assembly.assemble ord' sortNodes' ⟨s, out.vertices.length, space'.map (·.2)⟩ elemMat' = some (.ok m') ∧
      MatrixFollows s mp.vertexPerm m m' := by
  obtain ⟨h', l', l, hel⟩ := sampled hv hc hb hout hspace hspace' h ht
  have hlen := (apply_cells hv hc hb hout).1
  rw [hlen]
  have hnd' : ∀ en ∈ space', en.2.Nodup := by
    intro en hen
    obtain ⟨k, hk, rfl⟩ := List.getElem_of_mem hen
    obtain ⟨q1, -⟩ := hel ⟨k, hk⟩ ⟨src mp.connectivityPerm k, by rw [l]; exact src_lt hc (by omega)⟩ rfl
    have := hnd _ (List.getElem_mem (l := space) (n := src mp.connectivityPerm k) (by rw [l]; exact src_lt hc (by omega)))
    exact List.Nodup.of_map _ (by
      have e := congrArg Prod.snd q1
      exact e ▸ this)
  obtain ⟨m, h1, -, -, -, h3⟩ := C98_mass_form h hs hnd ord hord sortNodes hsort bufs outs elemMat hem
  obtain ⟨m', h1', -, -, -, h3'⟩ := C98_mass_form h' hs hnd' ord' hord' sortNodes' hsort' bufs' outs' elemMat' hem'
  refine ⟨m, m', h1, h1', fun i j n n' a b hi hj ha hb' => ?_⟩
  have hi' := src_dom hv hi
  have hn : n < mesh.vertices.length := by rw [← src_of hi]; exact src_lt hv hi'
  have hj' := src_dom hv hj
  have hn' : n' < mesh.vertices.length := by rw [← src_of hj]; exact src_lt hv hj'
  have two : ∀ (M : Assembly.Csr K) {R C : Nat}, R < s * mesh.vertices.length → C < s * mesh.vertices.length →
      ∑ r ∈ Finset.range (s * mesh.vertices.length), ∑ c ∈ Finset.range (s * mesh.vertices.length),
        (unit (s * mesh.vertices.length) R).getD r 0 * entry M r c * (unit (s * mesh.vertices.length) C).getD c 0 = entry M R C := by
    intro M R C hR hC
    rw [← sum_unit hR fun r => entry M r C]
    refine Finset.sum_congr rfl fun r _ => ?_
    rw [← sum_unit hC fun c => entry M r c, Finset.mul_sum]
    exact Finset.sum_congr rfl fun c _ => by ring
  rw [← two m' (dof_lt hi' ha) (dof_lt hj' hb'), ← two m (dof_lt hn ha) (dof_lt hn' hb'), h3, h3', ← dsrc_dof hi ha, ← dsrc_dof hj hb']
  refine sum_elements hc l' l _ _ fun k e hke => ?_
  obtain ⟨q1, q2⟩ := hel k e hke
  rw [local_follow hv (unit_follows hv (dof_lt hi' ha)) _ q2, local_follow hv (unit_follows hv (dof_lt hj' hb')) _ q2, q1, ← hke]

end mass

/-! ## The computed reordering -/

/-- **C110.** The permutations that `reorder_mesh_par` computes, whatever the schedule of the threads, can be applied to the mesh and are of the kind
that the theorems above are about; a quadrature table with the same rule for all elements follows every renumbering. -/
theorem C110_reorder_mesh_par {kind : Kind} {Param : Type} [Inhabited Param] (mx : Nat) (sortAdj : List Nat → List Nat)
    (hs : ∀ l, (sortAdj l).Perm l) (ord : List Nat → List Nat) (hord : ∀ l, (ord l).Perm l) (mesh : Mesh (Point kind.dim K))
    (hb : ∀ c ∈ mesh.cells, ∀ v ∈ c, v < mesh.vertices.length) (sched₁ : List (Nat × List Nat))
    (hs₁ : sched₁.Perm ((Assembly.batches mesh.cells.length).map (Assembly.lockOps ⟨1, mesh.vertices.length, mesh.cells⟩)).flatten)
    (sched₂ : List (Nat × Nat) → List (Nat × Nat)) (hs₂ : ∀ l, (sched₂ l).Perm l) :
    ∃ mp out space, MeshPermutation.reorderMeshPar mx sortAdj ord sched₁ sched₂ mesh = some mp ∧ mp.apply mx mesh = some out ∧
      meshSpace kind out = some space ∧ Permutes mp.vertexPerm mesh.vertices.length ∧ Permutes mp.connectivityPerm mesh.cells.length ∧
      ∀ t : Uniform (Point kind.dim K) K Param, RulesFollow mp.connectivityPerm t.table t.table := by
  obtain ⟨mp, pattern, m0, -, m2, m3, m4, m5⟩ := reorderMeshPar_valid mx sortAdj hs ord hord mesh hb sched₁ hs₁ sched₂ hs₂
  obtain ⟨out, o1, -⟩ := C13_apply_only_renumbers mx _ _ mp m2 m3 mesh m4 m5 hb
  have hv := permutes_of m2 m4
  have hc := permutes_of m3 m5
  exact ⟨mp, out, _, m0, o1, C89_mesh_space kind out (apply_cells hv hc hb o1).2.2.1, hv, hc, fun t k e b _ => rfl⟩

/-! ## A square of two triangles -/

/-- A square of two triangles. -/
private def square : Mesh (Point Kind.tri3.dim ℚ) := ⟨[![-1, -1], ![1, -1], ![-1, 1], ![1, 1]], [[0, 1, 2], [3, 2, 1]]⟩

/-- Another numbering. -/
private def turn : MeshPermutation := ⟨⟨[2, 0, 3, 1]⟩, ⟨[1, 0]⟩⟩

private theorem corner_jacobian (p : Point 2 ℚ) :
    (elementOfKind .tri3 ([![-1, -1], ![1, -1], ![-1, 1]] : List (Point 2 ℚ))).jacobian p = (1 : Matrix (Fin 2) (Fin 2) ℚ) := by
  ext a b
  fin_cases a <;> fin_cases b <;>
    simp [elementOfKind, referenceJacobian, geometryGradients, tri3Gradients, Kind.numNodes, weightedSum, tri3G] <;> norm_num

private theorem corner_jacobian' (p : Point 2 ℚ) :
    (elementOfKind .tri3 ([![1, 1], ![-1, 1], ![1, -1]] : List (Point 2 ℚ))).jacobian p = (-1 : Matrix (Fin 2) (Fin 2) ℚ) := by
  ext a b
  fin_cases a <;> fin_cases b <;>
    simp [elementOfKind, referenceJacobian, geometryGradients, tri3Gradients, Kind.numNodes, weightedSum, tri3G] <;> norm_num

-- The hypotheses of the theorems hold for the square, with a rule of one point and the nodal values `3, 1, 4, 5`.
example : ∃ out space, turn.apply 99 square = some out ∧ meshSpace .tri3 square = some space ∧
    Permutes turn.vertexPerm square.vertices.length ∧ Permutes turn.connectivityPerm square.cells.length ∧
    Discretisation space square.vertices.length (Uniform.table ⟨[![0, 0]], [2], [()]⟩) (fun _ => [(2, ![0, 0], ())]) [3, 1, 4, 5] 1 ∧
    (∀ en ∈ space, en.2.Nodup) ∧ ValuesFollow 1 turn.vertexPerm ([3, 1, 4, 5] : List ℚ) [4, 3, 5, 1] ∧
    NodesFollow turn.vertexPerm [0, 1] [1, 3] := by
  refine ⟨⟨[![-1, 1], ![-1, -1], ![1, 1], ![1, -1]], [[2, 0, 3], [1, 3, 0]]⟩, _, rfl, C89_mesh_space .tri3 square (by simp [square]), by
    simp only [Permutes, turn, square]; decide, by simp only [Permutes, turn, square]; decide, ⟨?_, ?_, ?_, rfl, ?_, ?_⟩, ?_, ?_, ?_⟩
  · intro en hen
    simp only [square, List.map_cons, List.map_nil, List.mem_cons, List.not_mem_nil, or_false] at hen
    rcases hen with rfl | rfl <;> exact elementOfKind_wellFormed _ _
  · intro en hen
    simp only [square, List.map_cons, List.map_nil, List.mem_cons, List.not_mem_nil, or_false] at hen
    rcases hen with rfl | rfl <;> rfl
  · intro en hen
    simp only [square, List.map_cons, List.map_nil, List.mem_cons, List.not_mem_nil, or_false] at hen
    rcases hen with rfl | rfl <;> decide
  · intro e he b
    exact (C27_uniform_returns_the_rule (P := Point 2 ℚ) (W := ℚ) (D := Unit) [![0, 0]] [2] [()]).2 _ rfl e b
  · intro e en he q hq
    have hen := List.mem_of_getElem? he
    simp only [square, List.map_cons, List.map_nil, List.mem_cons, List.not_mem_nil, or_false] at hen
    rcases hen with rfl | rfl
    · change ((elementOfKind .tri3 ([![-1, -1], ![1, -1], ![-1, 1]] : List (Point 2 ℚ))).jacobian _).det ≠ 0
      rw [corner_jacobian]
      exact (Matrix.det_one (R := ℚ) (n := Fin 2)).trans_ne one_ne_zero
    · change ((elementOfKind .tri3 ([![1, 1], ![-1, 1], ![1, -1]] : List (Point 2 ℚ))).jacobian _).det ≠ 0
      rw [corner_jacobian']
      refine (?_ : (-1 : Matrix (Fin 2) (Fin 2) ℚ).det = 1).trans_ne one_ne_zero
      rw [Matrix.det_fin_two]
      norm_num [Matrix.neg_apply, Matrix.one_apply]
  · intro en hen
    simp only [square, List.map_cons, List.map_nil, List.mem_cons, List.not_mem_nil, or_false] at hen
    rcases hen with rfl | rfl <;> decide
  · refine ⟨rfl, fun i n a hi ha => ?_⟩
    have hi' : i < 4 := (List.getElem?_eq_some_iff.1 hi).1
    obtain rfl : a = 0 := by omega
    have : i = 0 ∨ i = 1 ∨ i = 2 ∨ i = 3 := by omega
    rcases this with rfl | rfl | rfl | rfl <;> cases hi <;> rfl
  · intro i n hi
    have hi' : i < 4 := (List.getElem?_eq_some_iff.1 hi).1
    have : i = 0 ∨ i = 1 ∨ i = 2 ∨ i = 3 := by omega
    rcases this with rfl | rfl | rfl | rfl <;> cases hi <;> decide

end Fenris.Renumber
