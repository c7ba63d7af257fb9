import Verif.Props.TriProblems
import Verif.Props.TetElasticity
/-! # C109: homogeneous deformations of elastic bodies are computed exactly -/
set_option autoImplicit false
set_option linter.unusedSectionVars false

namespace Fenris.Elasticity
open Fenris.Element Fenris.Local Fenris.Local.Spec Fenris.PatchTest Fenris.PatchTest.Spec Fenris.LinearProblem Fenris.LinearProblem.Spec Quadrature
open Fenris.Surface Fenris.Surface.Spec Fenris.Canonical Fenris.Canonical.Spec Fenris.Elasticity.Spec Fenris.Solid Fenris.Procedural
open Fenris.Spec (entry SortsNodes Constrained)

attribute [local instance] zeroFill

/-! ## A body has a boundary -/

section
variable {kind : Kind} {mesh : Mesh (Point kind.dim ℝ)}

private theorem rigidly_common {d : Nat} (hd : 0 < d) {vs : List (Point d ℝ)} {c c' : List Nat} (h : Rigidly vs c c') : ∃ n ∈ c, n ∈ c' := by
  by_contra hno
  push Not at hno
  have h0 := (h 0 (fun _ => 1) (by simp) (by
    rintro x ⟨n, hn, -⟩
    obtain ⟨h1, h2⟩ := List.mem_filter.1 hn
    exact absurd (of_decide_eq_true h2) (hno n h1))).2
  exact one_ne_zero (congrFun h0 ⟨0, hd⟩)

private theorem walk {d : Nat} (hd : 0 < d) {vs : List (Point d ℝ)} {cells : List (List Nat)} {c c' : List Nat}
    (h : Relation.ReflTransGen (fun a b => b ∈ cells ∧ Rigidly vs a b) c c') :
    c ∈ cells → ∀ v ∈ c, ∀ w ∈ c', Relation.ReflTransGen (Neighbours cells) v w := by
  induction h using Relation.ReflTransGen.head_induction_on with
  | refl => exact fun hc v hv w hw => .single ⟨_, hc, hv, hw⟩
  | head hab _ ih =>
    intro hc v hv w hw
    obtain ⟨n, hn, hn'⟩ := rigidly_common hd hab.2
    exact .head ⟨_, hc, hv, hn⟩ (ih hab.1 n hn' w hw)

private theorem kind_dim (kind : Kind) : 0 < kind.dim := by cases kind <;> decide

private theorem anchored (h : Body kind mesh) (n : Nat) (hn : n < mesh.vertices.length) : Anchored mesh.cells mesh.vertices.length [n] := by
  intro v hv
  obtain ⟨c, hc, hvc⟩ := h.covered v hv
  obtain ⟨c', hc', hnc⟩ := h.covered n hn
  exact ⟨n, by simp, walk (kind_dim kind) (h.onePiece c hc c' hc') hc v hvc n hnc⟩

/-- Two vertices at different places. -/
private theorem two_points (hk : kind ∈ [Kind.tri3, .quad4, .tet4, .hex8]) (h : Body kind mesh) :
    ∃ (a b : Nat) (x y : Point kind.dim ℝ), mesh.vertices[a]? = some x ∧ mesh.vertices[b]? = some y ∧ x ≠ y := by
  obtain ⟨c, hc⟩ := List.exists_mem_of_ne_nil _ h.nonempty
  obtain ⟨A, t, hA, haff⟩ := h.affine c hc
  have href : ∃ p q : Point kind.dim ℝ, (refNodes kind)[0]? = some p ∧ (refNodes kind)[1]? = some q ∧ p ≠ q := by
    simp only [List.mem_cons, List.not_mem_nil, or_false] at hk
    rcases hk with rfl | rfl | rfl | rfl
    all_goals
      refine ⟨_, _, rfl, rfl, fun h => ?_⟩
      have := congrFun h 0
      norm_num at this
  obtain ⟨p, q, hp, hq, hpq⟩ := href
  have e0 := haff 0 p hp
  have e1 := haff 1 q hq
  rw [List.getElem?_map, Option.map_eq_some_iff] at e0 e1
  obtain ⟨a, ha, hx⟩ := e0
  obtain ⟨b, hb, hy⟩ := e1
  refine ⟨a, b, _, _, get_of_lt (h.inBounds c hc a (List.mem_of_getElem? ha)), get_of_lt (h.inBounds c hc b (List.mem_of_getElem? hb)), ?_⟩
  rw [hx, hy]
  intro heq
  have h0 : A.mulVec (p - q) = 0 := by
    rw [Matrix.mulVec_sub, sub_eq_zero]
    exact add_right_cancel heq
  exact hpq (sub_eq_zero.1 (Matrix.eq_zero_of_mulVec_eq_zero hA h0))

private theorem mem_face {cell f : List Nat} {l v : Nat} (hk : kind ∈ [Kind.tri3, .quad4, .tet4, .hex8]) (hlen : cell.length = kind.numNodes)
    (hf : (facesOf kind cell)[l]? = some f) (hv : v ∈ f) : v ∈ cell := by
  have hlt : ∀ f ∈ localFaces kind, ∀ i ∈ f, i < kind.numNodes := by
    simp only [List.mem_cons, List.not_mem_nil, or_false] at hk
    rcases hk with rfl | rfl | rfl | rfl <;> decide
  obtain ⟨f', hf', rfl⟩ := List.mem_map.1 (List.mem_of_getElem? hf)
  obtain ⟨i, hi, rfl⟩ := List.mem_map.1 hv
  have := hlt f' hf' i hi
  rw [List.getD_eq_getElem?_getD, List.getElem?_eq_getElem (hlen ▸ this), Option.getD_some]
  exact List.getElem_mem _

/-- A consistently oriented body has a boundary: otherwise the patch test would let every affine function solve the Poisson problem with one
prescribed value, which has one solution. -/
theorem boundary_nonempty (gauss : Nat → Rule 1 ℝ) (h2 : IsGaussRule 2 (gauss 2).1 (gauss 2).2) (hl2 : (gauss 2).1.length = 2)
    (hk : kind ∈ [Kind.tri3, .quad4, .tet4, .hex8]) (h : Body kind mesh) (hcons : Consistent (facesOf kind) mesh.cells)
    (hpos : ∀ c ∈ mesh.cells, ∀ p, 0 < ((elementOfKind kind (c.map (coords mesh.vertices))).jacobian p).det)
    (boundary : List Nat) (hbd : Mesh.findBoundaryVertices (facesOf kind) mesh = some boundary) : boundary ≠ [] := by
  rintro rfl
  obtain ⟨a, b, x, y, hx, hy, hxy⟩ := two_points hk h
  have ha := (List.getElem?_eq_some_iff.1 hx).1
  have hb := (List.getElem?_eq_some_iff.1 hy).1
  have hsp := C89_mesh_space kind mesh h.inBounds
  have hdet : ∀ space rule, meshSpace kind mesh = some space → stiffnessRule gauss kind = some rule → ∀ en ∈ space, ∀ p ∈ rule.2,
      0 < (en.1.jacobian p).det := by
    intro space rule hs' _ en hen p _
    rw [hsp] at hs'
    obtain rfl := Option.some.inj hs'
    obtain ⟨c, hc, rfl⟩ := List.mem_map.1 hen
    exact hpos c hc p
  obtain ⟨rule, t, ω, h3, h4, -, hpatch⟩ := C89_canonical_patch gauss h2 kind hk () mesh h.size h.inBounds hcons hdet
  obtain ⟨space, rule', t', h5, h6, h7, h8, h9⟩ := C96_mesh_problem gauss h2 hl2 kind hk mesh h.size h.inBounds h.nodup
    (fun space rule hs hr en hen p hp => (hdet space rule hs hr en hen p hp).ne') [a]
    (fun n hn => by rw [List.mem_singleton.1 hn]; exact h.covered a ha) (List.replicate mesh.vertices.length 0) (by simp)
  rw [h3] at h6
  obtain rfl := Option.some.inj h6
  rw [h4] at h7
  obtain rfl := Option.some.inj h7
  have hproblem : Problem space mesh.vertices.length t.table (fun _ => (rule.1.zip rule.2).map fun q => (q.1, q.2, ()))
      (List.replicate mesh.vertices.length 0) (laplace kind.dim ℝ) [a] := { h8 with definite := h9.2 (anchored h a ha) }
  have hex : ∀ e, ∃ A : Except String (Mat ℝ), e < space.length → ∃ buf', elementMatrix space (laplace kind.dim ℝ) t.table
      (List.replicate mesh.vertices.length 0) (⟨[], [], []⟩ : Buffer (Point kind.dim ℝ) ℝ Unit) default e = some (A, buf') := by
    intro e
    by_cases he : e < space.length
    · obtain ⟨A, buf', hA, -⟩ := C69_element_matrix space mesh.vertices.length t.table _ _ h8.disc (laplace kind.dim ℝ) h8.law ⟨[], [], []⟩ default e
        (space[e]).1 (space[e]).2 (List.getElem?_eq_getElem he)
      exact ⟨.ok A, fun _ => ⟨buf', hA⟩⟩
    · exact ⟨.error "", fun h => absurd h he⟩
  choose elemMat hem using hex
  obtain ⟨i, hi⟩ : ∃ i, x i ≠ y i := by
    by_contra hno
    push Not at hno
    exact hxy (funext hno)
  have hcoord : ∀ (n : Nat) (z : Point kind.dim ℝ), mesh.vertices[n]? = some z →
      (mesh.vertices.map fun z => z i - x i)[n]? = some (z i - x i) := fun n z hz => by rw [List.getElem?_map, hz]; rfl
  have sort : SortsNodes fun l => l.mergeSort fun p q => decide (p.1 ≤ q.1) := fun l =>
    ⟨List.mergeSort_perm _ _, by
      have := List.pairwise_mergeSort (le := fun p q : Nat × Nat => decide (p.1 ≤ q.1))
        (fun a b c => by simp only [decide_eq_true_eq]; omega) (fun a b => by simp only [Bool.or_eq_true, decide_eq_true_eq]; omega) l
      exact this.imp fun h => of_decide_eq_true h⟩
  obtain ⟨m, -, m1, -, m2, -⟩ := C97_affine_solution (E := Unit) hk hpatch space h5 _ (laplace kind.dim ℝ) [] hbd [a] (by simp) hproblem
    (fun k _ => if k = i then 1 else 0) (fun _ => -x i) (mesh.vertices.map fun z => z i - x i)
    ⟨by simp, fun n z hz j => by
      obtain rfl := Subsingleton.elim j 0
      rw [Fin.val_zero, one_mul, add_zero, hcoord n z hz]
      simp [sub_eq_add_neg]⟩ id (fun _ => .refl _) _ sort (fun _ => ⟨[], [], []⟩) (fun _ => default) elemMat (fun e he => hem e he)
  obtain ⟨m', -, n1, -, n2, -⟩ := C97_affine_solution (E := Unit) hk hpatch space h5 _ (laplace kind.dim ℝ) [] hbd [a] (by simp) hproblem
    0 0 (List.replicate mesh.vertices.length 0)
    ⟨by simp, fun n z hz j => by
      obtain rfl := Subsingleton.elim j 0
      rw [Fin.val_zero, one_mul, add_zero, List.getElem?_replicate, if_pos (List.getElem?_eq_some_iff.1 hz).1]
      simp⟩ id (fun _ => .refl _) _ sort (fun _ => ⟨[], [], []⟩) (fun _ => default) elemMat (fun e he => hem e he)
  rw [m1] at n1
  obtain rfl : m = m' := by injection Option.some.inj n1
  have key := (n2 (mesh.vertices.map fun z => z i - x i) (by simp)).1 ⟨fun r hr hc => by
    obtain ⟨n, hn, j, hj, rfl⟩ := hc
    obtain rfl := List.mem_singleton.1 hn
    have : j = 0 := by omega
    subst this
    simp only [one_mul, add_zero, List.getD_eq_getElem?_getD]
    rw [hcoord _ x hx, List.getElem?_replicate, if_pos ha]
    simp, ((m2 _ (by simp)).2 rfl).2⟩
  have h0 : (mesh.vertices.map fun z => z i - x i)[b]? = (List.replicate mesh.vertices.length (0 : ℝ))[b]? := by rw [key]
  rw [hcoord b y hy, List.getElem?_replicate, if_pos hb] at h0
  exact hi (sub_eq_zero.1 (Option.some.inj h0)).symm

end

/-! ## A face of an affine cell prevents rigid motions -/

private theorem normal_mulVec (A : Matrix (Fin 3) (Fin 3) ℝ) (t p q r : Point 3 ℝ) :
    A.transpose.mulVec (triNormal (A.mulVec p + t) (A.mulVec q + t) (A.mulVec r + t)) = A.det • triNormal p q r := by
  funext i
  fin_cases i <;> simp [triNormal, Matrix.mulVec, dotProduct, Fin.sum_univ_three, Matrix.det_fin_three] <;> ring

private theorem plane_nodes : ∀ kind ∈ [Kind.tri3, .quad4], ∀ f ∈ localFaces kind, ∃ I ∈ f, ∃ J ∈ f, I < kind.numNodes ∧ J < kind.numNodes ∧
    I ≠ J := by decide

private theorem space_nodes : ∀ kind ∈ [Kind.tet4], ∀ f ∈ localFaces kind, ∃ I ∈ f, ∃ J ∈ f, ∃ L ∈ f, I < kind.numNodes ∧
    J < kind.numNodes ∧ L < kind.numNodes ∧ I ≠ J ∧ J ≠ L ∧ I ≠ L := by decide

private theorem tri_ref {I J : Nat} (hI : I < 3) (hJ : J < 3) (h : I ≠ J) :
    ∃ p q : Point 2 ℝ, (tri3Nodes (K := ℝ))[I]? = some p ∧ (tri3Nodes (K := ℝ))[J]? = some q ∧ p ≠ q := by
  interval_cases I <;> interval_cases J <;> first | exact absurd rfl h | skip
  all_goals
    refine ⟨_, _, rfl, rfl, fun h => ?_⟩
    first
      | have := congrFun h 0; norm_num at this; done
      | have := congrFun h 1; norm_num at this; done

private theorem quad_ref {I J : Nat} (hI : I < 4) (hJ : J < 4) (h : I ≠ J) :
    ∃ p q : Point 2 ℝ, (quad4Nodes (K := ℝ))[I]? = some p ∧ (quad4Nodes (K := ℝ))[J]? = some q ∧ p ≠ q := by
  interval_cases I <;> interval_cases J <;> first | exact absurd rfl h | skip
  all_goals
    refine ⟨_, _, rfl, rfl, fun h => ?_⟩
    first
      | have := congrFun h 0; norm_num at this; done
      | have := congrFun h 1; norm_num at this; done

private theorem normal_ne (p q r : Point 3 ℝ) (h : triNormal p q r 0 ≠ 0 ∨ triNormal p q r 1 ≠ 0 ∨ triNormal p q r 2 ≠ 0) :
    triNormal p q r ≠ 0 := by
  intro h0
  rw [h0] at h
  simp at h

private theorem tet_ref {I J L : Nat} (hI : I < 4) (hJ : J < 4) (hL : L < 4) (h : I ≠ J) (h' : J ≠ L) (h'' : I ≠ L) :
    ∃ p q r : Point 3 ℝ, (tet4Nodes (K := ℝ))[I]? = some p ∧ (tet4Nodes (K := ℝ))[J]? = some q ∧ (tet4Nodes (K := ℝ))[L]? = some r ∧
      triNormal p q r ≠ 0 := by
  interval_cases I <;> interval_cases J <;> first | exact absurd rfl h | skip
  all_goals
    interval_cases L <;> first | exact absurd rfl h' | exact absurd rfl h'' | skip
  all_goals
    refine ⟨_, _, _, rfl, rfl, rfl, normal_ne _ _ _ ?_⟩
    norm_num [triNormal, Matrix.cons_val_two, Matrix.tail_cons, Matrix.head_cons]

private theorem hex_ref : ∀ f ∈ localFaces .hex8, ∃ I ∈ f, ∃ J ∈ f, ∃ L ∈ f, ∃ p q r : Point 3 ℝ, (hex8Nodes (K := ℝ))[I]? = some p ∧
    (hex8Nodes (K := ℝ))[J]? = some q ∧ (hex8Nodes (K := ℝ))[L]? = some r ∧ triNormal p q r ≠ 0 := by
  intro f hf
  simp only [localFaces, List.mem_cons, List.not_mem_nil, or_false] at hf
  rcases hf with rfl | rfl | rfl | rfl | rfl | rfl
  all_goals
    refine ⟨_, .head _, _, .tail _ (.head _), _, .tail _ (.tail _ (.head _)), _, _, _, rfl, rfl, rfl, normal_ne _ _ _ ?_⟩
    norm_num [triNormal, Matrix.cons_val_two, Matrix.tail_cons, Matrix.head_cons]

/-- The vertices of a face of an affine cell leave no room for a rigid motion. -/
theorem face_fixes {kind : Kind} {mesh : Mesh (Point kind.dim ℝ)} (hk : kind ∈ [Kind.tri3, .quad4, .tet4, .hex8]) (h : Body kind mesh)
    {cell f : List Nat} (hcell : cell ∈ mesh.cells) {l : Nat} (hf : (facesOf kind cell)[l]? = some f) (nodes : List Nat)
    (hin : ∀ v ∈ f, v ∈ nodes) : Fixes (positions mesh.vertices nodes) := by
  obtain ⟨A, t, hA, haff⟩ := h.affine cell hcell
  obtain ⟨f', hf', rfl⟩ := List.mem_map.1 (List.mem_of_getElem? hf)
  have hsize := h.size cell hcell
  have hpos : ∀ I ∈ f', ∀ p, (refNodes kind)[I]? = some p → A.mulVec p + t ∈ positions mesh.vertices nodes := by
    intro I hI p hp
    have e := haff I p hp
    rw [List.getElem?_map, Option.map_eq_some_iff] at e
    obtain ⟨v, hv, hx⟩ := e
    refine ⟨v, hin v (List.mem_map.2 ⟨I, hI, ?_⟩), ?_⟩
    · rw [List.getD_eq_getElem?_getD, hv, Option.getD_some]
    · rw [← hx]
      exact get_of_lt (h.inBounds cell hcell v (List.mem_of_getElem? hv))
  have hne : ∀ p q : Point kind.dim ℝ, p ≠ q → A.mulVec p + t ≠ A.mulVec q + t := by
    intro p q hpq heq
    have h0 : A.mulVec (p - q) = 0 := by
      rw [Matrix.mulVec_sub, sub_eq_zero]
      exact add_right_cancel heq
    exact hpq (sub_eq_zero.1 (Matrix.eq_zero_of_mulVec_eq_zero hA h0))
  simp only [List.mem_cons, List.not_mem_nil, or_false] at hk
  rcases hk with rfl | rfl | rfl | rfl
  · obtain ⟨I, hI, J, hJ, h1, h2, h3⟩ := plane_nodes .tri3 (by simp) f' hf'
    obtain ⟨p, q, hp, hq, hpq⟩ := tri_ref h1 h2 h3
    exact (fixes_plane _).2 ⟨_, hpos I hI p hp, _, hpos J hJ q hq, hne p q hpq⟩
  · obtain ⟨I, hI, J, hJ, h1, h2, h3⟩ := plane_nodes .quad4 (by simp) f' hf'
    obtain ⟨p, q, hp, hq, hpq⟩ := quad_ref h1 h2 h3
    exact (fixes_plane _).2 ⟨_, hpos I hI p hp, _, hpos J hJ q hq, hne p q hpq⟩
  · obtain ⟨I, hI, J, hJ, L, hL, h1, h2, h3, h4, h5, h6⟩ := space_nodes .tet4 (by simp) f' hf'
    obtain ⟨p, q, r, hp, hq, hr, hn⟩ := tet_ref h1 h2 h3 h4 h5 h6
    refine (fixes_space _).2 ⟨_, hpos I hI p hp, _, hpos J hJ q hq, _, hpos L hL r hr, fun h0 => hn ?_⟩
    have := normal_mulVec A t p q r
    rw [h0, Matrix.mulVec_zero] at this
    exact (smul_eq_zero.1 this.symm).resolve_left hA
  · obtain ⟨I, hI, J, hJ, L, hL, p, q, r, hp, hq, hr, hn⟩ := hex_ref f' hf'
    refine (fixes_space _).2 ⟨_, hpos I hI p hp, _, hpos J hJ q hq, _, hpos L hL r hr, fun h0 => hn ?_⟩
    have := normal_mulVec A t p q r
    rw [h0, Matrix.mulVec_zero] at this
    exact (smul_eq_zero.1 this.symm).resolve_left hA

/-! ## Homogeneous deformations -/

/-- **C109.** Linear elasticity without loads on a consistently oriented body of triangles, quadrilaterals, tetrahedra or hexahedra (affine
cells of positive orientation), with the canonical quadrature and positive shear and bulk moduli. If the displacements of the boundary vertices
that the library finds are prescribed as those of an affine displacement `x ↦ Gᵀ x + b`, then this is the only solution, and the library
computes it exactly. -/
theorem C109_affine_displacement (E : Type) (gauss : Nat → Rule 1 ℝ) (h2 : IsGaussRule 2 (gauss 2).1 (gauss 2).2)
    (hl2 : (gauss 2).1.length = 2) (h3 : IsGaussRule 3 (gauss 3).1 (gauss 3).2) (hl3 : (gauss 3).1.length = 3)
    (kind : Kind) (mesh : Mesh (Point kind.dim ℝ)) (hk : kind ∈ [Kind.tri3, .quad4, .tet4, .hex8]) (h : Body kind mesh)
    (hcons : Consistent (facesOf kind) mesh.cells)
    (hpos : ∀ c ∈ mesh.cells, ∀ p, 0 < ((elementOfKind kind (c.map (coords mesh.vertices))).jacobian p).det)
    (lame : Lame ℝ) (hmu : 0 < lame.mu) (hbulk : 0 < 2 * lame.mu + kind.dim * lame.lambda)
    (u₀ : List ℝ) (hu₀ : u₀.length = kind.dim * mesh.vertices.length)
    (G : Matrix (Fin kind.dim) (Fin kind.dim) ℝ) (b : Fin kind.dim → ℝ) (u : List ℝ) (hu : IsAffine mesh.vertices G b u) :
    haveI : Inhabited (Lame ℝ) := ⟨Lame.default⟩
    ∃ boundary space rule t, Mesh.findBoundaryVertices (facesOf kind) mesh = some boundary ∧ meshSpace kind mesh = some space ∧
      stiffnessRule gauss kind = some rule ∧ Uniform.fromQuadratureAndData rule lame = some t ∧
      Computes E space mesh.vertices.length t.table (leOperator kind.dim) u₀ boundary u := by
  let _ : Inhabited (Lame ℝ) := ⟨Lame.default⟩
  obtain ⟨bd, hbd, -, hbd'⟩ := C14_boundary_vertices_exact (facesOf kind) mesh
  have hne := boundary_nonempty gauss h2 hl2 hk h hcons hpos bd hbd
  have hsp := C89_mesh_space kind mesh h.inBounds
  obtain ⟨rule, t, ω, g1, g2, -, hpatch⟩ := C89_canonical_patch gauss h2 kind hk lame mesh h.size h.inBounds hcons (by
    intro space rule hs' _ en hen p _
    rw [hsp] at hs'
    obtain rfl := Option.some.inj hs'
    obtain ⟨c, hc, rfl⟩ := List.mem_map.1 hen
    exact hpos c hc p)
  have hin : ∀ v ∈ bd, v < mesh.vertices.length := by
    intro v hv
    obtain ⟨c, l, f, ⟨⟨cell, hcell, hfc⟩, -⟩, hvf⟩ := (hbd' v).1 hv
    have hm := List.mem_of_getElem? hcell
    exact h.inBounds cell hm v (mem_face hk (h.size cell hm) hfc hvf)
  obtain ⟨space, rule', t', g3, g4, g5, g6, -, g7⟩ := C99_mesh_problem (kind := kind) (mesh := mesh) gauss h2 hl2 h3 hl3
    (by rintro rfl; simp at hk) h.size h.inBounds h.nodup h.affine h.nonempty h.covered h.onePiece lame hmu hbulk bd hin u₀ hu₀
  rw [g1] at g4
  obtain rfl := Option.some.inj g4
  rw [g2] at g5
  obtain rfl := Option.some.inj g5
  have hfix : Fixes (positions mesh.vertices bd) := by
    obtain ⟨v, hv⟩ := List.exists_mem_of_ne_nil _ hne
    obtain ⟨c, l, f, hf, -⟩ := (hbd' v).1 hv
    obtain ⟨⟨cell, hcell, hfc⟩, -⟩ := id hf
    exact face_fixes hk h (List.mem_of_getElem? hcell) hfc bd fun w hw => (hbd' w).2 ⟨c, l, f, hf, hw⟩
  exact ⟨bd, space, rule, t, hbd, g3, g1, g2, fun ord hord sortNodes hsort bufs outs elemMat hem =>
    C97_affine_solution hk hpatch space g3 u₀ (leOperator kind.dim) bd hbd bd (fun _ h => h) { g6 with definite := g7.2 hfix } G b u hu ord hord
      sortNodes hsort bufs outs elemMat hem⟩

/-- **C109.** The uniform quadrilateral mesh of a rectangle, of every resolution, under a homogeneous deformation. -/
theorem C109_quad_mesh (E : Type) (gauss : Nat → Rule 1 ℝ) (h2 : IsGaussRule 2 (gauss 2).1 (gauss 2).2) (hl2 : (gauss 2).1.length = 2)
    (h3 : IsGaussRule 3 (gauss 3).1 (gauss 3).2) (hl3 : (gauss 3).1.length = 3)
    (L : ℝ) (hL : 0 < L) (ux uy n : Nat) (x0 y0 : ℝ) (hn : n ≠ 0) (hux : ux ≠ 0) (huy : uy ≠ 0)
    (mesh : Mesh (Point 2 ℝ)) (hmesh : mesh = quadMesh L ux uy n x0 y0)
    (lame : Lame ℝ) (hmu : 0 < lame.mu) (hbulk : 0 < 2 * lame.mu + 2 * lame.lambda)
    (u₀ : List ℝ) (hu₀ : u₀.length = 2 * mesh.vertices.length)
    (G : Matrix (Fin 2) (Fin 2) ℝ) (b : Fin 2 → ℝ) (u : List ℝ) (hu : IsAffine mesh.vertices G b u) :
    haveI : Inhabited (Lame ℝ) := ⟨Lame.default⟩
    ∃ boundary space rule t, Mesh.findBoundaryVertices (facesOf .quad4) mesh = some boundary ∧ meshSpace .quad4 mesh = some space ∧
      stiffnessRule gauss .quad4 = some rule ∧ Uniform.fromQuadratureAndData rule lame = some t ∧
      Computes E space mesh.vertices.length t.table (leOperator 2) u₀ boundary u := by
  subst hmesh
  exact C109_affine_displacement E gauss h2 hl2 h3 hl3 .quad4 _ (by simp) (quad_body L hL ux uy n x0 y0 hn hux huy)
    (GridFaces.C94_quad_consistent L ux uy n x0 y0) (GridFaces.C94_quad_elements L hL ux uy n x0 y0 hn hux huy).2.2 lame hmu hbulk u₀ hu₀ G b u hu

/-- **C109.** The uniform triangle mesh of a rectangle, of every resolution, under a homogeneous deformation. -/
theorem C109_tri_mesh (E : Type) (gauss : Nat → Rule 1 ℝ) (h2 : IsGaussRule 2 (gauss 2).1 (gauss 2).2) (hl2 : (gauss 2).1.length = 2)
    (h3 : IsGaussRule 3 (gauss 3).1 (gauss 3).2) (hl3 : (gauss 3).1.length = 3)
    (L : ℝ) (hL : 0 < L) (ux uy n : Nat) (x0 y0 : ℝ) (hn : n ≠ 0) (hux : ux ≠ 0) (huy : uy ≠ 0)
    (mesh : Mesh (Point 2 ℝ)) (hmesh : MeshUtil.splitIntoTriangles (quadMesh L ux uy n x0 y0) = some mesh)
    (lame : Lame ℝ) (hmu : 0 < lame.mu) (hbulk : 0 < 2 * lame.mu + 2 * lame.lambda)
    (u₀ : List ℝ) (hu₀ : u₀.length = 2 * mesh.vertices.length)
    (G : Matrix (Fin 2) (Fin 2) ℝ) (b : Fin 2 → ℝ) (u : List ℝ) (hu : IsAffine mesh.vertices G b u) :
    haveI : Inhabited (Lame ℝ) := ⟨Lame.default⟩
    ∃ boundary space rule t, Mesh.findBoundaryVertices (facesOf .tri3) mesh = some boundary ∧ meshSpace .tri3 mesh = some space ∧
      stiffnessRule gauss .tri3 = some rule ∧ Uniform.fromQuadratureAndData rule lame = some t ∧
      Computes E space mesh.vertices.length t.table (leOperator 2) u₀ boundary u := by
  obtain ⟨out, fs, k1, hcons, -⟩ := MeshUtil.C108_uniform_triangles L hL ux uy n x0 y0 hn hux huy
  rw [hmesh] at k1
  obtain rfl := Option.some.inj k1
  exact C109_affine_displacement E gauss h2 hl2 h3 hl3 .tri3 mesh (by simp) (tri_body L hL ux uy n x0 y0 hn hux huy mesh hmesh) hcons
    (fun c hc p => by
      obtain ⟨a, b, d, e, h⟩ := (tri_elements L hL ux uy n x0 y0 hn hux huy mesh hmesh).2.2.2 c hc
      rw [e]
      exact lt_of_lt_of_eq (half_pos h) (tri_det a b d p).symm) lame hmu hbulk u₀ hu₀ G b u hu

/-- **C109.** The uniform hexahedral mesh of a box, of every resolution, under a homogeneous deformation. -/
theorem C109_hex_mesh (E : Type) (gauss : Nat → Rule 1 ℝ) (h2 : IsGaussRule 2 (gauss 2).1 (gauss 2).2) (hl2 : (gauss 2).1.length = 2)
    (h3 : IsGaussRule 3 (gauss 3).1 (gauss 3).2) (hl3 : (gauss 3).1.length = 3)
    (L : ℝ) (hL : 0 < L) (ux uy uz n : Nat) (hn : n ≠ 0) (hux : ux ≠ 0) (huy : uy ≠ 0) (huz : uz ≠ 0)
    (mesh : Mesh (Point 3 ℝ)) (hmesh : mesh = hexMesh L ux uy uz n)
    (lame : Lame ℝ) (hmu : 0 < lame.mu) (hbulk : 0 < 2 * lame.mu + 3 * lame.lambda)
    (u₀ : List ℝ) (hu₀ : u₀.length = 3 * mesh.vertices.length)
    (G : Matrix (Fin 3) (Fin 3) ℝ) (b : Fin 3 → ℝ) (u : List ℝ) (hu : IsAffine mesh.vertices G b u) :
    haveI : Inhabited (Lame ℝ) := ⟨Lame.default⟩
    ∃ boundary space rule t, Mesh.findBoundaryVertices (facesOf .hex8) mesh = some boundary ∧ meshSpace .hex8 mesh = some space ∧
      stiffnessRule gauss .hex8 = some rule ∧ Uniform.fromQuadratureAndData rule lame = some t ∧
      Computes E space mesh.vertices.length t.table (leOperator 3) u₀ boundary u := by
  subst hmesh
  exact C109_affine_displacement E gauss h2 hl2 h3 hl3 .hex8 _ (by simp) (hex_body L hL ux uy uz n hn hux huy huz)
    (GridFaces.C94_hex_consistent L ux uy uz n) (GridFaces.C94_hex_elements L hL ux uy uz n hn hux huy).2.2 lame hmu hbulk u₀ hu₀ G b u hu

/-- **C109.** The uniform tetrahedral mesh of a box, of every resolution, under a homogeneous deformation. -/
theorem C109_tet_mesh (E : Type) (gauss : Nat → Rule 1 ℝ) (h2 : IsGaussRule 2 (gauss 2).1 (gauss 2).2) (hl2 : (gauss 2).1.length = 2)
    (h3 : IsGaussRule 3 (gauss 3).1 (gauss 3).2) (hl3 : (gauss 3).1.length = 3)
    (L : ℝ) (hL : 0 < L) (ux uy uz n : Nat) (hn : n ≠ 0) (hux : ux ≠ 0) (huy : uy ≠ 0) (huz : uz ≠ 0)
    (mesh : Mesh (Point 3 ℝ)) (hmesh : mesh = TetGrid.tetMesh L ux uy uz n)
    (lame : Lame ℝ) (hmu : 0 < lame.mu) (hbulk : 0 < 2 * lame.mu + 3 * lame.lambda)
    (u₀ : List ℝ) (hu₀ : u₀.length = 3 * mesh.vertices.length)
    (G : Matrix (Fin 3) (Fin 3) ℝ) (b : Fin 3 → ℝ) (u : List ℝ) (hu : IsAffine mesh.vertices G b u) :
    haveI : Inhabited (Lame ℝ) := ⟨Lame.default⟩
    ∃ boundary space rule t, Mesh.findBoundaryVertices (facesOf .tet4) mesh = some boundary ∧ meshSpace .tet4 mesh = some space ∧
      stiffnessRule gauss .tet4 = some rule ∧ Uniform.fromQuadratureAndData rule lame = some t ∧
      Computes E space mesh.vertices.length t.table (leOperator 3) u₀ boundary u := by
  subst hmesh
  exact C109_affine_displacement E gauss h2 hl2 h3 hl3 .tet4 _ (by simp) (tet_body L hL ux uy uz n hn hux huy huz)
    (C79_tet_mesh_consistent _ (TetGrid.C83_is_tet_mesh L hL ux uy uz n)) (tet_elements L hL ux uy uz n hux huy huz hn).2.2 lame hmu hbulk u₀ hu₀
    G b u hu

/-! ## Example -/

-- Simple shear of the unit square with four cells: `u (x, y) = (y, 0)`.
example : haveI : Inhabited (Lame ℝ) := ⟨Lame.default⟩
    ∃ boundary space rule t, Mesh.findBoundaryVertices (facesOf .quad4) (quadMesh (1 : ℝ) 1 1 2 0 1) = some boundary ∧
      meshSpace .quad4 (quadMesh (1 : ℝ) 1 1 2 0 1) = some space ∧ stiffnessRule gaussExample .quad4 = some rule ∧
      Uniform.fromQuadratureAndData rule (⟨1, 1⟩ : Lame ℝ) = some t ∧
      Computes Unit space 9 t.table (leOperator 2) (List.replicate 18 0) boundary
        ((quadMesh (1 : ℝ) 1 1 2 0 1).vertices.flatMap fun v => [v 1, 0]) := by
  obtain ⟨-, hlen, -⟩ := C17_quad_mesh_is_the_grid (1 : ℝ) 1 1 2 0 1 (by decide) (by decide) (by decide)
  have h9 : (quadMesh (1 : ℝ) 1 1 2 0 1).vertices.length = 9 := hlen
  have hget : ∀ (vs : List (Point 2 ℝ)) (n : Nat) (x : Point 2 ℝ), vs[n]? = some x → ∀ i : Fin 2,
      (vs.flatMap fun v => [v 1, 0])[2 * n + i]? = some ((![x 1, 0] : Point 2 ℝ) i) := by
    intro vs
    induction vs with
    | nil => simp
    | cons v vs ih =>
      rintro (_ | n) x hx i
      · obtain rfl : v = x := by simpa using hx
        fin_cases i <;> simp
      · rw [List.flatMap_cons, List.getElem?_append_right (by simp; omega)]
        have := ih n x (by simpa using hx) i
        rw [← this]
        congr 1
        simp
        omega
  have := C109_quad_mesh Unit gaussExample gaussExample_two rfl gaussExample_three rfl 1 one_pos 1 1 2 0 1 (by decide) (by decide) (by decide)
    _ rfl (⟨1, 1⟩ : Lame ℝ) (by norm_num) (by norm_num) (List.replicate 18 0) (by rw [h9]; rfl) !![0, 0; 1, 0] 0
    ((quadMesh (1 : ℝ) 1 1 2 0 1).vertices.flatMap fun v => [v 1, 0])
    ⟨by simp [List.length_flatMap, h9], fun n x hx i => by
      rw [hget _ n x hx i]
      fin_cases i <;> simp [Fin.sum_univ_two]⟩
  rw [h9] at this
  exact this

end Fenris.Elasticity
