import Verif.Props.DirichletPrinciple
import Verif.Props.TetGrid
/-! # Linear problems on the uniform tetrahedral meshes (C96, C97) -/
set_option autoImplicit false

namespace Fenris.LinearProblem
open Fenris.Element Fenris.Local Fenris.Local.Spec Fenris.PatchTest Fenris.PatchTest.Spec Fenris.LinearProblem.Spec Quadrature
open Fenris.TetGrid Fenris.Surface Fenris.Surface.Spec Fenris.Canonical Fenris.Canonical.Spec
open Fenris.Spec (matrixContribution entry SortsNodes Constrained Solves SolvesConstrained Stored)

/-! ## The grid -/

private theorem tetMesh_eq (L : ℝ) (ux uy uz m : Nat) (hx : ux ≠ 0) (hy : uy ≠ 0) (hz : uz ≠ 0) (hm : m ≠ 0) :
    tetMesh L ux uy uz m = ⟨verts ![ux * m, uy * m, uz * m] (L / m), ((keys ![ux * m, uy * m, uz * m]).flatMap groupN).map
      (List.map (nodeIdx ![ux * m, uy * m, uz * m]))⟩ := by
  rw [tetMesh, if_neg (by tauto), ← cells_eq]
  rfl

private theorem corner_exists : ∀ δ : Fin 3 → Fin 2, ∃ (b : Bool) (i : Fin 4), ∀ a, corner 0 0 b i a = δ a := by
  decide +kernel

/-- The centre of a cell and each of its corners belong to a common tetrahedron. -/
private theorem center_corner (n cell q : Idx) (hc : ∀ a, cell a < n a) (hq : ∀ a, cell a ≤ q a ∧ q a ≤ cell a + 1) :
    Neighbours (((keys n).flatMap groupN).map (List.map (nodeIdx n))) (nodeIdx n (.center cell)) (nodeIdx n (.vert q)) := by
  obtain ⟨b, i, hbi⟩ := corner_exists fun a => ⟨q a - cell a, by have := hq a; omega⟩
  obtain ⟨t, ht, h1, h2, -⟩ := side_edge n cell 0 b i
  have hqc : corner cell 0 b i = q := by
    rw [corner_add]
    funext a
    have := hbi a
    have := hq a
    simp only at *
    omega
  refine ⟨t.map (nodeIdx n), List.mem_map_of_mem (List.mem_flatMap.2 ⟨_, (mem_keys _ _).2 (sideKey_valid n cell 0 b hc), ht⟩),
    List.mem_map_of_mem h1, ?_⟩
  rw [← hqc]
  exact List.mem_map_of_mem h2

private theorem neighbours_symm {cells : List (List Nat)} {a b : Nat} (h : Neighbours cells a b) : Neighbours cells b a := by
  obtain ⟨c, hc, h1, h2⟩ := h
  exact ⟨c, hc, h2, h1⟩

/-- The centres of all cells are linked. -/
private theorem center_path (n : Idx) (k : Nat) : ∀ cell : Idx, cell 0 + cell 1 + cell 2 = k → (∀ a, cell a < n a) →
    Relation.ReflTransGen (Neighbours (((keys n).flatMap groupN).map (List.map (nodeIdx n)))) (nodeIdx n (.center cell)) (nodeIdx n (.center 0)) := by
  induction k with
  | zero =>
    intro cell hk _
    have : cell = 0 := by
      funext a
      fin_cases a <;> simp <;> omega
    rw [this]
  | succ k ih =>
    intro cell hk hc
    obtain ⟨axis, hax⟩ : ∃ axis : Fin 3, cell axis ≠ 0 := by
      by_contra hcon
      push Not at hcon
      have := hcon 0
      have := hcon 1
      have := hcon 2
      omega
    have hstep : ∀ a, cell a - axisDelta axis a ≤ cell a ∧ cell a ≤ cell a - axisDelta axis a + 1 := by
      intro a
      simp only [axisDelta]
      split <;> omega
    refine .head (center_corner n cell cell hc fun a => ⟨le_refl _, Nat.le_succ _⟩)
      (.head (neighbours_symm (center_corner n (fun a => cell a - axisDelta axis a) cell (fun a => lt_of_le_of_lt (hstep a).1 (hc a)) hstep))
        (ih _ ?_ fun a => lt_of_le_of_lt (hstep a).1 (hc a)))
    fin_cases axis <;> simp [axisDelta] at hax ⊢ <;> omega

/-- Every node of the grid is linked to the first centre, and belongs to a tetrahedron. -/
private theorem node_path (n : Idx) (hn : ∀ a, 0 < n a) (x : TetGrid.Node) (hx : x.Valid n) :
    Relation.ReflTransGen (Neighbours (((keys n).flatMap groupN).map (List.map (nodeIdx n)))) (nodeIdx n x) (nodeIdx n (.center 0)) ∧
    ∃ c ∈ ((keys n).flatMap groupN).map (List.map (nodeIdx n)), nodeIdx n x ∈ c := by
  cases x with
  | center cell =>
    refine ⟨center_path n _ cell rfl hx, ?_⟩
    obtain ⟨c, hc, h1, -⟩ := center_corner n cell cell hx fun a => ⟨le_refl _, Nat.le_succ _⟩
    exact ⟨c, hc, h1⟩
  | vert q =>
    have hc : ∀ a, min (q a) (n a - 1) < n a := fun a => by have := hn a; omega
    have hq : ∀ a, min (q a) (n a - 1) ≤ q a ∧ q a ≤ min (q a) (n a - 1) + 1 := fun a => by
      have := hn a
      have := hx a
      omega
    have h := center_corner n (fun a => min (q a) (n a - 1)) q hc hq
    refine ⟨.head (neighbours_symm h) (center_path n _ _ rfl hc), ?_⟩
    obtain ⟨c, hc, -, h2⟩ := h
    exact ⟨c, hc, h2⟩

private theorem tet_det (a b c d p : Point 3 ℝ) : ((elementOfKind .tet4 [a, b, c, d]).jacobian p).det = tetVol6 a b c d / 8 := by
  simp [elementOfKind, Matrix.det_fin_three, referenceJacobian, geometryGradients, tet4Gradients, tet4G, weightedSum, Kind.numNodes,
    tetVol6, Surface.Spec.det3]
  ring

/-- The elements of the uniform tetrahedral mesh. -/
theorem tet_elements (L : ℝ) (hL : 0 < L) (ux uy uz m : Nat) (hx : ux ≠ 0) (hy : uy ≠ 0) (hz : uz ≠ 0) (hm : m ≠ 0) :
    (∀ c ∈ (tetMesh L ux uy uz m).cells, c.length = 4 ∧ ∀ v ∈ c, v < (tetMesh L ux uy uz m).vertices.length) ∧
    (∀ c ∈ (tetMesh L ux uy uz m).cells, c.Nodup) ∧
    ∀ c ∈ (tetMesh L ux uy uz m).cells, ∀ p,
      0 < ((elementOfKind .tet4 (c.map (coords (tetMesh L ux uy uz m).vertices))).jacobian p).det := by
  have hcount := (C83_counts L ux uy uz m hx hy hz hm).2.2.1
  have hmesh := C83_is_tet_mesh L hL ux uy uz m
  refine ⟨hcount, fun c hc => ?_, fun c hc p => ?_⟩
  · obtain ⟨c0, c1, c2, c3, rfl⟩ := List.length_eq_four.1 (hcount c hc).1
    exact (face_has_apex _ _ rfl (hmesh.positive _ hc) 0 _ rfl).1
  · have hpos := hmesh.positive c hc
    generalize (tetMesh L ux uy uz m).vertices = vs at hpos
    obtain ⟨c0, c1, c2, c3, rfl⟩ := List.length_eq_four.1 (hcount c hc).1
    have := tet_det (coords vs c0) (coords vs c1) (coords vs c2) (coords vs c3) p
    rw [List.map_cons, List.map_cons, List.map_cons, List.map_cons, List.map_nil, this]
    have h8 : 0 < tetVol6 (coords vs c0) (coords vs c1) (coords vs c2) (coords vs c3) := hpos
    positivity

/-- The tetrahedra of the uniform mesh. -/
theorem tet_cells (L : ℝ) (ux uy uz m : Nat) (hx : ux ≠ 0) (hy : uy ≠ 0) (hz : uz ≠ 0) (hm : m ≠ 0) (c : List Nat) :
    c ∈ (tetMesh L ux uy uz m).cells ↔ ∃ κ, KeyValid ![ux * m, uy * m, uz * m] κ ∧ ∃ t ∈ groupN κ,
      c = t.map (nodeIdx ![ux * m, uy * m, uz * m]) := by
  rw [tetMesh_eq L ux uy uz m hx hy hz hm]
  simp only [List.mem_map, List.mem_flatMap, mem_keys]
  exact ⟨fun ⟨t, ⟨κ, hκ, ht⟩, h⟩ => ⟨κ, hκ, t, ht, h.symm⟩, fun ⟨κ, hκ, t, ht, h⟩ => ⟨t, ⟨κ, hκ, ht⟩, h.symm⟩⟩

/-- All vertices are linked, and each belongs to a tetrahedron. -/
private theorem tet_linked (L : ℝ) (ux uy uz n : Nat) (hux : ux ≠ 0) (huy : uy ≠ 0) (huz : uz ≠ 0) (hn : n ≠ 0) :
    ∀ v, v < (tetMesh L ux uy uz n).vertices.length →
      Relation.ReflTransGen (Neighbours (tetMesh L ux uy uz n).cells) v (nodeIdx ![ux * n, uy * n, uz * n] (.center 0)) ∧
        ∃ c ∈ (tetMesh L ux uy uz n).cells, v ∈ c := by
  have hpos : ∀ a, 0 < (![ux * n, uy * n, uz * n] : Idx) a := by
    intro a
    fin_cases a
    · exact Nat.pos_of_ne_zero (Nat.mul_ne_zero hux hn)
    · exact Nat.pos_of_ne_zero (Nat.mul_ne_zero huy hn)
    · exact Nat.pos_of_ne_zero (Nat.mul_ne_zero huz hn)
  rw [tetMesh_eq L ux uy uz n hux huy huz hn]
  intro v hv
  obtain ⟨x, hx, rfl⟩ := verts_all _ _ v hv
  exact node_path _ hpos x hx

theorem tet_covers (L : ℝ) (ux uy uz n : Nat) (hux : ux ≠ 0) (huy : uy ≠ 0) (huz : uz ≠ 0) (hn : n ≠ 0) :
    ∀ v, v < (tetMesh L ux uy uz n).vertices.length → ∃ c ∈ (tetMesh L ux uy uz n).cells, v ∈ c :=
  fun v hv => (tet_linked L ux uy uz n hux huy huz hn v hv).2

/-! ## Poisson problems -/

/-- **C96.** The Poisson problem on the uniform tetrahedral mesh of a box, of every resolution, with the canonical quadrature: it has one
solution, and the solver finds it (`C96_solve`), as soon as the value of at least one vertex is prescribed. -/
theorem C96_tet_mesh (gauss : Nat → Rule 1 ℝ) (h2 : IsGaussRule 2 (gauss 2).1 (gauss 2).2) (hl : (gauss 2).1.length = 2)
    (L : ℝ) (hL : 0 < L) (ux uy uz n : Nat) (hn : n ≠ 0) (hux : ux ≠ 0) (huy : uy ≠ 0) (huz : uz ≠ 0)
    (mesh : Mesh (Point 3 ℝ)) (hmesh : mesh = tetMesh L ux uy uz n)
    (nodes : List Nat) (hne : nodes ≠ []) (hin : ∀ v ∈ nodes, v < mesh.vertices.length) (u : List ℝ) (hu : u.length = mesh.vertices.length) :
    ∃ space rule t, meshSpace .tet4 mesh = some space ∧ stiffnessRule gauss .tet4 = some rule ∧
      Uniform.fromQuadratureAndData rule () = some t ∧
      Problem space mesh.vertices.length t.table (fun _ => (rule.1.zip rule.2).map fun q => (q.1, q.2, ())) u (laplace 3 ℝ) nodes := by
  subst hmesh
  obtain ⟨hcount, hnd, hdet⟩ := tet_elements L hL ux uy uz n hux huy huz hn
  have hnode := tet_linked L ux uy uz n hux huy huz hn
  obtain ⟨space, rule, t, h3, h4, h5, h6, h7⟩ := C96_mesh_problem gauss h2 hl .tet4 (by simp) (tetMesh L ux uy uz n)
    (fun c hc => (hcount c hc).1) (fun c hc => (hcount c hc).2) hnd
    (fun space rule hs _ en hen p _ => by
      rw [C89_mesh_space .tet4 _ (fun c hc => (hcount c hc).2)] at hs
      obtain rfl := Option.some.inj hs
      obtain ⟨c, hc, rfl⟩ := List.mem_map.1 hen
      exact (hdet c hc p).ne')
    nodes (fun v hvn => (hnode v (hin v hvn)).2) u hu
  refine ⟨space, rule, t, h3, h4, h5, { h6 with definite := h7.2 fun v hvl => ?_ }⟩
  obtain ⟨w, hw⟩ := List.exists_mem_of_ne_nil _ hne
  exact ⟨w, hw, (hnode v hvl).1.trans (path_symm (hnode w (hin w hw)).1)⟩

attribute [local instance] zeroFill

private theorem mem_of_mem_face {cell f : List Nat} {l v : Nat} (hlen : cell.length = 4)
    (hf : (facesOf .tet4 cell)[l]? = some f) (hv : v ∈ f) : v ∈ cell := by
  have hlt : ∀ f ∈ localFaces .tet4, ∀ i ∈ f, i < 4 := by decide
  obtain ⟨f', hf', rfl⟩ := List.mem_map.1 (List.mem_of_getElem? hf)
  obtain ⟨i, hi, rfl⟩ := List.mem_map.1 hv
  have := hlt f' hf' i hi
  rw [List.getD_eq_getElem?_getD, List.getElem?_eq_getElem (hlen ▸ this), Option.getD_some]
  exact List.getElem_mem _

/-- **C97.** The Poisson problem with prescribed affine values at the boundary vertices of the uniform tetrahedral mesh of a box, of
every resolution, with the canonical quadrature: the only solution is the affine function, and the solver finds it. -/
theorem C97_tet_mesh {E : Type} (gauss : Nat → Rule 1 ℝ) (h2 : IsGaussRule 2 (gauss 2).1 (gauss 2).2) (hl : (gauss 2).1.length = 2)
    (L : ℝ) (hL : 0 < L) (ux uy uz n : Nat) (hn : n ≠ 0) (hux : ux ≠ 0) (huy : uy ≠ 0) (huz : uz ≠ 0)
    (mesh : Mesh (Point 3 ℝ)) (hmesh : mesh = tetMesh L ux uy uz n) (u₀ : List ℝ) (hu₀ : u₀.length = mesh.vertices.length)
    (G : Matrix (Fin 3) (Fin 1) ℝ) (b : Fin 1 → ℝ) (u : List ℝ) (hu : IsAffine mesh.vertices G b u) :
    ∃ boundary space rule t, Mesh.findBoundaryVertices (facesOf .tet4) mesh = some boundary ∧ meshSpace .tet4 mesh = some space ∧
      stiffnessRule gauss .tet4 = some rule ∧ Uniform.fromQuadratureAndData rule () = some t ∧
      ∀ (ord : List Nat → List Nat), (∀ l, (ord l).Perm l) →
      ∀ (sortNodes : List (Nat × Nat) → List (Nat × Nat)), SortsNodes sortNodes →
      ∀ (bufs : Nat → Buffer (Point 3 ℝ) ℝ Unit) (outs : Nat → Mat ℝ) (elemMat : Nat → Except String (Mat ℝ)),
      (∀ e, e < space.length → ∃ buf', elementMatrix space (laplace 3 ℝ) t.table u₀ (bufs e) (outs e) e = some (elemMat e, buf')) →
      ∃ m m', Assembly.assemble ord sortNodes (conn 1 space mesh.vertices.length) elemMat = some (.ok m) ∧
        Assembly.dirichletCsr m boundary 1 = some m' ∧
        (∀ y : List ℝ, y.length = 1 * mesh.vertices.length → (((∀ r, r < 1 * mesh.vertices.length → Constrained 1 boundary r →
            y.getD r 0 = u.getD r 0) ∧ ∀ r, r < 1 * mesh.vertices.length → ¬ Constrained 1 boundary r →
            ∑ c ∈ Finset.range (1 * mesh.vertices.length), entry m r c * y.getD c 0 = 0) ↔ y = u)) ∧
        ∀ g : List ℝ, g.length = 1 * mesh.vertices.length →
          (∀ r, r < 1 * mesh.vertices.length → Constrained 1 boundary r → g.getD r 0 = u.getD r 0) →
          ∃ rhs', Assembly.dirichletRhs ((List.range (1 * mesh.vertices.length)).map fun r =>
              -∑ c ∈ Finset.range (1 * mesh.vertices.length), entry m r c * g.getD c 0) boundary 1 = some rhs' ∧
            ∀ (norm : List ℝ → ℝ), (∀ v, 0 ≤ norm v) → (∀ v, norm v = 0 ↔ ∀ a ∈ v, a = 0) →
            ∀ (w : CgBuffers.Workspace ℝ) (guess : List ℝ), guess.length = 1 * mesh.vertices.length →
              ∃ δ k, (CgBuffers.solveWithGuess (E := E) ⟨CgBuffers.csrOperator 0 1 (fullRows (1 * mesh.vertices.length) m'),
                  CgBuffers.identityOperator, CgBuffers.relativeResidual norm 0, none, norm⟩ (1 * mesh.vertices.length + 1) w rhs'
                  guess).map Prod.fst = .done ⟨δ, k, .ok ()⟩ ∧ List.zipWith (· + ·) g δ = u := by
  subst hmesh
  obtain ⟨hcount, -, hdet⟩ := tet_elements L hL ux uy uz n hux huy huz hn
  obtain ⟨bd, hbd, -, hbd'⟩ := C14_boundary_vertices_exact (facesOf .tet4) (tetMesh L ux uy uz n)
  have hsp := C89_mesh_space .tet4 (tetMesh L ux uy uz n) fun c hc => (hcount c hc).2
  -- the faces on the surface enclose the volume of the box
  have hne : bd ≠ [] := by
    obtain ⟨fs, h5, h6⟩ := C83_surface_volume L hL ux uy uz n hux huy huz hn
    obtain ⟨fs', h7, -, h8⟩ := C14_boundary_faces_exact (facesOf .tet4) (tetMesh L ux uy uz n)
    rw [h5] at h7
    obtain rfl := Option.some.inj h7
    have hfs : fs ≠ [] := by
      rintro rfl
      simp [hux, huy, huz, hL.ne'] at h6
    obtain ⟨⟨f, c, l⟩, hf⟩ := List.exists_mem_of_ne_nil _ hfs
    have hbf := (h8 _ _ _).1 hf
    obtain ⟨⟨cell, hcell, hfc⟩, -⟩ := id hbf
    obtain ⟨-, -, hf3, -⟩ := face_has_apex _ cell (hcount cell (List.mem_of_getElem? hcell)).1
      ((C83_is_tet_mesh L hL ux uy uz n).positive cell (List.mem_of_getElem? hcell)) l f hfc
    obtain ⟨v, hvf⟩ := List.exists_mem_of_ne_nil f (by rintro rfl; simp at hf3)
    exact List.ne_nil_of_mem ((hbd' v).2 ⟨_, _, _, hbf, hvf⟩)
  obtain ⟨rule, t, ω, h3, h4, -, hp⟩ := C89_canonical_patch gauss h2 .tet4 (by simp) () (tetMesh L ux uy uz n) (fun c hc => (hcount c hc).1)
    (fun c hc => (hcount c hc).2) (C79_tet_mesh_consistent _ (C83_is_tet_mesh L hL ux uy uz n)) (by
      intro space rule hs' hr en hen p hp
      rw [hsp] at hs'
      obtain rfl := Option.some.inj hs'
      obtain ⟨c, hc, rfl⟩ := List.mem_map.1 hen
      exact hdet c hc p)
  obtain ⟨space, rule', t', h5, h6, h7, h8⟩ := C96_tet_mesh gauss h2 hl L hL ux uy uz n hn hux huy huz (tetMesh L ux uy uz n) rfl bd hne
    (fun v hv => by
      obtain ⟨c, l, f, hf, hvf⟩ := (hbd' v).1 hv
      obtain ⟨⟨cell, hcell, hfc⟩, -⟩ := hf
      refine (hcount cell (List.mem_of_getElem? hcell)).2 v ?_
      exact mem_of_mem_face (hcount cell (List.mem_of_getElem? hcell)).1 hfc hvf) u₀ hu₀
  rw [h3] at h6
  obtain rfl := Option.some.inj h6
  rw [h4] at h7
  obtain rfl := Option.some.inj h7
  exact ⟨bd, space, rule, t, hbd, h5, h3, h4, fun ord hord sortNodes hsort bufs outs elemMat hem =>
    C97_affine_solution (kind := .tet4) (by simp) hp space h5 u₀ (laplace 3 ℝ) bd hbd bd (fun _ h => h) h8 G b u hu ord hord sortNodes hsort bufs
      outs elemMat hem⟩

-- The unit cube with eight grid cells, 35 vertices; the value of one vertex prescribed.
example : ∃ space rule t, meshSpace .tet4 (unitBoxTetMesh (K := ℝ) 2) = some space ∧ stiffnessRule gaussExample .tet4 = some rule ∧
    Uniform.fromQuadratureAndData rule () = some t ∧
    Problem space 35 t.table (fun _ => (rule.1.zip rule.2).map fun q => (q.1, q.2, ())) (List.replicate 35 0) (laplace 3 ℝ) [3] := by
  have h35 : (unitBoxTetMesh (K := ℝ) 2).vertices.length = 35 := (C83_counts (1 : ℝ) 1 1 1 2 (by decide) (by decide) (by decide) (by decide)).2.1
  have := C96_tet_mesh gaussExample gaussExample_two rfl 1 one_pos 1 1 1 2 (by decide) (by decide) (by decide) (by decide)
    (unitBoxTetMesh (K := ℝ) 2) rfl [3] (by simp) (by rw [h35]; decide) (List.replicate 35 0) (by rw [h35]; rfl)
  rw [h35] at this
  exact this

end Fenris.LinearProblem
