import Verif.Props.SplitSurface
import Verif.Props.MaximumPrinciple
import Verif.Props.ElasticityGrids
/-! # Linear problems on the uniform triangle meshes (C97, C99) -/
set_option autoImplicit false
set_option linter.unusedSectionVars false

namespace Fenris.Elasticity
open Fenris.Element Fenris.Local Fenris.Local.Spec Fenris.PatchTest Fenris.PatchTest.Spec Fenris.LinearProblem Fenris.LinearProblem.Spec Quadrature
open Fenris.Surface Fenris.Surface.Spec Fenris.Canonical Fenris.Canonical.Spec Fenris.Elasticity.Spec Fenris.Solid Fenris.Procedural
open Fenris.Spec (matrixContribution entry SortsNodes Constrained Solves SolvesConstrained Stored)

attribute [local instance] zeroFill

/-- The triangles of the uniform mesh. -/
theorem tri_cells (L : ℝ) (hL : 0 < L) (ux uy n : Nat) (x0 y0 : ℝ) (hn : n ≠ 0) (hux : ux ≠ 0) (huy : uy ≠ 0) :
    ∃ (mesh : Mesh (Point 2 ℝ)) (vid : Nat → Nat → Nat), MeshUtil.splitIntoTriangles (quadMesh L ux uy n x0 y0) = some mesh ∧
      mesh.vertices = (quadMesh L ux uy n x0 y0).vertices ∧
      (∀ i j, i ≤ ux * n → j ≤ uy * n → mesh.vertices[vid i j]? = some ![x0 + i * (L / n), y0 - j * (L / n)]) ∧
      (∀ i j i' j', i ≤ ux * n → i' ≤ ux * n → vid i j = vid i' j' → i = i' ∧ j = j') ∧
      (∀ v, v < mesh.vertices.length → ∃ i j, i ≤ ux * n ∧ j ≤ uy * n ∧ vid i j = v) ∧
      ∀ c, c ∈ mesh.cells ↔ ∃ i j, i < ux * n ∧ j < uy * n ∧
        (c = [vid i (j + 1), vid (i + 1) (j + 1), vid (i + 1) j] ∨ c = [vid i (j + 1), vid (i + 1) j, vid i j]) := by
  obtain ⟨vid, hvlen, hlen, hv, hinj, hsurj, hcells⟩ := C17_quad_mesh_is_the_grid L ux uy n x0 y0 hn hux huy
  obtain ⟨hsize, hin, -⟩ := GridFaces.C94_quad_elements L hL ux uy n x0 y0 hn hux huy
  obtain ⟨mesh, k1, k2, k3, -⟩ := MeshUtil.C81_split_into_triangles (quadMesh L ux uy n x0 y0) hsize hin
  refine ⟨mesh, vid, k1, k2, by rw [k2]; exact hv, hinj, by rw [k2]; exact hsurj, fun c => ?_⟩
  rw [k3, List.mem_flatMap]
  constructor
  · rintro ⟨q, hq, hc⟩
    obtain ⟨t, ht⟩ := List.getElem?_of_mem hq
    have hlt := (List.getElem?_eq_some_iff.1 ht).1
    rw [hlen] at hlt
    obtain ⟨i, j, hi, hj, rfl⟩ := grid_index hlt
    rw [hcells i j hi hj] at ht
    obtain rfl := Option.some.inj ht
    exact ⟨i, j, hi, hj, by simpa using hc⟩
  · rintro ⟨i, j, hi, hj, hc⟩
    exact ⟨_, List.mem_of_getElem? (hcells i j hi hj), by simpa using hc⟩

private theorem tri_affine (a b c : Point 2 ℝ) (h : Fenris.Spec.signedArea a b c ≠ 0) : AffineCell .tri3 [a, b, c] := by
  refine ⟨!![(b 0 - a 0) / 2, (c 0 - a 0) / 2; (b 1 - a 1) / 2, (c 1 - a 1) / 2], fun i => (b i + c i) / 2, ?_, ?_⟩
  · intro h0
    erw [Matrix.det_fin_two_of] at h0
    refine h ?_
    unfold Fenris.Spec.signedArea
    linear_combination 2 * h0
  · intro I p hp
    rcases I with _ | _ | _ | I <;>
      simp only [refNodes, tri3Nodes, List.getElem?_cons_zero, List.getElem?_cons_succ, List.getElem?_nil, Option.some.injEq, reduceCtorEq] at hp ⊢
    all_goals
      subst hp
      funext i
      match i with
      | 0 => simp [Matrix.mulVec, dotProduct, Fin.sum_univ_two]; ring
      | 1 => simp [Matrix.mulVec, dotProduct, Fin.sum_univ_two]; ring

private theorem tri_areas (x y h : ℝ) (hh : 0 < h) :
    0 < Fenris.Spec.signedArea (![x, y - h] : Point 2 ℝ) ![x + h, y - h] ![x + h, y] ∧
    0 < Fenris.Spec.signedArea (![x, y - h] : Point 2 ℝ) ![x + h, y] ![x, y] := by
  have : 0 < h * h := mul_pos hh hh
  constructor <;> simp [Fenris.Spec.signedArea] <;> nlinarith

/-- The triangles of the uniform mesh have three different vertices and positive area. -/
theorem tri_elements (L : ℝ) (hL : 0 < L) (ux uy n : Nat) (x0 y0 : ℝ) (hn : n ≠ 0) (hux : ux ≠ 0) (huy : uy ≠ 0)
    (mesh : Mesh (Point 2 ℝ)) (hmesh : MeshUtil.splitIntoTriangles (quadMesh L ux uy n x0 y0) = some mesh) :
    (∀ c ∈ mesh.cells, c.length = 3) ∧ (∀ c ∈ mesh.cells, ∀ v ∈ c, v < mesh.vertices.length) ∧ (∀ c ∈ mesh.cells, c.Nodup) ∧
    ∀ c ∈ mesh.cells, ∃ p q r, c.map (coords mesh.vertices) = [p, q, r] ∧ 0 < Fenris.Spec.signedArea p q r := by
  obtain ⟨mesh', vid, k1, -, hv, hinj, -, hc⟩ := tri_cells L hL ux uy n x0 y0 hn hux huy
  rw [hmesh] at k1
  obtain rfl := Option.some.inj k1
  have hh : 0 < L / (n : ℝ) := div_pos hL (by exact_mod_cast Nat.pos_of_ne_zero hn)
  have hlt : ∀ i j, i ≤ ux * n → j ≤ uy * n → vid i j < mesh.vertices.length :=
    fun i j hi hj => (List.getElem?_eq_some_iff.1 (hv i j hi hj)).1
  have hd : ∀ a b a' b', a ≤ ux * n → a' ≤ ux * n → (a ≠ a' ∨ b ≠ b') → vid a b ≠ vid a' b' := fun a b a' b' ha ha' hor h => by
    have := hinj a b a' b' ha ha' h
    omega
  refine ⟨?_, ?_, ?_, ?_⟩
  · intro c hm
    obtain ⟨i, j, hi, hj, rfl | rfl⟩ := (hc c).1 hm <;> rfl
  · intro c hm v hvc
    obtain ⟨i, j, hi, hj, rfl | rfl⟩ := (hc c).1 hm <;> simp only [List.mem_cons, List.not_mem_nil, or_false] at hvc <;>
      rcases hvc with rfl | rfl | rfl <;> exact hlt _ _ (by omega) (by omega)
  · intro c hm
    obtain ⟨i, j, hi, hj, rfl | rfl⟩ := (hc c).1 hm <;>
      simp only [List.nodup_cons, List.mem_cons, List.not_mem_nil, or_false, not_or, not_false_eq_true, List.nodup_nil, and_true] <;>
      refine ⟨⟨?_, ?_⟩, ?_⟩ <;> exact hd _ _ _ _ (by omega) (by omega) (by omega)
  · intro c hm
    obtain ⟨i, j, hi, hj, hc⟩ := (hc c).1 hm
    have e1 : y0 - ((j + 1 : Nat) : ℝ) * (L / n) = y0 - j * (L / n) - L / n := by push_cast; ring
    have e2 : x0 + ((i + 1 : Nat) : ℝ) * (L / n) = x0 + i * (L / n) + L / n := by push_cast; ring
    have c0 := coords_of_get (hv i (j + 1) (by omega) (by omega))
    have c1 := coords_of_get (hv (i + 1) (j + 1) (by omega) (by omega))
    have c2 := coords_of_get (hv (i + 1) j (by omega) (by omega))
    have c3 := coords_of_get (hv i j (by omega) (by omega))
    rw [e1] at c0 c1
    rw [e2] at c1 c2
    obtain ⟨a1, a2⟩ := tri_areas (x0 + i * (L / n)) (y0 - j * (L / n)) (L / n) hh
    rcases hc with rfl | rfl
    · exact ⟨_, _, _, by rw [List.map_cons, List.map_cons, List.map_cons, List.map_nil, c0, c1, c2], a1⟩
    · exact ⟨_, _, _, by rw [List.map_cons, List.map_cons, List.map_cons, List.map_nil, c0, c2, c3], a2⟩

theorem tri_det (a b c : Point 2 ℝ) (p : Point 2 ℝ) :
    ((elementOfKind .tri3 [a, b, c]).jacobian p).det = Fenris.Spec.signedArea a b c / 2 := by
  simp [elementOfKind, Matrix.det_fin_two, referenceJacobian, geometryGradients, tri3Gradients, tri3G, weightedSum, Kind.numNodes,
    Fenris.Spec.signedArea]
  ring

/-! ## Poisson problems -/

private theorem mem_of_mem_face {cell f : List Nat} {l v : Nat} (hlen : cell.length = 3)
    (hf : (facesOf .tri3 cell)[l]? = some f) (hv : v ∈ f) : v ∈ cell := by
  have hlt : ∀ f ∈ localFaces .tri3, ∀ i ∈ f, i < 3 := by decide
  obtain ⟨f', hf', rfl⟩ := List.mem_map.1 (List.mem_of_getElem? hf)
  obtain ⟨i, hi, rfl⟩ := List.mem_map.1 hv
  have := hlt f' hf' i hi
  rw [List.getD_eq_getElem?_getD, List.getElem?_eq_getElem (hlen ▸ this), Option.getD_some]
  exact List.getElem_mem _

/-- The number of vertices of the uniform triangle mesh. -/
theorem tri_vertices (L : ℝ) (hL : 0 < L) (ux uy n : Nat) (x0 y0 : ℝ) (hn : n ≠ 0) (hux : ux ≠ 0) (huy : uy ≠ 0)
    (mesh : Mesh (Point 2 ℝ)) (hmesh : MeshUtil.splitIntoTriangles (quadMesh L ux uy n x0 y0) = some mesh) :
    mesh.vertices.length = (ux * n + 1) * (uy * n + 1) := by
  obtain ⟨mesh', -, k1, k2, -⟩ := tri_cells L hL ux uy n x0 y0 hn hux huy
  rw [hmesh] at k1
  obtain rfl := Option.some.inj k1
  obtain ⟨-, hvlen, -⟩ := C17_quad_mesh_is_the_grid L ux uy n x0 y0 hn hux huy
  rw [k2, hvlen]

/-- **C96.** The Poisson problem on the uniform triangle mesh of a rectangle, of every resolution, with the canonical quadrature: it is enough
to prescribe the value of one vertex, of any. -/
theorem C96_tri_mesh (gauss : Nat → Rule 1 ℝ) (h2 : IsGaussRule 2 (gauss 2).1 (gauss 2).2) (hl : (gauss 2).1.length = 2)
    (L : ℝ) (hL : 0 < L) (ux uy n : Nat) (x0 y0 : ℝ) (hn : n ≠ 0) (hux : ux ≠ 0) (huy : uy ≠ 0)
    (mesh : Mesh (Point 2 ℝ)) (hmesh : MeshUtil.splitIntoTriangles (quadMesh L ux uy n x0 y0) = some mesh)
    (nodes : List Nat) (hne : nodes ≠ []) (hin : ∀ v ∈ nodes, v < mesh.vertices.length) (u : List ℝ) (hu : u.length = mesh.vertices.length) :
    ∃ space rule t, meshSpace .tri3 mesh = some space ∧ stiffnessRule gauss .tri3 = some rule ∧
      Uniform.fromQuadratureAndData rule () = some t ∧
      Problem space mesh.vertices.length t.table (fun _ => (rule.1.zip rule.2).map fun q => (q.1, q.2, ())) u (laplace 2 ℝ) nodes := by
  have hlen := tri_vertices L hL ux uy n x0 y0 hn hux huy mesh hmesh
  obtain ⟨mesh', space, rule, t, k1, -, h5, h6, h7, h8, -⟩ := MaximumPrinciple.C104_uniform_triangles gauss h2 hl L hL ux uy n x0 y0 hn hux huy
    nodes hne (by rw [← hlen]; exact hin) u (by rw [hu, hlen])
  rw [hmesh] at k1
  obtain rfl := Option.some.inj k1
  exact ⟨space, rule, t, h5, h6, h7, h8⟩

/-- **C97.** The Poisson problem with prescribed affine values at the boundary vertices of the uniform triangle mesh of a rectangle, of
every resolution, with the canonical quadrature: the only solution is the affine function, and the solver finds it. -/
theorem C97_tri_mesh {E : Type} (gauss : Nat → Rule 1 ℝ) (h2 : IsGaussRule 2 (gauss 2).1 (gauss 2).2) (hl : (gauss 2).1.length = 2)
    (L : ℝ) (hL : 0 < L) (ux uy n : Nat) (x0 y0 : ℝ) (hn : n ≠ 0) (hux : ux ≠ 0) (huy : uy ≠ 0)
    (mesh : Mesh (Point 2 ℝ)) (hmesh : MeshUtil.splitIntoTriangles (quadMesh L ux uy n x0 y0) = some mesh)
    (u₀ : List ℝ) (hu₀ : u₀.length = mesh.vertices.length)
    (G : Matrix (Fin 2) (Fin 1) ℝ) (b : Fin 1 → ℝ) (u : List ℝ) (hu : IsAffine mesh.vertices G b u) :
    ∃ boundary space rule t, Mesh.findBoundaryVertices (facesOf .tri3) mesh = some boundary ∧ meshSpace .tri3 mesh = some space ∧
      stiffnessRule gauss .tri3 = some rule ∧ Uniform.fromQuadratureAndData rule () = some t ∧
      ∀ (ord : List Nat → List Nat), (∀ l, (ord l).Perm l) →
      ∀ (sortNodes : List (Nat × Nat) → List (Nat × Nat)), SortsNodes sortNodes →
      ∀ (bufs : Nat → Buffer (Point 2 ℝ) ℝ Unit) (outs : Nat → Mat ℝ) (elemMat : Nat → Except String (Mat ℝ)),
      (∀ e, e < space.length → ∃ buf', elementMatrix space (laplace 2 ℝ) t.table u₀ (bufs e) (outs e) e = some (elemMat e, buf')) →
      ∃ m m', Assembly.assemble ord sortNodes (conn 1 space mesh.vertices.length) elemMat = some (.ok m) ∧
        Assembly.dirichletCsr m boundary 1 = some m' ∧
        (∀ y : List ℝ, y.length = 1 * mesh.vertices.length → (((∀ r, r < 1 * mesh.vertices.length → Constrained 1 boundary r →
            y.getD r 0 = u.getD r 0) ∧ ∀ r, r < 1 * mesh.vertices.length → ¬ Constrained 1 boundary r →
            ∑ c ∈ Finset.range (1 * mesh.vertices.length), entry m r c * y.getD c 0 = 0) ↔ y = u)) ∧
        ∀ g : List ℝ, g.length = 1 * mesh.vertices.length →
          (∀ r, r < 1 * mesh.vertices.length → Constrained 1 boundary r → g.getD r 0 = u.getD r 0) →
          ∃ rhs', Assembly.dirichletRhs ((List.range (1 * mesh.vertices.length)).map fun r =>
              -∑ c ∈ Finset.range (1 * mesh.vertices.length), entry m r c * g.getD c 0) boundary 1 = some rhs' ∧
            ∀ (norm : List ℝ → ℝ), (∀ v, 0 ≤ norm v) → (∀ v, norm v = 0 ↔ ∀ a ∈ v, a = 0) →
            ∀ (w : CgBuffers.Workspace ℝ) (guess : List ℝ), guess.length = 1 * mesh.vertices.length →
              ∃ δ k, (CgBuffers.solveWithGuess (E := E) ⟨CgBuffers.csrOperator 0 1 (fullRows (1 * mesh.vertices.length) m'),
                  CgBuffers.identityOperator, CgBuffers.relativeResidual norm 0, none, norm⟩ (1 * mesh.vertices.length + 1) w rhs'
                  guess).map Prod.fst = .done ⟨δ, k, .ok ()⟩ ∧ List.zipWith (· + ·) g δ = u := by
  obtain ⟨hsize, hin, -, hpts⟩ := tri_elements L hL ux uy n x0 y0 hn hux huy mesh hmesh
  obtain ⟨bd, hbd, -, hbd'⟩ := C14_boundary_vertices_exact (facesOf .tri3) mesh
  have hsp := C89_mesh_space .tri3 mesh hin
  obtain ⟨out, fs, g1, hcons, g2, g3⟩ := MeshUtil.C108_uniform_triangles L hL ux uy n x0 y0 hn hux huy
  rw [hmesh] at g1
  obtain rfl := Option.some.inj g1
  have hx : 0 < ux * n := Nat.pos_of_ne_zero (mul_ne_zero hux hn)
  have hy : 0 < uy * n := Nat.pos_of_ne_zero (mul_ne_zero huy hn)
  have hlen := tri_vertices L hL ux uy n x0 y0 hn hux huy mesh hmesh
  -- the second half of the first cell has an edge on the left side
  have hne : bd ≠ [] := by
    obtain ⟨mesh', vid, k1, -, hv, -, -, hc⟩ := tri_cells L hL ux uy n x0 y0 hn hux huy
    rw [hmesh] at k1
    obtain rfl := Option.some.inj k1
    obtain ⟨fs', h7, -, h8⟩ := C14_boundary_faces_exact (facesOf .tri3) mesh
    rw [g2] at h7
    obtain rfl := Option.some.inj h7
    obtain ⟨t, ht⟩ := List.getElem?_of_mem ((hc _).2 ⟨0, 0, hx, hy, .inr rfl⟩)
    have hf : ([vid 0 0, vid 0 1], t, 2) ∈ fs := (g3 _ _ _).2 ⟨⟨_, ht, rfl⟩, 0, Or.inl (by
      intro v hvm
      simp only [List.mem_cons, List.not_mem_nil, or_false] at hvm
      rcases hvm with rfl | rfl
      · rw [coords_of_get (hv 0 0 (by omega) (by omega))]; simp
      · rw [coords_of_get (hv 0 1 (by omega) (by omega))]; simp)⟩
    exact List.ne_nil_of_mem ((hbd' (vid 0 0)).2 ⟨_, _, _, (h8 _ _ _).1 hf, by simp⟩)
  obtain ⟨rule, t, ω, h3, h4, -, hp⟩ := C89_canonical_patch gauss h2 .tri3 (by simp) () mesh hsize hin hcons (by
      intro space rule hs' hr en hen p hp
      rw [hsp] at hs'
      obtain rfl := Option.some.inj hs'
      obtain ⟨c, hc, rfl⟩ := List.mem_map.1 hen
      obtain ⟨a, b, d, e, h⟩ := hpts c hc
      show 0 < ((elementOfKind .tri3 (c.map (coords mesh.vertices))).jacobian p).det
      rw [e]
      exact lt_of_lt_of_eq (half_pos h) (tri_det a b d p).symm)
  obtain ⟨mesh', space, rule', t', k1, -, h5, h6, h7, h8, -⟩ := MaximumPrinciple.C104_uniform_triangles gauss h2 hl L hL ux uy n x0 y0 hn hux huy bd hne
    (fun v hv => by
      obtain ⟨c, l, f, hf, hvf⟩ := (hbd' v).1 hv
      obtain ⟨⟨cell, hcell, hfc⟩, -⟩ := hf
      rw [← hlen]
      refine hin cell (List.mem_of_getElem? hcell) v ?_
      exact mem_of_mem_face (hsize cell (List.mem_of_getElem? hcell)) hfc hvf) u₀ (by rw [hu₀, hlen])
  rw [hmesh] at k1
  obtain rfl := Option.some.inj k1
  rw [h3] at h6
  obtain rfl := Option.some.inj h6
  rw [h4] at h7
  obtain rfl := Option.some.inj h7
  exact ⟨bd, space, rule, t, hbd, h5, h3, h4, fun ord hord sortNodes hsort bufs outs elemMat hem =>
    C97_affine_solution (kind := .tri3) (by simp) hp space h5 u₀ (laplace 2 ℝ) bd hbd bd (fun _ h => h) h8 G b u hu ord hord sortNodes hsort bufs
      outs elemMat hem⟩

/-! ## Elasticity -/

/-- The uniform triangle mesh of a rectangle is a body: neighbours have an edge in common. -/
theorem tri_body (L : ℝ) (hL : 0 < L) (ux uy n : Nat) (x0 y0 : ℝ) (hn : n ≠ 0) (hux : ux ≠ 0) (huy : uy ≠ 0)
    (mesh : Mesh (Point 2 ℝ)) (hmesh : MeshUtil.splitIntoTriangles (quadMesh L ux uy n x0 y0) = some mesh) : Body .tri3 mesh := by
  obtain ⟨hsize, hbound, hnd, hpts⟩ := tri_elements L hL ux uy n x0 y0 hn hux huy mesh hmesh
  obtain ⟨mesh', vid, k1, -, hv, hinj, hsurj, hc⟩ := tri_cells L hL ux uy n x0 y0 hn hux huy
  rw [hmesh] at k1
  obtain rfl := Option.some.inj k1
  have hx0 : 0 < ux * n := Nat.pos_of_ne_zero (Nat.mul_ne_zero hux hn)
  have hy0 : 0 < uy * n := Nat.pos_of_ne_zero (Nat.mul_ne_zero huy hn)
  have hn0 : (0 : ℝ) < n := by exact_mod_cast Nat.pos_of_ne_zero hn
  have hLn : L / n ≠ 0 := by positivity
  have hm1 : ∀ i j, i < ux * n → j < uy * n → [vid i (j + 1), vid (i + 1) (j + 1), vid (i + 1) j] ∈ mesh.cells :=
    fun i j hi hj => (hc _).2 ⟨i, j, hi, hj, .inl rfl⟩
  have hm2 : ∀ i j, i < ux * n → j < uy * n → [vid i (j + 1), vid (i + 1) j, vid i j] ∈ mesh.cells :=
    fun i j hi hj => (hc _).2 ⟨i, j, hi, hj, .inr rfl⟩
  have hdist : ∀ i j i' j' : Nat, (i ≠ i' ∨ j ≠ j') →
      (![x0 + i * (L / n), y0 - j * (L / n)] : Point 2 ℝ) ≠ ![x0 + i' * (L / n), y0 - j' * (L / n)] := by
    intro i j i' j' hor h
    have e0 := congrFun h 0
    have e1 := congrFun h 1
    simp only [Matrix.cons_val_zero, Matrix.cons_val_one, add_right_inj, sub_right_inj, mul_eq_mul_right_iff, hLn, or_false, Nat.cast_inj] at e0 e1
    omega
  have hhalf : ∀ i j, i < ux * n → j < uy * n → Rigidly mesh.vertices [vid i (j + 1), vid (i + 1) (j + 1), vid (i + 1) j]
      [vid i (j + 1), vid (i + 1) j, vid i j] := fun i j hi hj =>
    rigidly_plane (vid i (j + 1)) (vid (i + 1) j) _ _ (by simp) (by simp) (by simp) (by simp) (hv i (j + 1) (by omega) (by omega))
      (hv (i + 1) j (by omega) (by omega)) (hdist _ _ _ _ (.inl (by omega)))
  have hpath : ∀ i j, i < ux * n → j < uy * n → Relation.ReflTransGen (fun a b => b ∈ mesh.cells ∧ Rigidly mesh.vertices a b)
      [vid i (j + 1), vid (i + 1) j, vid i j] [vid 0 1, vid 1 0, vid 0 0] := by
    intro i j hi hj
    induction i with
    | zero =>
      induction j with
      | zero => exact .refl
      | succ j ih =>
        refine .head ⟨hm1 0 j hx0 (by omega), ?_⟩ (.head ⟨hm2 0 j hx0 (by omega), hhalf 0 j hx0 (by omega)⟩ (ih (by omega)))
        exact rigidly_plane (vid 0 (j + 1)) (vid 1 (j + 1)) _ _ (by simp) (by simp) (by simp) (by simp) (hv 0 (j + 1) (by omega) (by omega))
          (hv 1 (j + 1) (by omega) (by omega)) (hdist _ _ _ _ (.inl (by omega)))
    | succ i ih =>
      refine .head ⟨hm1 i j (by omega) hj, ?_⟩ (.head ⟨hm2 i j (by omega) hj, hhalf i j (by omega) hj⟩ (ih (by omega)))
      exact rigidly_plane (vid (i + 1) j) (vid (i + 1) (j + 1)) _ _ (by simp) (by simp) (by simp) (by simp) (hv (i + 1) j (by omega) (by omega))
        (hv (i + 1) (j + 1) (by omega) (by omega)) (hdist _ _ _ _ (.inr (by omega)))
  have hpath' : ∀ c ∈ mesh.cells, Relation.ReflTransGen (fun a b => b ∈ mesh.cells ∧ Rigidly mesh.vertices a b) c
      [vid 0 1, vid 1 0, vid 0 0] := by
    intro c hcm
    obtain ⟨i, j, hi, hj, rfl | rfl⟩ := (hc c).1 hcm
    · exact .head ⟨hm2 i j hi hj, hhalf i j hi hj⟩ (hpath i j hi hj)
    · exact hpath i j hi hj
  exact {
    size := hsize
    inBounds := hbound
    nodup := hnd
    affine := (fun c hcm => by
      obtain ⟨a, b, d, e, h⟩ := hpts c hcm
      rw [e]
      exact tri_affine a b d h.ne')
    nonempty := (List.ne_nil_of_mem (hm1 0 0 hx0 hy0))
    covered := (fun v hvl => by
      obtain ⟨i, j, hi, hj, rfl⟩ := hsurj v hvl
      obtain ⟨a, ha, hia⟩ := corner_of hx0 hi
      obtain ⟨b, hb, hjb⟩ := corner_of hy0 hj
      rcases hia with rfl | rfl
      · exact ⟨_, hm2 i b ha hb, by rcases hjb with rfl | rfl <;> simp⟩
      · exact ⟨_, hm1 a b ha hb, by rcases hjb with rfl | rfl <;> simp⟩)
    onePiece := (fun c hcm c' hcm' => (hpath' c hcm).trans (rigid_path_symm hcm' (hpath' c' hcm'))) }

/-- **C99.** Linear elasticity on the uniform triangle mesh of a rectangle, of every resolution, with the canonical quadrature and positive
shear and bulk moduli: it has one solution, and the solver finds it (`C96_solve`), as soon as the displacements of two vertices are
prescribed; prescribing the displacement of one vertex is not enough. -/
theorem C99_tri_mesh (gauss : Nat → Rule 1 ℝ) (h2 : IsGaussRule 2 (gauss 2).1 (gauss 2).2) (hl2 : (gauss 2).1.length = 2)
    (h3 : IsGaussRule 3 (gauss 3).1 (gauss 3).2) (hl3 : (gauss 3).1.length = 3)
    (L : ℝ) (hL : 0 < L) (ux uy n : Nat) (x0 y0 : ℝ) (hn : n ≠ 0) (hux : ux ≠ 0) (huy : uy ≠ 0)
    (mesh : Mesh (Point 2 ℝ)) (hmesh : MeshUtil.splitIntoTriangles (quadMesh L ux uy n x0 y0) = some mesh)
    (lame : Lame ℝ) (hmu : 0 < lame.mu) (hbulk : 0 < 2 * lame.mu + 2 * lame.lambda)
    (nodes : List Nat) (hin : ∀ v ∈ nodes, v < mesh.vertices.length) (u : List ℝ) (hu : u.length = 2 * mesh.vertices.length) :
    haveI : Inhabited (Lame ℝ) := ⟨Lame.default⟩
    ∃ space rule t, meshSpace .tri3 mesh = some space ∧ stiffnessRule gauss .tri3 = some rule ∧
      Uniform.fromQuadratureAndData rule lame = some t ∧
      (Problem space mesh.vertices.length t.table (fun _ => (rule.1.zip rule.2).map fun q => (q.1, q.2, lame)) u (leOperator 2) nodes ↔
        ∃ a ∈ nodes, ∃ b ∈ nodes, a ≠ b) := by
  let _ : Inhabited (Lame ℝ) := ⟨Lame.default⟩
  have body := tri_body L hL ux uy n x0 y0 hn hux huy mesh hmesh
  obtain ⟨mesh', vid, k1, -, hv, -, hsurj, -⟩ := tri_cells L hL ux uy n x0 y0 hn hux huy
  rw [hmesh] at k1
  obtain rfl := Option.some.inj k1
  have hn0 : (0 : ℝ) < n := by exact_mod_cast Nat.pos_of_ne_zero hn
  have hLn : L / n ≠ 0 := by positivity
  have hdist : ∀ i j i' j' : Nat, (i ≠ i' ∨ j ≠ j') →
      (![x0 + i * (L / n), y0 - j * (L / n)] : Point 2 ℝ) ≠ ![x0 + i' * (L / n), y0 - j' * (L / n)] := by
    intro i j i' j' hor h
    have e0 := congrFun h 0
    have e1 := congrFun h 1
    simp only [Matrix.cons_val_zero, Matrix.cons_val_one, add_right_inj, sub_right_inj, mul_eq_mul_right_iff, hLn, or_false, Nat.cast_inj] at e0 e1
    omega
  obtain ⟨space, rule, t, g1, g2, g3, g4, -, g5⟩ := C99_mesh_problem (kind := .tri3) (mesh := mesh) gauss h2 hl2 h3 hl3
    (by simp) body.size body.inBounds body.nodup body.affine body.nonempty body.covered body.onePiece
    lame hmu hbulk nodes hin u hu
  refine ⟨space, rule, t, g1, g2, g3, ?_⟩
  have hiff : Fixes (positions mesh.vertices nodes) ↔ ∃ a ∈ nodes, ∃ b ∈ nodes, a ≠ b := by
    rw [fixes_plane]
    constructor
    · rintro ⟨x, ⟨a, ha, hx⟩, y, ⟨b, hb, hy⟩, hxy⟩
      exact ⟨a, ha, b, hb, fun hab => hxy (Option.some.inj (hx.symm.trans ((congrArg _ hab).trans hy)))⟩
    · rintro ⟨a, ha, b, hb, hab⟩
      obtain ⟨i, j, hi, hj, rfl⟩ := hsurj a (hin a ha)
      obtain ⟨i', j', hi', hj', rfl⟩ := hsurj b (hin b hb)
      refine ⟨_, ⟨_, ha, hv i j hi hj⟩, _, ⟨_, hb, hv i' j' hi' hj'⟩, hdist _ _ _ _ ?_⟩
      by_contra hno
      push Not at hno
      exact hab (by rw [hno.1, hno.2])
  exact ⟨fun h => hiff.1 (g5.1 h.definite), fun h => { g4 with definite := g5.2 (hiff.2 h) }⟩

/-! ## Examples -/

-- Eight triangles and the affine function x + 2y + 3 on them: the hypotheses of `C97_tri_mesh` hold.
example : ∃ mesh u, MeshUtil.splitIntoTriangles (quadMesh (1 : ℝ) 1 1 2 0 1) = some mesh ∧ mesh.vertices.length = 9 ∧
    IsAffine mesh.vertices (!![1; 2] : Matrix (Fin 2) (Fin 1) ℝ) ![3] u := by
  obtain ⟨mesh, -, k1, -⟩ := tri_cells 1 one_pos 1 1 2 0 1 (by decide) (by decide) (by decide)
  refine ⟨mesh, mesh.vertices.map fun v => v 0 + 2 * v 1 + 3, k1,
    tri_vertices 1 one_pos 1 1 2 0 1 (by decide) (by decide) (by decide) mesh k1, ?_⟩
  refine ⟨by simp, fun v x hx c => ?_⟩
  obtain rfl := Subsingleton.elim c 0
  simp [hx]

-- The unit square with eight triangles; the displacements of two vertices prescribed.
example : haveI : Inhabited (Lame ℝ) := ⟨Lame.default⟩
    ∃ mesh space rule t, MeshUtil.unitSquareTriMesh (K := ℝ) 2 = some mesh ∧ meshSpace .tri3 mesh = some space ∧
      stiffnessRule gaussExample .tri3 = some rule ∧ Uniform.fromQuadratureAndData rule (⟨1, 1⟩ : Lame ℝ) = some t ∧
      Problem space 9 t.table (fun _ => (rule.1.zip rule.2).map fun q => (q.1, q.2, ⟨1, 1⟩)) (List.replicate 18 0) (leOperator 2) [0, 1] := by
  obtain ⟨mesh, -, k1, k2, -⟩ := tri_cells 1 one_pos 1 1 2 0 1 (by decide) (by decide) (by decide)
  obtain ⟨-, hlen, -⟩ := C17_quad_mesh_is_the_grid (1 : ℝ) 1 1 2 0 1 (by decide) (by decide) (by decide)
  have h9 : mesh.vertices.length = 9 := by rw [k2, hlen]
  obtain ⟨space, rule, t, g1, g2, g3, g4⟩ := C99_tri_mesh gaussExample gaussExample_two rfl gaussExample_three rfl 1 one_pos 1 1 2 0 1
    (by decide) (by decide) (by decide) mesh k1 (⟨1, 1⟩ : Lame ℝ) (by norm_num) (by norm_num) [0, 1] (by rw [h9]; decide) (List.replicate 18 0)
    (by rw [h9]; rfl)
  rw [h9] at g4
  exact ⟨mesh, space, rule, t, k1, g1, g2, g3, g4.2 ⟨0, by simp, 1, by simp, by decide⟩⟩

end Fenris.Elasticity
