import Verif.Props.PatchTest
import Verif.Props.Canonical
import Verif.Props.TetGrid
import Verif.Props.Solid
/-! # C89: the patch test with the canonical quadratures, for the shipped operators and on the uniform tetrahedral mesh -/
set_option autoImplicit false
set_option linter.unusedSectionVars false

namespace Fenris.PatchTest
open Fenris.Element Fenris.Local Fenris.Local.Spec Fenris.PatchTest.Spec Fenris.Surface Fenris.Surface.Spec Quadrature
open Fenris.Canonical Fenris.Canonical.Spec Fenris.Solid
open Polynomial
open scoped Matrix

variable {s : Nat} {Param : Type} [Inhabited Param]

attribute [local instance] zeroFill

/-! ## Operators -/

private theorem strain_eq {d : Nat} (u : Matrix (Fin d) (Fin d) ℝ) :
    infinitesimalStrain (deformationGradient u) = (1 / 2 : ℝ) • (uᵀ + u) := by
  ext i j
  simp only [infinitesimalStrain, symmetricPart, deformationGradient, Matrix.sub_apply, Matrix.smul_apply, Matrix.add_apply,
    Matrix.transpose_apply, smul_eq_mul]
  rw [Matrix.one_apply, Matrix.one_apply]
  by_cases h : i = j
  · subst h
    simp only [if_true]
    ring
  · rw [if_neg h, if_neg (Ne.symm h)]
    ring

theorem leOp_apply {d : Nat} (u : Matrix (Fin d) (Fin d) ℝ) (p : Lame ℝ) (k i : Fin d) :
    (leOperator d).op u p k i = p.mu * (u i k + u k i) + if k = i then p.lambda * ∑ m, u m m else 0 := by
  have htr : ((1 / 2 : ℝ) • (uᵀ + u)).trace = ∑ m, u m m := by
    rw [Matrix.trace_smul, Matrix.trace_add, Matrix.trace_transpose, Matrix.trace]
    simp only [Matrix.diag_apply, smul_eq_mul]
    ring
  simp only [leOperator, materialOperator, leStress, strain_eq, htr, Matrix.transpose_apply, Matrix.add_apply, Matrix.smul_apply, smul_eq_mul,
    Matrix.diagonal_apply]
  congr 1
  · ring
  · exact if_congr eq_comm rfl rfl

/-- C89: the Laplace operator and the operator of linear elasticity are linear. -/
theorem C89_linear_operators (d : Nat) {K : Type} [Field K] : IsLinear (laplace d K) ∧ IsLinear (leOperator d) := by
  refine ⟨⟨fun _ _ _ => rfl, fun _ _ _ => rfl, ?_⟩, ⟨?_, ?_, ?_⟩⟩
  · intro G a b p i j
    simp only [laplace, Matrix.of_apply]
    refine Finset.sum_congr rfl fun k _ => ?_
    rw [if_pos (Subsingleton.elim i j), mul_comm]
  · intro A B p
    ext k i
    simp only [leOp_apply, Matrix.add_apply, Finset.sum_add_distrib]
    split_ifs <;> ring
  · intro c A p
    ext k i
    simp only [leOp_apply, Matrix.smul_apply, smul_eq_mul, ← Finset.mul_sum]
    split_ifs <;> ring
  · intro G a b p i j
    simp only [leOp_apply, Matrix.of_apply]
    have e : ∀ k : Fin d, (p.mu * ((if k = j then b i else 0) + (if i = j then b k else 0)) +
        if k = i then p.lambda * ∑ m, (if m = j then b m else 0) else 0) * a k =
        (if k = j then p.mu * b i * a k else 0) + (if i = j then p.mu * b k * a k else 0) + (if k = i then p.lambda * b j * a k else 0) := by
      intro k
      rw [Finset.sum_ite_eq' Finset.univ j b, if_pos (Finset.mem_univ _)]
      split_ifs <;> ring
    simp only [e, Finset.sum_add_distrib]
    rw [Finset.sum_ite_eq' Finset.univ j, Finset.sum_ite_eq' Finset.univ i, if_pos (Finset.mem_univ _), if_pos (Finset.mem_univ _)]
    simp only [leOperator, materialOperator, leContraction, Matrix.add_apply, Matrix.smul_apply, smul_eq_mul, Matrix.one_apply,
      Matrix.vecMulVec_apply, dotProduct]
    by_cases h : i = j
    · simp only [if_pos h, mul_assoc, ← Finset.mul_sum]
      rw [Finset.sum_congr rfl fun k _ => mul_comm (b k) (a k)]
      ring
    · simp only [if_neg h, Finset.sum_const_zero]
      ring

/-! ## Rules -/

private theorem gauss_moment {rule : Rule 1 ℝ} (h : IsGaussRule 2 rule.1 rule.2) (i : Fin 3) :
    integrate rule (fun p => p 0 ^ (i : Nat)) = ![2, 0, 2 / 3] i := by
  have e := h.exact (X ^ (i : Nat)) (by simp)
  simp only [eval_pow, eval_X] at e
  rw [integrate, List.zip_eq_zipWith, List.map_zipWith, e, integral_pow]
  fin_cases i <;> norm_num

/-- C89: the canonical stiffness quadratures meet the requirement of the patch test; those of quadrilaterals and hexahedra exactly, those
of triangles and tetrahedra, whose weights are decimal fractions, up to a factor that differs from one by at most `10⁻³⁶`. -/
theorem C89_canonical_rules (gauss : Nat → Rule 1 ℝ) (h2 : IsGaussRule 2 (gauss 2).1 (gauss 2).2) (kind : Kind)
    (hk : kind ∈ [Kind.tri3, .quad4, .tet4, .hex8]) (param : Param) :
    ∃ rule ω, stiffnessRule gauss kind = some rule ∧ rule.1.length = rule.2.length ∧ |ω - 1| ≤ 1 / 10 ^ 36 ∧
      (kind = .quad4 ∨ kind = .hex8 → ω = 1) ∧ PatchRule ω kind ((rule.1.zip rule.2).map fun q => (q.1, q.2, param)) := by
  simp only [List.mem_cons, List.not_mem_nil, or_false] at hk
  have hsum : ∀ {d : Nat} (rule : Rule d ℝ), rule.1.length = rule.2.length →
      (((rule.1.zip rule.2).map fun q => (q.1, q.2, param)).map fun q => q.1).sum = rule.1.sum := by
    intro d rule hl
    rw [List.map_map]
    congr 1
    exact List.map_fst_zip (by omega)
  rcases hk with rfl | rfl | rfl | rfl
  · obtain ⟨rule, h1, hr, -⟩ := (ShippedRules.C87_triangle 1).1 (by norm_num)
    obtain ⟨rule', h1', ha⟩ := ShippedRules.C87_triangle_area 1 (by norm_num)
    rw [h1] at h1'
    obtain rfl := Option.some.inj h1'
    refine ⟨rule, rule.1.sum / 2, h1, hr.length, ?_, by simp, ?_⟩
    · rw [show rule.1.sum / 2 - 1 = (rule.1.sum - 2) / 2 by ring, abs_div]
      refine le_trans (div_le_self (abs_nonneg _) (by norm_num)) ha
    · change _ = _ / 2 * 2
      rw [hsum rule hr.length]
      ring
  · refine ⟨quadrilateralGauss gauss 2, 1, rfl, by simp [quadrilateralGauss, quadrilateral], by norm_num, fun _ => rfl, ?_⟩
    intro i j
    rw [List.map_map]
    have := C41_quadrilateral_product (gauss 2) (fun x => x ^ (i : Nat)) (fun x => x ^ (j : Nat))
    have hm : ∀ i : Fin 2, integrate (gauss 2) (fun p => p 0 ^ (i : Nat)) = ![2, 0, 2 / 3] i.castSucc := fun i => gauss_moment h2 i.castSucc
    rw [hm i, hm j] at this
    refine this.trans ?_
    fin_cases i <;> fin_cases j <;> simp
  · obtain ⟨rule, h1, hr, -⟩ := (ShippedRules.C87_tetrahedron 1).1 (by norm_num)
    obtain ⟨rule', h1', ha⟩ := ShippedRules.C87_tetrahedron_volume 1 (by norm_num)
    rw [h1] at h1'
    obtain rfl := Option.some.inj h1'
    refine ⟨rule, rule.1.sum * (3 / 4), h1, hr.length, ?_, by simp, ?_⟩
    · rw [show rule.1.sum * (3 / 4) - 1 = (rule.1.sum - 4 / 3) * (3 / 4) by ring, abs_mul]
      refine le_trans (mul_le_of_le_one_right (abs_nonneg _) (by norm_num [abs_le])) ha
    · change _ = _ * (3 / 4) * (4 / 3)
      rw [hsum rule hr.length]
      ring
  · refine ⟨hexahedronGauss gauss 2, 1, rfl, by simp [hexahedronGauss, hexahedron], by norm_num, fun _ => rfl, ?_⟩
    intro i j k
    rw [List.map_map]
    have := C41_hexahedron_product (gauss 2) (fun x => x ^ (i : Nat)) (fun x => x ^ (j : Nat)) (fun x => x ^ (k : Nat))
    rw [gauss_moment h2 i, gauss_moment h2 j, gauss_moment h2 k] at this
    refine this.trans ?_
    ring

/-- C89: hence every consistently oriented mesh with positively oriented elements, its canonical stiffness quadrature and any uniform
parameter are the data of a patch test. -/
theorem C89_canonical_patch (gauss : Nat → Rule 1 ℝ) (h2 : IsGaussRule 2 (gauss 2).1 (gauss 2).2) (kind : Kind)
    (hk : kind ∈ [Kind.tri3, .quad4, .tet4, .hex8]) (param : Param) (mesh : Mesh (Point kind.dim ℝ))
    (hsize : ∀ c ∈ mesh.cells, c.length = kind.numNodes) (hb : ∀ c ∈ mesh.cells, ∀ v ∈ c, v < mesh.vertices.length)
    (hc : Consistent (facesOf kind) mesh.cells)
    (hpos : ∀ space rule, meshSpace kind mesh = some space → stiffnessRule gauss kind = some rule → ∀ en ∈ space, ∀ p ∈ rule.2,
      0 < (en.1.jacobian p).det) :
    ∃ rule t ω, stiffnessRule gauss kind = some rule ∧ Uniform.fromQuadratureAndData rule param = some t ∧ |ω - 1| ≤ 1 / 10 ^ 36 ∧
      Patch ω kind mesh t.table (fun _ => (rule.1.zip rule.2).map fun q => (q.1, q.2, param)) param := by
  obtain ⟨rule, ω, h1, hl, hω, -, hrule⟩ := C89_canonical_rules gauss h2 kind hk param
  refine ⟨rule, ⟨rule.2, rule.1, List.replicate rule.1.length param⟩, ω, h1, by simp [Uniform.fromQuadratureAndData, Uniform.new, hl], hω,
    ⟨hsize, hb, hc, ?_, fun _ _ => hrule, ?_, ?_⟩⟩
  · intro e he b
    rw [(C27_uniform_returns_the_rule rule.2 rule.1 (List.replicate rule.1.length param)).2 _ (by simp [Uniform.new, hl]) e b]
    have e1 : ((rule.1.zip rule.2).map fun q => (q.1, q.2, param)).map (·.2.1) = rule.2 := by
      rw [List.map_map]
      exact List.map_snd_zip (by omega)
    have e2 : ((rule.1.zip rule.2).map fun q => (q.1, q.2, param)).map (·.1) = rule.1 := by
      rw [List.map_map]
      exact List.map_fst_zip (by omega)
    have e3 : ((rule.1.zip rule.2).map fun q => (q.1, q.2, param)).map (·.2.2) = List.replicate rule.1.length param := by
      rw [List.map_map]
      change (rule.1.zip rule.2).map (fun _ => param) = _
      rw [List.map_const', List.length_zip, hl, Nat.min_self]
    rw [e1, e2, e3]
  · intro e he q hq
    obtain ⟨q', -, rfl⟩ := List.mem_map.1 hq
    rfl
  · intro space hspace e en he q hq
    obtain ⟨q', hq', rfl⟩ := List.mem_map.1 hq
    exact hpos space rule hspace h1 en (List.mem_of_getElem? he) _ (List.of_mem_zip hq').2

private theorem tet_det (a b c d p : Point 3 ℝ) : ((elementOfKind .tet4 [a, b, c, d]).jacobian p).det = tetVol6 a b c d / 8 := by
  simp [elementOfKind, Matrix.det_fin_three, referenceJacobian, geometryGradients, tet4Gradients, tet4G, weightedSum, Kind.numNodes,
    tetVol6, Surface.Spec.det3]
  ring

/-- **C89.** On the uniform tetrahedral mesh of a box, of every resolution, with the canonical quadrature, for every operator and every
affine function: all components of the assembled vector are zero at all vertices inside the box. -/
theorem C89_uniform_tet_mesh (gauss : Nat → Rule 1 ℝ) (h2 : IsGaussRule 2 (gauss 2).1 (gauss 2).2) (param : Param)
    (L : ℝ) (hL : 0 < L) (ux uy uz m : Nat) (hx : ux ≠ 0) (hy : uy ≠ 0) (hz : uz ≠ 0) (hm : m ≠ 0)
    (mesh : Mesh (Point 3 ℝ)) (hmesh : mesh = TetGrid.tetMesh L ux uy uz m)
    (G : Matrix (Fin 3) (Fin s) ℝ) (b : Fin s → ℝ) (u : List ℝ) (hu : IsAffine mesh.vertices G b u) (o : Operator 3 s ℝ Param) :
    ∃ space rule t, meshSpace .tet4 mesh = some space ∧ stiffnessRule gauss .tet4 = some rule ∧
      Uniform.fromQuadratureAndData rule param = some t ∧
      ∀ (bufs : Nat → Buffer (Point 3 ℝ) ℝ Param) (outs : Nat → Nat → ℝ) (elemVec : Nat → Except String (Nat → ℝ)),
        (∀ e, e < space.length → ∃ buf', elementVector space o t.table u (bufs e) (outs e) e = some (elemVec e, buf')) →
        ∃ v, Assembly.assembleVector (conn s space mesh.vertices.length) elemVec = some (.ok v) ∧
          ∀ n x, mesh.vertices[n]? = some x → Fenris.Spec.InOpenBox ![0, 0, 0] ![ux * L, uy * L, uz * L] x →
            ∀ i : Fin s, v[s * n + i]? = some 0 := by
  subst hmesh
  have hcount := (TetGrid.C83_counts L ux uy uz m hx hy hz hm).2.2.1
  have hsp := C89_mesh_space .tet4 (TetGrid.tetMesh L ux uy uz m) fun c hc => (hcount c hc).2
  have hdet : ∀ c ∈ (TetGrid.tetMesh L ux uy uz m).cells, ∀ p,
      0 < ((elementOfKind .tet4 (c.map (coords (TetGrid.tetMesh L ux uy uz m).vertices))).jacobian p).det := by
    intro c hc p
    have hpos := (TetGrid.C83_is_tet_mesh L hL ux uy uz m).positive c hc
    generalize (TetGrid.tetMesh L ux uy uz m).vertices = vs at hpos
    obtain ⟨c0, c1, c2, c3, rfl⟩ := List.length_eq_four.1 (hcount c hc).1
    have := tet_det (coords vs c0) (coords vs c1) (coords vs c2) (coords vs c3) p
    rw [List.map_cons, List.map_cons, List.map_cons, List.map_cons, List.map_nil, this]
    have h8 : 0 < tetVol6 (coords vs c0) (coords vs c1) (coords vs c2) (coords vs c3) := hpos
    positivity
  obtain ⟨rule, t, ω, h1, h3, -, hp⟩ := C89_canonical_patch gauss h2 .tet4 (by simp) param (TetGrid.tetMesh L ux uy uz m)
    (fun c hc => (hcount c hc).1) (fun c hc => (hcount c hc).2) (C79_tet_mesh_consistent _ (TetGrid.C83_is_tet_mesh L hL ux uy uz m))
    (by
      intro space rule hs' hr en hen p hp
      rw [hsp] at hs'
      obtain rfl := Option.some.inj hs'
      obtain ⟨c, hc, rfl⟩ := List.mem_map.1 hen
      exact hdet c hc p)
  refine ⟨_, rule, t, hsp, h1, h3, fun bufs outs elemVec hev => ?_⟩
  obtain ⟨bd, v, h4, h5, h6⟩ := C89_patch_test (by simp) hp G b u hu o _ hsp bufs outs elemVec hev
  refine ⟨v, h5, fun n x hx' hin i => h6 n (List.getElem?_eq_some_iff.1 hx').1 ?_ i⟩
  intro hbd
  obtain ⟨bd', h7, -, h8⟩ := C14_boundary_vertices_exact (facesOf .tet4) (TetGrid.tetMesh L ux uy uz m)
  rw [h4] at h7
  obtain rfl := Option.some.inj h7
  obtain ⟨c, l, f, hf, hn⟩ := (h8 n).1 hbd
  obtain ⟨fs, h9, -, h10⟩ := C14_boundary_faces_exact (facesOf .tet4) (TetGrid.tetMesh L ux uy uz m)
  obtain ⟨fs', h11, h12⟩ := TetGrid.C83_boundary L hL ux uy uz m hx hy hz hm
  rw [h9] at h11
  obtain rfl := Option.some.inj h11
  have hco : coords (TetGrid.tetMesh L ux uy uz m).vertices n = x := by
    rw [coords, List.getD_eq_getElem?_getD, hx', Option.getD_some]
  obtain ⟨axis, h13 | h13⟩ := ((h12 f c l).1 ((h10 f c l).2 hf)).2
  · have := h13 n hn
    rw [hco] at this
    have h14 := (hin axis).1
    rw [this] at h14
    fin_cases axis <;> exact lt_irrefl _ h14
  · have := h13 n hn
    rw [hco] at this
    exact absurd this (hin axis).2.ne

/-! ## Examples -/

/-- A consistent mesh is recognised by going through its faces. -/
private theorem consistent_of_check (faces : List Nat → List (List Nat)) (cells : List (List Nat)) (L : List (Nat × Nat × List Nat))
    (hL : L = cells.zipIdx.flatMap fun x => (faces x.1).zipIdx.map fun y => (x.2, y.2, y.1))
    (hd : ∀ x ∈ L, ∀ y ∈ L, (y.1, y.2.1) ≠ (x.1, x.2.1) → y.2.2.Perm x.2.2 →
      (y.2.2 = x.2.2.reverse ∨ 3 ≤ x.2.2.length ∧ ∃ n ∈ List.range 4, y.2.2 = x.2.2.reverse.rotate n) ∧
      ∀ z ∈ L, z.2.2.Perm x.2.2 → (z.1, z.2.1) = (x.1, x.2.1) ∨ (z.1, z.2.1) = (y.1, y.2.1)) : Consistent faces cells := by
  have hall : ∀ c l f, Fenris.Spec.IsFace faces cells c l f → (c, l, f) ∈ L := by
    rintro c l f ⟨cell, h1, h2⟩
    rw [hL, List.mem_flatMap]
    exact ⟨(cell, c), List.mem_zipIdx_iff_getElem?.2 h1, List.mem_map.2 ⟨(f, l), List.mem_zipIdx_iff_getElem?.2 h2, rfl⟩⟩
  intro c l f c' l' f' hf hf' hne hp
  obtain ⟨h1, h2⟩ := hd _ (hall c l f hf) _ (hall c' l' f' hf') hne hp
  refine ⟨h1.imp id fun h => ⟨h.1, ?_⟩, fun c'' l'' f'' hf'' hp'' => h2 _ (hall c'' l'' f'' hf'') hp''⟩
  obtain ⟨n, -, h⟩ := h.2
  exact ⟨n, h⟩

/-- Four triangles around an inner vertex that is not the centre of the square. -/
private def fan : Mesh (Point 2 ℚ) :=
  ⟨[![-1, -1], ![1, -1], ![1, 1], ![-1, 1], ![1 / 3, 1 / 2]], [[0, 1, 4], [1, 2, 4], [2, 3, 4], [3, 0, 4]]⟩

/-- The same with quadrilaterals: an inner vertex on four of them. -/
private def patch4 : Mesh (Point 2 ℚ) :=
  ⟨[![-1, -1], ![0, -1], ![1, -1], ![-1, 0], ![1 / 5, 1 / 7], ![1, 0], ![-1, 1], ![0, 1], ![1, 1]],
    [[0, 1, 4, 3], [1, 2, 5, 4], [3, 4, 7, 6], [4, 5, 8, 7]]⟩

/-- C89 example: the triangles, with the rule of one point, meet the hypotheses of the patch test; vertex 4 is not on the boundary. -/
example : Patch (Param := Unit) (1 : ℚ) .tri3 fan (Uniform.table ⟨[![-1 / 3, -1 / 3]], [2], [()]⟩) (fun _ => [(2, ![-1 / 3, -1 / 3], ())]) () ∧
    (Mesh.findBoundaryVertices (facesOf .tri3) fan).map (fun l => l.contains 4) = some false := by
  refine ⟨⟨by decide +kernel, by decide +kernel, consistent_of_check _ _ _ rfl (by decide +kernel), ?_, ?_, by simp, ?_⟩, by decide +kernel⟩
  · intro e he b
    exact (C27_uniform_returns_the_rule (P := Point 2 ℚ) (W := ℚ) (D := Unit) [![-1 / 3, -1 / 3]] [2] [()]).2 _ rfl e b
  · intro e he
    simp [PatchRule]
  · intro space hspace e en he q hq
    rw [C89_mesh_space .tri3 fan (by decide +kernel)] at hspace
    obtain rfl := Option.some.inj hspace
    obtain ⟨c, hc, rfl⟩ := List.mem_map.1 (List.mem_of_getElem? he)
    simp only [fan, List.mem_cons, List.not_mem_nil, or_false] at hc
    rcases hc with rfl | rfl | rfl | rfl <;>
      norm_num [elementOfKind, Matrix.det_fin_two, referenceJacobian, geometryGradients, tri3Gradients, tri3G, weightedSum, Kind.numNodes, fan, coords]

/-- C89 example: values of `1 + 2 x - y` on the triangles. -/
example : IsAffine (s := 1) fan.vertices !![2; -1] ![1] [0, 4, 2, -2, 7 / 6] := by
  refine ⟨rfl, ?_⟩
  intro n x hx i
  obtain rfl : i = 0 := Subsingleton.elim _ _
  have hn : n < 5 := (List.getElem?_eq_some_iff.1 hx).1
  interval_cases n <;> (obtain rfl := Option.some.inj hx; norm_num [Fin.sum_univ_two])

/-- C89 example: the quadrilaterals are consistently oriented and vertex 4 is an inner vertex. -/
example : Consistent (facesOf .quad4) patch4.cells ∧
    (Mesh.findBoundaryVertices (facesOf .quad4) patch4).map (fun l => l.contains 4) = some false :=
  ⟨consistent_of_check _ _ _ rfl (by decide +kernel), by decide +kernel⟩

/-- C89 example: two hexahedra. -/
example : Consistent (facesOf .hex8) [[0, 1, 2, 3, 4, 5, 6, 7], [4, 5, 6, 7, 8, 9, 10, 11]] :=
  consistent_of_check _ _ _ rfl (by decide +kernel)

end Fenris.PatchTest
