import Verif.Props.MassAssembler
import Verif.Lemmas.RulePolynomials
import Verif.Props.ElementBasis
import Verif.Props.PatchTest
import Verif.Props.Canonical
/-! # C98: mass matrices of meshes with the canonical quadrature -/
set_option autoImplicit false
set_option linter.unusedSectionVars false

namespace Fenris.Mass
open Fenris.Element Fenris.Local Fenris.Local.Spec Fenris.Mass.Spec Fenris.LinearProblem Fenris.LinearProblem.Spec Quadrature
open Fenris.PatchTest Fenris.PatchTest.Spec Fenris.Canonical Fenris.Canonical.Spec Fenris.Surface Fenris.Surface.Spec
open Fenris.Spec (matrixContribution vectorContribution entry SortsNodes Solves)

attribute [local instance] zeroFill

private theorem refNodes_get (e : Kind) (j : Nat) (hj : j < e.numNodes) : ∃ x : Point e.dim ℝ, (refNodes e)[j]? = some x := by
  have hlen : (refNodes (K := ℝ) e).length = e.numNodes := by cases e <;> rfl
  exact ⟨_, List.getElem?_eq_getElem (hlen ▸ hj)⟩

/-- C98: the canonical mass quadratures have positive weights and determine the functions of the element, for all elements. -/
theorem C98_canonical_rules (gauss : Nat → Rule 1 ℝ) (h2 : IsGaussRule 2 (gauss 2).1 (gauss 2).2) (hl2 : (gauss 2).1.length = 2)
    (h3 : IsGaussRule 3 (gauss 3).1 (gauss 3).2) (hl3 : (gauss 3).1.length = 3) (kind : Kind) (hk : kind ≠ .segment2) :
    ∃ rule, massRule gauss kind = some rule ∧ rule.1.length = rule.2.length ∧ (∀ w ∈ rule.1, 0 < w) ∧
      ∀ (vertices : List (Point kind.dim ℝ)) (density : ℝ),
        DeterminesValues (elementOfKind kind vertices) ((rule.1.zip rule.2).map fun q => (q.1, q.2, density)) := by
  obtain ⟨rule, h1, hlen, hpos, hsep⟩ := massRule_separates gauss h2 hl2 h3 hl3 kind hk
  refine ⟨rule, h1, hlen, hpos, fun vertices density v hv hz J hJ => ?_⟩
  have hsum : ∀ x : Point kind.dim ℝ, ∑ I : Fin ((elementOfKind kind vertices).basis x).length, ((elementOfKind kind vertices).basis x)[I] * v.getD I 0 =
      ∑ I ∈ Finset.range kind.numNodes, (basis kind x)[I]?.getD 0 * v.getD I 0 := by
    intro x
    rw [Finset.sum_range]
    apply Fintype.sum_equiv (finCongr (C35_basis_sums_to_one kind x).1)
    intro I
    simp [elementOfKind]
  obtain ⟨x, hx⟩ := refNodes_get kind J hJ
  have h0 := hsep (fun I => v.getD I 0) (Finset.range kind.numNodes) (by
    intro x hx
    rw [← hsum]
    have : x ∈ (rule.1.zip rule.2).map Prod.snd := by rwa [List.map_snd_zip (by omega)]
    obtain ⟨q, hq, rfl⟩ := List.mem_map.1 this
    exact hz (q.1, q.2, density) (List.mem_map.2 ⟨q, hq, rfl⟩)) x
  have hJ : J < kind.numNodes := hJ
  rw [C36_basis_is_nodal kind J x hx, Finset.sum_eq_single J] at h0
  · rw [List.getElem?_map, List.getElem?_range hJ, Option.map_some, Option.getD_some, if_pos rfl, one_mul] at h0
    exact h0
  · intro I hI hne
    rw [List.getElem?_map, List.getElem?_range (Finset.mem_range.1 hI), Option.map_some, Option.getD_some, if_neg hne, zero_mul]
  · intro hn
    exact absurd (Finset.mem_range.2 hJ) hn

/-- C98: a mesh with the canonical mass quadrature and one density is a sampled space. -/
theorem C98_mesh_sampled (kind : Kind) (mesh : Mesh (Point kind.dim ℝ)) (rule : Rule kind.dim ℝ) (hlen : rule.1.length = rule.2.length)
    {Param : Type} [Inhabited Param] (param : Param)
    (hsize : ∀ c ∈ mesh.cells, c.length = kind.numNodes) (hb : ∀ c ∈ mesh.cells, ∀ v ∈ c, v < mesh.vertices.length) :
    ∃ space t, meshSpace kind mesh = some space ∧ space = mesh.cells.map (fun c => (elementOfKind kind (c.map (coords mesh.vertices)), c)) ∧
      Uniform.fromQuadratureAndData rule param = some t ∧
      Sampled space mesh.vertices.length t.table (fun _ => (rule.1.zip rule.2).map fun q => (q.1, q.2, param)) := by
  refine ⟨_, ⟨rule.2, rule.1, List.replicate rule.1.length param⟩, C89_mesh_space kind mesh hb, rfl,
    by simp [Uniform.fromQuadratureAndData, Uniform.new, hlen], ?_, ?_, ?_, ?_⟩
  · intro en hen
    obtain ⟨c, -, rfl⟩ := List.mem_map.1 hen
    exact elementOfKind_wellFormed kind _
  · intro en hen
    obtain ⟨c, hc, rfl⟩ := List.mem_map.1 hen
    exact hsize c hc
  · intro en hen
    obtain ⟨c, hc, rfl⟩ := List.mem_map.1 hen
    exact hb c hc
  · intro e _ b
    rw [(C27_uniform_returns_the_rule rule.2 rule.1 (List.replicate rule.1.length param)).2 _ (by simp [Uniform.new, hlen]) e b]
    have e1 : ((rule.1.zip rule.2).map fun q => ((q.1, q.2, param) : QPoint kind.dim ℝ Param)).map (fun q => q.2.1) = rule.2 := by
      rw [List.map_map]
      exact List.map_snd_zip (by omega)
    have e2 : ((rule.1.zip rule.2).map fun q => ((q.1, q.2, param) : QPoint kind.dim ℝ Param)).map (fun q => q.1) = rule.1 := by
      rw [List.map_map]
      exact List.map_fst_zip (by omega)
    have e3 : ((rule.1.zip rule.2).map fun q => ((q.1, q.2, param) : QPoint kind.dim ℝ Param)).map (·.2.2) = List.replicate rule.1.length param := by
      rw [List.map_map]
      change (rule.1.zip rule.2).map (fun _ => param) = _
      rw [List.map_const', List.length_zip, hlen, Nat.min_self]
    rw [e1, e2, e3]

/-- **C98.** The mass matrix of a mesh, of any element kind and order, with a positive density and the canonical mass quadrature, if the
elements are not degenerate at the quadrature points: it is symmetric and positive definite exactly if every vertex belongs to a cell, and the
entries of each component add up to the density times the volume of the cells, as the rule measures it. -/
theorem C98_mesh_mass (gauss : Nat → Rule 1 ℝ) (h2 : IsGaussRule 2 (gauss 2).1 (gauss 2).2) (hl2 : (gauss 2).1.length = 2)
    (h3 : IsGaussRule 3 (gauss 3).1 (gauss 3).2) (hl3 : (gauss 3).1.length = 3) (kind : Kind) (hk : kind ≠ .segment2)
    (mesh : Mesh (Point kind.dim ℝ)) (hsize : ∀ c ∈ mesh.cells, c.length = kind.numNodes)
    (hb : ∀ c ∈ mesh.cells, ∀ v ∈ c, v < mesh.vertices.length) (hnd : ∀ c ∈ mesh.cells, c.Nodup) (density : ℝ) (hpos : 0 < density)
    {s : Nat} (hs : 0 < s)
    (hreg : ∀ rule, massRule gauss kind = some rule → ∀ c ∈ mesh.cells, ∀ p ∈ rule.2,
      ((elementOfKind kind (c.map (coords mesh.vertices))).jacobian p).det ≠ 0)
    (ord : List Nat → List Nat) (hord : ∀ l, (ord l).Perm l)
    (sortNodes : List (Nat × Nat) → List (Nat × Nat)) (hsort : SortsNodes sortNodes)
    (bufs : Nat → Buffer (Point kind.dim ℝ) ℝ ℝ) (outs : Nat → Mat ℝ) (elemMat : Nat → Except String (Mat ℝ)) :
    ∃ space rule t, meshSpace kind mesh = some space ∧ massRule gauss kind = some rule ∧
      Uniform.fromQuadratureAndData rule density = some t ∧
      ((∀ e, e < space.length → ∃ buf', massElementMatrix space s t.table (bufs e) (outs e) e = some (elemMat e, buf')) →
        ∃ m, Assembly.assemble ord sortNodes (conn s space mesh.vertices.length) elemMat = some (.ok m) ∧
          (Cg.Spd (Matrix.of fun i j : Fin (s * mesh.vertices.length) => entry m i j) ↔ ∀ n, n < mesh.vertices.length → ∃ c ∈ mesh.cells, n ∈ c) ∧
          ∀ i j : Fin s, ∑ n ∈ Finset.range mesh.vertices.length, ∑ n' ∈ Finset.range mesh.vertices.length, entry m (s * n + i) (s * n' + j) =
            if i = j then (mesh.cells.map fun c => (List.zipWith (fun w p =>
              w * |((elementOfKind kind (c.map (coords mesh.vertices))).jacobian p).det| * density) rule.1 rule.2).sum).sum else 0) := by
  obtain ⟨rule, hr, hlen, hpw, hdet⟩ := C98_canonical_rules gauss h2 hl2 h3 hl3 kind hk
  obtain ⟨space, t, hsp, hspace, ht, hsam⟩ := C98_mesh_sampled kind mesh rule hlen density hsize hb
  refine ⟨space, rule, t, hsp, hr, ht, fun hem => ?_⟩
  have hsnd : ∀ en ∈ space, en.2.Nodup := by
    intro en hen
    rw [hspace] at hen
    obtain ⟨c, hc, rfl⟩ := List.mem_map.1 hen
    exact hnd c hc
  have hel : ∀ e (he : e < space.length), ∃ c ∈ mesh.cells, space[e] = (elementOfKind kind (c.map (coords mesh.vertices)), c) := by
    intro e he
    have hmem : space[e] ∈ mesh.cells.map fun c => (elementOfKind kind (c.map (coords mesh.vertices)), c) :=
      hspace ▸ List.getElem_mem he
    obtain ⟨c, hc, h⟩ := List.mem_map.1 hmem
    exact ⟨c, hc, h.symm⟩
  obtain ⟨m, h1, hmass⟩ := C98_total_mass hsam hs hsnd (by
    intro e he q hq
    obtain ⟨c, -, hc⟩ := hel e he
    rw [hc]
    exact (C35_basis_sums_to_one kind q.2.1).2) ord hord sortNodes hsort bufs outs elemMat hem
  refine ⟨m, h1, ⟨fun hspd n hn => ?_, fun hall => ?_⟩, fun i j => ?_⟩
  · by_contra hno
    obtain ⟨m₁, h1', hns⟩ := C98_isolated_node hsam hs hsnd n hn (by
      intro en hen hmem
      rw [hspace] at hen
      obtain ⟨c, hc, rfl⟩ := List.mem_map.1 hen
      exact hno ⟨c, hc, hmem⟩) ord hord sortNodes hsort bufs outs elemMat hem
    rw [h1] at h1'
    obtain rfl : m = m₁ := by injection h1' with h1'; injection h1'
    exact hns hspd
  · obtain ⟨m₁, h1', hspd⟩ := C98_mass_is_spd hsam hs hsnd (by
      intro e _ q hq
      obtain ⟨q', hq', rfl⟩ := List.mem_map.1 hq
      exact ⟨hpw _ (List.of_mem_zip hq').1, hpos⟩) (by
      intro e he q hq
      obtain ⟨q', hq', rfl⟩ := List.mem_map.1 hq
      obtain ⟨c, hc, hec⟩ := hel e he
      rw [hec]
      exact hreg rule hr c hc _ (List.of_mem_zip hq').2) (by
      intro e he
      obtain ⟨c, -, hec⟩ := hel e he
      rw [hec]
      exact hdet _ _) (by
      intro n hn
      obtain ⟨c, hc, hnc⟩ := hall n hn
      exact ⟨(elementOfKind kind (c.map (coords mesh.vertices)), c), by rw [hspace]; exact List.mem_map.2 ⟨c, hc, rfl⟩, hnc⟩)
      ord hord sortNodes hsort bufs outs elemMat hem
    rw [h1] at h1'
    obtain rfl : m = m₁ := by injection h1' with h1'; injection h1'
    exact hspd
  · rw [hmass i j]
    refine if_congr Iff.rfl ?_ rfl
    subst hspace
    rw [← Fin.sum_univ_getElem]
    apply Fintype.sum_equiv (finCongr (by simp))
    intro e
    simp only [quadSum, List.map_map, finCongr_apply, Fin.getElem_fin, List.getElem_map, Fin.val_cast]
    rw [List.zip_eq_zipWith, List.map_zipWith]
    rfl

-- The hypotheses are met by the unit square split into two triangles.
private def twoTriangles : Mesh (Point 2 ℝ) := ⟨[![0, 0], ![1, 0], ![1, 1], ![0, 1]], [[0, 1, 2], [0, 2, 3]]⟩

example : (∀ c ∈ twoTriangles.cells, c.length = Kind.tri3.numNodes) ∧
    (∀ c ∈ twoTriangles.cells, ∀ v ∈ c, v < twoTriangles.vertices.length) ∧ (∀ c ∈ twoTriangles.cells, c.Nodup) ∧
    (∀ c ∈ twoTriangles.cells, ∀ p : Point Kind.tri3.dim ℝ,
      ((elementOfKind .tri3 (c.map (coords twoTriangles.vertices))).jacobian p).det ≠ 0) ∧
    ∀ n, n < twoTriangles.vertices.length → ∃ c ∈ twoTriangles.cells, n ∈ c := by
  refine ⟨by simp [twoTriangles, Kind.numNodes], by simp [twoTriangles], by simp [twoTriangles], ?_, ?_⟩
  · intro c hc p
    simp only [twoTriangles, List.mem_cons, List.not_mem_nil, or_false] at hc
    rcases hc with rfl | rfl <;>
      simp [elementOfKind, referenceJacobian, coords, twoTriangles, geometryGradients, tri3Gradients, weightedSum, Matrix.det_fin_two, Kind.dim, Kind.geometry, Kind.numNodes, tri3G] <;> norm_num
  · intro n hn
    have hn : n < 4 := hn
    interval_cases n <;> simp [twoTriangles]

example : IsGaussRule 3 (gaussExample 3).1 (gaussExample 3).2 ∧ (gaussExample 3).1.length = 3 := ⟨gaussExample_three, rfl⟩

end Fenris.Mass
