import Verif.Props.Poisson
import Verif.Lemmas.RulePolynomials
import Verif.Props.ElementBasis
import Verif.Props.ElementGradientReal
import Mathlib.Analysis.Calculus.MeanValue
/-! # C96: Poisson problems on meshes of all element kinds -/
set_option autoImplicit false
set_option linter.unusedSectionVars false

namespace Fenris.LinearProblem
open Fenris.Element Fenris.Local Fenris.Local.Spec Fenris.PatchTest Fenris.PatchTest.Spec Fenris.LinearProblem.Spec Quadrature
open Fenris.Surface Fenris.Surface.Spec Fenris.Canonical Fenris.Canonical.Spec

theorem gradients_length (kind : Kind) (x : Point kind.dim ℝ) : (gradients kind x).length = kind.numNodes := by
  cases kind <;> rfl

/-- A function of the element whose gradient is zero is constant. -/
private theorem constant_of_gradient_zero (kind : Kind) (v : Nat → ℝ)
    (h : ∀ (k : Fin kind.dim) (x : Point kind.dim ℝ), ∑ I ∈ Finset.range kind.numNodes, (gradients kind x)[I]?.getD 0 k * v I = 0)
    (x y : Point kind.dim ℝ) : ∑ I ∈ Finset.range kind.numNodes, (basis kind x).getD I 0 * v I =
      ∑ I ∈ Finset.range kind.numNodes, (basis kind y).getD I 0 * v I := by
  have hd : ∀ x, HasFDerivAt (fun y : Point kind.dim ℝ => ∑ I ∈ Finset.range kind.numNodes, (basis kind y).getD I 0 * v I)
      (0 : Point kind.dim ℝ →L[ℝ] ℝ) x := by
    intro x
    have hex : ∀ I, ∃ L : Point kind.dim ℝ →L[ℝ] ℝ, I ∈ Finset.range kind.numNodes →
        HasFDerivAt (fun y => (basis kind y).getD I 0) L x ∧ ∀ w, L w = Fenris.Spec.dot ((gradients kind x)[I]?.getD 0) w := by
      intro I
      by_cases hI : I < kind.numNodes
      · have hg := List.getElem?_eq_getElem (gradients_length kind x ▸ hI)
        obtain ⟨L, h1, h2⟩ := C37_gradient_is_real_derivative kind I x _ hg
        exact ⟨L, fun _ => ⟨h1, by rw [hg]; exact h2⟩⟩
      · exact ⟨0, fun h => absurd (Finset.mem_range.1 h) hI⟩
    choose L hL using hex
    have hsum := HasFDerivAt.fun_sum fun I hI => ((hL I hI).1).mul_const (v I)
    have h0 : ∑ I ∈ Finset.range kind.numNodes, v I • L I = 0 := by
      ext w
      rw [sum_apply]
      simp only [smul_apply, smul_eq_mul, zero_apply]
      rw [Finset.sum_congr rfl fun I hI => by rw [(hL I hI).2 w]]
      have : ∑ I ∈ Finset.range kind.numNodes, v I * Fenris.Spec.dot ((gradients kind x)[I]?.getD 0) w =
          ∑ k, (∑ I ∈ Finset.range kind.numNodes, (gradients kind x)[I]?.getD 0 k * v I) * w k := by
        simp only [Fenris.Spec.dot, List.sum_ofFn, Finset.mul_sum, Finset.sum_mul]
        rw [Finset.sum_comm]
        exact Finset.sum_congr rfl fun k _ => Finset.sum_congr rfl fun I _ => by ring
      rw [this]
      exact Finset.sum_eq_zero fun k _ => by rw [h k x, zero_mul]
    rwa [h0] at hsum
  exact is_const_of_fderiv_eq_zero (𝕜 := ℝ) (fun x => (hd x).differentiableAt) (fun x => (hd x).fderiv) x y

/-- C96: the canonical stiffness quadrature determines the functions of an element up to constants, for all element kinds and every element
that is not degenerate at the points. -/
theorem C96_determines_all (gauss : Nat → Rule 1 ℝ) (h2 : IsGaussRule 2 (gauss 2).1 (gauss 2).2) (hl2 : (gauss 2).1.length = 2)
    (h3 : IsGaussRule 3 (gauss 3).1 (gauss 3).2) (hl3 : (gauss 3).1.length = 3) (kind : Kind) (hk : kind ≠ .segment2) :
    ∃ rule, stiffnessRule gauss kind = some rule ∧ rule.1.length = rule.2.length ∧ (∀ w ∈ rule.1, 0 < w) ∧
      ∀ xs : List (Point kind.dim ℝ), (∀ p ∈ rule.2, ((elementOfKind kind xs).jacobian p).det ≠ 0) →
        Determines (elementOfKind kind xs) ((rule.1.zip rule.2).map fun q => ((q.1, q.2, ()) : QPoint kind.dim ℝ Unit)) := by
  obtain ⟨rule, h1, hlen, hpos, hsep⟩ := stiffnessRule_separates gauss h2 hl2 h3 hl3 kind hk
  refine ⟨rule, h1, hlen, hpos, fun xs hdet v hv hz => ?_⟩
  have hgrad : ∀ (k : Fin kind.dim) (x : Point kind.dim ℝ),
      ∑ I ∈ Finset.range kind.numNodes, (gradients kind x)[I]?.getD 0 k * v.getD I 0 = 0 := by
    intro k
    have key := hsep (fun I => v.getD I.1 0) (Finset.range kind.numNodes ×ˢ {k})
    simp only [Finset.sum_product, Finset.sum_singleton] at key
    refine key fun x hx => ?_
    have hmem : x ∈ (rule.1.zip rule.2).map Prod.snd := by rwa [List.map_snd_zip (by omega)]
    obtain ⟨q, hq, rfl⟩ := List.mem_map.1 hmem
    have h0 := reference_gradient_zero (hdet _ hx) (hz (q.1, q.2, ()) (List.mem_map.2 ⟨q, hq, rfl⟩)) k
    refine Eq.trans ?_ h0
    rw [Finset.sum_range]
    apply Fintype.sum_equiv (finCongr (gradients_length kind q.2).symm)
    intro I
    have hI : (I : Nat) < (gradients kind q.2).length := (gradients_length kind q.2).symm ▸ I.2
    rw [List.getElem?_eq_getElem hI, Option.getD_some]
    rfl
  have hval : ∀ I, I < kind.numNodes → ∃ x : Point kind.dim ℝ,
      ∑ J ∈ Finset.range kind.numNodes, (basis kind x).getD J 0 * v.getD J 0 = v.getD I 0 := by
    intro I hI
    have hlen : (refNodes (K := ℝ) kind).length = kind.numNodes := by cases kind <;> rfl
    refine ⟨(refNodes kind)[I]'(hlen ▸ hI), ?_⟩
    rw [C36_basis_is_nodal kind I _ (List.getElem?_eq_getElem (hlen ▸ hI)), Finset.sum_eq_single I]
    · simp [hI]
    · intro J hJ hne
      have := Finset.mem_range.1 hJ
      simp [this, hne]
    · intro hn
      exact absurd (Finset.mem_range.2 hI) hn
  intro I J hI hJ
  obtain ⟨x, hx⟩ := hval I hI
  obtain ⟨y, hy⟩ := hval J hJ
  rw [← hx, ← hy]
  exact constant_of_gradient_zero kind (fun I => v.getD I 0) hgrad x y

/-- **C96.** The Poisson problem on a mesh with the canonical quadrature, for every element kind and order and every mesh whose elements are not
degenerate at the quadrature points: it is a linear problem with one solution exactly if from every vertex one can walk through the cells to a
vertex with a prescribed value. -/
theorem C96_mesh_problem_all (gauss : Nat → Rule 1 ℝ) (h2 : IsGaussRule 2 (gauss 2).1 (gauss 2).2) (hl2 : (gauss 2).1.length = 2)
    (h3 : IsGaussRule 3 (gauss 3).1 (gauss 3).2) (hl3 : (gauss 3).1.length = 3) (kind : Kind) (hk : kind ≠ .segment2)
    (mesh : Mesh (Point kind.dim ℝ))
    (hsize : ∀ c ∈ mesh.cells, c.length = kind.numNodes) (hb : ∀ c ∈ mesh.cells, ∀ v ∈ c, v < mesh.vertices.length)
    (hnd : ∀ c ∈ mesh.cells, c.Nodup)
    (hreg : ∀ space rule, meshSpace kind mesh = some space → stiffnessRule gauss kind = some rule → ∀ en ∈ space, ∀ p ∈ rule.2,
      (en.1.jacobian p).det ≠ 0)
    (nodes : List Nat) (hn : ∀ n ∈ nodes, ∃ c ∈ mesh.cells, n ∈ c) (u : List ℝ) (hu : u.length = mesh.vertices.length) :
    ∃ space rule t, meshSpace kind mesh = some space ∧ stiffnessRule gauss kind = some rule ∧
      Uniform.fromQuadratureAndData rule () = some t ∧
      Setting space mesh.vertices.length t.table (fun _ => (rule.1.zip rule.2).map fun q => (q.1, q.2, ())) u
        (laplace kind.dim ℝ) nodes ∧
      (Definite space mesh.vertices.length (fun _ => (rule.1.zip rule.2).map fun q => (q.1, q.2, ())) (laplace kind.dim ℝ) nodes ↔
        Anchored mesh.cells mesh.vertices.length nodes) := by
  obtain ⟨rule, h1, hlen, hpos, hdet⟩ := C96_determines_all gauss h2 hl2 h3 hl3 kind hk
  obtain ⟨space, t, g1, g2, g3, g4⟩ := mesh_problem_of_rule kind rule hlen hpos hdet mesh hsize hb hnd
    (fun space hspace => hreg space rule hspace h1) nodes hn u hu
  exact ⟨space, rule, t, g1, h1, g2, g3, g4⟩

-- The hypotheses are met by a quadratic triangle with one prescribed value.
private noncomputable def quadraticTriangle : Mesh (Point 2 ℝ) :=
  ⟨[![0, 0], ![2, 0], ![0, 2], ![1, 0], ![1, 1], ![0, 1]], [[0, 1, 2, 3, 4, 5]]⟩

example : (∀ c ∈ quadraticTriangle.cells, c.length = Kind.tri6.numNodes) ∧
    (∀ c ∈ quadraticTriangle.cells, ∀ v ∈ c, v < quadraticTriangle.vertices.length) ∧ (∀ c ∈ quadraticTriangle.cells, c.Nodup) ∧
    (∀ space, meshSpace .tri6 quadraticTriangle = some space → ∀ en ∈ space, ∀ p, (en.1.jacobian p).det ≠ 0) ∧
    (∀ n ∈ [4], ∃ c ∈ quadraticTriangle.cells, n ∈ c) ∧ Anchored quadraticTriangle.cells quadraticTriangle.vertices.length [4] := by
  have hb : ∀ c ∈ quadraticTriangle.cells, ∀ v ∈ c, v < quadraticTriangle.vertices.length := by simp [quadraticTriangle]
  refine ⟨by simp [quadraticTriangle, Kind.numNodes], hb, by simp [quadraticTriangle], ?_, by simp [quadraticTriangle], ?_⟩
  · intro space hspace en hen p
    have hsp := C89_mesh_space .tri6 quadraticTriangle hb
    rw [hspace] at hsp
    obtain rfl := Option.some.inj hsp
    obtain ⟨c, hc, rfl⟩ := List.mem_map.1 hen
    simp only [quadraticTriangle, List.mem_cons, List.not_mem_nil, or_false] at hc
    subst hc
    simp [elementOfKind, referenceJacobian, coords, quadraticTriangle, geometryGradients, tri3Gradients, weightedSum, Matrix.det_fin_two, Kind.dim,
      Kind.geometry, Kind.numNodes, tri3G]
  · intro n hn
    have hn : n < 6 := hn
    refine ⟨4, by simp, Relation.ReflTransGen.single ⟨_, List.mem_singleton.2 rfl, ?_, by simp⟩⟩
    interval_cases n <;> simp

end Fenris.LinearProblem
