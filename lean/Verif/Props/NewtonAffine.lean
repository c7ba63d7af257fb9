import Verif.Props.NewtonLinear
import Verif.Props.PatchTestRules
/-! # C112: Newton's method finds affine solutions exactly -/
set_option autoImplicit false
set_option linter.unusedSectionVars false

namespace Fenris.NewtonLinear
open Fenris.Element Fenris.Local Fenris.Local.Spec Fenris.PatchTest Fenris.PatchTest.Spec Fenris.LinearProblem Fenris.LinearProblem.Spec
open Fenris.NewtonLinear.Spec Quadrature Fenris.Procedural Fenris.Surface Fenris.Surface.Spec Fenris.Canonical Fenris.Canonical.Spec
open Fenris.Spec (entry SortsNodes Constrained)
open Cg (Vec)

attribute [local instance] zeroFill

section
variable {K : Type} [Field K] [LinearOrder K] [IsStrictOrderedRing K] {s : Nat} {Param : Type} [Inhabited Param] {ω : K}
  {kind : Kind} {mesh : Mesh (Point kind.dim K)} {table : Table (Point kind.dim K) K Param}
  {rules : Nat → List (QPoint kind.dim K Param)} {param : Param}

/-- **C112.** Without loads, and started with the values of an affine function at (at least) all boundary vertices and anything at the other
vertices, Newton's method returns the values of the affine function at all vertices, after one step, unless it accepts the start. -/
theorem C112_affine_solution {E : Type} (hk : kind ∈ [Kind.tri3, .quad4, .tet4, .hex8]) (h : Patch ω kind mesh table rules param)
    (space : Space kind.dim K) (hspace : meshSpace kind mesh = some space) (u₀ : List K) (o : Operator kind.dim s K Param)
    (boundary : List Nat) (hbd : Mesh.findBoundaryVertices (facesOf kind) mesh = some boundary)
    (nodes : List Nat) (hnodes : ∀ n ∈ boundary, n ∈ nodes)
    (hp : Problem space mesh.vertices.length table rules u₀ o nodes)
    (G : Matrix (Fin kind.dim) (Fin s) K) (b : Fin s → K) (u : List K) (hu : IsAffine mesh.vertices G b u)
    (residual : Vec (s * mesh.vertices.length) K → Vec (s * mesh.vertices.length) K)
    (hres : ComputesResidual space mesh.vertices.length table o nodes (List.replicate (s * mesh.vertices.length) 0) residual)
    (cgNorm : List K → K) (hpos : ∀ v, 0 ≤ cgNorm v) (hzero : ∀ v, cgNorm v = 0 ↔ ∀ a ∈ v, a = 0)
    (solve : Nat → Vec (s * mesh.vertices.length) K → Vec (s * mesh.vertices.length) K → Except E (Vec (s * mesh.vertices.length) K))
    (hsolve : SolvesWithCg E space mesh.vertices.length table o nodes cgNorm solve)
    (search : Newton.LineSearch (s * mesh.vertices.length) K E)
    (hsearch : search = Newton.noLineSearch ∨ ∃ e fuel, search = Newton.backtracking e (fuel + 1))
    (maxIterations : Option Nat) (hmax : maxIterations ≠ some 0) (tolerance : K) (norm : Vec (s * mesh.vertices.length) K → K)
    (hnorm : norm 0 ≤ tolerance) (x₀ : Vec (s * mesh.vertices.length) K)
    (hx₀ : ∀ r : Fin (s * mesh.vertices.length), Constrained s nodes r → x₀ r = u.getD r 0) :
    ∃ x f k, Newton.newtonLineSearch ⟨residual, solve, maxIterations, tolerance, search, norm⟩ 2 x₀ = some ⟨x, f, .ok k⟩ ∧
      (norm (residual x₀) ≤ tolerance → k = 0 ∧ x = x₀) ∧ (tolerance < norm (residual x₀) → k = 1 ∧ List.ofFn x = u) := by
  obtain ⟨x, f, k, h1, h2, h3⟩ := C112_newton hp (List.replicate (s * mesh.vertices.length) 0) (by simp) residual hres cgNorm hpos hzero solve
    hsolve search hsearch maxIterations hmax tolerance norm hnorm x₀
  refine ⟨x, f, k, h1, h2, fun hlt => ?_⟩
  obtain ⟨hk1, -, huniq⟩ := h3 hlt
  refine ⟨hk1, ?_⟩
  have hul : u.length = s * mesh.vertices.length := hu.1
  set y : Vec (s * mesh.vertices.length) K := fun i => u.getD i 0 with hy
  have hyu : List.ofFn y = u := eq_ofFn u hul
  rw [← hyu, (huniq y).2]
  refine ⟨fun r hr => (hx₀ r hr).symm, ?_⟩
  obtain ⟨forces, -, hf, -, -⟩ := hres y
  refine ⟨forces, hf, fun r hr hnc => ?_⟩
  obtain ⟨bufs, outs, elemVec, hev, hfo⟩ := hf
  rw [hyu] at hev
  obtain ⟨bd, v, e1, e2, e3⟩ := C89_patch_test hk h G b u hu o space hspace bufs outs elemVec hev
  rw [hbd] at e1
  obtain rfl := Option.some.inj e1
  have e2' : Assembly.assembleVector ⟨s, mesh.vertices.length, space.map (·.2)⟩ elemVec = some (.ok v) := e2
  rw [hfo] at e2'
  obtain rfl : forces = v := by injection e2' with e2'; injection e2'
  have hs := hp.dim
  have hn : r / s < mesh.vertices.length := Nat.div_lt_of_lt_mul hr
  have := e3 (r / s) hn (fun hb => hnc ⟨r / s, hnodes _ hb, r % s, Nat.mod_lt _ hs, (Nat.div_add_mod r s).symm⟩) ⟨r % s, Nat.mod_lt _ hs⟩
  simp only [Nat.div_add_mod] at this
  rw [this, List.getElem?_replicate, if_pos hr]

end

/-- **C112.** The Laplace equation on the uniform quadrilateral mesh of a rectangle, of every resolution, with the canonical quadrature. -/
theorem C112_quad_mesh (E : Type) (gauss : Nat → Rule 1 ℝ) (h2 : IsGaussRule 2 (gauss 2).1 (gauss 2).2) (hl : (gauss 2).1.length = 2)
    (L : ℝ) (hL : 0 < L) (ux uy n : Nat) (x0 y0 : ℝ) (hn : n ≠ 0) (hux : ux ≠ 0) (huy : uy ≠ 0)
    (mesh : Mesh (Point 2 ℝ)) (hmesh : mesh = quadMesh L ux uy n x0 y0)
    (boundary : List Nat) (hbd : Mesh.findBoundaryVertices (facesOf .quad4) mesh = some boundary)
    (nodes : List Nat) (hnodes : ∀ v ∈ boundary, v ∈ nodes) (hne : nodes ≠ []) (hin : ∀ v ∈ nodes, v < mesh.vertices.length)
    (G : Matrix (Fin 2) (Fin 1) ℝ) (b : Fin 1 → ℝ) (u : List ℝ) (hu : IsAffine mesh.vertices G b u)
    (cgNorm : List ℝ → ℝ) (hpos : ∀ v, 0 ≤ cgNorm v) (hzero : ∀ v, cgNorm v = 0 ↔ ∀ a ∈ v, a = 0) :
    ∃ space rule t, meshSpace .quad4 mesh = some space ∧ stiffnessRule gauss .quad4 = some rule ∧
      Uniform.fromQuadratureAndData rule () = some t ∧
      Problem space mesh.vertices.length t.table (fun _ => (rule.1.zip rule.2).map fun q => (q.1, q.2, ())) u (laplace 2 ℝ) nodes ∧
      ∀ residual solve, ComputesResidual space mesh.vertices.length t.table (laplace 2 ℝ) nodes (List.replicate (1 * mesh.vertices.length) 0) residual →
        SolvesWithCg E space mesh.vertices.length t.table (laplace 2 ℝ) nodes cgNorm solve →
        ∀ x₀ : Vec (1 * mesh.vertices.length) ℝ, (∀ r : Fin (1 * mesh.vertices.length), Constrained 1 nodes r → x₀ r = u.getD r 0) →
        ∀ (norm : Vec (1 * mesh.vertices.length) ℝ → ℝ), norm 0 ≤ 0 → ∃ x f k,
          Newton.newton residual solve none 0 norm 2 x₀ = some ⟨x, f, .ok k⟩ ∧
          (norm (residual x₀) ≤ 0 → k = 0 ∧ x = x₀) ∧ (0 < norm (residual x₀) → k = 1 ∧ List.ofFn x = u) := by
  have hul : u.length = mesh.vertices.length := by have := hu.1; omega
  obtain ⟨space, rule, t, h1, h3, h4, hp⟩ := C96_quad_mesh gauss h2 hl L hL ux uy n x0 y0 hn hux huy mesh hmesh nodes hne hin u hul
  refine ⟨space, rule, t, h1, h3, h4, hp, fun residual solve hres hsolve x₀ hx₀ norm hnorm => ?_⟩
  subst hmesh
  obtain ⟨q1, q2, q3⟩ := GridFaces.C94_quad_elements L hL ux uy n x0 y0 hn hux huy
  have hsp := C89_mesh_space .quad4 (quadMesh L ux uy n x0 y0) q2
  obtain ⟨rule', t', ω, g1, g2, -, hpatch⟩ := C89_canonical_patch gauss h2 .quad4 (by simp) () (quadMesh L ux uy n x0 y0) q1 q2
    (GridFaces.C94_quad_consistent L ux uy n x0 y0) (by
    intro space rule hs' _ en hen p _
    rw [hsp] at hs'
    obtain rfl := Option.some.inj hs'
    obtain ⟨c, hc, rfl⟩ := List.mem_map.1 hen
    exact q3 c hc p)
  rw [h3] at g1
  obtain rfl := Option.some.inj g1
  rw [h4] at g2
  obtain rfl := Option.some.inj g2
  exact C112_affine_solution (kind := .quad4) (by simp) hpatch space h1 u (laplace 2 ℝ) boundary hbd nodes hnodes hp G b u hu residual hres
    cgNorm hpos hzero solve hsolve Newton.noLineSearch (Or.inl rfl) none (by simp) 0 norm hnorm x₀ hx₀

/-- Non-vacuity: the boundary of the 2 × 2 mesh of the unit square consists of all vertices but the one in the middle, and constants are
affine functions. -/
example : Mesh.findBoundaryVertices (facesOf .quad4) (unitSquareQuadMesh (K := ℝ) 2) = some [0, 1, 2, 3, 5, 6, 7, 8] ∧
    IsAffine (unitSquareQuadMesh (K := ℝ) 2).vertices (0 : Matrix (Fin 2) (Fin 1) ℝ) (fun _ => 1) (List.replicate 9 1) := by
  obtain ⟨-, hlen, -⟩ := C17_quad_mesh_is_the_grid (1 : ℝ) 1 1 2 0 1 (by decide) (by decide) (by decide)
  have h9 : (unitSquareQuadMesh (K := ℝ) 2).vertices.length = 9 := hlen
  refine ⟨?_, by rw [h9]; rfl, fun n x hx i => ?_⟩
  · have hq : Mesh.findBoundaryVertices (facesOf .quad4) (⟨[], (unitSquareQuadMesh (K := ℚ) 2).cells⟩ : Mesh Unit) = some [0, 1, 2, 3, 5, 6, 7, 8] := by
      decide +kernel
    exact hq
  · obtain ⟨hn, -⟩ := List.getElem?_eq_some_iff.1 hx
    rw [h9] at hn
    rw [List.getElem?_replicate, if_pos (by have := i.2; omega)]
    simp

end Fenris.NewtonLinear
