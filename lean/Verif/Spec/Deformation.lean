import Verif.Spec.Elasticity
import Verif.Spec.Surface
import Verif.Model.CgWorkspace
/-! # Bodies, and what it means that a computation finds given nodal values (C99, C109) -/
set_option autoImplicit false

namespace Fenris.Elasticity.Spec
open Fenris.Element

/-- A mesh of affine cells with different nodes that hangs together, so that its parts cannot move rigidly against each other; it has a cell,
and each of its vertices belongs to one. -/
structure Body (kind : Kind) (mesh : Mesh (Point kind.dim ℝ)) : Prop where
  size : ∀ c ∈ mesh.cells, c.length = kind.numNodes
  inBounds : ∀ c ∈ mesh.cells, ∀ v ∈ c, v < mesh.vertices.length
  nodup : ∀ c ∈ mesh.cells, c.Nodup
  affine : ∀ c ∈ mesh.cells, AffineCell kind (c.map (Surface.Spec.coords mesh.vertices))
  nonempty : mesh.cells ≠ []
  covered : ∀ n, n < mesh.vertices.length → ∃ c ∈ mesh.cells, n ∈ c
  onePiece : OnePiece mesh.vertices mesh.cells

section
open Fenris.Local Fenris.LinearProblem.Spec Quadrature
attribute [local instance] zeroFill

/-- The assembled equations without load, with the values of `u` prescribed at the given nodes, have `u` as their only solution, and the
library finds it: assemble the matrix `m` (in whatever order, with whatever content of workspaces and outputs), take any `g` with the
prescribed values, make the Dirichlet conditions of matrix and right-hand side `-m g` homogeneous, solve with conjugate gradients (with any
guess and workspace, to tolerance zero) for `δ`, and add it to `g`. -/
def Computes (E : Type) {d s : Nat} {Param : Type} [Inhabited Param] (space : Space d ℝ) (N : Nat) (table : Table (Point d ℝ) ℝ Param)
    (o : Operator d s ℝ Param) (u₀ : List ℝ) (nodes : List Nat) (u : List ℝ) : Prop :=
  ∀ (ord : List Nat → List Nat), (∀ l, (ord l).Perm l) →
  ∀ (sortNodes : List (Nat × Nat) → List (Nat × Nat)), Fenris.Spec.SortsNodes sortNodes →
  ∀ (bufs : Nat → Buffer (Point d ℝ) ℝ Param) (outs : Nat → Mat ℝ) (elemMat : Nat → Except String (Mat ℝ)),
  (∀ e, e < space.length → ∃ buf', elementMatrix space o table u₀ (bufs e) (outs e) e = some (elemMat e, buf')) →
  ∃ m m', Assembly.assemble ord sortNodes ⟨s, N, space.map (·.2)⟩ elemMat = some (.ok m) ∧
    Assembly.dirichletCsr m nodes s = some m' ∧
    (∀ y : List ℝ, y.length = s * N → (((∀ r, r < s * N → Fenris.Spec.Constrained s nodes r → y.getD r 0 = u.getD r 0) ∧
        ∀ r, r < s * N → ¬ Fenris.Spec.Constrained s nodes r → ∑ c ∈ Finset.range (s * N), Fenris.Spec.entry m r c * y.getD c 0 = 0) ↔
      y = u)) ∧
    ∀ g : List ℝ, g.length = s * N → (∀ r, r < s * N → Fenris.Spec.Constrained s nodes r → g.getD r 0 = u.getD r 0) →
      ∃ rhs', Assembly.dirichletRhs ((List.range (s * N)).map fun r => -∑ c ∈ Finset.range (s * N), Fenris.Spec.entry m r c * g.getD c 0)
          nodes s = some rhs' ∧
        ∀ (norm : List ℝ → ℝ), (∀ v, 0 ≤ norm v) → (∀ v, norm v = 0 ↔ ∀ a ∈ v, a = 0) →
        ∀ (w : CgBuffers.Workspace ℝ) (guess : List ℝ), guess.length = s * N →
          ∃ δ k, (CgBuffers.solveWithGuess (E := E) ⟨CgBuffers.csrOperator 0 1 (fullRows (s * N) m'), CgBuffers.identityOperator,
              CgBuffers.relativeResidual norm 0, none, norm⟩ (s * N + 1) w rhs' guess).map Prod.fst = .done ⟨δ, k, .ok ()⟩ ∧
            List.zipWith (· + ·) g δ = u

end

end Fenris.Elasticity.Spec
