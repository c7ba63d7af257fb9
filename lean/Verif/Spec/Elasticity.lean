import Mathlib.Data.Real.Basic
import Mathlib.Logic.Relation
import Verif.Spec.LinearProblem
import Verif.Spec.Element
/-! # What rigid motions are, and what prevents them (C99) -/
set_option autoImplicit false

namespace Fenris.Elasticity.Spec
open Fenris.Element

/-- The only infinitesimal rigid motion, `x ↦ W x + b` with a skew matrix `W`, that leaves the given points where they are is zero. -/
def Fixes {d : Nat} (points : Set (Point d ℝ)) : Prop :=
  ∀ (W : Matrix (Fin d) (Fin d) ℝ) (b : Point d ℝ), W.transpose = -W → (∀ x ∈ points, W.mulVec x + b = 0) → W = 0 ∧ b = 0

/-- The positions of the given nodes. -/
def positions {d : Nat} (vertices : List (Point d ℝ)) (nodes : List Nat) : Set (Point d ℝ) := {x | ∃ n ∈ nodes, vertices[n]? = some x}

/-- Two cells that cannot move rigidly against each other: their common nodes fix a rigid motion. -/
def Rigidly {d : Nat} (vertices : List (Point d ℝ)) (c c' : List Nat) : Prop := Fixes (positions vertices (c.filter fun n => decide (n ∈ c')))

/-- One can walk from any cell to any other through pairs of cells that cannot move rigidly against each other. -/
def OnePiece {d : Nat} (vertices : List (Point d ℝ)) (cells : List (List Nat)) : Prop :=
  ∀ c ∈ cells, ∀ c' ∈ cells, Relation.ReflTransGen (fun a b => b ∈ cells ∧ Rigidly vertices a b) c c'

/-- The nodes of the cell are the images of the nodes of the reference element under an invertible affine map. -/
def AffineCell (kind : Kind) (xs : List (Point kind.dim ℝ)) : Prop :=
  ∃ (A : Matrix (Fin kind.dim) (Fin kind.dim) ℝ) (t : Point kind.dim ℝ), A.det ≠ 0 ∧
    ∀ (I : Nat) (x : Point kind.dim ℝ), (refNodes kind)[I]? = some x → xs[I]? = some (A.mulVec x + t)

/-- The values at the nodes of the rigid motion `x ↦ W x + b`. -/
def IsRigid {d : Nat} (W : Matrix (Fin d) (Fin d) ℝ) (b : Point d ℝ) (vertices : List (Point d ℝ)) (nodes : List Nat) (v : List ℝ) : Prop :=
  W.transpose = -W ∧ ∀ n ∈ nodes, ∀ x, vertices[n]? = some x → ∀ i : Fin d, v.getD (d * n + i) 0 = (W.mulVec x + b) i

end Fenris.Elasticity.Spec
