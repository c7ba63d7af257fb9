import Verif.Spec.Dirichlet
import Verif.Model.Permutation
import Verif.Model.QuadratureTable
/-! # What it means that data follows a renumbering of vertices and cells (C110)

A permutation `p` says where things come from: new number `i` is old number `p.sourceIndex i`. -/
set_option autoImplicit false

namespace Fenris.Renumber.Spec
open Quadrature

variable {K : Type}

/-- The permutation rearranges `n` things. -/
def Permutes (p : Permutation) (n : Nat) : Prop := p.perm.Perm (List.range n)

/-- Nodal data with `s` components per node: every new node has the components of the old node that it is. -/
def ValuesFollow (s : Nat) (p : Permutation) (u u' : List K) : Prop :=
  u'.length = u.length ∧ ∀ i n a, p.sourceIndex i = some n → a < s → u'[s * i + a]? = u[s * n + a]?

/-- Every new cell gets the quadrature rule of the old cell that it is. -/
def RulesFollow {P W D : Type} [Inhabited P] [Inhabited W] [Inhabited D] (p : Permutation) (table table' : Table P W D) : Prop :=
  ∀ (k e : Nat) (b : Buffer P W D), p.sourceIndex k = some e → b.populate k table' = b.populate e table

/-- A set of nodes: a new node is in the set if the old node that it is was in it. -/
def NodesFollow (p : Permutation) (nodes nodes' : List Nat) : Prop :=
  ∀ i n, p.sourceIndex i = some n → (i ∈ nodes' ↔ n ∈ nodes)

/-- A matrix with `s` rows and columns per node. -/
def MatrixFollows [AddCommMonoid K] (s : Nat) (p : Permutation) (m m' : Assembly.Csr K) : Prop :=
  ∀ i j n n' a b, p.sourceIndex i = some n → p.sourceIndex j = some n' → a < s → b < s →
    Fenris.Spec.entry m' (s * i + a) (s * j + b) = Fenris.Spec.entry m (s * n + a) (s * n' + b)

end Fenris.Renumber.Spec
