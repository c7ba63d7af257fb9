import Verif.Model.Dirichlet
import Verif.Spec.Assembly
import Mathlib.Algebra.BigOperators.Intervals
/-! # Specification vocabulary for Dirichlet conditions -/
set_option autoImplicit false

namespace Fenris.Spec
open Assembly

/-- Degree of freedom `r` belongs to one of the constrained nodes. -/
def Constrained (d : Nat) (nodes : List Nat) (r : Nat) : Prop := ∃ n ∈ nodes, ∃ i, i < d ∧ r = d * n + i

variable {K : Type}

/-- The sparse matrix stores a value, possibly zero, at `(r, c)`. -/
def Stored (m : Csr K) (r c : Nat) : Prop := ∃ row, m.rows[r]? = some row ∧ c ∈ row.1

/-- Square, with columns in range. -/
def Square (m : Csr K) : Prop := m.ncols = m.rows.length ∧ ∀ r c, Stored m r c → c < m.ncols

/-- The pattern is symmetric. -/
def SymmetricPattern (m : Csr K) : Prop := ∀ r c, Stored m r c → Stored m c r

/-- `s` is the magnitude of the first non-zero diagonal entry, or 1 if the diagonal is zero. -/
def DiagonalScale [Field K] [LinearOrder K] (m : Csr K) (s : K) : Prop :=
  (s = 1 ∧ ∀ r, entry m r r = 0) ∨
    ∃ r, entry m r r ≠ 0 ∧ s = |entry m r r| ∧ ∀ q, q < r → entry m q q = 0

/-- `x` solves the `n` equations `A x = b`. -/
def Solves [Field K] (n : Nat) (A : Nat → Nat → K) (b x : Nat → K) : Prop :=
  ∀ r, r < n → (∑ c ∈ Finset.range n, A r c * x c) = b r

/-- `x` vanishes on the constrained degrees of freedom and satisfies the equations of all others. -/
def SolvesConstrained [Field K] (n d : Nat) (nodes : List Nat) (A : Nat → Nat → K) (b x : Nat → K) :
    Prop :=
  (∀ r, r < n → Constrained d nodes r → x r = 0) ∧
    ∀ r, r < n → ¬ Constrained d nodes r → (∑ c ∈ Finset.range n, A r c * x c) = b r

end Fenris.Spec
