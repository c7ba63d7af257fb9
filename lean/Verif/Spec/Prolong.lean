import Verif.Spec.Refinement
import Verif.Spec.ElementAssembly
/-! # Functions on a refined triangle mesh (C103) -/
set_option autoImplicit false

namespace Fenris.Spec
variable {K : Type} [Field K]

/-- Component `i` at a vertex or edge midpoint of the function that is linear along the edges and has the nodal values `u`, `s` for each
vertex. -/
def Node.value (s : Nat) (u : List K) (i : Nat) : Node → K
  | .vertex v => u.getD (s * v + i) 0
  | .mid a b => (u.getD (s * a + i) 0 + u.getD (s * b + i) 0) / 2

/-- `v` lists the values that the function with the nodal values `u` on the triangle mesh `mesh` has at the vertices of the refined mesh
`fine`, whose cells `4 e`, …, `4 e + 3` are the children of the cell `e`. -/
structure Prolongs {d : Nat} (s : Nat) (mesh fine : Mesh (Point d K)) (u v : List K) : Prop where
  length : v.length = s * fine.vertices.length
  value : ∀ (e : Nat) (c : List Nat), mesh.cells[e]? = some c → ∀ (k : Nat) (child : List Node), (childNodes c)[k]? = some child →
    ∃ c', fine.cells[4 * e + k]? = some c' ∧ c'.length = child.length ∧ ∀ (a n' : Nat) (n : Node), c'[a]? = some n' → child[a]? = some n →
      ∀ i, i < s → v.getD (s * n' + i) 0 = n.value s u i

/-- Component `i` at the reference point `p` of the function with the nodal values `u`, on an element with the given nodes. -/
def functionValue {d : Nat} [LinearOrder K] (s : Nat) (u : List K) (en : Local.VolElement d K × List Nat) (p : Point d K) (i : Nat) : K :=
  ∑ I : Fin (en.1.basis p).length, (en.1.basis p)[I] * (Local.Spec.localPart s u en.2).getD (s * I + i) 0

end Fenris.Spec
