import Verif.Spec.Surface
import Verif.Spec.ElementAssembly
/-! # What the patch test means -/
set_option autoImplicit false

namespace Fenris.PatchTest.Spec
open Fenris.Element Fenris.Local
variable {K : Type} [Field K] {s d : Nat} {Param : Type}

/-- The nodal values of the affine function `x ↦ Gᵀ x + b`. -/
structure IsAffine (vertices : List (Point d K)) (G : Matrix (Fin d) (Fin s) K) (b : Fin s → K) (u : List K) : Prop where
  length : u.length = s * vertices.length
  value : ∀ (n : Nat) (x : Point d K), vertices[n]? = some x → ∀ i : Fin s, u[s * n + i]? = some (∑ k, G k i * x k + b i)

/-- The normal of the edge from `p` to `q`, as long as the edge, on its right: outwards when the area is on the left. -/
def edgeNormal (p q : Point 2 K) : Point 2 K := ![q 1 - p 1, p 0 - q 0]

/-- `(b - a) × (c - a)`: the normal of a triangle, twice as long as its area. -/
def triNormal (a b c : Point 3 K) : Point 3 K :=
  ![(b 1 - a 1) * (c 2 - a 2) - (b 2 - a 2) * (c 1 - a 1), (b 2 - a 2) * (c 0 - a 0) - (b 0 - a 0) * (c 2 - a 2),
    (b 0 - a 0) * (c 1 - a 1) - (b 1 - a 1) * (c 0 - a 0)]

/-- The part of the normal of an edge that belongs to the vertex `n`: one half for either end, `∫ φ_n ν`. -/
def edgeShare (vs : List (Point 2 K)) (n : Nat) : List Nat → Point 2 K
  | [a, b] => ((if a = n then 1 / 2 else 0) + (if b = n then 1 / 2 else 0) : K) • edgeNormal (Surface.Spec.coords vs a) (Surface.Spec.coords vs b)
  | _ => 0

/-- The part of the normal of a triangle that belongs to the vertex `n`: one third for each vertex, `∫ φ_n ν`. -/
def triShare (vs : List (Point 3 K)) (n : Nat) : List Nat → Point 3 K
  | [a, b, c] => ((if a = n then 1 / 6 else 0) + (if b = n then 1 / 6 else 0) + (if c = n then 1 / 6 else 0) : K) •
      triNormal (Surface.Spec.coords vs a) (Surface.Spec.coords vs b) (Surface.Spec.coords vs c)
  | _ => 0

/-- `∫ φ_a ν` over the bilinear surface with the corners `a`, `b`, `c`, `e` in this order: a twelfth of the normals of the three triangles
that `a` forms with two other corners. -/
def cornerNormal (a b c e : Point 3 K) : Point 3 K :=
  (1 / 12 : K) • (triNormal a b c + triNormal a c e + triNormal a b e)

/-- The part of the normal of a quadrilateral face that belongs to the vertex `n`, `∫ φ_n ν`. The face need not be plane. -/
def quadShare (vs : List (Point 3 K)) (n : Nat) : List Nat → Point 3 K
  | [a, b, c, e] =>
    let x := Surface.Spec.coords vs
    (if a = n then cornerNormal (x a) (x b) (x c) (x e) else 0) + (if b = n then cornerNormal (x b) (x c) (x e) (x a) else 0) +
      (if c = n then cornerNormal (x c) (x e) (x a) (x b) else 0) + (if e = n then cornerNormal (x e) (x a) (x b) (x c) else 0)
  | _ => 0

/-- `∫ φ_n ν` over a face of a cell, where `φ_n` is the basis function of the vertex `n` and `ν` the outward unit normal. -/
def faceShare : (kind : Kind) → List (Point kind.dim K) → Nat → List Nat → Point kind.dim K
  | .tri3 | .quad4 => edgeShare
  | .tet4 => triShare
  | .hex8 => quadShare
  | _ => fun _ _ _ => 0

/-- What a quadrature rule has to integrate: constants on triangles and tetrahedra, bilinear functions on quadrilaterals, polynomials of
degree two in each variable on hexahedra. The results are `ω` times the integrals over the reference element, `ω = 1` for an exact rule. -/
def PatchRule (ω : K) : (kind : Kind) → List (QPoint kind.dim K Param) → Prop
  | .tri3, rule => (rule.map fun q => q.1).sum = ω * 2
  | .tet4, rule => (rule.map fun q => q.1).sum = ω * (4 / 3)
  | .quad4, rule => ∀ i j : Fin 2, (rule.map fun q => q.1 * (q.2.1 0 ^ (i : Nat) * q.2.1 1 ^ (j : Nat))).sum = ω * (![2, 0] i * ![2, 0] j)
  | .hex8, rule => ∀ i j k : Fin 3, (rule.map fun q => q.1 * (q.2.1 0 ^ (i : Nat) * q.2.1 1 ^ (j : Nat) * q.2.1 2 ^ (k : Nat))).sum =
      ω * (![2, 0, 2 / 3] i * ![2, 0, 2 / 3] j * ![2, 0, 2 / 3] k)
  | _, _ => False

/-- A linear operator: the stress is a linear function of the gradient, and the contraction is that function. -/
structure IsLinear {d s : Nat} (o : Operator d s K Param) : Prop where
  add : ∀ A B p, o.op (A + B) p = o.op A p + o.op B p
  smul : ∀ (c : K) A p, o.op (c • A) p = c • o.op A p
  contract : ∀ G a b p i j, o.contract G a b p i j = ∑ k, o.op (Matrix.of fun k' j' => if j' = j then b k' else 0) p k i * a k

end Fenris.PatchTest.Spec
