import Verif.Model.Permutation
import Mathlib.Algebra.Field.Defs
/-! # Model of `src/mesh/refinement.rs` and `src/mesh/refinement/detail.rs` -/
set_option autoImplicit false

namespace Fenris

/-- `OPoint<T, D>` with `D = d`, over a scalar type `K`. -/
abbrev Point (d : Nat) (K : Type) := Fin d → K

namespace Refine
variable {L κ V : Type} [DecidableEq κ]

/-- `HashMap::get` on a map whose keys are compared through `key` (the canonical form used by
`Eq`/`Hash` of the label type). -/
def lookup (key : L → κ) (l : L) : List (L × Nat) → Option Nat
  | [] => none
  | (l', i) :: rest => if key l' = key l then some i else lookup key l rest

/-- src/mesh/refinement.rs:91-95: `label_to_idx_map.entry(label).or_insert_with(..)`.  The state is
the map (in insertion order) and `next_vertex_idx`. -/
def internOne (key : L → κ) (l : L) (st : List (L × Nat) × Nat) :
    Nat × (List (L × Nat) × Nat) :=
  match lookup key l st.1 with
  | some i => (i, st)
  | none => (st.2, (st.1 ++ [(l, st.2)], st.2 + 1))

/-- src/mesh/refinement.rs:90-97: the loop over the labels of one new cell. -/
def internCell (key : L → κ) : List L → List (L × Nat) × Nat →
    List Nat × (List (L × Nat) × Nat)
  | [], st => ([], st)
  | l :: ls, st =>
    ((internOne key l st).1 :: (internCell key ls (internOne key l st).2).1,
      (internCell key ls (internOne key l st).2).2)

/-- src/mesh/refinement.rs:82-103: the loop over all new cells (of all old cells). -/
def internCells (key : L → κ) : List (List L) → List (L × Nat) × Nat →
    List (List Nat) × (List (L × Nat) × Nat)
  | [], st => ([], st)
  | c :: cs, st =>
    ((internCell key c st).1 :: (internCells key cs (internCell key c st).2).1,
      (internCells key cs (internCell key c st).2).2)

/-- src/mesh/refinement.rs:106-109: `new_vertices[index] = label.construct_vertex(..)` for each map
entry; `none` is an index panic. -/
def assignVertices (construct : L → Option V) : List (L × Nat) → List V → Option (List V)
  | [], vs => some vs
  | (l, i) :: rest, vs =>
    match construct l with
    | none => none
    | some v => if i < vs.length then assignVertices construct rest (vs.set i v) else none

/-- src/mesh/refinement.rs:62-111 `refine_mesh`.  `children` gives, for an old cell, the labels of
each of its new cells (`populate_refined_connectivity` and `populate_vertex_labels`; `none` if the
cell does not have the right shape, impossible for the fixed-size Rust arrays);
`construct` is `construct_vertex`; `ord` is the (unspecified) iteration order of the hash map;
`dflt` is `Default::default()`. -/
def refineMesh (key : L → κ) (children : List Nat → Option (List (List L)))
    (construct : List V → L → Option V) (ord : List (L × Nat) → List (L × Nat)) (dflt : V)
    (mesh : Mesh V) : Option (Mesh V) :=
  match mesh.cells.mapM children with
  | none => none
  | some newCells =>
    match assignVertices (construct mesh.vertices)
        (ord (internCells key newCells.flatten ([], 0)).2.1)
        (List.replicate (internCells key newCells.flatten ([], 0)).2.2 dflt) with
    | none => none
    | some vs => some ⟨vs, (internCells key newCells.flatten ([], 0)).1⟩

/-- src/mesh/refinement/detail.rs:62-66 `VertexOrEdgeMidpointVertex`. -/
inductive Label where
  | vertex (v : Nat)
  | mid (a b : Nat)
deriving DecidableEq, Repr

/-- src/mesh/refinement/detail.rs:32-35, 50-60: equality of edge labels compares
`canonical_vertex_indices`; vertex labels derive equality. -/
def Label.canon : Label → Label
  | .vertex v => .vertex v
  | .mid a b => .mid (min a b) (max a b)

variable {K : Type} [Field K] {d : Nat}

/-- src/mesh/refinement/detail.rs:15-24, 38-48: `construct_vertex`. -/
def Label.construct (vs : List (Point d K)) : Label → Option (Point d K)
  | .vertex v => vs[v]?
  | .mid a b =>
    match vs[a]?, vs[b]? with
    | some p, some q => some (fun i => (p i + q i) / 2)
    | _, _ => none

/-- src/mesh/refinement/detail.rs:111-130: `populate_refined_connectivity` for `Tri3d2`. -/
def tri3Children : List Nat → Option (List (List Label))
  | [a, b, c] =>
    some [[.vertex a, .mid a b, .mid c a],
          [.mid a b, .vertex b, .mid b c],
          [.mid c a, .mid b c, .vertex c],
          [.mid a b, .mid b c, .mid c a]]
  | _ => none

/-- src/mesh/refinement.rs:116-124 `refine_uniformly` on a `Tri3d2` mesh. -/
def refineUniformly (ord : List (Label × Nat) → List (Label × Nat)) (mesh : Mesh (Point d K)) :
    Option (Mesh (Point d K)) :=
  refineMesh Label.canon tri3Children Label.construct ord (fun _ => 0) mesh

/-- src/mesh/refinement.rs:128-143 `refine_uniformly_repeat`. -/
def refineRepeat (ord : List (Label × Nat) → List (Label × Nat)) :
    Nat → Mesh (Point d K) → Option (Mesh (Point d K))
  | 0, mesh => some mesh
  | n + 1, mesh =>
    match refineUniformly ord mesh with
    | none => none
    | some m => refineRepeat ord n m

end Refine
end Fenris
