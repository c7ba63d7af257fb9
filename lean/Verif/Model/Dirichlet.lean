import Verif.Model.Assembly
import Mathlib.Algebra.Order.Field.Basic
import Mathlib.Algebra.Order.AbsoluteValue.Basic
/-! # Model of homogeneous Dirichlet conditions, `src/assembly/global.rs:379-495` -/
set_option autoImplicit false

namespace Fenris
namespace Assembly

variable {K : Type} [Field K] [LinearOrder K]

/-- `triplet_iter` restricted to the diagonal, in row order (src/assembly/global.rs:391-395). -/
def diagonalValues (rows : List (List Nat × List K)) : List K :=
  rows.zipIdx.flatMap (fun p => ((p.1.1.zip p.1.2).filter (fun q => q.1 == p.2)).map Prod.snd)

/-- The scale put on the diagonal: the absolute value of the first non-zero stored diagonal entry, or 1
(src/assembly/global.rs:391-399). -/
def csrScale (rows : List (List Nat × List K)) : K :=
  match (diagonalValues rows).dropWhile (fun x => x == 0) with
  | [] => 1
  | x :: _ => |x|

/-- State of the first loop: matrix rows, `dirichlet_membership`, `rows_to_visit`
(src/assembly/global.rs:411-412). -/
structure DirState (K : Type) where
  rows : List (List Nat × List K)
  member : List Bool
  visit : List Bool

/-- src/assembly/global.rs:421-430: `rows_to_visit[col_idx] = true` for the off-diagonal columns;
`none` is an index out of bounds. -/
def markVisits (r : Nat) (cols : List Nat) (visit : List Bool) : Option (List Bool) :=
  cols.foldlM (fun v c =>
    if c = r then some v
    else if c < v.length then some (v.set c true) else none) visit

/-- src/assembly/global.rs:416-430: one row of the first loop; `none` is an index out of bounds. -/
def dirichletRow (scale : K) (st : DirState K) (r : Nat) : Option (DirState K) :=
  if r < st.member.length then
    match st.rows[r]? with
    | none => none
    | some row =>
      match markVisits r row.1 st.visit with
      | none => none
      | some visit =>
        some ⟨st.rows.set r (row.1, (row.1.zip row.2).map (fun p => if p.1 = r then scale else 0)),
          st.member.set r true, visit⟩
  else none

/-- The constrained degrees of freedom in loop order, `for &node in nodes { for i in 0..d { d * node + i } }`
(src/assembly/global.rs:414-416, 469-471, 489-491). -/
def dirichletDofs (d : Nat) (nodes : List Nat) : List Nat :=
  nodes.flatMap (fun n => (List.range d).map (fun i => d * n + i))

/-- src/assembly/global.rs:444-447: zero one value if its column is constrained. -/
def clearEntry (member : List Bool) (p : Nat × K) : Option K :=
  match member[p.1]? with
  | none => none
  | some b => some (if b = true then 0 else p.2)

/-- src/assembly/global.rs:441-448: zero the constrained columns of one row. -/
def clearColumns (member : List Bool) (row : List Nat × List K) : Option (List Nat × List K) :=
  ((row.1.zip row.2).mapM (clearEntry member)).map (fun vals => (row.1, vals))

/-- src/assembly/global.rs:438-449: one step of the second loop. -/
def visitRow (member : List Bool) (rows : List (List Nat × List K)) (r : Nat) :
    Option (List (List Nat × List K)) :=
  match member[r]? with
  | none => none
  | some true => some rows
  | some false =>
    match rows[r]? with
    | none => none
    | some row => (clearColumns member row).map (rows.set r)

/-- src/assembly/global.rs:379-451 `apply_homogeneous_dirichlet_bc_csr`; `none` is a panic. -/
def dirichletCsr (m : Csr K) (nodes : List Nat) (d : Nat) : Option (Csr K) :=
  let n := d * m.rows.length
  match (dirichletDofs d nodes).foldlM (dirichletRow (csrScale m.rows))
      ⟨m.rows, List.replicate n false, List.replicate n false⟩ with
  | none => none
  | some st =>
    (((st.visit.zipIdx.filter (fun p => p.1)).map Prod.snd).foldlM (visitRow st.member) st.rows).map
      (fun rows => ⟨m.ncols, rows⟩)

/-- A dense matrix (`DMatrix`, src/assembly/global.rs:453); entries outside the bounds are never read. -/
structure Dense (K : Type) where
  nrows : Nat
  ncols : Nat
  at_ : Nat → Nat → K

/-- src/assembly/global.rs:463-467: mean of the absolute diagonal entries. -/
def denseScale (m : Dense K) : K :=
  ((List.range (min m.nrows m.ncols)).map (fun i => |m.at_ i i|)).foldl (fun a b => a + b) 0 /
    (m.nrows : K)

/-- src/assembly/global.rs:471-474: one degree of freedom; `none` is an index out of bounds. -/
def denseDof (scale : K) (m : Dense K) (r : Nat) : Option (Dense K) :=
  if r < m.ncols ∧ r < m.nrows then
    let m1 : Nat → Nat → K := fun i j => if j = r then 0 else m.at_ i j
    let m2 : Nat → Nat → K := fun i j => if i = r then 0 else m1 i j
    some { m with at_ := fun i j => if i = r ∧ j = r then scale else m2 i j }
  else none

/-- src/assembly/global.rs:453-477 `apply_homogeneous_dirichlet_bc_matrix`. -/
def dirichletDense (m : Dense K) (nodes : List Nat) (d : Nat) : Option (Dense K) :=
  (dirichletDofs d nodes).foldlM (denseDof (denseScale m)) m

/-- src/assembly/global.rs:479-495 `apply_homogeneous_dirichlet_bc_rhs`. -/
def dirichletRhs (rhs : List K) (nodes : List Nat) (d : Nat) : Option (List K) :=
  (dirichletDofs d nodes).foldlM (fun v r => if r < v.length then some (v.set r 0) else none) rhs

end Assembly
end Fenris
