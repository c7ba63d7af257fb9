import Verif.Model.Pattern
/-! # Model of `reorder_mesh_par` including the construction of the graph -/
set_option autoImplicit false

namespace Fenris
open Assembly

/-- The lanes of a `SparsityPattern` as seen by Cuthill–McKee (`lane(i)`, src/mesh/reorder.rs:180,
210). -/
def Assembly.CsrPattern.toPattern (p : CsrPattern) : Option Pattern :=
  ((List.range p.nrows).mapM p.lane).map (fun lanes => ⟨lanes, p.ncols⟩)

/-- src/mesh/reorder.rs:54-89 `reorder_mesh_par`.  The mesh acts as element connectivity with
solution dimension 1. `sched₁`, `sched₂`, `ord`: see `parAssemblePattern`. -/
def MeshPermutation.reorderMeshPar {α : Type} (usizeMax : Nat) (sortAdj : List Nat → List Nat)
    (ord : List Nat → List Nat) (sched₁ : List (Nat × List Nat))
    (sched₂ : List (Nat × Nat) → List (Nat × Nat)) (mesh : Mesh α) : Option MeshPermutation :=
  match parAssemblePattern ord sched₁ sched₂ ⟨1, mesh.vertices.length, mesh.cells⟩ with
  | none => none
  | some p =>
    match p.toPattern with
    | none => none
    | some pattern => MeshPermutation.reorderMesh usizeMax sortAdj pattern mesh

end Fenris
