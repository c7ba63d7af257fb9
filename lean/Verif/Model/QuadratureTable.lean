import Mathlib.Data.List.Basic
/-! # Model of quadrature tables, `src/assembly/local/quadrature_table.rs`, and of the buffer they
fill, `src/assembly/buffers.rs`

Points, weights and data have arbitrary types `P`, `W`, `D`. A `NestedVec` is a list of lists
(see C01 for the flat representation). `none` is a panic. -/
set_option autoImplicit false

namespace Fenris
namespace Quadrature

variable {P W D : Type}

/-- The buffer's three arrays (src/assembly/buffers.rs:105-114). -/
structure Buffer (P W D : Type) where
  points : List P
  weights : List W
  data : List D
deriving DecidableEq, Repr

/-- `clone_from_slice` after the length assertion (e.g. quadrature_table.rs:187-188): the destination
takes the contents of the source when the lengths agree. -/
def copyInto {α : Type} (dst src : List α) : Option (List α) :=
  if dst.length = src.length then some src else none

/-- The trait `QuadratureTable` (quadrature_table.rs:11-40). The `populate` functions take the previous
contents of the output arrays and return the new contents. -/
structure Table (P W D : Type) where
  size : Nat → Option Nat
  populateQuadrature : Nat → List P → List W → Option (List P × List W)
  populateData : Nat → List D → Option (List D)

/-- `populate_element_quadrature_and_data` (quadrature_table.rs:30-39). -/
def Table.populateBoth (t : Table P W D) (e : Nat) (p : List P) (w : List W) (d : List D) :
    Option (Buffer P W D) :=
  (t.populateQuadrature e p w).bind fun pw => (t.populateData e d).map fun d' => ⟨pw.1, pw.2, d'⟩

/-- `Vec::resize`. -/
def vecResize {α : Type} (l : List α) (n : Nat) (fill : α) : List α :=
  l.take n ++ List.replicate (n - l.length) fill

/-- `QuadratureBuffer::resize` (src/assembly/buffers.rs:160-164); the fills are the origin, zero and the
default datum. -/
def Buffer.resize [Inhabited P] [Inhabited W] [Inhabited D] (b : Buffer P W D) (n : Nat) : Buffer P W D :=
  ⟨vecResize b.points n default, vecResize b.weights n default, vecResize b.data n default⟩

/-- `populate_element_quadrature_from_table` (src/assembly/buffers.rs:167-180). -/
def Buffer.populate [Inhabited P] [Inhabited W] [Inhabited D] (b : Buffer P W D) (e : Nat)
    (t : Table P W D) : Option (Buffer P W D) :=
  (t.size e).bind fun n => let b' := b.resize n; t.populateBoth e b'.points b'.weights b'.data

/-- `populate_element_weights_and_points_from_table` (src/assembly/buffers.rs:182-190): the data array is
only resized; its type need not be that of the table's data. -/
def Buffer.populateWeightsAndPoints {D' : Type} [Inhabited P] [Inhabited W] [Inhabited D] (b : Buffer P W D) (e : Nat)
    (t : Table P W D') : Option (Buffer P W D) :=
  (t.size e).bind fun n =>
    let b' := b.resize n
    (t.populateQuadrature e b'.points b'.weights).map fun pw => ⟨pw.1, pw.2, b'.data⟩

/-- The per-rule loop of `check_rules_consistency` (quadrature_table.rs:111-125): `izip!` of three tables. -/
def rulesConsistent : List (List P) → List (List W) → List (List D) → Bool
  | p :: ps, w :: ws, d :: ds => p.length == w.length && p.length == d.length && rulesConsistent ps ws ds
  | _, _, _ => true

/-- `check_rules_consistency` (quadrature_table.rs:93-126). -/
def checkRulesConsistency (points : List (List P)) (weights : List (List W)) (data : List (List D)) : Bool :=
  points.length == weights.length && points.length == data.length && rulesConsistent points weights data

/-- `GeneralQuadratureTable` (quadrature_table.rs:57-68). -/
structure General (P W D : Type) where
  points : List (List P)
  weights : List (List W)
  data : List (List D)
deriving DecidableEq, Repr

/-- `unit_data_table_for_weights` (quadrature_table.rs:70-76). -/
def unitData {α : Type} (weights : List (List α)) : List (List Unit) :=
  weights.map fun w => List.replicate w.length ()

/-- `GeneralQuadratureTable::from_points_weights_and_data` (quadrature_table.rs:134-141). -/
def General.new (points : List (List P)) (weights : List (List W)) (data : List (List D)) :
    Option (General P W D) :=
  if checkRulesConsistency points weights data then some ⟨points, weights, data⟩ else none

/-- `GeneralQuadratureTable::from_points_and_weights` (quadrature_table.rs:84-87). -/
def General.fromPointsAndWeights (points : List (List P)) (weights : List (List W)) :
    Option (General P W Unit) :=
  General.new points weights (unitData weights)

/-- `into_parts` (quadrature_table.rs:143-149). -/
def General.intoParts (t : General P W D) : List (List P) × List (List W) × List (List D) :=
  (t.points, t.weights, t.data)

/-- The trait implementation (quadrature_table.rs:172-209). -/
def General.table (t : General P W D) : Table P W D where
  size e := t.weights[e]?.map List.length
  populateData e d := t.data[e]?.bind fun de => copyInto d de
  populateQuadrature e p w :=
    t.points[e]?.bind fun pe => t.weights[e]?.bind fun we =>
      (copyInto p pe).bind fun p' => (copyInto w we).map fun w' => (p', w')

/-- `UniformQuadratureTable` (quadrature_table.rs:213-224). -/
structure Uniform (P W D : Type) where
  points : List P
  weights : List W
  data : List D
deriving DecidableEq, Repr

/-- `UniformQuadratureTable::from_points_weights_and_data` (quadrature_table.rs:248-253). -/
def Uniform.new (points : List P) (weights : List W) (data : List D) : Option (Uniform P W D) :=
  if points.length = weights.length ∧ points.length = data.length then some ⟨points, weights, data⟩ else none

/-- `UniformQuadratureTable::from_points_and_weights` (quadrature_table.rs:232-235). -/
def Uniform.fromPointsAndWeights (points : List P) (weights : List W) : Option (Uniform P W Unit) :=
  Uniform.new points weights (List.replicate points.length ())

/-- `from_quadrature_and_uniform_data` (quadrature_table.rs:255-262). -/
def Uniform.fromQuadratureAndData (q : List W × List P) (d : D) : Option (Uniform P W D) :=
  Uniform.new q.2 q.1 (List.replicate q.1.length d)

/-- `from_quadrature` (quadrature_table.rs:237-239). -/
def Uniform.fromQuadrature (q : List W × List P) : Option (Uniform P W Unit) :=
  Uniform.fromQuadratureAndData q ()

/-- `with_uniform_data` (quadrature_table.rs:264-266). -/
def Uniform.withUniformData {D' : Type} (t : Uniform P W D) (d : D') : Option (Uniform P W D') :=
  Uniform.fromQuadratureAndData (t.weights, t.points) d

/-- The trait implementation (quadrature_table.rs:278-297). -/
def Uniform.table (t : Uniform P W D) : Table P W D where
  size _ := some t.points.length
  populateData _ d := copyInto d t.data
  populateQuadrature _ p w :=
    (copyInto p t.points).bind fun p' => (copyInto w t.weights).map fun w' => (p', w')

/-- `CompactQuadratureTable` (quadrature_table.rs:312-324). -/
structure Compact (P W D : Type) where
  points : List (List P)
  weights : List (List W)
  data : List (List D)
  ruleMap : List Nat
deriving DecidableEq, Repr

/-- `from_quadrature_rules_and_map` (quadrature_table.rs:357-378). -/
def Compact.new (points : List (List P)) (weights : List (List W)) (data : List (List D))
    (ruleMap : List Nat) : Option (Compact P W D) :=
  if checkRulesConsistency points weights data && ruleMap.all (fun r => r < points.length) then
    some ⟨points, weights, data, ruleMap⟩
  else none

/-- `from_points_weights_and_map` (quadrature_table.rs:332-339). -/
def Compact.fromPointsWeightsAndMap (points : List (List P)) (weights : List (List W))
    (ruleMap : List Nat) : Option (Compact P W Unit) :=
  Compact.new points weights (unitData weights) ruleMap

/-- The trait implementation (quadrature_table.rs:394-438); `rule_index_for_element` is 380-382. -/
def Compact.table (t : Compact P W D) : Table P W D where
  size e := t.ruleMap[e]?.bind fun r => t.points[r]?.map List.length
  populateData e d := t.ruleMap[e]?.bind fun r => t.data[r]?.bind fun dr => copyInto d dr
  populateQuadrature e p w :=
    t.ruleMap[e]?.bind fun r => t.points[r]?.bind fun pr => t.weights[r]?.bind fun wr =>
      (copyInto p pr).bind fun p' => (copyInto w wr).map fun w' => (p', w')

end Quadrature
end Fenris
