import Verif.Model.Interpolate
/-! # Model of the interpolation buffers (`src/assembly/buffers.rs`) and of the loops that use them
(`src/space/interpolate.rs`)

`none` is a panic. A buffer survives from one element to the next, and from one space to the next. -/
set_option autoImplicit false

namespace Fenris.Buffers
open Fenris.Local Fenris.Interpolate
variable {K : Type} [Field K] {r g : Nat}

/-- `FiniteElementSpace` (src/space/mod.rs:21-79) as far as the buffers use it: reference dimension `r`, geometry dimension `g`. -/
structure FeSpace (r g : Nat) (K : Type) where
  nodes : Nat → List Nat
  basis : Nat → Point r K → List K
  gradients : Nat → Point r K → List (Point r K)
  jacobian : Nat → Point r K → Matrix (Fin g) (Fin r) K
  map : Nat → Point r K → Point g K

/-- `BasisFunctionBuffer` (buffers.rs:13-18). The matrix of gradients is a number of rows and a list of columns. -/
structure BasisBuffer (K : Type) where
  nodes : List Nat
  values : List K
  rows : Nat
  columns : List (List K)

/-- `Default` (buffers.rs:20-28). -/
def BasisBuffer.empty : BasisBuffer K := ⟨[], [], 0, []⟩

/-- `Vec::resize`: cut off or filled up at the end. -/
def resizeList {A : Type} (n : Nat) (fill : A) (l : List A) : List A := l.take n ++ List.replicate (n - l.length) fill

/-- `resize` (buffers.rs:31-36); `usizeMax` is `usize::MAX`. -/
def BasisBuffer.resize (usizeMax : Nat) (b : BasisBuffer K) (n r : Nat) : BasisBuffer K where
  nodes := resizeList n usizeMax b.nodes
  values := resizeList n 0 b.values
  rows := r
  columns := resizeList n (List.replicate r 0) (b.columns.map (resizeList r 0))

/-- `copy_from_slice` and the assertions before it (src/space/space_impl.rs:40-52,77-110): the lengths must agree. -/
def fillSlice {A : Type} (dst src : List A) : Option (List A) := if dst.length = src.length then some src else none

/-- `populate_element_nodes_from_space` (buffers.rs:38-44). -/
def BasisBuffer.populateNodes (S : FeSpace r g K) (b : BasisBuffer K) (e : Nat) : Option (BasisBuffer K) :=
  (fillSlice b.nodes (S.nodes e)).map fun ns => { b with nodes := ns }

/-- `populate_element_basis_values_from_space` (buffers.rs:47-57). -/
def BasisBuffer.populateValues (S : FeSpace r g K) (b : BasisBuffer K) (e : Nat) (xi : Point r K) : Option (BasisBuffer K) :=
  (fillSlice b.values (S.basis e xi)).map fun vs => { b with values := vs }

/-- `populate_element_basis_gradients_from_space` (buffers.rs:59-74); the view has a fixed number of rows. -/
def BasisBuffer.populateGradients (S : FeSpace r g K) (b : BasisBuffer K) (e : Nat) (xi : Point r K) : Option (BasisBuffer K) :=
  if b.rows = r then
    (fillSlice b.columns ((S.gradients e xi).map List.ofFn)).map fun cs => { b with columns := cs }
  else none

/-- `element_gradients` (buffers.rs:88-90). -/
def BasisBuffer.gradients (r : Nat) (b : BasisBuffer K) : Option (List (Point r K)) :=
  if b.rows = r then some (b.columns.map fun c => fun i : Fin r => c.getD i 0) else none

/-- `InterpolationBuffer` (buffers.rs:222-226). -/
structure InterpBuffer (K : Type) where
  basis : BasisBuffer K
  uLocal : List K

/-- `Default` (buffers.rs:228-235). -/
def InterpBuffer.empty : InterpBuffer K := ⟨.empty, []⟩

/-- `InterpolationElementBuffer` (buffers.rs:237-247); the space is an argument of the functions. -/
structure ElementBuffer (r : Nat) (K : Type) where
  basis : BasisBuffer K
  uLocal : List K
  point : Point r K
  element : Nat

/-- `gather_global_to_local` (src/assembly/global.rs:751-768) into a vector that exists. -/
def gatherInto (s : Nat) (global loc : List K) (nodes : List Nat) : Option (List K) :=
  if loc.length = nodes.length * s then Assembly.gather s global nodes else none

/-- `prepare_element_in_space` (buffers.rs:250-284). -/
def prepare (usizeMax : Nat) (S : FeSpace r g K) (buf : InterpBuffer K) (e : Nat) (u : List K) (s : Nat) : Option (ElementBuffer r K) :=
  let n := (S.nodes e).length
  ((buf.basis.resize usizeMax n r).populateNodes S e).bind fun b =>
    (gatherInto s u (resizeList (s * n) 0 buf.uLocal) b.nodes).map fun ul => ⟨b, ul, fun _ => 0, e⟩

/-- The buffer after the element buffer that borrowed it is gone. -/
def ElementBuffer.release (eb : ElementBuffer r K) : InterpBuffer K := ⟨eb.basis, eb.uLocal⟩

/-- `BufferUpdate` (buffers.rs:287-292). -/
inductive Update where
  | values | gradients | both
deriving DecidableEq

/-- `matches!(update, BasisValues | Both)` (buffers.rs:303). -/
def Update.hasValues : Update → Bool
  | .values | .both => true
  | .gradients => false

/-- `matches!(update, BasisGradients | Both)` (buffers.rs:307). -/
def Update.hasGradients : Update → Bool
  | .gradients | .both => true
  | .values => false

/-- `update_reference_point` (buffers.rs:302-312). -/
def ElementBuffer.update (S : FeSpace r g K) (eb : ElementBuffer r K) (xi : Point r K) (what : Update) : Option (ElementBuffer r K) :=
  (if what.hasValues then eb.basis.populateValues S eb.element xi else some eb.basis).bind fun b =>
    (if what.hasGradients then b.populateGradients S eb.element xi else some b).map fun b' =>
      { eb with basis := b', point := xi }

/-- A sequence of updates. -/
def ElementBuffer.updates (S : FeSpace r g K) : ElementBuffer r K → List (Point r K × Update) → Option (ElementBuffer r K)
  | eb, [] => some eb
  | eb, (xi, what) :: rest => (eb.update S xi what).bind fun eb' => eb'.updates S rest

/-- `map_reference_coords` (buffers.rs:314-317). -/
def ElementBuffer.mapReferenceCoords (S : FeSpace r g K) (eb : ElementBuffer r K) : Point g K := S.map eb.element eb.point

/-- `element_reference_jacobian` (buffers.rs:319-322). -/
def ElementBuffer.jacobian (S : FeSpace r g K) (eb : ElementBuffer r K) : Matrix (Fin g) (Fin r) K := S.jacobian eb.element eb.point

/-- `interpolate` (buffers.rs:324-330). -/
def ElementBuffer.interpolate (s : Nat) (eb : ElementBuffer r K) : Option (Fin s → K) :=
  computeInterpolation s eb.uLocal eb.basis.values

/-- `interpolate_ref_gradient` (buffers.rs:332-342). -/
def ElementBuffer.refGradient (s : Nat) (eb : ElementBuffer r K) : Option (Matrix (Fin r) (Fin s) K) :=
  (eb.basis.gradients r).bind (computeInterpolationGradient s eb.uLocal)

/-! ### The loops of `src/space/interpolate.rs` with their buffer -/

variable [LinearOrder K]

/-- A space that can be searched, as the buffers see it. -/
def ofInterp (S : InterpSpace g K) : FeSpace g g K := ⟨S.nodes, S.basis, S.gradients, S.jacobian, fun _ x => x⟩

/-- `interpolate_at_points` (interpolate.rs:161-192) with the buffer of the thread: the values and the buffer afterwards. -/
def interpolateLoop (usizeMax : Nat) (S : InterpSpace g K) (s : Nat) (u : List K) :
    InterpBuffer K → List (Point g K) → Option (List (Fin s → K) × InterpBuffer K)
  | buf, [] => some ([], buf)
  | buf, p :: ps =>
    match S.find p with
    | none => (interpolateLoop usizeMax S s u buf ps).map fun x => ((fun _ => 0) :: x.1, x.2)
    | some (e, xi) =>
      (prepare usizeMax (ofInterp S) buf e u s).bind fun eb =>
        (eb.update (ofInterp S) xi .values).bind fun eb' =>
          (eb'.interpolate s).bind fun v =>
            (interpolateLoop usizeMax S s u eb'.release ps).map fun x => (v :: x.1, x.2)

/-- `interpolate_gradient_at_points` (interpolate.rs:214-251) with the buffer of the thread. -/
def gradientLoop (usizeMax : Nat) (S : InterpSpace g K) (s : Nat) (u : List K) :
    InterpBuffer K → List (Point g K) → Option (List (Matrix (Fin g) (Fin s) K) × InterpBuffer K)
  | buf, [] => some ([], buf)
  | buf, p :: ps =>
    match S.find p with
    | none => (gradientLoop usizeMax S s u buf ps).map fun x => (0 :: x.1, x.2)
    | some (e, xi) =>
      (prepare usizeMax (ofInterp S) buf e u s).bind fun eb =>
        (eb.update (ofInterp S) xi .gradients).bind fun eb' =>
          (eb'.refGradient s).bind fun ref =>
            (tryInverse (eb'.jacobian (ofInterp S))).bind fun inv =>
              (gradientLoop usizeMax S s u eb'.release ps).map fun x => (inv.transpose * ref :: x.1, x.2)

end Fenris.Buffers
