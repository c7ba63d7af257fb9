import Verif.Model.ElementAssembly
import Verif.Model.Assembly
import Verif.Model.NestedVec
/-! # Model of interpolation at points
(`src/space/interpolate.rs`, `src/space/fixed_interpolator.rs`)

`none` is a panic.  Spaces are volumetric: the reference dimension is the geometry dimension. -/
set_option autoImplicit false

namespace Fenris.Interpolate
open Fenris.Local
variable {K : Type} [Field K] [LinearOrder K] {g : Nat}

/-- The part of `FindClosestElement + VolumetricFiniteElementSpace` that interpolation uses
(src/space/mod.rs).  `find` is `find_closest_element_and_reference_coords`; the other functions take an element
index.  One basis value and one gradient per node: the `populate_*` functions fill slices of that length. -/
structure InterpSpace (g : Nat) (K : Type) where
  find : Point g K → Option (Nat × Point g K)
  nodes : Nat → List Nat
  basis : Nat → Point g K → List K
  gradients : Nat → Point g K → List (Point g K)
  jacobian : Nat → Point g K → Matrix (Fin g) (Fin g) K

/-! ### Direct interpolation -/

/-- `compute_interpolation` (src/util.rs:676-704): the product of the reshaped vector with the basis
values. -/
def computeInterpolation (s : Nat) (u : List K) (basis : List K) : Option (Fin s → K) :=
  if u.length = s * basis.length then
    some (basis.zipIdx.foldl (fun acc bI => fun k => acc k + column s u bI.2 k * bI.1) fun _ => 0)
  else none

/-- `compute_interpolation_gradient` (src/util.rs:737-785); the gradients are given as columns. -/
def computeInterpolationGradient (s : Nat) (u : List K) (gs : List (Point g K)) : Option (Matrix (Fin g) (Fin s) K) :=
  if u.length = s * gs.length then
    some (gs.zipIdx.foldl (fun acc gI => acc + Matrix.vecMulVec gI.1 (column s u gI.2)) 0)
  else none

/-- One iteration of `interpolate_at_points` (interpolate.rs:176-190). -/
def interpolateAt (S : InterpSpace g K) (s : Nat) (u : List K) (p : Point g K) : Option (Fin s → K) :=
  match S.find p with
  | none => some fun _ => 0
  | some (e, xi) => (Assembly.gather s u (S.nodes e)).bind fun ul => computeInterpolation s ul (S.basis e xi)

/-- `interpolate_at_points` (interpolate.rs:161-192) with a result buffer of the right length. -/
def interpolateAtPoints (S : InterpSpace g K) (s : Nat) (u : List K) (points : List (Point g K)) :
    Option (List (Fin s → K)) :=
  points.mapM (interpolateAt S s u)

/-- One iteration of `interpolate_gradient_at_points` (interpolate.rs:232-250). -/
def gradientAt (S : InterpSpace g K) (s : Nat) (u : List K) (p : Point g K) : Option (Matrix (Fin g) (Fin s) K) :=
  match S.find p with
  | none => some 0
  | some (e, xi) =>
    (Assembly.gather s u (S.nodes e)).bind fun ul =>
      (computeInterpolationGradient s ul (S.gradients e xi)).bind fun ref =>
        (tryInverse (S.jacobian e xi)).map fun inv => inv.transpose * ref

/-- `interpolate_gradient_at_points` (interpolate.rs:214-251). -/
def gradientAtPoints (S : InterpSpace g K) (s : Nat) (u : List K) (points : List (Point g K)) :
    Option (List (Matrix (Fin g) (Fin s) K)) :=
  points.mapM (gradientAt S s u)

/-! ### Fixed interpolators -/

/-- fixed_interpolator.rs:12-37. -/
structure FixedInterpolator (K : Type) where
  maxNode : Option Nat
  offsets : List Nat
  indices : List Nat
  values : Option (List K)
  gradients : Option (List K)
deriving DecidableEq

/-- Length check of optional gradients (fixed_interpolator.rs:220-230). -/
def gradientsOk (n : Nat) : Option (List K) → Bool
  | none => true
  | some gs => if n ≠ 0 then decide (gs.length % n = 0) else decide (gs.length = 0)

/-- Length check of optional values (fixed_interpolator.rs:213-219). -/
def valuesOk (n : Nat) : Option (List K) → Bool
  | none => true
  | some vs => decide (vs.length = n)

/-- `from_compressed_values` (fixed_interpolator.rs:200-240). -/
def fromCompressed (values gradients : Option (List K)) (indices offsets : List Nat) : Option (FixedInterpolator K) :=
  if (∀ i ∈ offsets, i < indices.length + 1) ∧ valuesOk indices.length values = true ∧
      gradientsOk indices.length gradients = true then
    some ⟨indices.max?, offsets, indices, values, gradients⟩
  else none

/-- `ValuesOrGradients` (fixed_interpolator.rs:39-63). -/
inductive What where
  | both | onlyValues | onlyGradients
deriving DecidableEq

def What.computeValues : What → Bool
  | .both | .onlyValues => true
  | .onlyGradients => false

def What.computeGradients : What → Bool
  | .both | .onlyGradients => true
  | .onlyValues => false

/-- The local variables of the loop (fixed_interpolator.rs:260-266). -/
structure State (K : Type) where
  offsets : List Nat
  indices : List Nat
  values : Option (List K)
  gradients : Option (List K)

def State.init (what : What) : State K :=
  ⟨[], [], if what.computeValues then some [] else none, if what.computeGradients then some [] else none⟩

/-- lines 289-293: `populate_element_basis` fills a slice with as many entries as the element has nodes. -/
def pushValues (n : Nat) (basis : List K) : Option (List K) → Option (Option (List K))
  | none => some none
  | some vs => if basis.length = n then some (some (vs ++ basis)) else none

/-- lines 295-315: the columns of `J⁻ᵀ * ref_gradients`, flattened. -/
def pushGradients (n : Nat) (J : Matrix (Fin g) (Fin g) K) (refs : List (Point g K)) :
    Option (List K) → Option (Option (List K))
  | none => some none
  | some gs =>
    if refs.length = n then
      (tryInverse J).map fun inv => some (gs ++ refs.flatMap fun r => List.ofFn (inv.transpose.mulVec r))
    else none

/-- One iteration of the loop after the closest element was found (lines 285-316). -/
def push (S : InterpSpace g K) (st : State K) (e : Nat) (xi : Point g K) : Option (State K) :=
  (pushValues (S.nodes e).length (S.basis e xi) st.values).bind fun vs =>
    (pushGradients (S.nodes e).length (S.jacobian e xi) (S.gradients e xi) st.gradients).map fun gs =>
      ⟨st.offsets, st.indices ++ S.nodes e, vs, gs⟩

/-- `supported_node_offsets.push(node_indices.len())` (lines 275-276, 319). -/
def pushOffset (st : State K) : State K := { st with offsets := st.offsets ++ [st.indices.length] }

/-- The loop over the points (fixed_interpolator.rs:274-317); it ends at the first point without closest
element. -/
def buildLoop (S : InterpSpace g K) : List (Point g K) → State K → Option (State K)
  | [], st => some st
  | p :: ps, st =>
    match S.find p with
    | none => some (pushOffset st)
    | some (e, xi) => (push S (pushOffset st) e xi).bind (buildLoop S ps)

/-- lines 319-322. -/
def finish (n : Nat) (st : State K) : Option (FixedInterpolator K) :=
  let st' := pushOffset st
  if n + 1 = st'.offsets.length then fromCompressed st'.values st'.gradients st'.indices st'.offsets else none

/-- `from_space_and_points` (fixed_interpolator.rs:249-322). -/
def fromSpaceAndPoints (S : InterpSpace g K) (what : What) (points : List (Point g K)) : Option (FixedInterpolator K) :=
  (buildLoop S points (State.init what)).bind (finish points.length)

/-- The sequential loop of the parallel version, over the closest elements found
(fixed_interpolator.rs:359-393). -/
def buildLoopPar (S : InterpSpace g K) : List (Option (Nat × Point g K)) → State K → Option (State K)
  | [], st => some st
  | none :: _, st => some (pushOffset st)
  | some (e, xi) :: rs, st => (push S (pushOffset st) e xi).bind (buildLoopPar S rs)

/-- The parallel search writes result `i` into slot `i` (`collect_into_vec`), in any order of the points;
`order` is the order in which the searches finish. -/
def searchPar (S : InterpSpace g K) (points : List (Point g K)) (order : List Nat) :
    List (Option (Option (Nat × Point g K))) :=
  order.foldl (fun slots i => slots.set i ((points[i]?).map S.find)) (List.replicate points.length none)

/-- `from_space_and_points_par` (fixed_interpolator.rs:326-398). -/
def fromSpaceAndPointsPar (S : InterpSpace g K) (what : What) (points : List (Point g K)) (order : List Nat) :
    Option (FixedInterpolator K) :=
  ((searchPar S points order).mapM id).bind fun rs =>
    (buildLoopPar S rs (State.init what)).bind (finish points.length)

/-- `u.rows_generic(SolutionDim::dim() * j, SolutionDim::name())`. -/
def rowsAt (s : Nat) (u : List K) (j : Nat) : Option (Fin s → K) :=
  if s * j + s ≤ u.length then some (column s u j) else none

/-- The inner loop of `interpolate_into_` (lines 115-119). -/
def valueLoop (s : Nat) (u : List K) : List (K × Nat) → (Fin s → K) → Option (Fin s → K)
  | [], acc => some acc
  | (v, j) :: l, acc => (rowsAt s u j).bind fun uj => valueLoop s u l fun k => acc k + uj k * v

/-- The assertion on the length of `u` (lines 99-102, 165-168). -/
def lengthOk (s : Nat) (F : FixedInterpolator K) (u : List K) : Bool :=
  match F.maxNode with
  | none => true
  | some m => decide (s * m < u.length)

/-- `interpolate` (fixed_interpolator.rs:69-122); a result buffer of another length is a panic. -/
def FixedInterpolator.interpolate (F : FixedInterpolator K) (s : Nat) (u : List K) : Option (List (Fin s → K)) :=
  if F.offsets = [] then none
  else if lengthOk s F u = true then
    F.values.bind fun values =>
      (List.range (F.offsets.length - 1)).mapM fun i =>
        (sliceGet? values (F.offsets.getD i 0) (F.offsets.getD (i + 1) 0)).bind fun vs =>
          (sliceGet? F.indices (F.offsets.getD i 0) (F.offsets.getD (i + 1) 0)).bind fun js =>
            valueLoop s u (vs.zip js) fun _ => 0
  else none

/-- The inner loop of `interpolate_gradients_into_` (lines 188-192). -/
def gradientLoop (g s : Nat) (u : List K) : List (Point g K × Nat) → Matrix (Fin g) (Fin s) K →
    Option (Matrix (Fin g) (Fin s) K)
  | [], acc => some acc
  | (r, j) :: l, acc => (rowsAt s u j).bind fun uj => gradientLoop g s u l (acc + Matrix.vecMulVec r uj)

/-- `interpolate_gradients` (fixed_interpolator.rs:124-196). -/
def FixedInterpolator.interpolateGradients (F : FixedInterpolator K) (g s : Nat) (u : List K) :
    Option (List (Matrix (Fin g) (Fin s) K)) :=
  if F.offsets = [] then none
  else if lengthOk s F u = true then
    F.gradients.bind fun grads =>
      (List.range (F.offsets.length - 1)).mapM fun i =>
        (sliceGet? grads (g * F.offsets.getD i 0) (g * F.offsets.getD (i + 1) 0)).bind fun gs =>
          (sliceGet? F.indices (F.offsets.getD i 0) (F.offsets.getD (i + 1) 0)).bind fun js =>
            gradientLoop g s u
              (((List.range (F.offsets.getD (i + 1) 0 - F.offsets.getD i 0)).map (column g gs)).zip js) 0
  else none

end Fenris.Interpolate
