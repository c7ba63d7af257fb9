import Verif.Model.Polygon
/-! # Model of the plane parts of `fenris-geometry/src/primitives/{triangle,quad}.rs` -/
set_option autoImplicit false

namespace Fenris.Geometry
variable {K : Type} [Field K] [LinearOrder K] {d : Nat}

/-- Vertex `i % 3`. -/
def Tri.vertex (t : Tri d K) (i : Nat) : Point d K :=
  if i % 3 = 0 then t.a else if i % 3 = 1 then t.b else t.c

/-- `edge` (triangle.rs:51-56); `none` is the failed assertion. -/
def Tri.edge (t : Tri d K) (i : Nat) : Option (Segment d K) :=
  if i < 3 then some ⟨t.vertex (i + 0), t.vertex (i + 1)⟩ else none

/-- `centroid` (triangle.rs:65-71) -/
def Tri.centroid (t : Tri d K) : Point d K :=
  [t.a, t.b, t.c].foldl (fun c p => fun i => c i + p i * (1 / 3)) fun _ => 0

/-- `sides` (triangle.rs:74-79) -/
def Tri.sides (t : Tri d K) : List (Point d K) :=
  [fun i => t.b i - t.a i, fun i => t.c i - t.b i, fun i => t.a i - t.c i]

/-- `Triangle2d::orientation` (triangle.rs:86-92): `true` is counter-clockwise. -/
def Tri.orientation (t : Tri 2 K) : Bool := decide (0 ≤ t.signedArea)

/-- `SignedDistanceResult` (lib.rs) -/
structure SdfResult (K : Type) where
  featureId : Nat
  point : Point 2 K
  signedDistance : K

/-- The state of the loop of `query_signed_distance`: `inside`, and the closest segment with its
squared distance and closest point (`none` stands for the initial `T::max_value()`, larger than every
distance). -/
abbrev SdfState (K : Type) := Bool × Option (Nat × K × Point 2 K)

/-- The loop body (triangle.rs:218-236). -/
def Tri.sdfStep (t : Tri 2 K) (x : Point 2 K) (st : SdfState K) (i : Nat) : SdfState K :=
  let s : Segment 2 K := ⟨t.vertex i, t.vertex ((i + 1) % 3)⟩
  let p := s.closestPoint x
  let dv : Point 2 K := fun k => x k - p k
  let inside := if 0 < dot dv s.normalDir then false else st.1
  let best := if SimplePolygon.below (normSq dv) (st.2.map fun b => b.2.1) then some (i, normSq dv, p)
    else st.2
  (inside, best)

/-- `query_signed_distance` (triangle.rs:207-245) -/
def Tri.querySignedDistance (sqrt : K → K) (t : Tri 2 K) (x : Point 2 K) : Option (SdfResult K) :=
  let st := (List.range 3).foldl (t.sdfStep x) (true, none)
  match st.2 with
  | none => none
  | some (i, d2, p) => some ⟨i, p, (if st.1 then -1 else 1) * sqrt d2⟩

/-- `Distance::distance` (triangle.rs:197-200); `none` is the failed `unwrap`. -/
def Tri.distance (sqrt : K → K) (t : Tri 2 K) (x : Point 2 K) : Option K :=
  (t.querySignedDistance sqrt x).map fun r => max 0 r.signedDistance

/-- `Quad2d` (quad.rs:46) -/
abbrev Quad (K : Type) := Fin 4 → Point 2 K

namespace Quad

/-- Vertex `i % 4`. -/
def vertex (q : Quad K) (i : Nat) : Point 2 K := q ⟨i % 4, Nat.mod_lt _ (by omega)⟩

/-- `concave_corner` (quad.rs:53-69), with `x_prev` at the index the source uses. -/
def concaveCorner (q : Quad K) : Option Nat :=
  (List.range 4).findSome? fun i =>
    let xNext := vertex q (i + 2)
    let xCurr := vertex q (i + 1)
    let xPrev := vertex q (i + 1)
    let a : Point 2 K := fun k => xNext k - xCurr k
    let b : Point 2 K := fun k => xPrev k - xCurr k
    if a 0 * b 1 - a 1 * b 0 < 0 then some (i + 1) else none

/-- `split_into_triangle_connectivities` (quad.rs:76-88) -/
def splitConnectivities (q : Quad K) : List Nat × List Nat :=
  match concaveCorner q with
  | some i => ([(i + 2) % 4, (i + 3) % 4, (i + 0) % 4], [(i + 2) % 4, (i + 0) % 4, (i + 1) % 4])
  | none => ([0, 1, 2], [0, 2, 3])

/-- The triangle with the given vertex indices (quad.rs:95-104). -/
def triangle (q : Quad K) (c : List Nat) : Tri 2 K :=
  ⟨vertex q (c.getD 0 0), vertex q (c.getD 1 0), vertex q (c.getD 2 0)⟩

/-- `split_into_triangles` (quad.rs:90-107) -/
def splitIntoTriangles (q : Quad K) : Tri 2 K × Tri 2 K :=
  (triangle q (splitConnectivities q).1, triangle q (splitConnectivities q).2)

/-- `area` (quad.rs:109-112) -/
def area (q : Quad K) : K := (splitIntoTriangles q).1.area + (splitIntoTriangles q).2.area

/-- `Distance::distance` (quad.rs:119-122) -/
def distance (norm : Point 2 K → K) (signum : K → K) (q : Quad K) (x : Point 2 K) : Option K :=
  SimplePolygon.distance norm signum [q 0, q 1, q 2, q 3] x

end Quad
end Fenris.Geometry
