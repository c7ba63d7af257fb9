import Verif.Model.Lines
/-! # Model of `fenris-geometry/src/polytope.rs`, `polygon.rs` and the plane parts of
`primitives/{triangle,quad}.rs`

A polygon is the list of its vertices.  The Euclidean norm is a parameter `norm`; dividing a zero
vector by its norm is NaN in Rust and zero here, so theorems that depend on normalised vectors assume
them to be non-zero. -/
set_option autoImplicit false

namespace Fenris.Geometry
variable {K : Type} [Field K] [LinearOrder K] {d : Nat}

/-- nalgebra's `normalize`. -/
def normalize (norm : Point d K → K) (v : Point d K) : Point d K := fun i => v i / norm v

/-- itertools' `tuple_windows` for pairs. -/
def windows2 {α : Type} (l : List α) : List (α × α) := l.zip l.tail

/-- `Triangle` (triangle.rs:18). -/
structure Tri (d : Nat) (K : Type) where
  a : Point d K
  b : Point d K
  c : Point d K

/-- `Triangle2d::signed_area` (triangle.rs:95-102); `perp` written out. -/
def Tri.signedArea (t : Tri 2 K) : K :=
  1 / 2 * ((t.b 0 - t.a 0) * (t.c 1 - t.a 1) - (t.b 1 - t.a 1) * (t.c 0 - t.a 0))

/-- `Triangle2d::area` (triangle.rs:104-106) -/
def Tri.area (t : Tri 2 K) : K := |t.signedArea|

/-- nalgebra's cross product of 3-vectors. -/
def cross3 (u v : Point 3 K) : Point 3 K :=
  ![u 1 * v 2 - u 2 * v 1, u 2 * v 0 - u 0 * v 2, u 0 * v 1 - u 1 * v 0]

/-- `Triangle3d::normal_dir` (triangle.rs:114-122) -/
def Tri.normalDir (t : Tri 3 K) : Point 3 K :=
  cross3 (fun i => t.b i - t.a i) fun i => t.c i - t.a i

namespace ConvexPolygon

/-- polytope.rs:52-59: the cyclic sequence of `n + 1` vertices, in windows of two (no vertices: no
edges). -/
def edges (V : List (Point d K)) : List (Point d K × Point d K) := windows2 (V ++ V.take 1)

/-- polytope.rs:85-95 -/
def halfPlanes (norm : Point 2 K → K) (V : List (Point 2 K)) : List (HalfSpace 2 K) :=
  (edges V).filterMap fun e =>
    if e.1 ≠ e.2 then
      some ⟨e.1, normalize norm ![e.2 1 - e.1 1, -(e.2 0 - e.1 0)]⟩
    else none

/-- polytope.rs:98-107; `none` is the panic of `unimplemented!`. -/
def containsPoint (norm : Point 2 K → K) (V : List (Point 2 K)) (p : Point 2 K) : Option Bool :=
  if V.length = 1 then some (decide (V.head? = some p))
  else if V.length = 2 then none
  else some ((halfPlanes norm V).all fun h => h.containsPoint p)

/-- The loop body of `intersect_halfplane` (polytope.rs:125-144): the vertices contributed by one
edge.  `none` is the panic of `expect`. -/
def clipEdge (norm : Point 2 K → K) (h : HalfSpace 2 K) (e : Point 2 K × Point 2 K) :
    Option (List (Point 2 K)) :=
  let c1 := h.containsPoint e.1
  let c2 := h.containsPoint e.2
  let kept := if c1 then [e.1] else []
  if (c1 && !c2) || (!c1 && c2) then
    (h.surface.intersect ⟨e.1, normalize norm fun i => e.2 i - e.1 i⟩).map fun x => kept ++ [x]
  else some kept

/-- polytope.rs:114-149 -/
def intersectHalfplane (norm : Point 2 K → K) (V : List (Point 2 K)) (h : HalfSpace 2 K) :
    Option (List (Point 2 K)) :=
  if V.length = 1 then some (V.filter fun v => h.containsPoint v)
  else ((edges V).mapM (clipEdge norm h)).map List.flatten

/-- `LineSegment2d::intersect_polygon` (line.rs:258-264) -/
def segmentIntersect (norm : Point 2 K → K) (s : Segment 2 K) (V : List (Point 2 K)) :
    Option (Segment 2 K) :=
  (halfPlanes norm V).foldlM (fun r h => r.intersectHalfPlane h) s

/-- The branch for a segment (polytope.rs:156-161). -/
def segmentBranch (norm : Point 2 K → K) (a b : Point 2 K) (W : List (Point 2 K)) :
    List (Point 2 K) :=
  match segmentIntersect norm ⟨a, b⟩ W with
  | some s => [s.start, s.stop]
  | none => []

/-- polytope.rs:152-171; `none` is a panic (`unimplemented!` for points, or in the clipping). -/
def intersectPolygon (norm : Point 2 K → K) (V W : List (Point 2 K)) : Option (List (Point 2 K)) :=
  if V.length = 1 ∨ W.length = 1 then none
  else
    match V, W with
    | [a, b], W => some (segmentBranch norm a b W)
    | V, [a, b] => some (segmentBranch norm a b V)
    | V, W => (halfPlanes norm W).foldlM (fun r h => intersectHalfplane norm r h) V

/-- polytope.rs:175-182 -/
def triangulate (V : List (Point 2 K)) : List (Tri 2 K) :=
  match V with
  | [] => []
  | v :: V' => (((edges (v :: V')).take (V'.length + 1 - 1)).drop 1).map fun e => ⟨v, e.1, e.2⟩

end ConvexPolygon

namespace SimplePolygon

/-- Vertex `i` of a non-empty polygon; the index expressions `vertices[k % n]` below are always in
range. -/
def vertex (V : List (Point d K)) (i : Nat) : Point d K := V.getD (i % V.length) fun _ => 0

/-- `signed_area` (polygon.rs:164-181) -/
def signedArea (V : List (Point 2 K)) : K :=
  (List.range V.length).foldl (fun area i =>
    area + (vertex V (i + 1) 1 - vertex V (i + 0) 1) * (vertex V (i + 1) 0 + vertex V (i + 0) 0)) 0
    * (1 / 2)

/-- `area` (polygon.rs:184-186) -/
def area (V : List (Point 2 K)) : K := |signedArea V|

/-- `orientation` (polygon.rs:188-195): `true` is counter-clockwise. -/
def orientation (V : List (Point 2 K)) : Bool := decide (0 < signedArea V)

/-- `SimplePolygon3d::area_vector` (polygon.rs:250-260) -/
def areaVector (V : List (Point 3 K)) : Point 3 K :=
  (1 / 2 : K) • (List.range V.length).foldl (fun area i =>
    area + cross3 (vertex V (i + 0)) (vertex V (i + 1))) 0

/-- `ConvexPolygon3d::compute_area_vector` (lib.rs:421-439); `none` is the panic for fewer than three
vertices. -/
def computeAreaVector (V : List (Point 3 K)) : Option (Point 3 K) :=
  if 3 ≤ V.length then
    some ((List.range' 1 (V.length - 1 - 1)).foldl (fun acc i =>
      acc + (1 / 2 : K) • cross3 (fun k => V.getD i 0 k - V.getD 0 0 k)
        (fun k => V.getD (i + 1) 0 k - V.getD 0 0 k)) 0)
  else none

/-- `triangulate_at_point` (polygon.rs:399-411) -/
def triangulateAtPoint (V : List (Point d K)) (p : Point d K) : List (Tri d K) :=
  (List.range V.length).map fun i => ⟨p, vertex V (i + 0), vertex V (i + 1)⟩

/-- `triangulate` (polygon.rs:415-431) -/
def triangulate (V : List (Point d K)) : List (Tri d K) :=
  if V.length = 0 then []
  else (List.range' 1 (V.length - 1 - 1)).map fun i => ⟨vertex V 0, vertex V (i + 0), vertex V (i + 1)⟩

/-- The loop body of `SimplePolygon3d::intersect_half_space` (polygon.rs:273-301). -/
def clipEdge (h : HalfSpace 3 K) (e : Point 3 K × Point 3 K) : List (Point 3 K) :=
  let ca := h.containsPoint e.1
  let cb := h.containsPoint e.2
  let seg : Segment 3 K := ⟨e.1, e.2⟩
  let t := ((seg.toLine.intersectPlaneParametric h).map fun t => clamp t 0 1).getD 0
  (if ca then [e.1] else []) ++ if ca != cb then [seg.pointFromParameter t] else []

/-- `SimplePolygon3d::intersect_half_space` (polygon.rs:266-305) -/
def intersectHalfSpace (V : List (Point 3 K)) (h : HalfSpace 3 K) : List (Point 3 K) :=
  (windows2 (V ++ V.take 1)).flatMap (clipEdge h)

/-- `get_edge` (polygon.rs:334-338) -/
def getEdge (V : List (Point 2 K)) (i : Nat) : Option (Segment 2 K) :=
  match V[i]?, V[(i + 1) % V.length]? with
  | some a, some b => some ⟨a, b⟩
  | _, _ => none

/-- `pseudonormal_on_edge` (polygon.rs:341-364) -/
def pseudonormalOnEdge (norm : Point 2 K → K) (V : List (Point 2 K)) (i : Nat) (t : K) :
    Option (Point 2 K) :=
  match getEdge V i with
  | none => none
  | some e =>
    let n := normalize norm e.normalDir
    if t = 0 then
      match getEdge V (((i + V.length) - 1) % V.length) with
      | none => none
      | some e' =>
        let n' := normalize norm e'.normalDir
        some (normalize norm fun k => (n' k + n k) / 2)
    else if t = 1 then
      match getEdge V ((i + 1) % V.length) with
      | none => none
      | some e' =>
        let n' := normalize norm e'.normalDir
        some (normalize norm fun k => (n' k + n k) / 2)
    else some n

/-- `dist2 < smallest` where `none` is the initial value `T::max_value()`, larger than every
distance. -/
def below (x : K) (bound : Option K) : Bool :=
  match bound with
  | none => true
  | some b => decide (x < b)

/-- `ClosestEdge` (polygon.rs:30-38) -/
structure ClosestEdge (K : Type) where
  signedDistance : K
  edgeParameter : K
  edgePoint : Point 2 K
  edgeIndex : Nat

/-- The squared distance computed in the loops over the edges (polygon.rs:77-78, 133-134). -/
def edgeDist2 (x : Point 2 K) (e : Segment 2 K) : K := normSq fun i => x i - e.closestPoint x i

/-- The search loop of `closest_edge` (polygon.rs:72-83); `for_each_edge` (polygon.rs:62-69) visits
the edges in order.  The state is the best index with its squared distance. -/
def closestLoop (V : List (Point 2 K)) (x : Point 2 K) : Option (Nat × K) :=
  (List.range V.length).foldl (fun best i =>
    match getEdge V i with
    | none => best
    | some e =>
      if below (edgeDist2 x e) (best.map Prod.snd) then some (i, edgeDist2 x e) else best) none

/-- `closest_edge` (polygon.rs:71-102).  The outer `none` is a failed `unwrap`. -/
def closestEdge (norm : Point 2 K → K) (signum : K → K) (V : List (Point 2 K)) (x : Point 2 K) :
    Option (Option (ClosestEdge K)) :=
  match closestLoop V x with
  | none => some none
  | some (i, _) =>
    match getEdge V i with
    | none => none
    | some e =>
      let t := e.closestPointParametric x
      match pseudonormalOnEdge norm V i t with
      | none => none
      | some n =>
        let c := e.pointFromParameter t
        let dv : Point 2 K := fun k => x k - c k
        some (some ⟨signum (dot dv n) * norm dv, t, c, i⟩)

/-- `Distance::distance` for polygons (polygon.rs:384-389). -/
def distance (norm : Point 2 K → K) (signum : K → K) (V : List (Point 2 K)) (x : Point 2 K) :
    Option K :=
  match closestEdge norm signum V x with
  | some (some c) => some (max c.signedDistance 0)
  | _ => none

/-- The loop of `intersects_segment` (polygon.rs:119-141): the flag, and for each end point the index
of the closest edge among the edges that the segment does not cross, with its squared distance. -/
def segmentLoop (V : List (Point 2 K)) (s : Segment 2 K) :
    Bool × (Nat × Option K) × (Nat × Option K) :=
  (List.range V.length).foldl (fun st i =>
    match getEdge V i with
    | none => st
    | some e =>
      if (e.intersectSegmentParametric s).isSome then (true, st.2)
      else
        let upd := fun (p : Point 2 K) (best : Nat × Option K) =>
          if below (edgeDist2 p e) best.2 then (i, some (edgeDist2 p e)) else best
        (st.1, upd s.start st.2.1, upd s.stop st.2.2)) (false, (0, none), (0, none))

/-- The sign test for an end point (polygon.rs:144-153). -/
def endpointInside (norm : Point 2 K → K) (V : List (Point 2 K)) (p : Point 2 K) (i : Nat) :
    Option Bool :=
  match getEdge V i with
  | none => none
  | some e =>
    let t := e.closestPointParametric p
    match pseudonormalOnEdge norm V i t with
    | none => none
    | some n => some (decide (dot (fun k => p k - e.pointFromParameter t k) n ≤ 0))

/-- `intersects_segment` (polygon.rs:104-157); the outer `none` is a failed `unwrap`.  The flag
computed by the loop is not used by the source either. -/
def intersectsSegment (norm : Point 2 K → K) (V : List (Point 2 K)) (s : Segment 2 K) : Option Bool :=
  if V.length = 0 then some false
  else
    match endpointInside norm V s.start (segmentLoop V s).2.1.1 with
    | none => none
    | some true => some true
    | some false => endpointInside norm V s.stop (segmentLoop V s).2.2.1

end SimplePolygon
end Fenris.Geometry
