import Mathlib.Tactic.Ring
import Mathlib.Tactic.NormNum
import Mathlib.Tactic.IntervalCases
import Mathlib.Algebra.CharZero.Defs
import Verif.Spec.ElementFaces
/-! Restriction of the basis functions to the faces of the reference elements (for C39) -/
set_option autoImplicit false
set_option linter.unusedSectionVars false

set_option linter.unusedTactic false
set_option linter.unreachableTactic false
namespace Fenris
namespace FaceTrace
open Element Spec
variable {K : Type} [Field K] [CharZero K]

/-- Basis of the face, in terms of the face coordinates. -/
def faceBasis : (k : FaceKind) → Point k.dim K → List K
  | .seg2, s => [(1 - s 0) / 2, (1 + s 0) / 2]
  | .seg3, s => [s 0 * (s 0 - 1) / 2, 1 - s 0 * s 0, s 0 * (s 0 + 1) / 2]
  | .tri3, s => tri3Basis s
  | .tri6, s => tri6Basis s
  | .quad4, s => quad4Basis s
  | .quad8, s => 
    [(1 - s 0) * (1 - s 1) * (-s 0 - s 1 - 1) / 4, (1 + s 0) * (1 - s 1) * (s 0 - s 1 - 1) / 4,
     (1 + s 0) * (1 + s 1) * (s 0 + s 1 - 1) / 4, (1 - s 0) * (1 + s 1) * (-s 0 + s 1 - 1) / 4,
     (1 - s 0 * s 0) * (1 - s 1) / 2, (1 + s 0) * (1 - s 1 * s 1) / 2,
     (1 - s 0 * s 0) * (1 + s 1) / 2, (1 - s 0) * (1 - s 1 * s 1) / 2]
  | .quad9, s => quad9Basis s

/-- The entry of `bs` at the position of `i` in `f`, and zero if `i` is not in `f`. -/
def scatter (f : List Nat) (bs : List K) (i : Nat) : K :=
  (List.zipWith (fun j b => if j = i then b else 0) f bs).sum

set_option maxHeartbeats 2000000 in
theorem basis_tri3 (f : List Nat) (hf : f ∈ localFaces .tri3) (s : Point 1 K) :
    basis .tri3 (facePoint .tri3 .seg2 f s) =
      (List.range 3).map (scatter f (faceBasis .seg2 s)) := by
  simp only [localFaces, List.mem_cons, List.not_mem_nil, or_false] at hf
  rcases hf with rfl | rfl | rfl <;>
  · simp [-mul_eq_zero, -mul_eq_mul_left_iff, -mul_eq_mul_right_iff, -div_eq_zero_iff,
      facePoint, combine, FaceKind.corners, FaceKind.weights, refNodes, basis,
      List.range_succ, faceBasis, scatter, tri3Nodes, tri3Basis, tri3Psi]
    repeat' apply And.intro
    all_goals (first | ring1 | (left; ring1) | (right; ring1))

set_option maxHeartbeats 2000000 in
theorem basis_quad4 (f : List Nat) (hf : f ∈ localFaces .quad4) (s : Point 1 K) :
    basis .quad4 (facePoint .quad4 .seg2 f s) =
      (List.range 4).map (scatter f (faceBasis .seg2 s)) := by
  simp only [localFaces, List.mem_cons, List.not_mem_nil, or_false] at hf
  rcases hf with rfl | rfl | rfl | rfl <;>
  · simp [-mul_eq_zero, -mul_eq_mul_left_iff, -mul_eq_mul_right_iff, -div_eq_zero_iff,
      facePoint, combine, FaceKind.corners, FaceKind.weights, refNodes, basis,
      List.range_succ, faceBasis, scatter, quad4Nodes, quad4Basis, quad4Phi]
    repeat' apply And.intro
    all_goals (first | ring1 | (left; ring1) | (right; ring1))

set_option maxHeartbeats 2000000 in
theorem basis_tri6 (f : List Nat) (hf : f ∈ localFaces .tri6) (s : Point 1 K) :
    basis .tri6 (facePoint .tri6 .seg3 f s) =
      (List.range 6).map (scatter f (faceBasis .seg3 s)) := by
  simp only [localFaces, List.mem_cons, List.not_mem_nil, or_false] at hf
  rcases hf with rfl | rfl | rfl <;>
  · simp [-mul_eq_zero, -mul_eq_mul_left_iff, -mul_eq_mul_right_iff, -div_eq_zero_iff,
      facePoint, combine, FaceKind.corners, FaceKind.weights, refNodes, basis,
      List.range_succ, faceBasis, scatter, tri6Nodes, tri6Basis, quadVertex, quadEdge, tri3Psi]
    repeat' apply And.intro
    all_goals (first | ring1 | (left; ring1) | (right; ring1))

set_option maxHeartbeats 2000000 in
theorem basis_quad9 (f : List Nat) (hf : f ∈ localFaces .quad9) (s : Point 1 K) :
    basis .quad9 (facePoint .quad9 .seg3 f s) =
      (List.range 9).map (scatter f (faceBasis .seg3 s)) := by
  simp only [localFaces, List.mem_cons, List.not_mem_nil, or_false] at hf
  rcases hf with rfl | rfl | rfl | rfl <;>
  · simp [-mul_eq_zero, -mul_eq_mul_left_iff, -mul_eq_mul_right_iff, -div_eq_zero_iff,
      facePoint, combine, FaceKind.corners, FaceKind.weights, refNodes, basis,
      List.range_succ, faceBasis, scatter, quad9Nodes, quad9Basis, quad9Phi, quad9Phi1d]
    repeat' apply And.intro
    all_goals (first | ring1 | (left; ring1) | (right; ring1))

set_option maxHeartbeats 2000000 in
theorem basis_tet4 (f : List Nat) (hf : f ∈ localFaces .tet4) (s : Point 2 K) :
    basis .tet4 (facePoint .tet4 .tri3 f s) =
      (List.range 4).map (scatter f (faceBasis .tri3 s)) := by
  simp only [localFaces, List.mem_cons, List.not_mem_nil, or_false] at hf
  rcases hf with rfl | rfl | rfl | rfl <;>
  · simp [-mul_eq_zero, -mul_eq_mul_left_iff, -mul_eq_mul_right_iff, -div_eq_zero_iff,
      facePoint, combine, FaceKind.corners, FaceKind.weights, refNodes, basis,
      List.range_succ, faceBasis, scatter, tet4Nodes, tet4Basis, tet4Psi, tri3Basis, tri3Psi]
    repeat' apply And.intro
    all_goals (first | ring1 | (left; ring1) | (right; ring1))

set_option maxHeartbeats 2000000 in
theorem basis_tet10 (f : List Nat) (hf : f ∈ localFaces .tet10) (s : Point 2 K) :
    basis .tet10 (facePoint .tet10 .tri6 f s) =
      (List.range 10).map (scatter f (faceBasis .tri6 s)) := by
  simp only [localFaces, List.mem_cons, List.not_mem_nil, or_false] at hf
  rcases hf with rfl | rfl | rfl | rfl <;>
  · simp [-mul_eq_zero, -mul_eq_mul_left_iff, -mul_eq_mul_right_iff, -div_eq_zero_iff,
      facePoint, combine, FaceKind.corners, FaceKind.weights, refNodes, basis,
      List.range_succ, faceBasis, scatter, tet10Nodes, tet10Basis, tet4Psi, quadVertex, quadEdge, tri6Basis,
      tri3Psi]
    repeat' apply And.intro
    all_goals (first | ring1 | (left; ring1) | (right; ring1))

set_option maxHeartbeats 2000000 in
theorem basis_hex8 (f : List Nat) (hf : f ∈ localFaces .hex8) (s : Point 2 K) :
    basis .hex8 (facePoint .hex8 .quad4 f s) =
      (List.range 8).map (scatter f (faceBasis .quad4 s)) := by
  simp only [localFaces, List.mem_cons, List.not_mem_nil, or_false] at hf
  rcases hf with rfl | rfl | rfl | rfl | rfl | rfl <;>
  · simp [-mul_eq_zero, -mul_eq_mul_left_iff, -mul_eq_mul_right_iff, -div_eq_zero_iff,
      facePoint, combine, FaceKind.corners, FaceKind.weights, refNodes, basis,
      List.range_succ, faceBasis, scatter, hex8Nodes, hex8Basis, hex8Phi,
      phiLinear1d, quad4Basis, quad4Phi]
    repeat' apply And.intro
    all_goals (first | ring1 | (left; ring1) | (right; ring1))

set_option maxHeartbeats 2000000 in
theorem basis_hex20 (f : List Nat) (hf : f ∈ localFaces .hex20) (s : Point 2 K) :
    basis .hex20 (facePoint .hex20 .quad8 f s) =
      (List.range 20).map (scatter f (faceBasis .quad8 s)) := by
  simp only [localFaces, List.mem_cons, List.not_mem_nil, or_false] at hf
  rcases hf with rfl | rfl | rfl | rfl | rfl | rfl <;>
  · simp [-mul_eq_zero, -mul_eq_mul_left_iff, -mul_eq_mul_right_iff, -div_eq_zero_iff,
      facePoint, combine, FaceKind.corners, FaceKind.weights, refNodes, basis,
      List.range_succ, faceBasis, scatter, hex20Nodes, hex8Nodes, hexEdgeNodes, hex20Basis, hex20Corner, hex20Edge]
    repeat' apply And.intro
    all_goals (first | ring1 | (left; ring1) | (right; ring1))

set_option maxHeartbeats 2000000 in
theorem basis_hex27 (f : List Nat) (hf : f ∈ localFaces .hex27) (s : Point 2 K) :
    basis .hex27 (facePoint .hex27 .quad9 f s) =
      (List.range 27).map (scatter f (faceBasis .quad9 s)) := by
  simp only [localFaces, List.mem_cons, List.not_mem_nil, or_false] at hf
  rcases hf with rfl | rfl | rfl | rfl | rfl | rfl <;>
  · simp [-mul_eq_zero, -mul_eq_mul_left_iff, -mul_eq_mul_right_iff, -div_eq_zero_iff,
      facePoint, combine, FaceKind.corners, FaceKind.weights, refNodes, basis,
      List.range_succ, faceBasis, scatter, hex27Nodes, hex8Nodes, hexEdgeNodes, hex27Basis, hex27Phi, phiQuadratic1d,
      quad9Basis, quad9Phi, quad9Phi1d]
    repeat' apply And.intro
    all_goals (first | ring1 | (left; ring1) | (right; ring1))

set_option maxHeartbeats 2000000 in
theorem geometry_tri3 (f : List Nat) (hf : f ∈ localFaces .tri3) (s : Point 1 K) :
    geometryBasis .tri3 (facePoint .tri3 .seg2 f s) = (List.range 3).map
      (scatter (FaceKind.seg2.corners.map (fun c => f.getD c 0)) (FaceKind.seg2.weights s)) := by
  simp only [localFaces, List.mem_cons, List.not_mem_nil, or_false] at hf
  rcases hf with rfl | rfl | rfl <;>
  · simp [-mul_eq_zero, -mul_eq_mul_left_iff, -mul_eq_mul_right_iff, -div_eq_zero_iff,
      facePoint, combine, FaceKind.corners, FaceKind.weights, refNodes, geometryBasis,
      List.range_succ, scatter, tri3Nodes, tri3Basis, tri3Psi]
    repeat' apply And.intro
    all_goals (first | ring1 | (left; ring1) | (right; ring1))

set_option maxHeartbeats 2000000 in
theorem geometry_quad4 (f : List Nat) (hf : f ∈ localFaces .quad4) (s : Point 1 K) :
    geometryBasis .quad4 (facePoint .quad4 .seg2 f s) = (List.range 4).map
      (scatter (FaceKind.seg2.corners.map (fun c => f.getD c 0)) (FaceKind.seg2.weights s)) := by
  simp only [localFaces, List.mem_cons, List.not_mem_nil, or_false] at hf
  rcases hf with rfl | rfl | rfl | rfl <;>
  · simp [-mul_eq_zero, -mul_eq_mul_left_iff, -mul_eq_mul_right_iff, -div_eq_zero_iff,
      facePoint, combine, FaceKind.corners, FaceKind.weights, refNodes, geometryBasis,
      List.range_succ, scatter, quad4Nodes, quad4Basis, quad4Phi]
    repeat' apply And.intro
    all_goals (first | ring1 | (left; ring1) | (right; ring1))

set_option maxHeartbeats 2000000 in
theorem geometry_tri6 (f : List Nat) (hf : f ∈ localFaces .tri6) (s : Point 1 K) :
    geometryBasis .tri6 (facePoint .tri6 .seg3 f s) = (List.range 3).map
      (scatter (FaceKind.seg3.corners.map (fun c => f.getD c 0)) (FaceKind.seg3.weights s)) := by
  simp only [localFaces, List.mem_cons, List.not_mem_nil, or_false] at hf
  rcases hf with rfl | rfl | rfl <;>
  · simp [-mul_eq_zero, -mul_eq_mul_left_iff, -mul_eq_mul_right_iff, -div_eq_zero_iff,
      facePoint, combine, FaceKind.corners, FaceKind.weights, refNodes, geometryBasis,
      List.range_succ, scatter, tri6Nodes, tri3Basis, tri3Psi]
    repeat' apply And.intro
    all_goals (first | ring1 | (left; ring1) | (right; ring1))

set_option maxHeartbeats 2000000 in
theorem geometry_quad9 (f : List Nat) (hf : f ∈ localFaces .quad9) (s : Point 1 K) :
    geometryBasis .quad9 (facePoint .quad9 .seg3 f s) = (List.range 4).map
      (scatter (FaceKind.seg3.corners.map (fun c => f.getD c 0)) (FaceKind.seg3.weights s)) := by
  simp only [localFaces, List.mem_cons, List.not_mem_nil, or_false] at hf
  rcases hf with rfl | rfl | rfl | rfl <;>
  · simp [-mul_eq_zero, -mul_eq_mul_left_iff, -mul_eq_mul_right_iff, -div_eq_zero_iff,
      facePoint, combine, FaceKind.corners, FaceKind.weights, refNodes, geometryBasis,
      List.range_succ, scatter, quad9Nodes, quad4Basis, quad4Phi]
    repeat' apply And.intro
    all_goals (first | ring1 | (left; ring1) | (right; ring1))

set_option maxHeartbeats 2000000 in
theorem geometry_tet4 (f : List Nat) (hf : f ∈ localFaces .tet4) (s : Point 2 K) :
    geometryBasis .tet4 (facePoint .tet4 .tri3 f s) = (List.range 4).map
      (scatter (FaceKind.tri3.corners.map (fun c => f.getD c 0)) (FaceKind.tri3.weights s)) := by
  simp only [localFaces, List.mem_cons, List.not_mem_nil, or_false] at hf
  rcases hf with rfl | rfl | rfl | rfl <;>
  · simp [-mul_eq_zero, -mul_eq_mul_left_iff, -mul_eq_mul_right_iff, -div_eq_zero_iff,
      facePoint, combine, FaceKind.corners, FaceKind.weights, refNodes, geometryBasis,
      List.range_succ, scatter, tet4Nodes, tet4Basis, tet4Psi]
    repeat' apply And.intro
    all_goals (first | ring1 | (left; ring1) | (right; ring1))

set_option maxHeartbeats 2000000 in
theorem geometry_tet10 (f : List Nat) (hf : f ∈ localFaces .tet10) (s : Point 2 K) :
    geometryBasis .tet10 (facePoint .tet10 .tri6 f s) = (List.range 4).map
      (scatter (FaceKind.tri6.corners.map (fun c => f.getD c 0)) (FaceKind.tri6.weights s)) := by
  simp only [localFaces, List.mem_cons, List.not_mem_nil, or_false] at hf
  rcases hf with rfl | rfl | rfl | rfl <;>
  · simp [-mul_eq_zero, -mul_eq_mul_left_iff, -mul_eq_mul_right_iff, -div_eq_zero_iff,
      facePoint, combine, FaceKind.corners, FaceKind.weights, refNodes, geometryBasis,
      List.range_succ, scatter, tet10Nodes, tet4Basis, tet4Psi]
    repeat' apply And.intro
    all_goals (first | ring1 | (left; ring1) | (right; ring1))

set_option maxHeartbeats 2000000 in
theorem geometry_hex8 (f : List Nat) (hf : f ∈ localFaces .hex8) (s : Point 2 K) :
    geometryBasis .hex8 (facePoint .hex8 .quad4 f s) = (List.range 8).map
      (scatter (FaceKind.quad4.corners.map (fun c => f.getD c 0)) (FaceKind.quad4.weights s)) := by
  simp only [localFaces, List.mem_cons, List.not_mem_nil, or_false] at hf
  rcases hf with rfl | rfl | rfl | rfl | rfl | rfl <;>
  · simp [-mul_eq_zero, -mul_eq_mul_left_iff, -mul_eq_mul_right_iff, -div_eq_zero_iff,
      facePoint, combine, FaceKind.corners, FaceKind.weights, refNodes, geometryBasis,
      List.range_succ, scatter, hex8Nodes, hex8Basis, hex8Phi, phiLinear1d]
    repeat' apply And.intro
    all_goals (first | ring1 | (left; ring1) | (right; ring1))

set_option maxHeartbeats 2000000 in
theorem geometry_hex20 (f : List Nat) (hf : f ∈ localFaces .hex20) (s : Point 2 K) :
    geometryBasis .hex20 (facePoint .hex20 .quad8 f s) = (List.range 8).map
      (scatter (FaceKind.quad8.corners.map (fun c => f.getD c 0)) (FaceKind.quad8.weights s)) := by
  simp only [localFaces, List.mem_cons, List.not_mem_nil, or_false] at hf
  rcases hf with rfl | rfl | rfl | rfl | rfl | rfl <;>
  · simp [-mul_eq_zero, -mul_eq_mul_left_iff, -mul_eq_mul_right_iff, -div_eq_zero_iff,
      facePoint, combine, FaceKind.corners, FaceKind.weights, refNodes, geometryBasis,
      List.range_succ, scatter, hex20Nodes, hex8Nodes, hexEdgeNodes, hex8Basis, hex8Phi, phiLinear1d]
    repeat' apply And.intro
    all_goals (first | ring1 | (left; ring1) | (right; ring1))

set_option maxHeartbeats 2000000 in
theorem geometry_hex27 (f : List Nat) (hf : f ∈ localFaces .hex27) (s : Point 2 K) :
    geometryBasis .hex27 (facePoint .hex27 .quad9 f s) = (List.range 8).map
      (scatter (FaceKind.quad9.corners.map (fun c => f.getD c 0)) (FaceKind.quad9.weights s)) := by
  simp only [localFaces, List.mem_cons, List.not_mem_nil, or_false] at hf
  rcases hf with rfl | rfl | rfl | rfl | rfl | rfl <;>
  · simp [-mul_eq_zero, -mul_eq_mul_left_iff, -mul_eq_mul_right_iff, -div_eq_zero_iff,
      facePoint, combine, FaceKind.corners, FaceKind.weights, refNodes, geometryBasis,
      List.range_succ, scatter, hex27Nodes, hex8Nodes, hexEdgeNodes, hex8Basis, hex8Phi, phiLinear1d]
    repeat' apply And.intro
    all_goals (first | ring1 | (left; ring1) | (right; ring1))

/-- Summing nodal values against scattered weights only sees the listed nodes. -/
theorem interpolate_scatter (n : Nat) (u : Nat → K) : ∀ (f : List Nat) (bs : List K),
    (∀ i ∈ f, i < n) →
    interpolate ((List.range n).map u) ((List.range n).map (scatter f bs)) =
      interpolate (f.map u) bs := by
  have key : ∀ (g : Nat → K), interpolate ((List.range n).map u) ((List.range n).map g) =
      ((List.range n).map (fun i => u i * g i)).sum := by
    intro g
    simp [interpolate, List.zipWith_map, List.zipWith_self]
  have single : ∀ (m j : Nat) (b : K), j < m →
      ((List.range m).map (fun i => u i * (if j = i then b else 0))).sum = u j * b := by
    intro m j b
    have zero : ∀ m, m ≤ j →
        ((List.range m).map (fun i => u i * (if j = i then b else 0))).sum = 0 := by
      intro m hm
      induction m with
      | zero => simp
      | succ m ih =>
        rw [List.range_succ, List.map_append, List.sum_append, ih (by omega)]
        have : j ≠ m := by omega
        simp [this]
    induction m with
    | zero => intro h; omega
    | succ m ih =>
      intro h
      rw [List.range_succ, List.map_append, List.sum_append]
      by_cases hj : j = m
      · subst hj
        rw [zero j (le_refl _)]
        simp
      · rw [ih (by omega)]
        simp [hj]
  intro f
  induction f with
  | nil => intro bs _; rw [key]; simp [scatter, interpolate]
  | cons j f ih =>
    intro bs h
    cases bs with
    | nil => rw [key]; simp [scatter, interpolate]
    | cons b bs =>
      have ih' := ih bs (fun i hi => h i (List.mem_cons_of_mem _ hi))
      rw [key] at ih' ⊢
      have e1 : (fun i => u i * scatter (j :: f) (b :: bs) i) =
          fun i => u i * (if j = i then b else 0) + u i * scatter f bs i := by
        funext i
        simp [scatter, mul_add]
      rw [e1, List.sum_map_add, ih', single n j b (h j (by simp))]
      simp [interpolate]

/-- Faces list nodes of the element, as many as the face kind has. -/
theorem face_wf (e : Kind) (k : FaceKind) (hk : faceKind e = some k) (f : List Nat)
    (hf : f ∈ localFaces e) : f.length = k.numNodes ∧ (∀ i ∈ f, i < e.numNodes) ∧
      (∀ i ∈ k.corners.map (fun c => f.getD c 0), i < e.geometry.numNodes) := by
  revert f
  cases e <;> simp only [faceKind] at hk <;> cases hk <;> decide

/-- The trace of the interpolant on a face is the face interpolant of the values at its nodes. -/
theorem trace_eq (e : Kind) (k : FaceKind) (hk : faceKind e = some k) (f : List Nat)
    (hf : f ∈ localFaces e) (u : Nat → K) (s : Point k.dim K) :
    interpolant e u (facePoint e k f s) =
      interpolate ((List.range k.numNodes).map (fun i => u (f.getD i 0))) (faceBasis k s) := by
  obtain ⟨hl, hr, -⟩ := face_wf e k hk f hf
  have hm : (List.range k.numNodes).map (fun i => u (f.getD i 0)) = f.map u := by
    rw [← hl]
    apply List.ext_getElem (by simp)
    intro i h1 h2
    simp only [List.length_map] at h2
    simp [List.getD_eq_getElem?_getD, List.getElem?_eq_getElem h2]
  rw [hm, ← interpolate_scatter e.numNodes u f _ hr]
  unfold interpolant
  cases e <;> simp only [faceKind] at hk <;> cases hk
  · rw [basis_tri3 f hf]; rfl
  · rw [basis_tri6 f hf]; rfl
  · rw [basis_quad4 f hf]; rfl
  · rw [basis_quad9 f hf]; rfl
  · rw [basis_tet4 f hf]; rfl
  · rw [basis_tet10 f hf]; rfl
  · rw [basis_hex8 f hf]; rfl
  · rw [basis_hex20 f hf]; rfl
  · rw [basis_hex27 f hf]; rfl

theorem weightedSum_apply {d : Nat} (r : Fin d) : ∀ (ps : List (Point d K)) (ws : List K),
    weightedSum ps ws r = interpolate (ps.map (fun p => p r)) ws
  | [], ws => by simp [weightedSum, interpolate]
  | p :: ps, [] => by simp [weightedSum, interpolate]
  | p :: ps, w :: ws => by
    have := weightedSum_apply r ps ws
    simp [weightedSum, interpolate, this] 

/-- The geometry map restricted to a face is the corner-weighted combination of the corners. -/
theorem geometry_trace {g : Nat} (e : Kind) (k : FaceKind) (hk : faceKind e = some k)
    (f : List Nat) (hf : f ∈ localFaces e) (V : Nat → Point g K) (s : Point k.dim K) (r : Fin g) :
    mapReferenceCoords e ((List.range e.numNodes).map V) (facePoint e k f s) r =
      interpolate (k.corners.map (fun c => V (f.getD c 0) r)) (k.weights s) := by
  obtain ⟨-, -, hr⟩ := face_wf e k hk f hf
  have hm : k.corners.map (fun c => V (f.getD c 0) r) =
      (k.corners.map (fun c => f.getD c 0)).map (fun i => V i r) := by simp
  have ht : (((List.range e.numNodes).map V).take e.geometry.numNodes).map (fun p => p r) =
      (List.range e.geometry.numNodes).map (fun i => V i r) := by
    cases e <;> rfl
  rw [hm, ← interpolate_scatter e.geometry.numNodes _ _ _ hr]
  unfold mapReferenceCoords
  rw [weightedSum_apply, ht]
  cases e <;> simp only [faceKind] at hk <;> cases hk
  · rw [geometry_tri3 f hf]; rfl
  · rw [geometry_tri6 f hf]; rfl
  · rw [geometry_quad4 f hf]; rfl
  · rw [geometry_quad9 f hf]; rfl
  · rw [geometry_tet4 f hf]; rfl
  · rw [geometry_tet10 f hf]; rfl
  · rw [geometry_hex8 f hf]; rfl
  · rw [geometry_hex20 f hf]; rfl
  · rw [geometry_hex27 f hf]; rfl

theorem generator_basis (k : FaceKind) (g : List Nat × (Point k.dim K → Point k.dim K))
    (hg : g ∈ k.generators) (w : Nat → K) (s : Point k.dim K) :
    interpolate ((List.range k.numNodes).map (fun i => w (g.1.getD i 0))) (faceBasis k s) =
      interpolate ((List.range k.numNodes).map w) (faceBasis k (g.2 s)) := by
  cases k <;> simp only [FaceKind.generators, List.mem_cons, List.not_mem_nil, or_false] at hg
  case seg2 | seg3 =>
    subst hg
    simp [FaceKind.numNodes, List.range_succ, interpolate, faceBasis]
    ring
  all_goals
    rcases hg with rfl | rfl <;>
    · simp [FaceKind.numNodes, List.range_succ, interpolate, faceBasis, tri3Basis, tri3Psi,
        tri6Basis, quadVertex, quadEdge, quad4Basis, quad4Phi, quad9Basis, quad9Phi, quad9Phi1d]
      ring

theorem generator_weights (k : FaceKind) (g : List Nat × (Point k.dim K → Point k.dim K))
    (hg : g ∈ k.generators) (w : Nat → K) (s : Point k.dim K) :
    interpolate (k.corners.map (fun i => w (g.1.getD i 0))) (k.weights s) =
      interpolate (k.corners.map w) (k.weights (g.2 s)) := by
  cases k <;> simp only [FaceKind.generators, List.mem_cons, List.not_mem_nil, or_false] at hg
  case seg2 | seg3 =>
    subst hg
    simp [FaceKind.corners, interpolate, FaceKind.weights]
    ring
  all_goals
    rcases hg with rfl | rfl <;>
    · simp [FaceKind.corners, interpolate, FaceKind.weights]
      ring

/-- Invariance under the generators gives invariance under all symmetries. -/
theorem symmetry_invariant (k : FaceKind) (P : List Nat) (B : Point k.dim K → List K)
    (h : ∀ g ∈ k.generators (K := K), ∀ (w : Nat → K) (s : Point k.dim K),
      interpolate (P.map (fun i => w (g.1.getD i 0))) (B s) = interpolate (P.map w) (B (g.2 s)))
    (π : Nat → Nat) (T : Point k.dim K → Point k.dim K) (hs : FaceSymmetry k π T) :
    ∀ (w : Nat → K) (s : Point k.dim K),
      interpolate (P.map (fun i => w (π i))) (B s) = interpolate (P.map w) (B (T s)) := by
  induction hs with
  | refl => intro w s; rfl
  | step g hg π T _ ih =>
    intro w s
    rw [ih (fun i => w (g.1.getD i 0)) s]
    exact h g hg w (T s)

end FaceTrace
end Fenris
