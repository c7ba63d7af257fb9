import Verif.Lemmas.ElementTrace
/-! # C39: interpolants depend only on a face's nodes there and agree between neighbours -/
set_option autoImplicit false

namespace Fenris
open Element Spec
variable {K : Type} [Field K] [CharZero K]

/-- **C39, own face.** On a face of an element the interpolant depends on the values at the nodes
of that face only. -/
theorem C39_trace_depends_on_face_nodes (e : Kind) (k : FaceKind) (hk : faceKind e = some k)
    (f : List Nat) (hf : f ∈ localFaces e) (u v : Nat → K) (h : ∀ i ∈ f, u i = v i)
    (s : Point k.dim K) :
    interpolant e u (facePoint e k f s) = interpolant e v (facePoint e k f s) := by
  rw [FaceTrace.trace_eq e k hk f hf, FaceTrace.trace_eq e k hk f hf]
  congr 1
  apply List.map_congr_left
  intro i hi
  apply h
  have hl : i < f.length := by
    rw [(FaceTrace.face_wf e k hk f hf).1]; simpa using hi
  simp [List.getD_eq_getElem?_getD, List.getElem?_eq_getElem hl]

/-- **C39, neighbours.**  Two elements, possibly of different kinds, whose cells list global nodes
`c₁` and `c₂`, share a face when node `i` of the one's face `f₁` is node `π i` of the other's face
`f₂`, for a symmetry `(π, T)` of the face (neighbours may see the face reflected or rotated).
Then the points with face coordinates `s` and `T s` are the same point of physical space, and the
two interpolants of one global field take the same value there. -/
theorem C39_interpolants_agree_on_shared_face {g : Nat} (e₁ e₂ : Kind) (k : FaceKind)
    (h₁ : faceKind e₁ = some k) (h₂ : faceKind e₂ = some k)
    (f₁ f₂ : List Nat) (hf₁ : f₁ ∈ localFaces e₁) (hf₂ : f₂ ∈ localFaces e₂)
    (c₁ c₂ : Nat → Nat) (π : Nat → Nat) (T : Point k.dim K → Point k.dim K)
    (hs : FaceSymmetry k π T)
    (shared : ∀ i < k.numNodes, c₁ (f₁.getD i 0) = c₂ (f₂.getD (π i) 0))
    (X : Nat → Point g K) (U : Nat → K) (s : Point k.dim K) :
    mapReferenceCoords e₁ ((List.range e₁.numNodes).map (fun i => X (c₁ i)))
        (facePoint e₁ k f₁ s)
      = mapReferenceCoords e₂ ((List.range e₂.numNodes).map (fun i => X (c₂ i)))
        (facePoint e₂ k f₂ (T s))
    ∧ interpolant e₁ (fun i => U (c₁ i)) (facePoint e₁ k f₁ s)
      = interpolant e₂ (fun i => U (c₂ i)) (facePoint e₂ k f₂ (T s)) := by
  constructor
  · funext r
    rw [FaceTrace.geometry_trace e₁ k h₁ f₁ hf₁, FaceTrace.geometry_trace e₂ k h₂ f₂ hf₂,
      ← FaceTrace.symmetry_invariant k k.corners k.weights (FaceTrace.generator_weights k) π T hs
        (fun i => X (c₂ (f₂.getD i 0)) r) s]
    congr 1
    apply List.map_congr_left
    intro i hi
    rw [shared i (by revert i; cases k <;> decide)]
  · rw [FaceTrace.trace_eq e₁ k h₁ f₁ hf₁, FaceTrace.trace_eq e₂ k h₂ f₂ hf₂,
      ← FaceTrace.symmetry_invariant k (List.range k.numNodes) (FaceTrace.faceBasis k)
        (FaceTrace.generator_basis k) π T hs (fun i => U (c₂ (f₂.getD i 0))) s]
    congr 1
    apply List.map_congr_left
    intro i hi
    rw [shared i (by simpa using hi)]

/-- Two hexahedra with 27 nodes, stacked in `x`: face 2 of the first is face 4 of the second, seen
with a reflection. -/
example : FaceSymmetry (K := ℚ) .quad9 (fun i => [0, 3, 2, 1, 7, 6, 5, 4, 8].getD i 0)
    ((fun s => ![s 1, s 0]) ∘ id) ∧
    [1, 2, 6, 5, 11, 14, 18, 12, 23] ∈ localFaces .hex27 ∧
    [0, 4, 7, 3, 10, 17, 15, 9, 22] ∈ localFaces .hex27 :=
  ⟨FaceSymmetry.step (K := ℚ) (k := .quad9) ([0, 3, 2, 1, 7, 6, 5, 4, 8], fun s => ![s 1, s 0])
    (List.mem_cons_of_mem _ (List.mem_cons_self ..)) id id FaceSymmetry.refl, by decide, by decide⟩

/-- A node numbering that meets the sharing hypothesis of that pair: the first cell is numbered
`0 … 26`; the second takes the nine shared numbers and `27 …` elsewhere. -/
example : ∀ i < FaceKind.quad9.numNodes,
    id ([1, 2, 6, 5, 11, 14, 18, 12, 23].getD i 0) =
      (fun j => [1, 27, 28, 2, 5, 29, 30, 6, 31, 11, 12, 32, 33, 34, 35, 14, 36, 18, 37, 38, 39,
        40, 23, 41, 42, 43, 44].getD j 0)
      ([0, 4, 7, 3, 10, 17, 15, 9, 22].getD ([0, 3, 2, 1, 7, 6, 5, 4, 8].getD i 0) 0) := by
  decide

end Fenris
