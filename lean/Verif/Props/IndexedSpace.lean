import Verif.Model.IndexedSpace
import Verif.Spec.IndexedSpace
import Verif.Props.SpatialIndex
import Verif.Props.Interpolate
import Verif.Props.ElementBasis
/-! # C93: interpolation at arbitrary points of a mesh reproduces affine functions -/
set_option autoImplicit false
set_option linter.unusedSectionVars false

namespace Fenris.Index
open Fenris.Geometry Fenris.Element Fenris.Interpolate Fenris.Local Fenris.Index.Spec
open Fenris.Spec (AnswersQueries NearestFirst CellsOf ConsistentSpace fieldValue fieldGradient dist2)
open Fenris.PatchTest.Spec (IsAffine)

variable {K : Type} [Field K] [LinearOrder K] [IsStrictOrderedRing K] {s : Nat}

/-! ## Sums over the nodes of a cell -/

private theorem zipWith_affine {d : Nat} (vs : List (Point d K)) (G : Matrix (Fin d) (Fin s) K) (b : Fin s → K) (u : List K) (hu : IsAffine vs G b u)
    (k : Fin s) (ns : List K) (c : List Nat) (hl : ns.length = c.length) (hc : ∀ v ∈ c, v < vs.length) :
    (List.zipWith (fun w n => w * u.getD (s * n + k) 0) ns c).sum =
      ∑ m, G m k * weightedSum (c.map fun v => (vs[v]?).getD 0) ns m + b k * ns.sum := by
  induction ns generalizing c with
  | nil =>
    cases c with
    | nil => simp [weightedSum]
    | cons v c => simp at hl
  | cons w ns ih =>
    cases c with
    | nil => simp at hl
    | cons v c =>
      have hv := hc v List.mem_cons_self
      have e : u.getD (s * v + k) 0 = ∑ m, G m k * vs[v] m + b k := by
        rw [List.getD_eq_getElem?_getD, hu.value v vs[v] (List.getElem?_eq_getElem hv) k]
        rfl
      rw [List.zipWith_cons_cons, List.sum_cons, ih c (by simpa using hl) fun w hw => hc w (List.mem_cons_of_mem _ hw), e, List.map_cons,
        List.sum_cons, List.getElem?_eq_getElem hv, Option.getD_some]
      simp only [weightedSum, mul_add, Finset.sum_add_distrib, Finset.mul_sum]
      have : ∑ m, w * (G m k * vs[v] m) = ∑ m, G m k * (vs[v] m * w) := Finset.sum_congr rfl fun m _ => by ring
      rw [this]
      ring

private theorem weightedSum_combine {d r : Nat} (ps : List (Point d K)) (gs : List (Point r K)) (a : Fin r → K) (m : Fin d) :
    weightedSum ps (gs.map fun G => ∑ j, a j * G j) m = ∑ j, a j * weightedSum ps (gs.map fun G => G j) m := by
  induction gs generalizing ps with
  | nil => cases ps <;> simp [weightedSum]
  | cons g gs ih =>
    cases ps with
    | nil => simp [weightedSum]
    | cons p ps =>
      simp only [List.map_cons, weightedSum, ih, mul_add, Finset.sum_add_distrib, Finset.mul_sum]
      congr 1
      exact Finset.sum_congr rfl fun j _ => by ring

private theorem sum_combine {r : Nat} (gs : List (Point r K)) (a : Fin r → K) :
    (gs.map fun G => ∑ j, a j * G j).sum = ∑ j, a j * (gs.map fun G => G j).sum := by
  induction gs with
  | nil => simp
  | cons g gs ih => simp only [List.map_cons, List.sum_cons, ih, mul_add, Finset.sum_add_distrib]

/-- The kinds whose geometry is their own. -/
private theorem own_basis (kind : Kind) (hk : kind ∈ [Kind.tri3, .quad4, .tet4, .hex8]) :
    (∀ xi : Point kind.dim K, geometryBasis kind xi = basis kind xi ∧ geometryGradients kind xi = gradients kind xi) ∧
      kind.geometry.numNodes = kind.numNodes ∧ 0 < kind.dim := by
  simp only [List.mem_cons, List.not_mem_nil, or_false] at hk
  rcases hk with rfl | rfl | rfl | rfl <;> exact ⟨fun _ => ⟨rfl, rfl⟩, rfl, by decide⟩

section general
variable {kind : Kind} (hk : kind ∈ [Kind.tri3, .quad4, .tet4, .hex8]) {mesh : Mesh (Point kind.dim K)} (hm : CellsOf kind.numNodes mesh)
  (S : IndexSpace kind.dim kind.dim K) (nn : List (Aabb kind.dim K × Nat) → Point kind.dim K → List (Aabb kind.dim K × Nat))
  (entries : List (Aabb kind.dim K × Nat))

private theorem nodes_of {e : Nat} (he : e < mesh.cells.length) :
    (indexed kind mesh S nn entries).nodes e = mesh.cells[e] ∧ mesh.cells[e] ∈ mesh.cells := by
  refine ⟨?_, List.getElem_mem he⟩
  show (mesh.cells[e]?).getD [] = _
  rw [List.getElem?_eq_getElem he]
  rfl

include hm in
private theorem consistent (hd : 0 < kind.dim) : ConsistentSpace (indexed kind mesh S nn entries) := by
  intro e xi
  simp only [indexed]
  cases he : mesh.cells[e]? with
  | none => exact ⟨rfl, rfl⟩
  | some c =>
    have hl := (hm c (List.mem_of_getElem? he)).1
    simp only [Option.map_some, Option.getD_some, hl]
    exact ⟨(C35_basis_sums_to_one kind xi).1, (C35_gradients_sum_to_zero kind xi ⟨0, hd⟩).1⟩

private theorem basis_of {e : Nat} (he : e < mesh.cells.length) (xi : Point kind.dim K) :
    (indexed kind mesh S nn entries).basis e xi = basis kind xi ∧ (indexed kind mesh S nn entries).gradients e xi = gradients kind xi := by
  simp only [indexed, List.getElem?_eq_getElem he]
  exact ⟨rfl, rfl⟩

include hk hm in
private theorem value_of {G : Matrix (Fin kind.dim) (Fin s) K} {b : Fin s → K} {u : List K} (hu : IsAffine mesh.vertices G b u) (p : Point kind.dim K)
    {e : Nat} (he : e < mesh.cells.length) {xi : Point kind.dim K} (hf : (indexed kind mesh S nn entries).find p = some (e, xi)) (hs : 0 < s) :
    interpolateAt (indexed kind mesh S nn entries) s u p = some (affineValue G b (mapReferenceCoords kind (pointsOf mesh e) xi)) := by
  obtain ⟨hn, hmem⟩ := nodes_of S nn entries he
  obtain ⟨hl, hv⟩ := hm _ hmem
  obtain ⟨ho, hg, hd⟩ := own_basis (K := K) kind hk
  have hb := C35_basis_sums_to_one kind xi
  have hlen : ∀ n ∈ mesh.cells[e], s * n + s ≤ u.length := by
    intro n hn'
    rw [hu.length, ← Nat.mul_succ]
    exact Nat.mul_le_mul_left s (hv n hn')
  have e2 := C55_direct_value _ (consistent hm S nn entries hd) s hs u [p] (by
    intro q hq e' xi' hq' n hn'
    rw [List.mem_singleton.mp hq, hf] at hq'
    obtain ⟨rfl, rfl⟩ := Prod.mk.inj (Option.some.inj hq')
    rw [hn] at hn'
    exact hlen n hn')
  rw [interpolateAtPoints, List.mapM_cons, List.mapM_nil] at e2
  cases hi : interpolateAt (indexed kind mesh S nn entries) s u p with
  | none => rw [hi] at e2; simp at e2
  | some v =>
    rw [hi] at e2
    simp only [Option.pure_def, Option.bind_eq_bind, Option.bind_some, List.map_cons, List.map_nil, Option.some.injEq, List.cons.injEq, and_true] at e2
    rw [e2]
    congr 1
    funext k
    have hp : pointsOf mesh e = mesh.cells[e].map fun v => (mesh.vertices[v]?).getD 0 := by
      rw [pointsOf, List.getElem?_eq_getElem he]
      rfl
    simp only [fieldValue, hf, hn]
    rw [(basis_of S nn entries he xi).1, zipWith_affine mesh.vertices G b u hu k _ _ (hb.1.trans hl.symm) hv, hb.2, mul_one, affineValue, mapReferenceCoords, (ho xi).1, hg, hp,
      List.take_of_length_le (by rw [List.length_map, hl])]

include hk hm in
private theorem gradient_of {G : Matrix (Fin kind.dim) (Fin s) K} {b : Fin s → K} {u : List K} (hu : IsAffine mesh.vertices G b u)
    (p : Point kind.dim K) {e : Nat} (he : e < mesh.cells.length) {xi : Point kind.dim K}
    (hf : (indexed kind mesh S nn entries).find p = some (e, xi)) (hs : 0 < s)
    (hdet : (Matrix.of (referenceJacobian kind (pointsOf mesh e) xi)).det ≠ 0) :
    gradientAt (indexed kind mesh S nn entries) s u p = some G := by
  obtain ⟨hn, hmem⟩ := nodes_of S nn entries he
  obtain ⟨hl, hv⟩ := hm _ hmem
  obtain ⟨ho, hg, hd⟩ := own_basis (K := K) kind hk
  have hlen : ∀ n ∈ mesh.cells[e], s * n + s ≤ u.length := by
    intro n hn'
    rw [hu.length, ← Nat.mul_succ]
    exact Nat.mul_le_mul_left s (hv n hn')
  obtain ⟨M, inv, h1, h2, h3⟩ := C55_direct_gradient _ (consistent hm S nn entries hd) s hs u p e xi hf hdet (by
    intro n hn'
    rw [hn] at hn'
    exact hlen n hn')
  rw [h1]
  congr 1
  ext i k
  have hp : pointsOf mesh e = mesh.cells[e].map fun v => (mesh.vertices[v]?).getD 0 := by
    rw [pointsOf, List.getElem?_eq_getElem he]
    rfl
  have hgl : (gradients kind xi).length = mesh.cells[e].length := (C35_gradients_sum_to_zero kind xi ⟨0, hd⟩).1.trans hl.symm
  rw [h3]
  simp only [fieldGradient, hn]
  rw [(basis_of S nn entries he xi).2]
  show (List.zipWith (fun (g : Point kind.dim K) n => (∑ j, inv j i * g j) * u.getD (s * n + k) 0) (gradients kind xi) mesh.cells[e]).sum = G i k
  have e2 : List.zipWith (fun (g : Point kind.dim K) n => (∑ j, inv j i * g j) * u.getD (s * n + k) 0) (gradients kind xi) mesh.cells[e] =
      List.zipWith (fun w n => w * u.getD (s * n + k) 0) ((gradients kind xi).map fun g => ∑ j, inv j i * g j) mesh.cells[e] := by
    rw [List.zipWith_map_left]
  rw [e2, zipWith_affine mesh.vertices G b u hu k _ _ (by rw [List.length_map, hgl]) hv, sum_combine]
  have e3 : ∑ j, inv j i * ((gradients kind xi).map fun g => g j).sum = 0 :=
    Finset.sum_eq_zero fun j _ => by rw [(C35_gradients_sum_to_zero kind xi j).2, mul_zero]
  rw [e3, mul_zero, add_zero]
  have e4 : (indexed kind mesh S nn entries).jacobian e xi * inv = 1 := mul_eq_one_comm.mp h2
  have e5 : ∀ m, weightedSum (mesh.cells[e].map fun v => (mesh.vertices[v]?).getD 0) ((gradients kind xi).map fun g => ∑ j, inv j i * g j) m =
      ((indexed kind mesh S nn entries).jacobian e xi * inv) m i := by
    intro m
    rw [weightedSum_combine, Matrix.mul_apply]
    refine Finset.sum_congr rfl fun j _ => ?_
    show _ = referenceJacobian kind (pointsOf mesh e) xi m j * inv j i
    rw [referenceJacobian, (ho xi).2, hg, hp, List.take_of_length_le (by rw [List.length_map, hl]), mul_comm]
  simp only [e5, e4, Matrix.one_apply]
  simp

end general

/-! ## Meshes of triangles and tetrahedra -/

private theorem covered_iff {d : Nat} (mesh : Mesh (Point d K)) (x : Point d K) :
    x ∈ covered mesh ↔ ∃ j < mesh.cells.length, x ∈ Fenris.Spec.hull (((mesh.cells[j]?).getD []).map fun v => (mesh.vertices[v]?).getD 0) := by
  constructor
  · rintro ⟨c, hc, hx⟩
    obtain ⟨j, hj, rfl⟩ := List.getElem_of_mem hc
    refine ⟨j, hj, ?_⟩
    rw [List.getElem?_eq_getElem hj]
    exact hx
  · rintro ⟨j, hj, hx⟩
    rw [List.getElem?_eq_getElem hj] at hx
    exact ⟨mesh.cells[j], List.getElem_mem hj, hx⟩

/-- What the search finds. -/
private theorem found {kind : Kind} {mesh : Mesh (Point kind.dim K)} {S : IndexSpace kind.dim kind.dim K}
    (hS : AnswersQueries S fun i => Fenris.Spec.hull (((mesh.cells[i]?).getD []).map fun v => (mesh.vertices[v]?).getD 0))
    (hn : S.numElements = mesh.cells.length) (hmap : ∀ i < mesh.cells.length, ∀ xi x, S.map i xi = some x → x = mapReferenceCoords kind (pointsOf mesh i) xi)
    {nn : List (Aabb kind.dim K × Nat) → Point kind.dim K → List (Aabb kind.dim K × Nat)} (hnn : NearestFirst nn) (hne : mesh.cells ≠ []) :
    ∃ entries, fromSpace S = some entries ∧ ∀ p, ∃ e xi, find S nn entries p = some (some (e, xi)) ∧ e < mesh.cells.length ∧
      Nearest mesh p (mapReferenceCoords kind (pointsOf mesh e) xi) := by
  obtain ⟨entries, -, h1, -⟩ := C54_closest_element S _ hS nn hnn 0
  refine ⟨entries, h1, fun p => ?_⟩
  obtain ⟨entries', res, h1', h2, h3, h4⟩ := C54_closest_element S _ hS nn hnn p
  obtain rfl := Option.some.inj (h1'.symm.trans h1)
  cases res with
  | none =>
    have := h3.mp rfl
    rw [hn] at this
    exact absurd (List.length_eq_zero_iff.mp this) hne
  | some r =>
    obtain ⟨e, xi⟩ := r
    obtain ⟨he, -, x, hx, hle, hin⟩ := h4 e xi rfl
    rw [hn] at he hle hin
    obtain rfl := hmap e he xi x hx
    refine ⟨e, xi, h2, he, ?_, ?_⟩
    · intro y hy
      obtain ⟨j, hj, hy⟩ := (covered_iff mesh y).mp hy
      exact hle j hj y hy
    · intro hp
      exact hin ((covered_iff mesh p).mp hp)

private theorem tri_points {mesh : Mesh (Point 2 K)} (hm : CellsOf 3 mesh) (eps : K) (i : Nat) (hi : i < mesh.cells.length) (xi x : Point 2 K)
    (h : (triSpace2 eps mesh).map i xi = some x) : x = mapReferenceCoords .tri3 (pointsOf mesh i) xi := by
  obtain ⟨hl, hv⟩ := hm _ (List.getElem_mem hi)
  have hp : cellPoints mesh i = some (pointsOf mesh i) := by
    rw [cellPoints, pointsOf, List.getElem?_eq_getElem hi, Option.bind_some, Option.getD_some]
    refine Assembly.mapM_some_map _ _ _ fun v hv' => ?_
    rw [List.getElem?_eq_getElem (hv v hv')]
    rfl
  have hpl : (pointsOf mesh i).length = 3 := by rw [pointsOf, List.length_map, List.getElem?_eq_getElem hi]; exact hl
  simp only [triSpace2, hp, Option.bind_some] at h
  obtain ⟨a, b, c, e⟩ := List.length_eq_three.mp hpl
  rw [e] at h ⊢
  simp only [toTri, Option.map_some, Option.some.injEq] at h
  exact h.symm

private theorem tet_points {mesh : Mesh (Point 3 K)} (hm : CellsOf 4 mesh) (eps : K) (i : Nat) (hi : i < mesh.cells.length) (xi x : Point 3 K)
    (h : (tetSpace eps mesh).map i xi = some x) : x = mapReferenceCoords .tet4 (pointsOf mesh i) xi := by
  obtain ⟨hl, hv⟩ := hm _ (List.getElem_mem hi)
  have hp : cellPoints mesh i = some (pointsOf mesh i) := by
    rw [cellPoints, pointsOf, List.getElem?_eq_getElem hi, Option.bind_some, Option.getD_some]
    refine Assembly.mapM_some_map _ _ _ fun v hv' => ?_
    rw [List.getElem?_eq_getElem (hv v hv')]
    rfl
  have hpl : (pointsOf mesh i).length = 4 := by rw [pointsOf, List.length_map, List.getElem?_eq_getElem hi]; exact hl
  simp only [tetSpace, hp, Option.bind_some] at h
  revert h hpl
  generalize pointsOf mesh i = ps
  intro hpl h
  match ps, hpl, h with
  | [a, b, c, e], _, h =>
    simp only [toTet, Option.bind_some, Option.map_some, Option.some.injEq] at h
    exact h.symm

/-- C93, triangles: in an indexed mesh of triangles, interpolation of the nodal values of an affine function at any point gives the value of the
function at the point of the mesh that is nearest to it, which is the point itself when it is in the mesh. -/
theorem C93_triangles (eps : K) (he : 0 ≤ eps) (mesh : Mesh (Point 2 K)) (hm : CellsOf 3 mesh) (hne : mesh.cells ≠ [])
    (nn : List (Aabb 2 K × Nat) → Point 2 K → List (Aabb 2 K × Nat)) (hnn : NearestFirst nn) :
    ∃ T, indexedTriangles eps mesh nn = some T ∧
      ∀ (s : Nat) (G : Matrix (Fin 2) (Fin s) K) (b : Fin s → K) (u : List K), 0 < s → IsAffine mesh.vertices G b u →
        ∀ p, ∃ q, Nearest mesh p q ∧ interpolateAt T s u p = some (affineValue G b q) := by
  obtain ⟨entries, h1, h2⟩ := found (kind := .tri3) (triSpace2_answers eps he mesh hm) rfl (tri_points hm eps) hnn hne
  refine ⟨_, by rw [indexedTriangles, h1]; rfl, fun s G b u hs hu p => ?_⟩
  obtain ⟨e, xi, h3, h4, h5⟩ := h2 p
  exact ⟨_, h5, value_of (kind := .tri3) (by simp) hm _ nn entries hu p h4 (by simp only [indexed, h3]; rfl) hs⟩

/-- C93, tetrahedra: the same for meshes of tetrahedra. -/
theorem C93_tetrahedra (eps : K) (he : 0 ≤ eps) (mesh : Mesh (Point 3 K)) (hm : CellsOf 4 mesh) (hne : mesh.cells ≠ [])
    (nn : List (Aabb 3 K × Nat) → Point 3 K → List (Aabb 3 K × Nat)) (hnn : NearestFirst nn) :
    ∃ T, indexedTetrahedra eps mesh nn = some T ∧
      ∀ (s : Nat) (G : Matrix (Fin 3) (Fin s) K) (b : Fin s → K) (u : List K), 0 < s → IsAffine mesh.vertices G b u →
        ∀ p, ∃ q, Nearest mesh p q ∧ interpolateAt T s u p = some (affineValue G b q) := by
  obtain ⟨entries, h1, h2⟩ := found (kind := .tet4) (tetSpace_answers eps he mesh hm) rfl (tet_points hm eps) hnn hne
  refine ⟨_, by rw [indexedTetrahedra, h1]; rfl, fun s G b u hs hu p => ?_⟩
  obtain ⟨e, xi, h3, h4, h5⟩ := h2 p
  exact ⟨_, h5, value_of (kind := .tet4) (by simp) hm _ nn entries hu p h4 (by simp only [indexed, h3]; rfl) hs⟩

/-- The Jacobian of a triangle. -/
private theorem tri_det (A B C xi : Point 2 K) : (Matrix.of (referenceJacobian .tri3 [A, B, C] xi)).det = Fenris.Spec.orient2 A B C / 4 := by
  rw [Matrix.det_fin_two]
  simp only [Matrix.of_apply, referenceJacobian, geometryGradients, tri3Gradients, Kind.numNodes, List.take, List.map, weightedSum,
    Fenris.Spec.orient2]
  simp [tri3G]
  ring

/-- The Jacobian of a tetrahedron. -/
private theorem tet_det (A B C D xi : Point 3 K) : (Matrix.of (referenceJacobian .tet4 [A, B, C, D] xi)).det = Surface.Spec.tetVol6 A B C D / 8 := by
  rw [Matrix.det_fin_three]
  simp only [Matrix.of_apply, referenceJacobian, geometryGradients, tet4Gradients, Kind.numNodes, List.take, List.map, weightedSum,
    Surface.Spec.tetVol6, Surface.Spec.det3]
  simp [tet4G]
  ring

/-- C93, gradients: in a mesh without degenerate triangles, the gradient at any point is that of the affine function. -/
theorem C93_triangle_gradients (eps : K) (he : 0 ≤ eps) (mesh : Mesh (Point 2 K)) (hm : CellsOf 3 mesh) (hne : mesh.cells ≠ [])
    (hdeg : ∀ c ∈ mesh.cells, ∀ A B C, c.map (fun v => (mesh.vertices[v]?).getD 0) = [A, B, C] → Fenris.Spec.orient2 A B C ≠ 0)
    (nn : List (Aabb 2 K × Nat) → Point 2 K → List (Aabb 2 K × Nat)) (hnn : NearestFirst nn) :
    ∃ T, indexedTriangles eps mesh nn = some T ∧
      ∀ (s : Nat) (G : Matrix (Fin 2) (Fin s) K) (b : Fin s → K) (u : List K), 0 < s → IsAffine mesh.vertices G b u →
        ∀ p, gradientAt T s u p = some G := by
  obtain ⟨entries, h1, h2⟩ := found (kind := .tri3) (triSpace2_answers eps he mesh hm) rfl (tri_points hm eps) hnn hne
  refine ⟨_, by rw [indexedTriangles, h1]; rfl, fun s G b u hs hu p => ?_⟩
  obtain ⟨e, xi, h3, h4, -⟩ := h2 p
  refine gradient_of (kind := .tri3) (by simp) hm _ nn entries hu p h4 (xi := xi) (by simp only [indexed, h3]; rfl) hs ?_
  have hpl : (pointsOf mesh e).length = 3 := by
    rw [pointsOf, List.length_map, List.getElem?_eq_getElem h4]
    exact (hm _ (List.getElem_mem h4)).1
  obtain ⟨A, B, C, e'⟩ := List.length_eq_three.mp hpl
  rw [e', tri_det]
  refine div_ne_zero (hdeg _ (List.getElem_mem h4) A B C ?_) (by norm_num)
  rw [← e', pointsOf, List.getElem?_eq_getElem h4]
  rfl

/-- C93, gradients: in a mesh without degenerate tetrahedra, the gradient at any point is that of the affine function. -/
theorem C93_tetrahedron_gradients (eps : K) (he : 0 ≤ eps) (mesh : Mesh (Point 3 K)) (hm : CellsOf 4 mesh) (hne : mesh.cells ≠ [])
    (hdeg : ∀ c ∈ mesh.cells, ∀ A B C D, c.map (fun v => (mesh.vertices[v]?).getD 0) = [A, B, C, D] → Surface.Spec.tetVol6 A B C D ≠ 0)
    (nn : List (Aabb 3 K × Nat) → Point 3 K → List (Aabb 3 K × Nat)) (hnn : NearestFirst nn) :
    ∃ T, indexedTetrahedra eps mesh nn = some T ∧
      ∀ (s : Nat) (G : Matrix (Fin 3) (Fin s) K) (b : Fin s → K) (u : List K), 0 < s → IsAffine mesh.vertices G b u →
        ∀ p, gradientAt T s u p = some G := by
  obtain ⟨entries, h1, h2⟩ := found (kind := .tet4) (tetSpace_answers eps he mesh hm) rfl (tet_points hm eps) hnn hne
  refine ⟨_, by rw [indexedTetrahedra, h1]; rfl, fun s G b u hs hu p => ?_⟩
  obtain ⟨e, xi, h3, h4, -⟩ := h2 p
  refine gradient_of (kind := .tet4) (by simp) hm _ nn entries hu p h4 (xi := xi) (by simp only [indexed, h3]; rfl) hs ?_
  have hpl : (pointsOf mesh e).length = 4 := by
    rw [pointsOf, List.length_map, List.getElem?_eq_getElem h4]
    exact (hm _ (List.getElem_mem h4)).1
  have hpe : pointsOf mesh e = mesh.cells[e].map fun v => (mesh.vertices[v]?).getD 0 := by
    rw [pointsOf, List.getElem?_eq_getElem h4]
    rfl
  have hdeg' := hdeg _ (List.getElem_mem h4)
  rw [← hpe] at hdeg'
  revert hpl hdeg'
  generalize pointsOf mesh e = ps
  intro hpl hdeg'
  match ps, hpl, hdeg' with
  | [A, B, C, D], _, hdeg' =>
    rw [tet_det]
    exact div_ne_zero (hdeg' A B C D rfl) (by norm_num)

/-- C93, interpolators: a fixed interpolator built for points of an indexed mesh of triangles returns the values of the affine function at
these points. -/
theorem C93_fixed_interpolator (eps : K) (he : 0 ≤ eps) (mesh : Mesh (Point 2 K)) (hm : CellsOf 3 mesh) (hne : mesh.cells ≠ [])
    (nn : List (Aabb 2 K × Nat) → Point 2 K → List (Aabb 2 K × Nat)) (hnn : NearestFirst nn) (ps : List (Point 2 K))
    (hps : ∀ p ∈ ps, p ∈ covered mesh) :
    ∃ T F, indexedTriangles eps mesh nn = some T ∧ fromSpaceAndPoints T .onlyValues ps = some F ∧
      ∀ (s : Nat) (G : Matrix (Fin 2) (Fin s) K) (b : Fin s → K) (u : List K), 0 < s → IsAffine mesh.vertices G b u →
        F.interpolate s u = some (ps.map (affineValue G b)) := by
  obtain ⟨entries, h1, h2⟩ := found (kind := .tri3) (triSpace2_answers eps he mesh hm) rfl (tri_points hm eps) hnn hne
  obtain ⟨T, hT, hval⟩ := C93_triangles eps he mesh hm hne nn hnn
  obtain rfl : indexed .tri3 mesh (triSpace2 eps mesh) nn entries = T := by
    rw [indexedTriangles, h1] at hT
    exact Option.some.inj hT
  obtain ⟨F, hF⟩ := C55_builds _ (consistent (kind := .tri3) hm (triSpace2 eps mesh) nn entries (by decide)) .onlyValues ps (by
    intro p _
    obtain ⟨e, xi, h3, -, -⟩ := h2 p
    exact ⟨e, xi, by simp only [indexed, h3]; rfl, fun h => absurd rfl h⟩)
  refine ⟨_, F, hT, hF, fun s G b u hs hu => ?_⟩
  rw [C55_values_agree _ _ ps F hF (by simp) s hs u]
  refine Assembly.mapM_some_map _ _ _ fun p hp => ?_
  obtain ⟨q, hq, hi⟩ := hval s G b u hs hu p
  rw [hi, hq.2 (hps p hp)]

/-- The same for meshes of tetrahedra. -/
theorem C93_fixed_interpolator_tetrahedra (eps : K) (he : 0 ≤ eps) (mesh : Mesh (Point 3 K)) (hm : CellsOf 4 mesh) (hne : mesh.cells ≠ [])
    (nn : List (Aabb 3 K × Nat) → Point 3 K → List (Aabb 3 K × Nat)) (hnn : NearestFirst nn) (ps : List (Point 3 K))
    (hps : ∀ p ∈ ps, p ∈ covered mesh) :
    ∃ T F, indexedTetrahedra eps mesh nn = some T ∧ fromSpaceAndPoints T .onlyValues ps = some F ∧
      ∀ (s : Nat) (G : Matrix (Fin 3) (Fin s) K) (b : Fin s → K) (u : List K), 0 < s → IsAffine mesh.vertices G b u →
        F.interpolate s u = some (ps.map (affineValue G b)) := by
  obtain ⟨entries, h1, h2⟩ := found (kind := .tet4) (tetSpace_answers eps he mesh hm) rfl (tet_points hm eps) hnn hne
  obtain ⟨T, hT, hval⟩ := C93_tetrahedra eps he mesh hm hne nn hnn
  obtain rfl : indexed .tet4 mesh (tetSpace eps mesh) nn entries = T := by
    rw [indexedTetrahedra, h1] at hT
    exact Option.some.inj hT
  obtain ⟨F, hF⟩ := C55_builds _ (consistent (kind := .tet4) hm (tetSpace eps mesh) nn entries (by decide)) .onlyValues ps (by
    intro p _
    obtain ⟨e, xi, h3, -, -⟩ := h2 p
    exact ⟨e, xi, by simp only [indexed, h3]; rfl, fun h => absurd rfl h⟩)
  refine ⟨_, F, hT, hF, fun s G b u hs hu => ?_⟩
  rw [C55_values_agree _ _ ps F hF (by simp) s hs u]
  refine Assembly.mapM_some_map _ _ _ fun p hp => ?_
  obtain ⟨q, hq, hi⟩ := hval s G b u hs hu p
  rw [hi, hq.2 (hps p hp)]

/-! ## A concrete case -/

/-- A unit square made of two triangles, and the nodal values of `x + 2 y`. -/
private def unitSquare : Mesh (Point 2 ℚ) := ⟨[![0, 0], ![1, 0], ![1, 1], ![0, 1]], [[0, 1, 2], [0, 2, 3]]⟩

example : CellsOf 3 unitSquare ∧ unitSquare.cells ≠ [] ∧ IsAffine unitSquare.vertices (s := 1) ![![1], ![2]] ![0] [0, 1, 3, 2] ∧
    ∀ c ∈ unitSquare.cells, ∀ A B C, c.map (fun v => (unitSquare.vertices[v]?).getD 0) = [A, B, C] → Fenris.Spec.orient2 A B C ≠ 0 := by
  refine ⟨?_, by simp [unitSquare], ⟨rfl, ?_⟩, ?_⟩
  · intro c hc
    simp only [unitSquare, List.mem_cons, List.not_mem_nil, or_false] at hc
    rcases hc with rfl | rfl <;> simp [unitSquare]
  · intro n x hx i
    fin_cases i
    match n, hx with
    | 0, hx | 1, hx | 2, hx | 3, hx =>
      simp only [unitSquare, List.getElem?_cons_zero, List.getElem?_cons_succ, Option.some.injEq] at hx
      subst hx
      simp [Fin.sum_univ_two]
      try norm_num
    | n + 4, hx => simp [unitSquare] at hx
  · intro c hc A B C h
    simp only [unitSquare, List.mem_cons, List.not_mem_nil, or_false] at hc
    rcases hc with rfl | rfl <;>
    · simp [unitSquare] at h
      obtain ⟨rfl, rfl, rfl⟩ := h
      simp [Fenris.Spec.orient2]

/-- At a point of the second triangle, and at a point outside of the square, whose nearest point is `(1, 1/2)`. -/
example : (indexedTriangles 0 unitSquare fun es _ => es).bind (fun T => interpolateAtPoints T 1 [0, 1, 3, 2] [![1 / 4, 3 / 4], ![2, 1 / 2]]) =
    some [![7 / 4], ![2]] := by decide +kernel

end Fenris.Index
