import Verif.Lemmas.PatchTest
import Verif.Props.EllipticAssembler
import Verif.Props.Surface
/-! # C89: the patch test

For every mesh of triangles, quadrilaterals, tetrahedra or hexahedra, every operator and every affine function: the assembled internal
forces are those of the constant stress on the boundary faces, and vanish inside. -/
set_option autoImplicit false
set_option linter.unusedSectionVars false

namespace Fenris.PatchTest
open Fenris.Element Fenris.Local Fenris.Local.Spec Fenris.PatchTest.Spec Fenris.Surface Fenris.Surface.Spec Quadrature
open Fenris.Spec (vectorContribution matrixContribution entry SortsNodes)

variable {K : Type} [Field K] [LinearOrder K] [IsStrictOrderedRing K] {s : Nat} {Param : Type} [Inhabited Param] {ω : K}

attribute [local instance] zeroFill

/-! ## The space of a mesh -/

/-- The element of a cell. -/
private def elem (kind : Kind) (mesh : Mesh (Point kind.dim K)) (c : List Nat) : VolElement kind.dim K × List Nat :=
  (elementOfKind kind (c.map (coords mesh.vertices)), c)

private theorem mapM_some_of {A B : Type} (f : A → Option B) (g : A → B) (l : List A) (h : ∀ a ∈ l, f a = some (g a)) :
    l.mapM f = some (l.map g) := Assembly.mapM_some_map _ _ _ h

/-- C89: a mesh whose cells refer to its vertices is a finite element space. -/
theorem C89_mesh_space (kind : Kind) (mesh : Mesh (Point kind.dim K)) (hv : ∀ c ∈ mesh.cells, ∀ v ∈ c, v < mesh.vertices.length) :
    meshSpace kind mesh = some (mesh.cells.map fun c => (elementOfKind kind (c.map (coords mesh.vertices)), c)) := by
  apply mapM_some_of
  intro c hc
  unfold cellElement
  rw [mapM_some_of _ (coords mesh.vertices) c]
  · rfl
  · intro i hi
    have := hv c hc i hi
    rw [coords, List.getElem?_eq_getElem this, List.getD_eq_getElem?_getD, List.getElem?_eq_getElem this]
    rfl

/-! ## The gradient of an affine function -/

theorem weightedSum_eq {d : Nat} (ps : List (Point d K)) (ns : List K) (h : ps.length = ns.length) (r : Fin d) :
    weightedSum ps ns r = ∑ I : Fin ns.length, (ps.getD I 0) r * ns[I] := by
  induction ns generalizing ps with
  | nil => cases ps <;> simp [weightedSum]
  | cons n ns ih =>
    cases ps with
    | nil => simp at h
    | cons p ps =>
      simp only [weightedSum]
      rw [ih ps (by simpa using h)]
      simp only [List.length_cons, Fin.sum_univ_succ]
      simp

/-- The kinds whose geometry is their own. -/
private theorem own_geometry (kind : Kind) (hk : kind ∈ [Kind.tri3, .quad4, .tet4, .hex8]) :
    (∀ xi : Point kind.dim K, geometryGradients kind xi = gradients kind xi) ∧ kind.geometry.numNodes = kind.numNodes := by
  simp only [List.mem_cons, List.not_mem_nil, or_false] at hk
  rcases hk with rfl | rfl | rfl | rfl <;> exact ⟨fun _ => rfl, rfl⟩

private theorem jacobian_eq (kind : Kind) (hk : kind ∈ [Kind.tri3, .quad4, .tet4, .hex8]) (xs : List (Point kind.dim K))
    (hx : xs.length = kind.numNodes) (p : Point kind.dim K) (r c : Fin kind.dim) :
    (elementOfKind kind xs).jacobian p r c = ∑ I : Fin (gradients kind p).length, (xs.getD I 0) r * (gradients kind p)[I] c := by
  obtain ⟨h1, h2⟩ := own_geometry (K := K) kind hk
  have hl : (gradients kind p).length = kind.numNodes := (C35_gradients_sum_to_zero kind p r).1
  change weightedSum (xs.take kind.geometry.numNodes) ((geometryGradients kind p).map (fun G => G c)) r = _
  rw [h1, h2, ← hx, List.take_length, weightedSum_eq _ _ (by simp [hl, hx])]
  apply Fintype.sum_equiv (finCongr (by simp))
  intro I
  simp
  exact .inl rfl

private theorem localPart_getD (s : Nat) (u : List K) (nodes : List Nat) (a : Nat) (ha : a < nodes.length) (i : Fin s) :
    (localPart s u nodes).getD (s * a + i) 0 = u.getD (s * nodes[a] + i) 0 := by
  unfold localPart
  induction nodes generalizing a with
  | nil => simp at ha
  | cons n nodes ih =>
    rw [List.flatMap_cons]
    cases a with
    | zero =>
      rw [List.getD_eq_getElem?_getD, List.getElem?_append_left (by simp)]
      simp
    | succ a =>
      rw [List.getD_eq_getElem?_getD, List.getElem?_append_right (by simp [Nat.mul_succ]; omega),
        ← List.getD_eq_getElem?_getD]
      have e : s * (a + 1) + (i : Nat) - ((List.range s).map fun i => u.getD (s * n + i) 0).length = s * a + i := by
        simp [Nat.mul_succ]
        omega
      rw [e, ih a (by simpa using ha)]
      rfl

/-- C89: on every element the gradient of the interpolant of an affine function is the gradient of the function. -/
theorem C89_gradient (kind : Kind) (hk : kind ∈ [Kind.tri3, .quad4, .tet4, .hex8]) (vs : List (Point kind.dim K))
    (G : Matrix (Fin kind.dim) (Fin s) K) (b : Fin s → K) (u : List K) (hu : IsAffine vs G b u) (c : List Nat)
    (hc : c.length = kind.numNodes) (hv : ∀ v ∈ c, v < vs.length) (p : Point kind.dim K)
    (hdet : ((elementOfKind kind (c.map (coords vs))).jacobian p).det ≠ 0) :
    gradU s ((elementOfKind kind (c.map (coords vs))).jacobian p) ((elementOfKind kind (c.map (coords vs))).gradients p) (localPart s u c) = G := by
  have hlen : (gradients kind p).length = c.length := by
    have : ∀ m : Fin kind.dim, (gradients kind p).length = c.length := fun m => (C35_gradients_sum_to_zero kind p m).1.trans hc.symm
    cases kind <;> exact this 0
  funext k i
  have hval : ∀ I : Fin (gradients kind p).length, (localPart s u c).getD (s * I + i) 0 =
      ∑ m, G m i * ((c.map (coords vs)).getD I 0) m + b i := by
    intro I
    have hI : (I : Nat) < c.length := hlen ▸ I.2
    have hn := hv _ (List.getElem_mem hI)
    rw [localPart_getD s u c I hI, List.getD_eq_getElem?_getD,
      hu.value c[(I : Nat)] (coords vs c[(I : Nat)]) (by
        rw [coords, List.getElem?_eq_getElem hn, List.getD_eq_getElem?_getD, List.getElem?_eq_getElem hn]; rfl) i]
    rw [Option.getD_some, List.getD_eq_getElem?_getD, List.getElem?_map, List.getElem?_eq_getElem hI]
    rfl
  change ∑ I : Fin (gradients kind p).length, physGrad _ (gradients kind p)[I] k * (localPart s u c).getD (s * I + i) 0 = G k i
  simp only [hval, physGrad]
  generalize hJ : (elementOfKind kind (c.map (coords vs))).jacobian p = J at hdet
  have hJe : ∀ r m, J r m = ∑ I : Fin (gradients kind p).length, ((c.map (coords vs)).getD I 0) r * (gradients kind p)[I] m := by
    intro r m
    rw [← hJ]
    exact jacobian_eq kind hk _ (by simpa using hc) p r m
  have h0 : ∀ m : Fin kind.dim, ∑ I : Fin (gradients kind p).length, (gradients kind p)[I] m = 0 := by
    intro m
    rw [← (C35_gradients_sum_to_zero kind p m).2, ← List.sum_ofFn]
    congr 1
    apply List.ext_getElem
    · simp
    · intro n h1 h2
      simp
  have hinv : ∀ r, ∑ m, J⁻¹ m k * J r m = if r = k then 1 else 0 := by
    intro r
    have := congrFun (congrFun (Matrix.mul_nonsing_inv J (isUnit_iff_ne_zero.2 hdet)) r) k
    rw [Matrix.mul_apply, Matrix.one_apply] at this
    rw [← this]
    exact Finset.sum_congr rfl fun m _ => mul_comm _ _
  calc ∑ I : Fin (gradients kind p).length, (∑ m, J⁻¹ m k * (gradients kind p)[I] m) * (∑ r, G r i * ((c.map (coords vs)).getD I 0) r + b i)
      = ∑ r, G r i * (∑ m, J⁻¹ m k * ∑ I : Fin (gradients kind p).length, ((c.map (coords vs)).getD I 0) r * (gradients kind p)[I] m)
        + b i * ∑ m, J⁻¹ m k * ∑ I : Fin (gradients kind p).length, (gradients kind p)[I] m := by
        simp only [mul_add, Finset.sum_add_distrib, Finset.mul_sum, Finset.sum_mul]
        congr 1
        · rw [Finset.sum_comm]
          refine Finset.sum_congr rfl fun r _ => ?_
          rw [Finset.sum_comm]
          exact Finset.sum_congr rfl fun m _ => Finset.sum_congr rfl fun I _ => by ring
        · rw [Finset.sum_comm]
          exact Finset.sum_congr rfl fun m _ => Finset.sum_congr rfl fun I _ => by ring
    _ = G k i := by
        simp only [h0, ← hJe, hinv]
        simp

/-! ## One cell -/

private theorem indicator (a n : Nat) : ∃ δ : K, ∀ (_ : Decidable (a = n)) (x : K), (if a = n then x else 0) = δ * x :=
  ⟨if a = n then 1 else 0, by intro _ x; split_ifs <;> simp⟩

/-- The integrals of the gradients over a cell are the integrals over its faces. -/
private theorem cell_identity (kind : Kind) (hk : kind ∈ [Kind.tri3, .quad4, .tet4, .hex8]) (vs : List (Point kind.dim K)) (c : List Nat)
    (hc : c.length = kind.numNodes) (rule : List (QPoint kind.dim K Param)) (hr : PatchRule ω kind rule)
    (hdet : ∀ q ∈ rule, 0 < ((elementOfKind kind (c.map (coords vs))).jacobian q.2.1).det) (n : Nat) (k : Fin kind.dim) :
    ∑ a : Fin c.length, (if c[a] = n then quadSum (elementOfKind kind (c.map (coords vs))) rule (fun p _ =>
      physGrad ((elementOfKind kind (c.map (coords vs))).jacobian p) (((elementOfKind kind (c.map (coords vs))).gradients p)[(a : Nat)]?.getD 0) k)
      else 0) = ω * ((facesOf kind c).map fun f => faceShare kind vs n f k).sum := by
  simp only [List.mem_cons, List.not_mem_nil, or_false] at hk
  rcases hk with rfl | rfl | rfl | rfl
  · match c, hc with
    | [c0, c1, c2], _ =>
      have h := triangle_gradient ![coords vs c0, coords vs c1, coords vs c2] rule hr hdet
      obtain ⟨δ0, hδ0⟩ := indicator (K := K) c0 n
      obtain ⟨δ1, hδ1⟩ := indicator (K := K) c1 n
      obtain ⟨δ2, hδ2⟩ := indicator (K := K) c2 n
      refine Eq.trans (b := ∑ a : Fin 3, if ![c0, c1, c2] a = n then ω * triangleIntegral ![coords vs c0, coords vs c1, coords vs c2] a k else 0)
        (Finset.sum_congr rfl fun a _ => ?_) ?_
      · rw [← h a k]
        fin_cases a <;> rfl
      · rw [Fin.sum_univ_three]
        change (if c0 = n then _ else 0) + (if c1 = n then _ else 0) + (if c2 = n then _ else 0) = _
        rw [hδ0, hδ1, hδ2]
        simp only [facesOf, localFaces, faceShare, edgeShare, triangleIntegral, List.map_cons, List.map_nil, List.getD_cons_zero,
          List.getD_cons_succ, List.sum_cons, List.sum_nil, Matrix.cons_val, Pi.add_apply, Pi.smul_apply, ite_apply, Pi.zero_apply, smul_eq_mul,
          hδ0, hδ1, hδ2]
        fin_cases k <;> simp [edgeNormal] <;> ring
  · match c, hc with
    | [c0, c1, c2, c3], _ =>
      have h := quadrilateral_gradient ![coords vs c0, coords vs c1, coords vs c2, coords vs c3] rule hr hdet
      obtain ⟨δ0, hδ0⟩ := indicator (K := K) c0 n
      obtain ⟨δ1, hδ1⟩ := indicator (K := K) c1 n
      obtain ⟨δ2, hδ2⟩ := indicator (K := K) c2 n
      obtain ⟨δ3, hδ3⟩ := indicator (K := K) c3 n
      refine Eq.trans (b := ∑ a : Fin 4, if ![c0, c1, c2, c3] a = n then ω * quadrilateralIntegral ![coords vs c0, coords vs c1, coords vs c2, coords vs c3] a k else 0)
        (Finset.sum_congr rfl fun a _ => ?_) ?_
      · rw [← h a k]
        fin_cases a <;> rfl
      · rw [Fin.sum_univ_four]
        change (if c0 = n then _ else 0) + (if c1 = n then _ else 0) + (if c2 = n then _ else 0) + (if c3 = n then _ else 0) = _
        rw [hδ0, hδ1, hδ2, hδ3]
        simp only [facesOf, localFaces, faceShare, edgeShare, quadrilateralIntegral, List.map_cons, List.map_nil, List.getD_cons_zero,
          List.getD_cons_succ, List.sum_cons, List.sum_nil, Matrix.cons_val, Pi.add_apply, Pi.smul_apply, ite_apply, Pi.zero_apply, smul_eq_mul,
          hδ0, hδ1, hδ2, hδ3]
        fin_cases k <;> simp [edgeNormal] <;> ring
  · match c, hc with
    | [c0, c1, c2, c3], _ =>
      have h := tetrahedron_gradient ![coords vs c0, coords vs c1, coords vs c2, coords vs c3] rule hr hdet
      obtain ⟨δ0, hδ0⟩ := indicator (K := K) c0 n
      obtain ⟨δ1, hδ1⟩ := indicator (K := K) c1 n
      obtain ⟨δ2, hδ2⟩ := indicator (K := K) c2 n
      obtain ⟨δ3, hδ3⟩ := indicator (K := K) c3 n
      refine Eq.trans (b := ∑ a : Fin 4, if ![c0, c1, c2, c3] a = n then ω * tetrahedronIntegral ![coords vs c0, coords vs c1, coords vs c2, coords vs c3] a k else 0)
        (Finset.sum_congr rfl fun a _ => ?_) ?_
      · rw [← h a k]
        fin_cases a <;> rfl
      · rw [Fin.sum_univ_four]
        change (if c0 = n then _ else 0) + (if c1 = n then _ else 0) + (if c2 = n then _ else 0) + (if c3 = n then _ else 0) = _
        rw [hδ0, hδ1, hδ2, hδ3]
        simp only [facesOf, localFaces, faceShare, triShare, tetrahedronIntegral, List.map_cons, List.map_nil, List.getD_cons_zero,
          List.getD_cons_succ, List.sum_cons, List.sum_nil, Matrix.cons_val, Pi.add_apply, Pi.smul_apply, ite_apply, Pi.zero_apply, smul_eq_mul,
          hδ0, hδ1, hδ2, hδ3]
        fin_cases k <;> simp [triNormal] <;> ring
  · match c, hc with
    | [c0, c1, c2, c3, c4, c5, c6, c7], _ =>
      have h := hexahedron_gradient ![coords vs c0, coords vs c1, coords vs c2, coords vs c3, coords vs c4, coords vs c5, coords vs c6, coords vs c7] rule hr hdet
      obtain ⟨δ0, hδ0⟩ := indicator (K := K) c0 n
      obtain ⟨δ1, hδ1⟩ := indicator (K := K) c1 n
      obtain ⟨δ2, hδ2⟩ := indicator (K := K) c2 n
      obtain ⟨δ3, hδ3⟩ := indicator (K := K) c3 n
      obtain ⟨δ4, hδ4⟩ := indicator (K := K) c4 n
      obtain ⟨δ5, hδ5⟩ := indicator (K := K) c5 n
      obtain ⟨δ6, hδ6⟩ := indicator (K := K) c6 n
      obtain ⟨δ7, hδ7⟩ := indicator (K := K) c7 n
      refine Eq.trans (b := ∑ a : Fin 8, if ![c0, c1, c2, c3, c4, c5, c6, c7] a = n then ω * hexahedronIntegral ![coords vs c0, coords vs c1, coords vs c2, coords vs c3, coords vs c4, coords vs c5, coords vs c6, coords vs c7] a k else 0)
        (Finset.sum_congr rfl fun a _ => ?_) ?_
      · rw [← h a k]
        fin_cases a <;> rfl
      · rw [Fin.sum_univ_eight]
        change (if c0 = n then _ else 0) + (if c1 = n then _ else 0) + (if c2 = n then _ else 0) + (if c3 = n then _ else 0) + (if c4 = n then _ else 0) + (if c5 = n then _ else 0) + (if c6 = n then _ else 0) + (if c7 = n then _ else 0) = _
        rw [hδ0, hδ1, hδ2, hδ3, hδ4, hδ5, hδ6, hδ7]
        simp only [facesOf, localFaces, faceShare, quadShare, hexahedronIntegral, List.map_cons, List.map_nil, List.getD_cons_zero,
          List.getD_cons_succ, List.sum_cons, List.sum_nil, Matrix.cons_val, Pi.add_apply, Pi.smul_apply, ite_apply, Pi.zero_apply, smul_eq_mul,
          hδ0, hδ1, hδ2, hδ3, hδ4, hδ5, hδ6, hδ7]
        fin_cases k <;> simp [cornerNormal] <;> ring

/-! ## Orientation -/

private theorem opposite_cases (f g : List Nat) (h : Opposite f g) :
    (f.length = 2 → g = f.reverse) ∧ (g.length = f.length) ∧ (3 ≤ f.length → ∃ n < f.length, g = f.reverse.rotate n) := by
  rcases h with rfl | ⟨h3, n, rfl⟩
  · exact ⟨fun _ => rfl, by simp, fun h => ⟨0, by omega, by simp⟩⟩
  · refine ⟨fun h => by omega, by simp, fun _ => ⟨n % f.length, Nat.mod_lt _ (by omega), ?_⟩⟩
    conv_rhs => rw [← List.length_reverse (as := f), List.rotate_mod]

private theorem edgeShare_opposite (vs : List (Point 2 K)) (n : Nat) (f g : List Nat) (h : Opposite f g) :
    edgeShare vs n g = -edgeShare vs n f := by
  obtain ⟨h1, h2, -⟩ := opposite_cases f g h
  by_cases hl : f.length = 2
  · match f, hl with
    | [a, b], _ =>
      rw [h1 rfl]
      funext k
      simp only [List.reverse_cons, List.reverse_nil, List.nil_append, List.singleton_append, edgeShare, Pi.smul_apply, Pi.neg_apply, smul_eq_mul,
        edgeNormal]
      fin_cases k <;> simp <;> ring
  · have e : ∀ l : List Nat, l.length ≠ 2 → edgeShare vs n l = 0 := by
      intro l hl
      match l, hl with
      | [], _ => rfl
      | [_], _ => rfl
      | [_, _], h => exact absurd rfl h
      | _ :: _ :: _ :: _, _ => rfl
    rw [e f hl, e g (h2 ▸ hl), neg_zero]

private theorem triShare_opposite (vs : List (Point 3 K)) (n : Nat) (f g : List Nat) (h : Opposite f g) :
    triShare vs n g = -triShare vs n f := by
  obtain ⟨-, h2, h3⟩ := opposite_cases f g h
  by_cases hl : f.length = 3
  · match f, hl with
    | [a, b, c], _ =>
      obtain ⟨m, hm, rfl⟩ := h3 (by simp)
      have hm' : m = 0 ∨ m = 1 ∨ m = 2 := by simp at hm; omega
      funext k
      rcases hm' with rfl | rfl | rfl <;>
        simp only [List.reverse_cons, List.reverse_nil, List.nil_append, List.cons_append, List.rotate_zero, List.rotate_cons_succ,
          triShare, Pi.smul_apply, Pi.neg_apply, smul_eq_mul, triNormal] <;>
        fin_cases k <;> simp <;> ring
  · have e : ∀ l : List Nat, l.length ≠ 3 → triShare vs n l = 0 := by
      intro l hl
      match l, hl with
      | [], _ => rfl
      | [_], _ => rfl
      | [_, _], _ => rfl
      | [_, _, _], h => exact absurd rfl h
      | _ :: _ :: _ :: _ :: _, _ => rfl
    rw [e f hl, e g (h2 ▸ hl), neg_zero]

private theorem corner_opposite (a b c e : Point 3 K) : cornerNormal a e c b = -cornerNormal a b c e := by
  funext k
  simp only [cornerNormal, Pi.smul_apply, Pi.neg_apply, Pi.add_apply, smul_eq_mul, triNormal]
  fin_cases k <;> simp <;> ring

private theorem quadShare_opposite (vs : List (Point 3 K)) (n : Nat) (f g : List Nat) (h : Opposite f g) :
    quadShare vs n g = -quadShare vs n f := by
  obtain ⟨-, h2, h3⟩ := opposite_cases f g h
  by_cases hl : f.length = 4
  · match f, hl with
    | [a, b, c, e], _ =>
      obtain ⟨m, hm, rfl⟩ := h3 (by simp)
      have hm' : m = 0 ∨ m = 1 ∨ m = 2 ∨ m = 3 := by simp at hm; omega
      have hneg : ∀ (i : Nat) (v : Point 3 K), (if i = n then -v else 0) = -(if i = n then v else 0) := by
        intro i v
        split_ifs <;> simp
      rcases hm' with rfl | rfl | rfl | rfl <;>
        simp only [List.reverse_cons, List.reverse_nil, List.nil_append, List.cons_append, List.rotate_zero, List.rotate_cons_succ, quadShare] <;>
        rw [corner_opposite (coords vs a) (coords vs b), corner_opposite (coords vs b) (coords vs c), corner_opposite (coords vs c) (coords vs e),
          corner_opposite (coords vs e) (coords vs a)] <;>
        simp only [hneg] <;> abel
  · have e : ∀ l : List Nat, l.length ≠ 4 → quadShare vs n l = 0 := by
      intro l hl
      match l, hl with
      | [], _ => rfl
      | [_], _ => rfl
      | [_, _], _ => rfl
      | [_, _, _], _ => rfl
      | [_, _, _, _], h => exact absurd rfl h
      | _ :: _ :: _ :: _ :: _ :: _, _ => rfl
    rw [e f hl, e g (h2 ▸ hl), neg_zero]

private theorem faceShare_opposite (kind : Kind) (hk : kind ∈ [Kind.tri3, .quad4, .tet4, .hex8]) (vs : List (Point kind.dim K)) (n : Nat)
    (f g : List Nat) (h : Opposite f g) : faceShare kind vs n g = -faceShare kind vs n f := by
  simp only [List.mem_cons, List.not_mem_nil, or_false] at hk
  rcases hk with rfl | rfl | rfl | rfl
  · exact edgeShare_opposite vs n f g h
  · exact edgeShare_opposite vs n f g h
  · exact triShare_opposite vs n f g h
  · exact quadShare_opposite vs n f g h

/-- A face without the vertex has no share. -/
theorem faceShare_eq_zero (kind : Kind) (vs : List (Point kind.dim K)) (n : Nat) (f : List Nat) (h : n ∉ f) :
    faceShare kind vs n f = 0 := by
  have e2 : ∀ vs : List (Point 2 K), edgeShare vs n f = 0 := by
    intro vs
    unfold edgeShare
    split
    · rename_i a b
      simp only [List.mem_cons, List.not_mem_nil, or_false, not_or] at h
      rw [if_neg (Ne.symm h.1), if_neg (Ne.symm h.2)]
      simp
    · rfl
  have e3 : ∀ vs : List (Point 3 K), triShare vs n f = 0 := by
    intro vs
    unfold triShare
    split
    · simp only [List.mem_cons, List.not_mem_nil, or_false, not_or] at h
      rw [if_neg (Ne.symm h.1), if_neg (Ne.symm h.2.1), if_neg (Ne.symm h.2.2)]
      simp
    · rfl
  have e4 : ∀ vs : List (Point 3 K), quadShare vs n f = 0 := by
    intro vs
    unfold quadShare
    split
    · simp only [List.mem_cons, List.not_mem_nil, or_false, not_or] at h
      simp only
      rw [if_neg (Ne.symm h.1), if_neg (Ne.symm h.2.1), if_neg (Ne.symm h.2.2.1), if_neg (Ne.symm h.2.2.2)]
      simp
    · rfl
  cases kind
  case tri3 => exact e2 vs
  case quad4 => exact e2 vs
  case tet4 => exact e3 vs
  case hex8 => exact e4 vs
  all_goals rfl

/-! ## The patch test -/

/-- The data of a patch test: the cells refer to vertices of the mesh and have as many as their kind, the mesh is consistently oriented,
the table assigns element `e` the rule `rules e`, which integrates the gradients up to the factor `ω` and carries the parameter `param` everywhere, and
all elements are positively oriented. -/
structure Patch (ω : K) (kind : Kind) (mesh : Mesh (Point kind.dim K)) (table : Table (Point kind.dim K) K Param)
    (rules : Nat → List (QPoint kind.dim K Param)) (param : Param) : Prop where
  size : ∀ c ∈ mesh.cells, c.length = kind.numNodes
  inBounds : ∀ c ∈ mesh.cells, ∀ v ∈ c, v < mesh.vertices.length
  consistent : Consistent (facesOf kind) mesh.cells
  rule : ∀ e, e < mesh.cells.length → ∀ b : Buffer (Point kind.dim K) K Param, b.populate e table =
    some ⟨(rules e).map (·.2.1), (rules e).map (·.1), (rules e).map (·.2.2)⟩
  exact : ∀ e, e < mesh.cells.length → PatchRule ω kind (rules e)
  uniform : ∀ e, e < mesh.cells.length → ∀ q ∈ rules e, q.2.2 = param
  positive : ∀ space, meshSpace kind mesh = some space → ∀ (e : Nat) (en : VolElement kind.dim K × List Nat), space[e]? = some en →
    ∀ q ∈ rules e, 0 < (en.1.jacobian q.2.1).det

variable {kind : Kind} {mesh : Mesh (Point kind.dim K)} {table : Table (Point kind.dim K) K Param}
  {rules : Nat → List (QPoint kind.dim K Param)} {param : Param}

private theorem discretisation (h : Patch ω kind mesh table rules param) (u : List K) (hu : u.length = s * mesh.vertices.length) :
    Discretisation (mesh.cells.map fun c => (elementOfKind kind (c.map (coords mesh.vertices)), c)) mesh.vertices.length table rules u s where
  wellFormed := by
    intro en hen
    obtain ⟨c, -, rfl⟩ := List.mem_map.1 hen
    exact elementOfKind_wellFormed _ _
  nodeCount := by
    intro en hen
    obtain ⟨c, hc, rfl⟩ := List.mem_map.1 hen
    exact h.size c hc
  inBounds := by
    intro en hen
    obtain ⟨c, hc, rfl⟩ := List.mem_map.1 hen
    exact h.inBounds c hc
  uLength := hu
  rule := by
    intro e he
    exact h.rule e (by simpa using he)
  regular := by
    intro e en he q hq
    exact (h.positive _ (C89_mesh_space kind mesh h.inBounds) e en he q hq).ne'

private theorem dof_eq {s a b i j : Nat} (hi : i < s) (hj : j < s) : s * a + i = s * b + j ↔ a = b ∧ i = j := by
  constructor
  · intro h
    have h1 : (s * a + i) / s = a := by
      rw [Nat.mul_add_div (by omega), Nat.div_eq_of_lt hi, Nat.add_zero]
    have h2 : (s * b + j) / s = b := by
      rw [Nat.mul_add_div (by omega), Nat.div_eq_of_lt hj, Nat.add_zero]
    have hab : a = b := by rw [← h1, ← h2, h]
    subst hab
    exact ⟨rfl, by omega⟩
  · rintro ⟨rfl, rfl⟩; rfl

/-- The element vectors of a constant stress `P`. -/
private noncomputable def force (kind : Kind) (mesh : Mesh (Point kind.dim K)) (rules : Nat → List (QPoint kind.dim K Param))
    (P : Matrix (Fin kind.dim) (Fin s) K) (e x : Nat) : K :=
  if hs : 0 < s then
    ∑ k, P k ⟨x % s, Nat.mod_lt _ hs⟩ * quadSum (elementOfKind kind ((mesh.cells.getD e []).map (coords mesh.vertices))) (rules e)
      (fun p _ => physGrad ((elementOfKind kind ((mesh.cells.getD e []).map (coords mesh.vertices))).jacobian p)
        (((elementOfKind kind ((mesh.cells.getD e []).map (coords mesh.vertices))).gradients p)[x / s]?.getD 0) k)
  else 0

private theorem quadSum_linear {d : Nat} (el : VolElement d K) (rule : List (QPoint d K Param)) (P : Fin d → K) (f : Fin d → Point d K → K) :
    quadSum el rule (fun p _ => ∑ k, P k * f k p) = ∑ k, P k * quadSum el rule (fun p _ => f k p) := by
  unfold quadSum
  induction rule with
  | nil => simp
  | cons q rule ih =>
    rw [List.map_cons, List.sum_cons, ih]
    simp only [List.map_cons, List.sum_cons, mul_add, Finset.sum_add_distrib, Finset.mul_sum]
    congr 1
    exact Finset.sum_congr rfl fun k _ => by ring

/-- The sum of the element vectors of a constant stress. -/
private theorem force_total (hk : kind ∈ [Kind.tri3, .quad4, .tet4, .hex8]) (h : Patch ω kind mesh table rules param)
    (P : Matrix (Fin kind.dim) (Fin s) K) (space : Space kind.dim K) (hspace : meshSpace kind mesh = some space)
    (fs : List (List Nat × Nat × Nat)) (hfs : Mesh.findBoundaryFaces (facesOf kind) mesh = some fs) (n : Nat) (i : Fin s) :
    ∑ e : Fin space.length, vectorContribution s (space[e]).2 (force kind mesh rules P e) (s * n + i) =
      ω * ∑ k, P k i * (fs.map fun x => faceShare kind mesh.vertices n x.1 k).sum := by
  have hsp : space = mesh.cells.map fun c => (elementOfKind kind (c.map (coords mesh.vertices)), c) :=
    Option.some.inj (hspace.symm.trans (C89_mesh_space kind mesh h.inBounds))
  have hpos := h.positive space hspace
  have hs : 0 < s := lt_of_le_of_lt (Nat.zero_le _) i.2
  -- the contribution of one element
  have hone : ∀ (e : Nat) (c : List Nat), mesh.cells[e]? = some c →
      vectorContribution s c (force kind mesh rules P e) (s * n + i) =
        ω * ∑ k, P k i * ((facesOf kind c).map fun f => faceShare kind mesh.vertices n f k).sum := by
    intro e c hc
    have hlt : e < mesh.cells.length := (List.getElem?_eq_some_iff.1 hc).1
    have hmem := List.mem_of_getElem? hc
    have e3 : mesh.cells.getD e [] = c := by rw [List.getD_eq_getElem?_getD, hc]; rfl
    have hse : space[e]? = some (elementOfKind kind (c.map (coords mesh.vertices)), c) := by
      rw [hsp, List.getElem?_map, hc]; rfl
    have hid := cell_identity kind hk mesh.vertices c (h.size c hmem) (rules e) (h.exact e hlt) (hpos e _ hse) n
    rw [Finset.mul_sum]
    simp only [mul_left_comm ω, ← hid]
    simp only [Finset.mul_sum]
    rw [Finset.sum_comm]
    unfold vectorContribution
    refine Finset.sum_congr rfl fun a _ => ?_
    rw [Finset.sum_eq_single i]
    · have e1 : (s * (a : Nat) + (i : Nat)) / s = a := by rw [Nat.mul_add_div hs, Nat.div_eq_of_lt i.2, Nat.add_zero]
      have e2 : (⟨(s * (a : Nat) + (i : Nat)) % s, Nat.mod_lt _ hs⟩ : Fin s) = i := by
        refine Fin.ext ?_
        change (s * (a : Nat) + (i : Nat)) % s = i
        rw [Nat.mul_add_mod, Nat.mod_eq_of_lt i.2]
      simp only [dof_eq i.2 i.2, and_true, force, dif_pos hs, e1, e2, e3]
      split_ifs
      · rfl
      · simp
    · intro j _ hj
      rw [if_neg]
      rw [dof_eq j.2 i.2]
      exact fun hh => hj (Fin.ext hh.2)
    · simp
  have hall : ∑ e : Fin space.length, vectorContribution s (space[e]).2 (force kind mesh rules P e) (s * n + i) =
      (mesh.cells.map fun c => ω * ∑ k, P k i * ((facesOf kind c).map fun f => faceShare kind mesh.vertices n f k).sum).sum := by
    rw [← List.sum_ofFn]
    congr 1
    apply List.ext_getElem
    · simp [hsp]
    · intro e h1 h2
      have h3 : e < mesh.cells.length := by simpa using h2
      rw [List.getElem_ofFn, List.getElem_map]
      have : (space[e]'(by simpa using h1)).2 = mesh.cells[e] := by simp [hsp]
      rw [← hone e _ (List.getElem?_eq_getElem h3)]
      simp only [Fin.getElem_fin, this]
  rw [hall]
  have hgauss : ∀ k, (mesh.cells.map fun c => ((facesOf kind c).map fun f => faceShare kind mesh.vertices n f k).sum).sum =
      (fs.map fun x => faceShare kind mesh.vertices n x.1 k).sum := by
    intro k
    obtain ⟨fs', h1, h2⟩ := C79_gauss (facesOf kind) mesh h.consistent (fun f => faceShare kind mesh.vertices n f k)
      (fun f g hfg => by rw [faceShare_opposite kind hk mesh.vertices n f g hfg]; rfl)
    rw [hfs] at h1
    obtain rfl := Option.some.inj h1
    exact h2
  simp only [← hgauss]
  generalize mesh.cells = cs
  induction cs with
  | nil => simp
  | cons c cs ih => simp only [List.map_cons, List.sum_cons, ih, mul_add, Finset.sum_add_distrib]

/-- **C89.** The forces of an affine function `x ↦ Gᵀ x + b` are those of the constant stress `P = op G` on the boundary of the mesh: the
entry of the assembled vector that belongs to component `i` of vertex `n` is `Σ_k P_ki ∫_∂Ω φ_n ν_k`, for every operator, times the factor `ω` of the quadrature. -/
theorem C89_forces (hk : kind ∈ [Kind.tri3, .quad4, .tet4, .hex8]) (h : Patch ω kind mesh table rules param)
    (G : Matrix (Fin kind.dim) (Fin s) K) (b : Fin s → K) (u : List K) (hu : IsAffine mesh.vertices G b u)
    (o : Operator kind.dim s K Param) (space : Space kind.dim K) (hspace : meshSpace kind mesh = some space)
    (bufs : Nat → Buffer (Point kind.dim K) K Param) (outs : Nat → Nat → K) (elemVec : Nat → Except String (Nat → K))
    (hev : ∀ e, e < space.length → ∃ buf', elementVector space o table u (bufs e) (outs e) e = some (elemVec e, buf')) :
    ∃ fs v, Mesh.findBoundaryFaces (facesOf kind) mesh = some fs ∧
      Assembly.assembleVector (conn s space mesh.vertices.length) elemVec = some (.ok v) ∧
      ∀ n < mesh.vertices.length, ∀ i : Fin s,
        v[s * n + i]? = some (ω * ∑ k, o.op G param k i * (fs.map fun x => faceShare kind mesh.vertices n x.1 k).sum) := by
  have hsp : space = mesh.cells.map fun c => (elementOfKind kind (c.map (coords mesh.vertices)), c) :=
    Option.some.inj (hspace.symm.trans (C89_mesh_space kind mesh h.inBounds))
  have hpos := h.positive space hspace
  have hd : Discretisation space mesh.vertices.length table rules u s := hsp ▸ discretisation h u hu.length
  have hget : ∀ (e : Nat) (el : VolElement kind.dim K) (nodes : List Nat), space[e]? = some (el, nodes) →
      mesh.cells[e]? = some nodes ∧ el = elementOfKind kind (nodes.map (coords mesh.vertices)) := by
    intro e el nodes he
    rw [hsp, List.getElem?_map] at he
    obtain ⟨c, h1, h2⟩ := Option.map_eq_some_iff.1 he
    simp only [Prod.mk.injEq] at h2
    obtain ⟨rfl, rfl⟩ := h2
    exact ⟨h1, rfl⟩
  obtain ⟨fs, hfs, -⟩ := C14_boundary_faces_exact (facesOf kind) mesh
  refine ⟨fs, _, hfs, C69_global_vector space mesh.vertices.length table rules u hd o bufs outs elemVec hev
    (force kind mesh rules (o.op G param)) ?_, ?_⟩
  · intro e el nodes he I i hI
    obtain ⟨hc, rfl⟩ := hget e el nodes he
    have hlt : e < mesh.cells.length := (List.getElem?_eq_some_iff.1 hc).1
    have hmem := List.mem_of_getElem? hc
    have hs : 0 < s := lt_of_le_of_lt (Nat.zero_le _) i.2
    have e1 : (s * I + (i : Nat)) / s = I := by rw [Nat.mul_add_div hs, Nat.div_eq_of_lt i.2, Nat.add_zero]
    have e2 : (⟨(s * I + (i : Nat)) % s, Nat.mod_lt _ hs⟩ : Fin s) = i := by
      refine Fin.ext ?_
      change (s * I + (i : Nat)) % s = i
      rw [Nat.mul_add_mod, Nat.mod_eq_of_lt i.2]
    have e3 : mesh.cells.getD e [] = nodes := by rw [List.getD_eq_getElem?_getD, hc]; rfl
    simp only [force, dif_pos hs, e1, e2, e3]
    rw [← quadSum_linear]
    unfold quadSum
    congr 1
    apply List.map_congr_left
    intro q hq
    beta_reduce
    rw [C89_gradient kind hk mesh.vertices G b u hu nodes (h.size _ hmem) (h.inBounds _ hmem) q.2.1 (hpos e _ he q hq).ne',
      h.uniform e hlt q hq]
  · intro n hn i
    have hr : s * n + i < s * mesh.vertices.length := by
      have := Nat.mul_le_mul_left s (Nat.succ_le_of_lt hn)
      rw [Nat.mul_succ] at this
      have := i.2
      omega
    rw [List.getElem?_map, List.getElem?_range hr, Option.map_some, force_total hk h (o.op G param) space hspace fs hfs n i]

/-! ## The matrix of a linear operator -/

private theorem sum_matrixContribution (s : Nat) (nodes : List Nat) (A : Mat K) (v : List K) (N : Nat)
    (hb : ∀ n ∈ nodes, n < N) (r : Nat) :
    ∑ c ∈ Finset.range (s * N), matrixContribution s nodes A r c * v.getD c 0
      = ∑ a : Fin nodes.length, ∑ i : Fin s, if s * nodes[a] + i = r then
          ∑ b : Fin nodes.length, ∑ j : Fin s, A (s * a + i) (s * b + j) * v.getD (s * nodes[b] + j) 0 else 0 := by
  simp only [matrixContribution, Finset.sum_mul]
  rw [Finset.sum_comm]
  refine Finset.sum_congr rfl fun a _ => ?_
  rw [Finset.sum_comm]
  refine Finset.sum_congr rfl fun i _ => ?_
  by_cases hri : s * nodes[a] + i = r
  · rw [if_pos hri, Finset.sum_comm]
    refine Finset.sum_congr rfl fun b _ => ?_
    rw [Finset.sum_comm]
    refine Finset.sum_congr rfl fun j _ => ?_
    have hr : s * nodes[b] + j ∈ Finset.range (s * N) := by
      have := Nat.mul_le_mul_left s (Nat.succ_le_of_lt (hb nodes[b] (List.getElem_mem _)))
      rw [Nat.mul_succ] at this
      have := j.2
      rw [Finset.mem_range]
      omega
    rw [Finset.sum_eq_single_of_mem _ hr]
    · rw [if_pos ⟨hri, rfl⟩]
    · intro c _ hne
      rw [if_neg fun hh => hne hh.2.symm, zero_mul]
  · rw [if_neg hri]
    refine Finset.sum_eq_zero fun c _ => Finset.sum_eq_zero fun b _ => Finset.sum_eq_zero fun j _ => ?_
    rw [if_neg fun hh => hri hh.1, zero_mul]

private theorem quadSum_sum {d : Nat} {ι : Type} (t : Finset ι) (el : VolElement d K) (rule : List (QPoint d K Param))
    (f : ι → Point d K → Param → K) (w : ι → K) :
    ∑ x ∈ t, quadSum el rule (f x) * w x = quadSum el rule (fun p q => ∑ x ∈ t, f x p q * w x) := by
  unfold quadSum
  induction rule with
  | nil => simp
  | cons q rule ih =>
    rw [List.map_cons, List.sum_cons, ← ih]
    simp only [List.map_cons, List.sum_cons, add_mul, Finset.sum_add_distrib, Finset.mul_sum]
    congr 1
    exact Finset.sum_congr rfl fun k _ => by ring

private theorem op_sum {d : Nat} {ι : Type} (t : Finset ι) (o : Operator d s K Param) (ho : IsLinear o) (q : Param)
    (A : ι → Matrix (Fin d) (Fin s) K) (w : ι → K) (k : Fin d) (i : Fin s) :
    ∑ x ∈ t, o.op (A x) q k i * w x = o.op (Matrix.of fun k j => ∑ x ∈ t, A x k j * w x) q k i := by
  classical
  induction t using Finset.induction_on with
  | empty =>
    have := congrFun (congrFun (ho.smul 0 0 q) k) i
    simp only [zero_smul, Matrix.zero_apply] at this
    simp only [Finset.sum_empty]
    exact this.symm
  | insert x t hx ih =>
    rw [Finset.sum_insert hx, ih]
    have e : (Matrix.of fun k j => ∑ y ∈ insert x t, A y k j * w y) = w x • A x + Matrix.of fun k j => ∑ y ∈ t, A y k j * w y := by
      funext k j
      rw [Matrix.of_apply, Finset.sum_insert hx]
      change _ = w x * A x k j + _
      rw [mul_comm]
      rfl
    rw [e, ho.add, ho.smul]
    change _ = w x * _ + _
    rw [mul_comm]

/-- **C89.** The same for the assembled matrix of a linear operator: multiplied with the values of an affine function it gives the forces of
the constant stress on the boundary faces. The matrix may have been assembled at any state `u₀`. -/
theorem C89_matrix (hk : kind ∈ [Kind.tri3, .quad4, .tet4, .hex8]) (h : Patch ω kind mesh table rules param)
    (hnd : ∀ c ∈ mesh.cells, c.Nodup) (hs : 0 < s)
    (G : Matrix (Fin kind.dim) (Fin s) K) (b : Fin s → K) (u : List K) (hu : IsAffine mesh.vertices G b u)
    (u₀ : List K) (hu₀ : u₀.length = s * mesh.vertices.length)
    (o : Operator kind.dim s K Param) (hsym : SymmetryLaw o) (hlin : IsLinear o)
    (space : Space kind.dim K) (hspace : meshSpace kind mesh = some space)
    (ord : List Nat → List Nat) (hord : ∀ l, (ord l).Perm l)
    (sortNodes : List (Nat × Nat) → List (Nat × Nat)) (hsort : SortsNodes sortNodes)
    (bufs : Nat → Buffer (Point kind.dim K) K Param) (outs : Nat → Mat K) (elemMat : Nat → Except String (Mat K))
    (hem : ∀ e, e < space.length → ∃ buf', elementMatrix space o table u₀ (bufs e) (outs e) e = some (elemMat e, buf')) :
    ∃ fs m, Mesh.findBoundaryFaces (facesOf kind) mesh = some fs ∧
      Assembly.assemble ord sortNodes (conn s space mesh.vertices.length) elemMat = some (.ok m) ∧
      ∀ n < mesh.vertices.length, ∀ i : Fin s,
        ∑ c ∈ Finset.range (s * mesh.vertices.length), entry m (s * n + i) c * u.getD c 0 =
          ω * ∑ k, o.op G param k i * (fs.map fun x => faceShare kind mesh.vertices n x.1 k).sum := by
  have hsp : space = mesh.cells.map fun c => (elementOfKind kind (c.map (coords mesh.vertices)), c) :=
    Option.some.inj (hspace.symm.trans (C89_mesh_space kind mesh h.inBounds))
  have hpos := h.positive space hspace
  have hd : Discretisation space mesh.vertices.length table rules u₀ s := hsp ▸ discretisation h u₀ hu₀
  obtain ⟨fs, hfs, -⟩ := C14_boundary_faces_exact (facesOf kind) mesh
  -- the element matrices
  let stiff : Nat → Mat K := fun e x y =>
    quadSum (elementOfKind kind ((mesh.cells.getD e []).map (coords mesh.vertices))) (rules e) (fun p q =>
      o.contract (gradU s ((elementOfKind kind ((mesh.cells.getD e []).map (coords mesh.vertices))).jacobian p)
          ((elementOfKind kind ((mesh.cells.getD e []).map (coords mesh.vertices))).gradients p) (localPart s u₀ (mesh.cells.getD e [])))
        (physGrad ((elementOfKind kind ((mesh.cells.getD e []).map (coords mesh.vertices))).jacobian p)
          (((elementOfKind kind ((mesh.cells.getD e []).map (coords mesh.vertices))).gradients p)[x / s]?.getD 0))
        (physGrad ((elementOfKind kind ((mesh.cells.getD e []).map (coords mesh.vertices))).jacobian p)
          (((elementOfKind kind ((mesh.cells.getD e []).map (coords mesh.vertices))).gradients p)[y / s]?.getD 0)) q
        ⟨x % s, Nat.mod_lt _ hs⟩ ⟨y % s, Nat.mod_lt _ hs⟩)
  have hdiv : ∀ (I : Nat) (i : Fin s), (s * I + (i : Nat)) / s = I := fun I i => by
    rw [Nat.mul_add_div hs, Nat.div_eq_of_lt i.2, Nat.add_zero]
  have hmod : ∀ (I : Nat) (i : Fin s), (⟨(s * I + (i : Nat)) % s, Nat.mod_lt _ hs⟩ : Fin s) = i := fun I i => by
    refine Fin.ext ?_
    change (s * I + (i : Nat)) % s = i
    rw [Nat.mul_add_mod, Nat.mod_eq_of_lt i.2]
  obtain ⟨m, hm1, hm2⟩ := C69_global_matrix space mesh.vertices.length table rules u₀ hs hd
    (by
      intro en hen
      rw [hsp] at hen
      obtain ⟨c, hc, rfl⟩ := List.mem_map.1 hen
      exact hnd c hc) o hsym ord hord sortNodes hsort bufs outs elemMat hem stiff
    (by
      intro e el nodes he I J i j hI hJ
      rw [hsp, List.getElem?_map] at he
      obtain ⟨c, h1, h2⟩ := Option.map_eq_some_iff.1 he
      simp only [Prod.mk.injEq] at h2
      obtain ⟨rfl, rfl⟩ := h2
      have e3 : mesh.cells.getD e [] = c := by rw [List.getD_eq_getElem?_getD, h1]; rfl
      simp only [stiff, hdiv, hmod, e3])
  refine ⟨fs, m, hfs, hm1, fun n hn i => ?_⟩
  rw [← force_total hk h (o.op G param) space hspace fs hfs n i]
  simp only [hm2, Finset.sum_mul]
  rw [Finset.sum_comm]
  refine Finset.sum_congr rfl fun e _ => ?_
  have hlen : space.length = mesh.cells.length := by rw [hsp, List.length_map]
  have hlt : (e : Nat) < mesh.cells.length := hlen ▸ e.2
  have hc : mesh.cells[(e : Nat)]? = some mesh.cells[(e : Nat)] := List.getElem?_eq_getElem hlt
  generalize mesh.cells[(e : Nat)] = c at hc
  have hmem := List.mem_of_getElem? hc
  have hse : space[(e : Nat)]? = some (elementOfKind kind (c.map (coords mesh.vertices)), c) := by
    have : ∀ e : Nat, mesh.cells[e]? = some c → space[e]? = some (elementOfKind kind (c.map (coords mesh.vertices)), c) := by
      intro e hc
      rw [hsp, List.getElem?_map, hc]; rfl
    exact this e hc
  have hse2 : (space[e]).2 = c := by
    have : space[(e : Nat)]? = some space[e] := List.getElem?_eq_getElem e.2
    rw [hse] at this
    rw [← Option.some.inj this]
  have e3 : mesh.cells.getD e [] = c := by rw [List.getD_eq_getElem?_getD, hc]; rfl
  rw [hse2, sum_matrixContribution s c (stiff e) u mesh.vertices.length (h.inBounds c hmem)]
  unfold vectorContribution
  refine Finset.sum_congr rfl fun a _ => Finset.sum_congr rfl fun i' _ => ?_
  split_ifs
  swap
  · rfl
  simp only [force, dif_pos hs, hdiv, hmod, e3, stiff]
  rw [← quadSum_linear]
  rw [← Fintype.sum_prod_type', quadSum_sum]
  unfold quadSum
  congr 1
  apply List.map_congr_left
  intro q hq
  congr 1
  have hG := C89_gradient kind hk mesh.vertices G b u hu c (h.size _ hmem) (h.inBounds _ hmem) q.2.1 (hpos e _ hse q hq).ne'
  simp only [hlin.contract, Finset.sum_mul]
  rw [Finset.sum_comm]
  refine Finset.sum_congr rfl fun k _ => ?_
  simp only [mul_right_comm _ (physGrad _ _ k)]
  rw [← Finset.sum_mul, op_sum _ o hlin, h.uniform e hlt q hq]
  congr 3
  rw [← hG]
  funext k j
  rw [Matrix.of_apply, Fintype.sum_prod_type]
  have hlenG : ((elementOfKind kind (c.map (coords mesh.vertices))).gradients q.2.1).length = c.length :=
    ((elementOfKind_wellFormed _ _ _).2).trans (h.size c hmem).symm
  unfold gradU
  rw [← (finCongr hlenG).sum_comp]
  refine Finset.sum_congr rfl fun I _ => ?_
  rw [Finset.sum_eq_single j]
  · rw [Matrix.of_apply, if_pos rfl, localPart_getD s u c I (by have := I.2; omega)]
    simp
  · intro j' _ hj
    rw [Matrix.of_apply, if_neg (Ne.symm hj), zero_mul]
  · simp

/-- **C89.** The patch test: at every vertex that is not on the boundary all components of the assembled vector are zero. -/
theorem C89_patch_test (hk : kind ∈ [Kind.tri3, .quad4, .tet4, .hex8]) (h : Patch ω kind mesh table rules param)
    (G : Matrix (Fin kind.dim) (Fin s) K) (b : Fin s → K) (u : List K) (hu : IsAffine mesh.vertices G b u)
    (o : Operator kind.dim s K Param) (space : Space kind.dim K) (hspace : meshSpace kind mesh = some space)
    (bufs : Nat → Buffer (Point kind.dim K) K Param) (outs : Nat → Nat → K) (elemVec : Nat → Except String (Nat → K))
    (hev : ∀ e, e < space.length → ∃ buf', elementVector space o table u (bufs e) (outs e) e = some (elemVec e, buf')) :
    ∃ boundary v, Mesh.findBoundaryVertices (facesOf kind) mesh = some boundary ∧
      Assembly.assembleVector (conn s space mesh.vertices.length) elemVec = some (.ok v) ∧
      ∀ n < mesh.vertices.length, n ∉ boundary → ∀ i : Fin s, v[s * n + i]? = some 0 := by
  obtain ⟨fs, v, h1, h2, h3⟩ := C89_forces hk h G b u hu o space hspace bufs outs elemVec hev
  obtain ⟨bd, h4, -, h5⟩ := C14_boundary_vertices_exact (facesOf kind) mesh
  obtain ⟨fs', h6, -, h7⟩ := C14_boundary_faces_exact (facesOf kind) mesh
  rw [h1] at h6
  obtain rfl := Option.some.inj h6
  refine ⟨bd, v, h4, h2, fun n hn hnb i => ?_⟩
  rw [h3 n hn i]
  congr 1
  apply mul_eq_zero_of_right
  apply Finset.sum_eq_zero
  intro k _
  apply mul_eq_zero_of_right
  apply List.sum_eq_zero
  intro x hx
  obtain ⟨⟨f, c, l⟩, hf, rfl⟩ := List.mem_map.1 hx
  rw [faceShare_eq_zero kind mesh.vertices n f fun hnf => hnb ((h5 n).2 ⟨c, l, f, (h7 f c l).1 hf, hnf⟩)]
  rfl

end Fenris.PatchTest
