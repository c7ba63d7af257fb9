import Verif.Spec.Prolong
import Verif.Props.Refinement
import Verif.Props.DirichletPrinciple
import Verif.Props.PatchTestRules
import Verif.Spec.InverseMap
/-! # C103: refinement enlarges the space of functions and does not change their energy -/
set_option autoImplicit false
set_option linter.unusedSectionVars false

namespace Fenris.RefinedSpace
open Fenris.Element Fenris.Local Fenris.Local.Spec Fenris.PatchTest Fenris.PatchTest.Spec Fenris.LinearProblem Fenris.LinearProblem.Spec
open Fenris.Refine Quadrature
open Fenris.Spec (ValidTri Node childNodes IsNodeOf Prolongs functionValue signedArea cellArea matrixContribution entry SortsNodes Constrained)
open Fenris.Surface.Spec (coords)

section Indexing
variable {K : Type} [Field K] {d : Nat}

private theorem value_same (s : Nat) (u : List K) (i : Nat) (n n' : Node) (h : n.Same n') : n.value s u i = n'.value s u i := by
  cases n <;> cases n' <;> simp only [Spec.Node.Same] at h
  · rw [h]
  · rcases h with ⟨rfl, rfl⟩ | ⟨rfl, rfl⟩
    · rfl
    · simp only [Spec.Node.value, add_comm]

private theorem getElem?_flatMap_four {A B : Type} (f : A → List B) (l : List A) (h : ∀ a ∈ l, (f a).length = 4) (e k : Nat) (a : A)
    (he : l[e]? = some a) (hk : k < 4) : (l.flatMap f)[4 * e + k]? = (f a)[k]? := by
  induction l generalizing e with
  | nil => simp at he
  | cons b l ih =>
    rw [List.flatMap_cons]
    cases e with
    | zero =>
      simp only [List.getElem?_cons_zero, Option.some.injEq] at he
      subst he
      rw [List.getElem?_append_left (by rw [h b (by simp)]; omega)]
      simp
    | succ e =>
      rw [List.getElem?_append_right (by rw [h b (by simp)]; omega), h b (by simp)]
      have : 4 * (e + 1) + k - 4 = 4 * e + k := by omega
      rw [this]
      exact ih (fun a ha => h a (by simp [ha])) e (by simpa using he)

/-- **C103.** Every function on a triangle mesh is a function on the refined mesh: its values at the vertices of the refined mesh do not
depend on the triangle they are computed in, and they determine one coefficient vector. -/
theorem C103_prolong (ord : List (Label × Nat) → List (Label × Nat)) (hord : ∀ m, (ord m).Perm m) (mesh : Mesh (Point d K))
    (hv : ValidTri mesh) (s : Nat) (u : List K) :
    ∃ fine, refineUniformly ord mesh = some fine ∧ ∃! v, Prolongs s mesh fine u v := by
  obtain ⟨fine, idx, h1, h2, h3, h4, h5⟩ := C16_refinement_is_conforming_midpoint_subdivision ord hord mesh hv
  have hlen : ∀ c ∈ mesh.cells, ((childNodes c).map (·.map idx)).length = 4 := by
    intro c hc
    obtain ⟨i, j, k, rfl, -⟩ := hv c hc
    rfl
  have hcell : ∀ (e : Nat) (c : List Nat), mesh.cells[e]? = some c → ∀ (k : Nat) (child : List Node), (childNodes c)[k]? = some child →
      fine.cells[4 * e + k]? = some (child.map idx) := by
    intro e c he k child hk
    have hk' : k < 4 := by
      have := hlen c (List.mem_of_getElem? he)
      have := (List.getElem?_eq_some_iff.1 hk).1
      simp only [List.length_map] at *
      omega
    rw [h2, getElem?_flatMap_four _ _ hlen e k c he hk', List.getElem?_map, hk]
    rfl
  have hnode : ∀ (e : Nat) (c : List Nat), mesh.cells[e]? = some c → ∀ (k : Nat) (child : List Node), (childNodes c)[k]? = some child →
      ∀ n ∈ child, IsNodeOf mesh n := fun e c he k child hk n hn =>
    ⟨c, List.mem_of_getElem? he, child, List.mem_of_getElem? hk, hn⟩
  have hpick : ∀ r, ∃ n, r < fine.vertices.length → IsNodeOf mesh n ∧ idx n = r := by
    intro r
    by_cases hr : r < fine.vertices.length
    · obtain ⟨n, hn⟩ := h5 r hr
      exact ⟨n, fun _ => hn⟩
    · exact ⟨.vertex 0, fun h => absurd h hr⟩
  choose pick hpick using hpick
  have hget : ∀ r i, r < fine.vertices.length → i < s →
      (List.ofFn fun q : Fin (s * fine.vertices.length) => (pick (q / s)).value s u (q % s)).getD (s * r + i) 0 = (pick r).value s u i := by
    intro r i hr hi
    have hlt : s * r + i < s * fine.vertices.length := by
      have := Nat.mul_le_mul_left s (Nat.succ_le_of_lt hr)
      rw [Nat.mul_succ] at this
      omega
    rw [List.getD_eq_getElem?_getD, List.getElem?_eq_getElem (by simpa using hlt)]
    simp only [List.getElem_ofFn, Option.getD_some, Nat.mul_add_mod, Nat.mod_eq_of_lt hi]
    rw [Nat.mul_add_div (by omega), Nat.div_eq_of_lt hi, Nat.add_zero]
  refine ⟨fine, h1, List.ofFn fun q : Fin (s * fine.vertices.length) => (pick (q / s)).value s u (q % s), ⟨by simp, ?_⟩, ?_⟩
  · intro e c he k child hk
    refine ⟨child.map idx, hcell e c he k child hk, by simp, fun a n' n hn' hn i hi => ?_⟩
    rw [List.getElem?_map, hn] at hn'
    simp only [Option.map_some, Option.some.injEq] at hn'
    subst hn'
    have hno := hnode e c he k child hk n (List.mem_of_getElem? hn)
    obtain ⟨p, hp, -⟩ := h3 n hno
    have hr := (List.getElem?_eq_some_iff.1 hp).1
    rw [hget _ i hr hi]
    obtain ⟨h6, h7⟩ := hpick _ hr
    exact value_same s u i _ _ ((h4 _ _ h6 hno).1 h7)
  · intro w hw
    apply List.ext_getElem (by rw [hw.length, List.length_ofFn])
    intro q hq hq'
    have hq2 : q < s * fine.vertices.length := by simpa using hq'
    have hs : 0 < s := Nat.pos_of_ne_zero fun h => by subst h; simp at hq2
    have hr : q / s < fine.vertices.length := Nat.div_lt_of_lt_mul hq2
    have hi := Nat.mod_lt q hs
    have e1 : s * (q / s) + q % s = q := Nat.div_add_mod q s
    obtain ⟨⟨c, hc, child, hch, hn⟩, h7⟩ := hpick _ hr
    obtain ⟨e, he, rfl⟩ := List.mem_iff_getElem.1 hc
    obtain ⟨k, hk, rfl⟩ := List.mem_iff_getElem.1 hch
    obtain ⟨a, ha, hn'⟩ := List.mem_iff_getElem.1 hn
    obtain ⟨c', h8, -, h9⟩ := hw.value e _ (List.getElem?_eq_getElem he) k _ (List.getElem?_eq_getElem hk)
    rw [hcell e _ (List.getElem?_eq_getElem he) k _ (List.getElem?_eq_getElem hk), Option.some.injEq] at h8
    subst h8
    have := h9 a (idx (pick (q / s))) (pick (q / s)) (by rw [List.getElem?_map, List.getElem?_eq_getElem ha, hn']; rfl)
      (by rw [List.getElem?_eq_getElem ha, hn']) (q % s) hi
    rw [h7, e1, List.getD_eq_getElem?_getD, List.getElem?_eq_getElem hq, Option.getD_some] at this
    rw [this]
    simp

end Indexing

section Functions
variable {K : Type} [Field K] [LinearOrder K] [IsStrictOrderedRing K] {s : Nat} {Param : Type} [Inhabited Param]

attribute [local instance] zeroFill

private theorem jacobian_det (x y z : Point 2 K) (p : Point 2 K) :
    ((elementOfKind .tri3 [x, y, z]).jacobian p).det = signedArea x y z / 2 := by
  rw [Matrix.det_fin_two]
  simp [elementOfKind, Element.referenceJacobian, Element.weightedSum, signedArea,
    Element.geometryGradients, Element.Kind.numNodes, Element.tri3Gradients, Element.tri3G]
  ring

/-- The affine function with given values at the corners of a triangle. -/
private theorem exists_affine (x y z : Point 2 K) (hA : signedArea x y z ≠ 0) (a b c : Fin s → K) :
    ∃ (G : Matrix (Fin 2) (Fin s) K) (t : Fin s → K), (∀ i, a i = ∑ k, G k i * x k + t i) ∧ (∀ i, b i = ∑ k, G k i * y k + t i) ∧
      ∀ i, c i = ∑ k, G k i * z k + t i := by
  obtain ⟨D, hD⟩ : ∃ D, D = (y 0 - x 0) * (z 1 - x 1) - (y 1 - x 1) * (z 0 - x 0) := ⟨_, rfl⟩
  have h0 : D ≠ 0 := by
    intro h
    exact hA (by rw [signedArea, ← hD, h, zero_div])
  refine ⟨fun k i => ![((b i - a i) * (z 1 - x 1) - (c i - a i) * (y 1 - x 1)) / D, ((y 0 - x 0) * (c i - a i) - (z 0 - x 0) * (b i - a i)) / D] k,
    fun i => a i - (((b i - a i) * (z 1 - x 1) - (c i - a i) * (y 1 - x 1)) / D * x 0 +
      ((y 0 - x 0) * (c i - a i) - (z 0 - x 0) * (b i - a i)) / D * x 1), fun i => ?_, fun i => ?_, fun i => ?_⟩
  · simp [Fin.sum_univ_two]
  · simp only [Fin.sum_univ_two, Matrix.cons_val_zero, Matrix.cons_val_one]
    field_simp
    linear_combination (b i - a i) * hD
  · simp only [Fin.sum_univ_two, Matrix.cons_val_zero, Matrix.cons_val_one]
    field_simp
    linear_combination (c i - a i) * hD

private theorem localPart_getD (u : List K) (nodes : List Nat) (a : Nat) (ha : a < nodes.length) (i : Fin s) :
    (localPart s u nodes).getD (s * a + i) 0 = u.getD (s * nodes[a] + i) 0 := by
  unfold localPart
  induction nodes generalizing a with
  | nil => simp at ha
  | cons n nodes ih =>
    rw [List.flatMap_cons]
    cases a with
    | zero =>
      rw [List.getD_eq_getElem?_getD, List.getElem?_append_left (by simp)]
      simp
    | succ a =>
      rw [List.getD_eq_getElem?_getD, List.getElem?_append_right (by simp [Nat.mul_succ]; omega),
        ← List.getD_eq_getElem?_getD]
      have e : s * (a + 1) + (i : Nat) - ((List.range s).map fun i => u.getD (s * n + i) 0).length = s * a + i := by
        simp [Nat.mul_succ]
        omega
      rw [e, ih a (by simpa using ha)]
      rfl

private theorem localPart_length (u : List K) (nodes : List Nat) : (localPart s u nodes).length = s * nodes.length := by
  unfold localPart
  induction nodes with
  | nil => simp
  | cons n nodes ih => rw [List.flatMap_cons, List.length_append, ih]; simp [Nat.mul_succ, Nat.add_comm]

/-- The gradient on one triangle. -/
private theorem triangle_gradU (x y z : Point 2 K) (hA : signedArea x y z ≠ 0) (G : Matrix (Fin 2) (Fin s) K) (t : Fin s → K) (u : List K)
    (c : List Nat) (hc : c.length = 3)
    (h : ∀ (a : Nat) (ha : a < c.length) (i : Fin s), u.getD (s * c[a] + i) 0 = ∑ k, G k i * ([x, y, z].getD a 0) k + t i) (p : Point 2 K) :
    gradU s ((elementOfKind .tri3 [x, y, z]).jacobian p) ((elementOfKind .tri3 [x, y, z]).gradients p) (localPart s u c) = G := by
  have hl : (localPart s u c).length = s * 3 := by rw [localPart_length, hc]
  have hval : ∀ n, n < 3 → ∀ i : Fin s, (localPart s u c)[s * n + i]? = some (∑ k, G k i * ([x, y, z].getD n 0) k + t i) := by
    intro n hn i
    have := localPart_getD u c n (by omega) i
    rw [h n (by omega) i, List.getD_eq_getElem?_getD] at this
    have hlt : s * n + i < (localPart s u c).length := by
      rw [hl]
      have := Nat.mul_le_mul_left s (Nat.succ_le_of_lt hn)
      rw [Nat.mul_succ] at this
      have := i.2
      omega
    rw [List.getElem?_eq_getElem hlt] at this ⊢
    exact congrArg some this
  have ha : IsAffine [x, y, z] G t (localPart s u c) := ⟨hl, by
    intro n p hp i
    have hn : n < 3 := (List.getElem?_eq_some_iff.1 hp).1
    rw [hval n hn i, List.getD_eq_getElem?_getD, hp]
    rfl⟩
  have := C89_gradient .tri3 (by simp) [x, y, z] G t (localPart s u c) ha [0, 1, 2] rfl (by simp) p (by
    change ((elementOfKind .tri3 [x, y, z]).jacobian p).det ≠ 0
    rw [jacobian_det]
    exact div_ne_zero hA two_ne_zero)
  have e : localPart s (localPart s u c) [0, 1, 2] = localPart s u c := by
    apply List.ext_getElem (by rw [localPart_length, hl]; rfl)
    intro q hq hq'
    have hq2 : q < s * 3 := hl ▸ hq'
    have hs : 0 < s := Nat.pos_of_ne_zero fun h => by subst h; simp at hq2
    have hr : q / s < 3 := Nat.div_lt_of_lt_mul hq2
    have e1 : s * (q / s) + q % s = q := Nat.div_add_mod q s
    have := localPart_getD (localPart s u c) [0, 1, 2] (q / s) (by simpa using hr) ⟨q % s, Nat.mod_lt q hs⟩
    have e2 : [0, 1, 2][q / s]'(by simpa using hr) = q / s := by
      generalize q / s = r at hr
      interval_cases r <;> rfl
    simp only [e2, e1] at this
    rw [List.getD_eq_getElem?_getD, List.getD_eq_getElem?_getD, List.getElem?_eq_getElem hq, List.getElem?_eq_getElem hq'] at this
    exact this
  rw [e] at this
  exact this

/-! ## The children of a cell -/

variable {mesh fine : Mesh (Point 2 K)}

/-- Where a node lies. -/
private def place (vs : List (Point 2 K)) : Node → Point 2 K
  | .vertex v => coords vs v
  | .mid a b => Spec.midpoint (coords vs a) (coords vs b)

private theorem place_of (vs : List (Point 2 K)) (n : Node) (p : Point 2 K) (h : n.IsAt vs p) : p = place vs n := by
  have e : ∀ (a : Nat) (x : Point 2 K), vs[a]? = some x → coords vs a = x := by
    intro a x h
    rw [coords, List.getD_eq_getElem?_getD, h]
    rfl
  cases n with
  | vertex v => exact (e v p h).symm
  | mid a b =>
    obtain ⟨x, y, hx, hy, rfl⟩ := h
    simp only [place, e a x hx, e b y hy]

private theorem children (ord : List (Label × Nat) → List (Label × Nat)) (hord : ∀ m, (ord m).Perm m) (hv : ValidTri mesh)
    (href : refineUniformly ord mesh = some fine) {u v : List K} (hpro : Prolongs s mesh fine u v) :
    fine.cells.length = 4 * mesh.cells.length ∧
    ∀ (e : Nat) (c : List Nat), mesh.cells[e]? = some c → ∀ (k : Nat) (child : List Node), (childNodes c)[k]? = some child →
      ∃ c', fine.cells[4 * e + k]? = some c' ∧ c'.map (coords fine.vertices) = child.map (place mesh.vertices) ∧
        ∀ (a : Nat) (n : Node), child[a]? = some n → ∀ i : Fin s, v.getD (s * c'.getD a 0 + i) 0 = n.value s u i := by
  obtain ⟨fine', idx, h1, h2, h3, h4, h5⟩ := C16_refinement_is_conforming_midpoint_subdivision ord hord mesh hv
  rw [href, Option.some.injEq] at h1
  subst h1
  have hlen : ∀ c ∈ mesh.cells, ((childNodes c).map (·.map idx)).length = 4 := by
    intro c hc
    obtain ⟨i, j, k, rfl, -⟩ := hv c hc
    rfl
  constructor
  · rw [h2]
    generalize mesh.cells = l at hlen
    induction l with
    | nil => rfl
    | cons c l ih =>
      rw [List.flatMap_cons, List.length_append, hlen c (by simp), ih (fun c hc => hlen c (by simp [hc])), List.length_cons]
      ring
  · intro e c he k child hk
    have hk' : k < 4 := by
      have := hlen c (List.mem_of_getElem? he)
      have := (List.getElem?_eq_some_iff.1 hk).1
      simp only [List.length_map] at *
      omega
    have hcell : fine.cells[4 * e + k]? = some (child.map idx) := by
      rw [h2, getElem?_flatMap_four _ _ hlen e k c he hk', List.getElem?_map, hk]
      rfl
    refine ⟨child.map idx, hcell, ?_, ?_⟩
    · rw [List.map_map]
      apply List.map_congr_left
      intro n hn
      obtain ⟨p, hp, hp'⟩ := h3 n ⟨c, List.mem_of_getElem? he, child, List.mem_of_getElem? hk, hn⟩
      rw [← place_of _ _ _ hp', Function.comp, coords, List.getD_eq_getElem?_getD, hp]
      rfl
    · intro a n hn i
      obtain ⟨c', h6, -, h7⟩ := hpro.value e c he k child hk
      rw [hcell, Option.some.injEq] at h6
      subst h6
      have ha : (child.map idx)[a]? = some (idx n) := by rw [List.getElem?_map, hn]; rfl
      have ha' : (child.map idx).getD a 0 = idx n := by rw [List.getD_eq_getElem?_getD, ha]; rfl
      rw [ha']
      exact h7 a _ n ha hn i i.2

/-- Nodal values of an affine function. -/
private theorem node_affine (vs : List (Point 2 K)) (G : Matrix (Fin 2) (Fin s) K) (t : Fin s → K) (u : List K) (i j k : Nat)
    (h : ∀ n ∈ [i, j, k], ∀ m : Fin s, u.getD (s * n + m) 0 = ∑ l, G l m * coords vs n l + t m) (child : List Node)
    (hc : child ∈ childNodes [i, j, k]) (n : Node) (hn : n ∈ child) (m : Fin s) :
    n.value s u m = ∑ l, G l m * place vs n l + t m := by
  have hi := h i (by simp) m
  have hj := h j (by simp) m
  have hk := h k (by simp) m
  have e : ∀ a b, u.getD (s * a + m) 0 = ∑ l, G l m * coords vs a l + t m → u.getD (s * b + m) 0 = ∑ l, G l m * coords vs b l + t m →
      Node.value s u m (.mid a b) = ∑ l, G l m * place vs (.mid a b) l + t m := by
    intro a b ha hb
    simp only [Spec.Node.value, ha, hb, place, Spec.midpoint, Fin.sum_univ_two]
    ring
  simp only [childNodes, List.mem_cons, List.not_mem_nil, or_false] at hc
  rcases hc with rfl | rfl | rfl | rfl <;> simp only [List.mem_cons, List.not_mem_nil, or_false] at hn <;> rcases hn with rfl | rfl | rfl <;>
    first
      | exact hi
      | exact hj
      | exact hk
      | exact e _ _ hi hj
      | exact e _ _ hj hk
      | exact e _ _ hk hi

/-- The value of a function on one triangle. -/
private theorem triangle_value (x y z : Point 2 K) (G : Matrix (Fin 2) (Fin s) K) (t : Fin s → K) (u : List K)
    (c : List Nat) (hc : c.length = 3)
    (h : ∀ (a : Nat) (ha : a < c.length) (i : Fin s), u.getD (s * c[a] + i) 0 = ∑ k, G k i * ([x, y, z].getD a 0) k + t i) (p : Point 2 K)
    (i : Fin s) : functionValue s u (elementOfKind .tri3 [x, y, z], c) p i =
      ∑ k, G k i * (elementOfKind .tri3 [x, y, z]).map p k + t i := by
  have hb : (elementOfKind .tri3 [x, y, z]).basis p = tri3Basis p := rfl
  have hl : ∀ a, a < 3 → (localPart s u c).getD (s * a + i) 0 = ∑ k, G k i * ([x, y, z].getD a 0) k + t i := by
    intro a ha
    rw [localPart_getD u c a (by omega) i]
    exact h a (by omega) i
  have h0 := hl 0 (by omega)
  have h1 := hl 1 (by omega)
  have h2 := hl 2 (by omega)
  have : functionValue s u (elementOfKind .tri3 [x, y, z], c) p i = ∑ I : Fin 3, (tri3Basis p)[(I : Nat)]'(I.2) * (localPart s u c).getD (s * I + i) 0 := rfl
  rw [this]
  simp only [Fin.sum_univ_three, Fin.val_zero, Fin.val_one, Fin.val_two, h0, h1, h2]
  simp [elementOfKind, mapReferenceCoords, geometryBasis, weightedSum, tri3Basis, tri3Psi, Kind.numNodes, Kind.geometry, Fin.sum_univ_two]
  ring

/-- The cells of a valid mesh without degenerate triangles. -/
private theorem cell_cases (hv : ValidTri mesh) (hA : ∀ c ∈ mesh.cells, cellArea mesh.vertices c ≠ some 0) (c : List Nat) (hc : c ∈ mesh.cells) :
    ∃ i j k, c = [i, j, k] ∧ (∀ n ∈ c, n < mesh.vertices.length) ∧
      signedArea (coords mesh.vertices i) (coords mesh.vertices j) (coords mesh.vertices k) ≠ 0 := by
  obtain ⟨i, j, k, rfl, hi, hj, hk⟩ := hv c hc
  have e : ∀ a, a < mesh.vertices.length → mesh.vertices[a]? = some (coords mesh.vertices a) := by
    intro a ha
    rw [coords, List.getD_eq_getElem?_getD, List.getElem?_eq_getElem ha]
    rfl
  refine ⟨i, j, k, rfl, by simp [hi, hj, hk], fun h => hA _ hc ?_⟩
  have : Spec.coords mesh.vertices [i, j, k] = some [coords mesh.vertices i, coords mesh.vertices j, coords mesh.vertices k] := by
    simp [Spec.coords, List.mapM_cons, e i hi, e j hj, e k hk]
  unfold cellArea
  rw [this]
  exact congrArg some h

/-- **C103.** On each of the four children of a triangle, the function on the refined mesh is the function on the triangle: at every point,
with the same gradient. -/
theorem C103_same_function (ord : List (Label × Nat) → List (Label × Nat)) (hord : ∀ m, (ord m).Perm m) (hv : ValidTri mesh)
    (hA : ∀ c ∈ mesh.cells, cellArea mesh.vertices c ≠ some 0) (href : refineUniformly ord mesh = some fine) {u v : List K}
    (hpro : Prolongs s mesh fine u v) (space space' : Space 2 K) (hs : meshSpace .tri3 mesh = some space)
    (hs' : meshSpace .tri3 fine = some space') (e : Nat) (en : VolElement 2 K × List Nat) (he : space[e]? = some en) (k : Nat) (hk : k < 4) :
    ∃ en', space'[4 * e + k]? = some en' ∧
      (∀ p', ∃ p, en.1.map p = en'.1.map p' ∧ (Inverse.Spec.InReference .tri3 p' → Inverse.Spec.InReference .tri3 p) ∧
        ∀ i, i < s → functionValue s u en p i = functionValue s v en' p' i) ∧
      ∀ p p', gradU s (en.1.jacobian p) (en.1.gradients p) (localPart s u en.2) =
          gradU s (en'.1.jacobian p') (en'.1.gradients p') (localPart s v en'.2) ∧
        (en'.1.jacobian p').det = (en.1.jacobian p).det / 4 := by
  obtain ⟨fine', hf, hv', -, -⟩ := C16_children_have_quarter_area ord hord two_ne_zero mesh hv
  rw [href, Option.some.injEq] at hf
  subst hf
  have hin : ∀ (m : Mesh (Point 2 K)), ValidTri m → ∀ c ∈ m.cells, ∀ n ∈ c, n < m.vertices.length := by
    intro m hm c hc
    obtain ⟨i, j, k, rfl, h1, h2, h3⟩ := hm c hc
    simp [h1, h2, h3]
  have e1 := Option.some.inj (hs.symm.trans (C89_mesh_space .tri3 mesh (hin mesh hv)))
  have e2 := Option.some.inj (hs'.symm.trans (C89_mesh_space .tri3 fine (hin fine hv')))
  rw [e1, List.getElem?_map, Option.map_eq_some_iff] at he
  obtain ⟨c, hc, rfl⟩ := he
  obtain ⟨i, j, l, rfl, hin, harea⟩ := cell_cases hv hA c (List.mem_of_getElem? hc)
  obtain ⟨-, hch⟩ := children ord hord hv href hpro
  obtain ⟨child, hchild⟩ : ∃ child, (childNodes [i, j, l])[k]? = some child := by
    interval_cases k <;> exact ⟨_, rfl⟩
  obtain ⟨c', h1, h2, h3⟩ := hch e _ hc k child hchild
  have hcl : child.length = 3 := by
    have := List.mem_of_getElem? hchild
    simp only [childNodes, List.mem_cons, List.not_mem_nil, or_false] at this
    rcases this with rfl | rfl | rfl | rfl <;> rfl
  have hcl' : c'.length = 3 := by
    have := congrArg List.length h2
    simpa [hcl] using this
  obtain ⟨G, t, ha, hb, hcc⟩ := exists_affine (s := s) _ _ _ harea (fun m => u.getD (s * i + m) 0) (fun m => u.getD (s * j + m) 0)
    (fun m => u.getD (s * l + m) 0)
  have hu : ∀ n ∈ [i, j, l], ∀ m : Fin s, u.getD (s * n + m) 0 = ∑ q, G q m * coords mesh.vertices n q + t m := by
    intro n hn m
    simp only [List.mem_cons, List.not_mem_nil, or_false] at hn
    rcases hn with rfl | rfl | rfl
    exacts [ha m, hb m, hcc m]
  have hcoarse : ∀ (a : Nat) (ha : a < [i, j, l].length) (m : Fin s), u.getD (s * [i, j, l][a] + m) 0 =
      ∑ q, G q m * ([coords mesh.vertices i, coords mesh.vertices j, coords mesh.vertices l].getD a 0) q + t m := by
    intro a ha m
    have ha' : a < 3 := ha
    interval_cases a
    exacts [hu i (by simp) m, hu j (by simp) m, hu l (by simp) m]
  obtain ⟨n0, n1, n2, rfl⟩ : ∃ n0 n1 n2, child = [n0, n1, n2] := by
    match child, hcl with
    | [n0, n1, n2], _ => exact ⟨n0, n1, n2, rfl⟩
  have hfine : ∀ (a : Nat) (ha : a < c'.length) (m : Fin s), v.getD (s * c'[a] + m) 0 =
      ∑ q, G q m * ([place mesh.vertices n0, place mesh.vertices n1, place mesh.vertices n2].getD a 0) q + t m := by
    intro a ha m
    have hg : c'[a] = c'.getD a 0 := by rw [List.getD_eq_getElem?_getD, List.getElem?_eq_getElem ha]; rfl
    have hn := node_affine mesh.vertices G t u i j l hu _ (List.mem_of_getElem? hchild)
    have ha' : a < 3 := hcl' ▸ ha
    rw [hg]
    interval_cases a
    · rw [h3 0 n0 rfl m]; exact hn n0 (by simp) m
    · rw [h3 1 n1 rfl m]; exact hn n1 (by simp) m
    · rw [h3 2 n2 rfl m]; exact hn n2 (by simp) m
  have harea' : signedArea (place mesh.vertices n0) (place mesh.vertices n1) (place mesh.vertices n2) =
      signedArea (coords mesh.vertices i) (coords mesh.vertices j) (coords mesh.vertices l) / 4 := by
    have := List.mem_of_getElem? hchild
    simp only [childNodes, List.mem_cons, List.not_mem_nil, or_false, List.cons.injEq, and_true] at this
    rcases this with ⟨rfl, rfl, rfl⟩ | ⟨rfl, rfl, rfl⟩ | ⟨rfl, rfl, rfl⟩ | ⟨rfl, rfl, rfl⟩ <;>
      simp only [place, signedArea, Spec.midpoint] <;> ring
  refine ⟨(elementOfKind .tri3 [place mesh.vertices n0, place mesh.vertices n1, place mesh.vertices n2], c'), ?_, ?_, ?_⟩
  · rw [e2, List.getElem?_map, h1]
    simp only [Option.map_some, h2]
    rfl
  · intro p'
    obtain ⟨p, hp, hr⟩ : ∃ p, (elementOfKind .tri3 [coords mesh.vertices i, coords mesh.vertices j, coords mesh.vertices l]).map p =
        (elementOfKind .tri3 [place mesh.vertices n0, place mesh.vertices n1, place mesh.vertices n2]).map p' ∧
        (Inverse.Spec.InReference .tri3 p' → Inverse.Spec.InReference .tri3 p) := by
      simp only [childNodes] at hchild
      interval_cases k <;>
        simp only [List.getElem?_cons_zero, List.getElem?_cons_succ, Option.some.injEq, List.cons.injEq, and_true] at hchild <;>
        obtain ⟨rfl, rfl, rfl⟩ := hchild
      · refine ⟨![(p' 0 - 1) / 2, (p' 1 - 1) / 2], ?_, ?_⟩
        · funext q
          simp [elementOfKind, mapReferenceCoords, geometryBasis, weightedSum, tri3Basis, tri3Psi, Kind.numNodes, Kind.geometry, place, Spec.midpoint]
          ring
        · simp only [Inverse.Spec.InReference, Matrix.cons_val_zero, Matrix.cons_val_one]
          rintro ⟨q1, q2, q3⟩
          exact ⟨by linarith, by linarith, by linarith⟩
      · refine ⟨![(p' 0 + 1) / 2, (p' 1 - 1) / 2], ?_, ?_⟩
        · funext q
          simp [elementOfKind, mapReferenceCoords, geometryBasis, weightedSum, tri3Basis, tri3Psi, Kind.numNodes, Kind.geometry, place, Spec.midpoint]
          ring
        · simp only [Inverse.Spec.InReference, Matrix.cons_val_zero, Matrix.cons_val_one]
          rintro ⟨q1, q2, q3⟩
          exact ⟨by linarith, by linarith, by linarith⟩
      · refine ⟨![(p' 0 - 1) / 2, (p' 1 + 1) / 2], ?_, ?_⟩
        · funext q
          simp [elementOfKind, mapReferenceCoords, geometryBasis, weightedSum, tri3Basis, tri3Psi, Kind.numNodes, Kind.geometry, place, Spec.midpoint]
          ring
        · simp only [Inverse.Spec.InReference, Matrix.cons_val_zero, Matrix.cons_val_one]
          rintro ⟨q1, q2, q3⟩
          exact ⟨by linarith, by linarith, by linarith⟩
      · refine ⟨![-(p' 1 + 1) / 2, (p' 0 + p' 1) / 2], ?_, ?_⟩
        · funext q
          simp [elementOfKind, mapReferenceCoords, geometryBasis, weightedSum, tri3Basis, tri3Psi, Kind.numNodes, Kind.geometry, place, Spec.midpoint]
          ring
        · simp only [Inverse.Spec.InReference, Matrix.cons_val_zero, Matrix.cons_val_one]
          rintro ⟨q1, q2, q3⟩
          exact ⟨by linarith, by linarith, by linarith⟩
    refine ⟨p, hp, hr, fun m hm => ?_⟩
    rw [triangle_value _ _ _ G t v c' hcl' hfine p' ⟨m, hm⟩]
    refine (triangle_value _ _ _ G t u [i, j, l] rfl hcoarse p ⟨m, hm⟩).trans ?_
    rw [hp]
  · intro p p'
    refine ⟨?_, ?_⟩
    · rw [triangle_gradU _ _ _ (by rw [harea']; exact div_ne_zero harea four_ne_zero) G t v c' hcl' hfine p']
      exact triangle_gradU _ _ _ harea G t u [i, j, l] rfl hcoarse p
    · rw [jacobian_det, harea']
      refine Eq.trans ?_ (congrArg (· / 4) (jacobian_det _ _ _ p).symm)
      ring

/-! ## Energy -/

private theorem sum_four (F F' : Nat → K) (n : Nat) (h : ∀ e, e < n → ∀ k, k < 4 → F' (4 * e + k) = F e / 4) :
    ∑ i ∈ Finset.range (4 * n), F' i = ∑ e ∈ Finset.range n, F e := by
  induction n with
  | zero => simp
  | succ n ih =>
    have e : 4 * (n + 1) = 4 * n + 1 + 1 + 1 + 1 := by ring
    rw [e, Finset.sum_range_succ, Finset.sum_range_succ, Finset.sum_range_succ, Finset.sum_range_succ, Finset.sum_range_succ,
      ih fun e he => h e (by omega)]
    have h0 := h n (by omega) 0 (by omega)
    have h1 := h n (by omega) 1 (by omega)
    have h2 := h n (by omega) 2 (by omega)
    have h3 := h n (by omega) 3 (by omega)
    simp only [Nat.add_zero] at h0
    have a2 : 4 * n + 1 + 1 = 4 * n + 2 := by omega
    have a3 : 4 * n + 2 + 1 = 4 * n + 3 := by omega
    rw [a2, a3, h0, h1, h2, h3]
    ring

private theorem discretisation (hv : ValidTri mesh) (hA : ∀ c ∈ mesh.cells, cellArea mesh.vertices c ≠ some 0) (space : Space 2 K)
    (hs : meshSpace .tri3 mesh = some space) (rule : List (QPoint 2 K Param)) (t : Uniform (Point 2 K) K Param)
    (ht : Uniform.new (rule.map (·.2.1)) (rule.map (·.1)) (rule.map (·.2.2)) = some t) (u : List K) (hu : u.length = s * mesh.vertices.length) :
    Discretisation space mesh.vertices.length t.table (fun _ => rule) u s := by
  have hin : ∀ c ∈ mesh.cells, ∀ n ∈ c, n < mesh.vertices.length := fun c hc => by
    obtain ⟨i, j, k, rfl, h, -⟩ := cell_cases hv hA c hc
    exact h
  have e := Option.some.inj (hs.symm.trans (C89_mesh_space .tri3 mesh hin))
  subst e
  refine ⟨?_, ?_, ?_, hu, ?_, ?_⟩
  · intro en hen
    obtain ⟨c, -, rfl⟩ := List.mem_map.1 hen
    exact elementOfKind_wellFormed _ _
  · intro en hen
    obtain ⟨c, hc, rfl⟩ := List.mem_map.1 hen
    obtain ⟨i, j, k, rfl, -, -⟩ := cell_cases hv hA c hc
    rfl
  · intro en hen
    obtain ⟨c, hc, rfl⟩ := List.mem_map.1 hen
    exact hin c hc
  · intro e he b
    exact (C27_uniform_returns_the_rule _ _ _).2 t ht e b
  · intro e en he q hq
    rw [List.getElem?_map, Option.map_eq_some_iff] at he
    obtain ⟨c, hc, rfl⟩ := he
    obtain ⟨i, j, k, rfl, -, h⟩ := cell_cases hv hA c (List.mem_of_getElem? hc)
    have := jacobian_det (coords mesh.vertices i) (coords mesh.vertices j) (coords mesh.vertices k) q.2.1
    exact ne_of_eq_of_ne this (div_ne_zero h two_ne_zero)

private theorem space_length (hv : ValidTri mesh) (hA : ∀ c ∈ mesh.cells, cellArea mesh.vertices c ≠ some 0) {space : Space 2 K}
    (hs : meshSpace .tri3 mesh = some space) : space.length = mesh.cells.length := by
  have hin : ∀ c ∈ mesh.cells, ∀ n ∈ c, n < mesh.vertices.length := fun c hc => by
    obtain ⟨i, j, k, rfl, h, -⟩ := cell_cases hv hA c hc
    exact h
  rw [Option.some.inj (hs.symm.trans (C89_mesh_space .tri3 mesh hin)), List.length_map]

private theorem fine_valid (ord : List (Label × Nat) → List (Label × Nat)) (hord : ∀ m, (ord m).Perm m) (hv : ValidTri mesh)
    (hA : ∀ c ∈ mesh.cells, cellArea mesh.vertices c ≠ some 0) (href : refineUniformly ord mesh = some fine) :
    ValidTri fine ∧ ∀ c ∈ fine.cells, cellArea fine.vertices c ≠ some 0 := by
  obtain ⟨fine', hf, hv', -, har⟩ := C16_children_have_quarter_area ord hord two_ne_zero mesh hv
  rw [href, Option.some.injEq] at hf
  subst hf
  refine ⟨hv', fun c hc h => ?_⟩
  have hm : cellArea fine.vertices c ∈ fine.cells.map (cellArea fine.vertices) := List.mem_map.2 ⟨c, hc, rfl⟩
  rw [har, List.mem_flatMap] at hm
  obtain ⟨c0, hc0, hm⟩ := hm
  have := (List.mem_replicate.1 hm).2
  rw [h] at this
  obtain ⟨A, hA0, hA1⟩ := Option.map_eq_some_iff.1 this.symm
  apply hA c0 hc0
  rw [hA0]
  have : A = 0 := by simpa using hA1
  rw [this]

/-- The energy of a function as a sum over the elements. -/
private noncomputable def total (o : Operator 2 s K Param) (rule : List (QPoint 2 K Param)) (space : Space 2 K) (u : List K) : K :=
  ∑ e : Fin space.length, quadSum (space[e]).1 rule (fun p param =>
    o.energy (gradU s ((space[e]).1.jacobian p) ((space[e]).1.gradients p) (localPart s u (space[e]).2)) param)

private theorem total_eq (ord : List (Label × Nat) → List (Label × Nat)) (hord : ∀ m, (ord m).Perm m) (hv : ValidTri mesh)
    (hA : ∀ c ∈ mesh.cells, cellArea mesh.vertices c ≠ some 0) (href : refineUniformly ord mesh = some fine) {u v : List K}
    (hpro : Prolongs s mesh fine u v) (space space' : Space 2 K) (hs : meshSpace .tri3 mesh = some space)
    (hs' : meshSpace .tri3 fine = some space') (rule : List (QPoint 2 K Param)) (o : Operator 2 s K Param) :
    total o rule space' v = total o rule space u := by
  obtain ⟨hv', hA'⟩ := fine_valid ord hord hv hA href
  have hl : space.length = mesh.cells.length := space_length hv hA hs
  have hl' : space'.length = fine.cells.length := space_length hv' hA' hs'
  have h4 : space'.length = 4 * space.length := by
    rw [hl, hl', (children ord hord hv href hpro).1]
  let F : Space 2 K → List K → Nat → K := fun sp w e => (sp[e]?.map fun en => quadSum en.1 rule (fun p param =>
    o.energy (gradU s (en.1.jacobian p) (en.1.gradients p) (localPart s w en.2)) param)).getD 0
  have hF : ∀ (sp : Space 2 K) (w : List K), total o rule sp w = ∑ e ∈ Finset.range sp.length, F sp w e := by
    intro sp w
    rw [Finset.sum_range]
    refine Finset.sum_congr rfl fun e _ => ?_
    simp only [F, List.getElem?_eq_getElem e.2, Option.map_some, Option.getD_some]
    rfl
  rw [hF, hF, h4]
  apply sum_four
  intro e he k hk
  obtain ⟨en', h1, -, h2⟩ := C103_same_function ord hord hv hA href hpro space space' hs hs' e _ (List.getElem?_eq_getElem he) k hk
  simp only [F, h1, List.getElem?_eq_getElem he, Option.map_some, Option.getD_some, quadSum]
  have e3 : (fun q : QPoint 2 K Param => q.1 * |(en'.1.jacobian q.2.1).det| * o.energy (gradU s (en'.1.jacobian q.2.1) (en'.1.gradients q.2.1)
      (localPart s v en'.2)) q.2.2) = fun q => q.1 * |(space[e].1.jacobian q.2.1).det| *
      o.energy (gradU s (space[e].1.jacobian q.2.1) (space[e].1.gradients q.2.1) (localPart s u space[e].2)) q.2.2 * (1 / 4) := by
    funext q
    rw [(h2 q.2.1 q.2.1).2, (h2 q.2.1 q.2.1).1, abs_div, abs_of_pos (four_pos : (0 : K) < 4)]
    ring
  rw [e3, List.sum_map_mul_right]
  ring

private theorem assembled_total (hv : ValidTri mesh) (hA : ∀ c ∈ mesh.cells, cellArea mesh.vertices c ≠ some 0) (space : Space 2 K)
    (hs : meshSpace .tri3 mesh = some space) (rule : List (QPoint 2 K Param)) (t : Uniform (Point 2 K) K Param)
    (ht : Uniform.new (rule.map (·.2.1)) (rule.map (·.1)) (rule.map (·.2.2)) = some t) (u : List K) (hu : u.length = s * mesh.vertices.length)
    (o : Operator 2 s K Param) (bufs : Nat → Buffer (Point 2 K) K Param) (elem : Nat → Except String K)
    (hee : ∀ e, e < space.length → ∃ buf', elementEnergy space o t.table u (bufs e) e = some (elem e, buf')) :
    Assembly.assembleScalar space.length elem = .ok (total o rule space u) :=
  (C69_global_energy space _ t.table _ u (discretisation hv hA space hs rule t ht u hu) o bufs elem hee .leaf).1

/-- **C103.** The energy of a function does not depend on whether it is assembled on the mesh or on the refined mesh: for every energy
density and every quadrature rule, also an inexact one and one with different parameters at its points, as long as both meshes use the same
rule for all elements. -/
theorem C103_energy (ord : List (Label × Nat) → List (Label × Nat)) (hord : ∀ m, (ord m).Perm m) (hv : ValidTri mesh)
    (hA : ∀ c ∈ mesh.cells, cellArea mesh.vertices c ≠ some 0) (href : refineUniformly ord mesh = some fine) {u v : List K}
    (hu : u.length = s * mesh.vertices.length) (hpro : Prolongs s mesh fine u v) (space space' : Space 2 K)
    (hs : meshSpace .tri3 mesh = some space) (hs' : meshSpace .tri3 fine = some space') (rule : List (QPoint 2 K Param))
    (t : Uniform (Point 2 K) K Param) (ht : Uniform.new (rule.map (·.2.1)) (rule.map (·.1)) (rule.map (·.2.2)) = some t)
    (o : Operator 2 s K Param) (bufs bufs' : Nat → Buffer (Point 2 K) K Param) (elem elem' : Nat → Except String K)
    (hee : ∀ e, e < space.length → ∃ buf', elementEnergy space o t.table u (bufs e) e = some (elem e, buf'))
    (hee' : ∀ e, e < space'.length → ∃ buf', elementEnergy space' o t.table v (bufs' e) e = some (elem' e, buf')) :
    ∃ E, Assembly.assembleScalar space.length elem = .ok E ∧ Assembly.assembleScalar space'.length elem' = .ok E := by
  obtain ⟨hv', hA'⟩ := fine_valid ord hord hv hA href
  refine ⟨_, assembled_total hv hA space hs rule t ht u hu o bufs elem hee, ?_⟩
  rw [assembled_total hv' hA' space' hs' rule t ht v hpro.length o bufs' elem' hee', total_eq ord hord hv hA href hpro space space' hs hs']

/-- **C103.** The same after any number of refinements: every function on the mesh is a function on the refined mesh, with the same energy for
every energy density and every quadrature rule. -/
theorem C103_repeat (ord : List (Label × Nat) → List (Label × Nat)) (hord : ∀ m, (ord m).Perm m) (hv : ValidTri mesh)
    (hA : ∀ c ∈ mesh.cells, cellArea mesh.vertices c ≠ some 0) (space : Space 2 K) (hs : meshSpace .tri3 mesh = some space) (n : Nat)
    (u : List K) (hu : u.length = s * mesh.vertices.length) :
    ∃ fine space' v, refineRepeat ord n mesh = some fine ∧ meshSpace .tri3 fine = some space' ∧ v.length = s * fine.vertices.length ∧
      ∀ (rule : List (QPoint 2 K Param)) (t : Uniform (Point 2 K) K Param),
      Uniform.new (rule.map (·.2.1)) (rule.map (·.1)) (rule.map (·.2.2)) = some t →
      ∀ (o : Operator 2 s K Param) (bufs bufs' : Nat → Buffer (Point 2 K) K Param) (elem elem' : Nat → Except String K),
      (∀ e, e < space.length → ∃ buf', elementEnergy space o t.table u (bufs e) e = some (elem e, buf')) →
      (∀ e, e < space'.length → ∃ buf', elementEnergy space' o t.table v (bufs' e) e = some (elem' e, buf')) →
      ∃ E, Assembly.assembleScalar space.length elem = .ok E ∧ Assembly.assembleScalar space'.length elem' = .ok E := by
  have key : ∀ (n : Nat) (mesh : Mesh (Point 2 K)), ValidTri mesh → (∀ c ∈ mesh.cells, cellArea mesh.vertices c ≠ some 0) →
      ∀ space, meshSpace .tri3 mesh = some space → ∀ u : List K, u.length = s * mesh.vertices.length →
      ∃ fine space' v, refineRepeat ord n mesh = some fine ∧ ValidTri fine ∧ (∀ c ∈ fine.cells, cellArea fine.vertices c ≠ some 0) ∧
        meshSpace .tri3 fine = some space' ∧ v.length = s * fine.vertices.length ∧
        ∀ (rule : List (QPoint 2 K Param)) (o : Operator 2 s K Param), total o rule space' v = total o rule space u := by
    intro n
    induction n with
    | zero => exact fun mesh hv hA space hs u hu => ⟨mesh, space, u, rfl, hv, hA, hs, hu, fun _ _ => rfl⟩
    | succ n ih =>
      intro mesh hv hA space hs u hu
      obtain ⟨f, hf, w, hw, -⟩ := C103_prolong ord hord mesh hv s u
      obtain ⟨hv', hA'⟩ := fine_valid ord hord hv hA hf
      have hin : ∀ c ∈ f.cells, ∀ n ∈ c, n < f.vertices.length := fun c hc => by
        obtain ⟨i, j, k, rfl, h, -⟩ := cell_cases hv' hA' c hc
        exact h
      have hsf := C89_mesh_space .tri3 f hin
      obtain ⟨fine, space', v, h1, h2, h3, h4, h5, h6⟩ := ih f hv' hA' _ hsf w hw.length
      refine ⟨fine, space', v, ?_, h2, h3, h4, h5, fun rule o => ?_⟩
      · simp only [refineRepeat, hf]
        exact h1
      · rw [h6 rule o]
        exact total_eq ord hord hv hA hf hw space _ hs hsf rule o
  obtain ⟨fine, space', v, h1, h2, h3, h4, h5, h6⟩ := key n mesh hv hA space hs u hu
  refine ⟨fine, space', v, h1, h4, h5, fun rule t ht o bufs bufs' elem elem' hee hee' => ?_⟩
  refine ⟨_, assembled_total hv hA space hs rule t ht u hu o bufs elem hee, ?_⟩
  rw [assembled_total h2 h3 space' h4 rule t ht v h5 o bufs' elem' hee', h6]

/-- **C103.** Refinement does not increase the least energy: let `x` be any vector on the mesh and `v` the same function on the refined mesh.
If `x'` has the values of `v` at the prescribed nodes and solves the equations of the assembled matrix at all other nodes of the refined mesh,
then its energy, minus the work of the loads, is at most that of `x`. -/
theorem C103_refinement_lowers_energy (ord : List (Label × Nat) → List (Label × Nat)) (hord : ∀ m, (ord m).Perm m) (hv : ValidTri mesh)
    (hA : ∀ c ∈ mesh.cells, cellArea mesh.vertices c ≠ some 0) (href : refineUniformly ord mesh = some fine) {x v : List K}
    (hx : x.length = s * mesh.vertices.length) (hpro : Prolongs s mesh fine x v) (space space' : Space 2 K)
    (hs : meshSpace .tri3 mesh = some space) (hs' : meshSpace .tri3 fine = some space') (rule : List (QPoint 2 K Param))
    (t : Uniform (Point 2 K) K Param) (ht : Uniform.new (rule.map (·.2.1)) (rule.map (·.1)) (rule.map (·.2.2)) = some t)
    (o : Operator 2 s K Param) (h0 : 0 < s) (hw : ∀ q ∈ rule, 0 < q.1) (hlin : IsLinear o) (hsym : o.symmetric = true) (hlaw : SymmetryLaw o)
    (hnonneg : ∀ q ∈ rule, ∀ G, 0 ≤ density o q.2.2 G) (henergy : ∀ G param, 2 * o.energy G param = density o param G)
    (nodes' : List Nat) (hnodes : ∀ n ∈ nodes', n < fine.vertices.length)
    (mord : List Nat → List Nat) (hmord : ∀ l, (mord l).Perm l)
    (sortNodes : List (Nat × Nat) → List (Nat × Nat)) (hsort : SortsNodes sortNodes)
    (bufs bufs' : Nat → Buffer (Point 2 K) K Param) (outs : Nat → Mat K) (elemMat : Nat → Except String (Mat K))
    (u₀ : List K) (hu₀ : u₀.length = s * fine.vertices.length)
    (hem : ∀ e, e < space'.length → ∃ buf', elementMatrix space' o t.table u₀ (bufs' e) (outs e) e = some (elemMat e, buf'))
    (elem : Nat → Except String K) (hee : ∀ e, e < space.length → ∃ buf', elementEnergy space o t.table x (bufs e) e = some (elem e, buf'))
    (E : K) (hE : Assembly.assembleScalar space.length elem = .ok E)
    (elem' : List K → Nat → Except String K) (hee' : ∀ y : List K, y.length = s * fine.vertices.length → ∀ e, e < space'.length →
      ∃ buf', elementEnergy space' o t.table y (bufs' e) e = some (elem' y e, buf'))
    (energy' : List K → K) (hE' : ∀ y : List K, y.length = s * fine.vertices.length → Assembly.assembleScalar space'.length (elem' y) = .ok (energy' y))
    (b b' : Nat → K) (hb : ∑ r ∈ Finset.range (s * fine.vertices.length), b' r * v.getD r 0 =
      ∑ r ∈ Finset.range (s * mesh.vertices.length), b r * x.getD r 0) :
    ∃ m, Assembly.assemble mord sortNodes (conn s space' fine.vertices.length) elemMat = some (.ok m) ∧
      ∀ x' : List K, x'.length = s * fine.vertices.length →
        (∀ r, r < s * fine.vertices.length → Constrained s nodes' r → x'.getD r 0 = v.getD r 0) →
        (∀ r, r < s * fine.vertices.length → ¬ Constrained s nodes' r →
          ∑ c ∈ Finset.range (s * fine.vertices.length), entry m r c * x'.getD c 0 = b' r) →
        energy' x' - ∑ r ∈ Finset.range (s * fine.vertices.length), b' r * x'.getD r 0 ≤
          E - ∑ r ∈ Finset.range (s * mesh.vertices.length), b r * x.getD r 0 := by
  obtain ⟨hv', hA'⟩ := fine_valid ord hord hv hA href
  have hd' := discretisation hv' hA' space' hs' rule t ht u₀ hu₀
  have hin : ∀ c ∈ fine.cells, ∀ n ∈ c, n < fine.vertices.length := fun c hc => by
    obtain ⟨i, j, k, rfl, h, -⟩ := cell_cases hv' hA' c hc
    exact h
  have e2 := Option.some.inj (hs'.symm.trans (C89_mesh_space .tri3 fine hin))
  have hset : Setting space' fine.vertices.length t.table (fun _ => rule) u₀ o nodes' := by
    refine ⟨h0, hd', ?_, fun _ _ => hw, hlin, hsym, hlaw, fun _ _ => hnonneg, ?_⟩
    · intro en hen
      rw [e2] at hen
      obtain ⟨c, hc, rfl⟩ := List.mem_map.1 hen
      obtain ⟨i, j, k, rfl, -, h⟩ := cell_cases hv' hA' c hc
      have h1 : i ≠ j := by rintro rfl; exact h (by simp [signedArea])
      have h2 : i ≠ k := by rintro rfl; exact h (by simp [signedArea])
      have h3 : j ≠ k := by rintro rfl; exact h (by simp only [signedArea]; ring)
      simp [h1, h2, h3]
    · intro n hn
      obtain ⟨fine', idx, h1, h2, h3, h4, h5⟩ := C16_refinement_is_conforming_midpoint_subdivision ord hord mesh hv
      rw [href, Option.some.injEq] at h1
      subst h1
      obtain ⟨nd, ⟨c, hc, ch, hch, hnd⟩, rfl⟩ := h5 n (hnodes n hn)
      refine ⟨(elementOfKind .tri3 ((ch.map idx).map (coords fine.vertices)), ch.map idx), ?_, List.mem_map.2 ⟨nd, hnd, rfl⟩⟩
      rw [e2]
      refine List.mem_map.2 ⟨ch.map idx, ?_, rfl⟩
      rw [h2]
      exact List.mem_flatMap.2 ⟨c, hc, List.mem_map.2 ⟨ch, hch, rfl⟩⟩
  obtain ⟨m, h1, h2⟩ := C97_dirichlet_principle hset henergy mord hmord sortNodes hsort bufs' outs elemMat hem elem' hee' energy' hE' b'
    (fun r => v.getD r 0)
  refine ⟨m, h1, fun x' hx' hxv hsol => ?_⟩
  refine ((h2 x' hx' hxv).1 hsol v hpro.length fun _ _ _ => rfl).trans_eq ?_
  obtain ⟨E₁, h3, h4⟩ := C103_energy ord hord hv hA href hx hpro space space' hs hs' rule t ht o bufs bufs' elem (elem' v) hee
    (hee' v hpro.length)
  rw [hE] at h3
  rw [hE' v hpro.length] at h4
  injection h3 with h3
  injection h4 with h4
  rw [hb, h3, h4]

end Functions

/-! ## Examples -/

/-- Two triangles that form a square. -/
private def square : Mesh (Point 2 ℚ) := ⟨[![0, 0], ![1, 0], ![1, 1], ![0, 1]], [[0, 1, 2], [0, 2, 3]]⟩

private theorem square_valid : ValidTri square ∧ ∀ c ∈ square.cells, cellArea square.vertices c ≠ some 0 := by
  constructor
  · intro c hc
    simp only [square, List.mem_cons, List.not_mem_nil, or_false] at hc
    rcases hc with rfl | rfl <;> exact ⟨_, _, _, rfl, by simp [square]⟩
  · intro c hc
    simp only [square, List.mem_cons, List.not_mem_nil, or_false] at hc
    rcases hc with rfl | rfl <;> simp [square, cellArea, Spec.coords, signedArea, List.mapM_cons]

/-- Non-vacuity: a function that is not affine has an extension to the refined square, its energy with two quadrature points exists on both
meshes, and the Laplace operator satisfies the assumptions. -/
example : ∃ fine v, refineUniformly id square = some fine ∧ Prolongs 1 square fine [0, 1, 5, 2] v ∧ v.length = 9 ∧
    IsLinear (laplace 2 ℚ) ∧ SymmetryLaw (laplace 2 ℚ) ∧ (∀ G param, 2 * (laplace 2 ℚ).energy G param = density (laplace 2 ℚ) param G) ∧
    ∀ param G, 0 ≤ density (laplace 2 ℚ) param G := by
  obtain ⟨fine, h1, v, h2, -⟩ := C103_prolong id (fun _ => List.Perm.refl _) square square_valid.1 1 [0, 1, 5, 2]
  have h9 : ((refineUniformly id square).map (·.vertices.length)) = some 9 := by decide +kernel
  rw [h1] at h9
  refine ⟨fine, v, h1, h2, ?_, (C89_linear_operators 2).1, ?_, ?_, ?_⟩
  · rw [h2.length]
    simpa using h9
  · intro _ _ a b _
    ext i j
    simp [laplace, mul_comm]
  · intro G param
    simp [laplace, density, Fin.sum_univ_two]
  · intro param G
    simp only [laplace, density, Fin.sum_univ_two, Finset.univ_unique, Finset.sum_singleton]
    exact add_nonneg (mul_self_nonneg _) (mul_self_nonneg _)

/-- The energy of that function is the same on the square and on the refined square: its gradient is `(1, 4)` on the first triangle and
`(3, 2)` on the second. -/
example : (meshSpace .tri3 square).bind (fun space => (List.range 2).mapM fun e =>
    (elementEnergy space (laplace 2 ℚ) (Uniform.table ⟨[![0, 0]], [2], [()]⟩) [0, 1, 5, 2] ⟨[], [], []⟩ e).bind fun r => r.1.toOption) =
    some [17 / 4, 13 / 4] := by
  decide +kernel

end Fenris.RefinedSpace
