import Verif.Model.MeshUtil
import Verif.Props.Procedural
import Verif.Props.Triangle
import Verif.Props.Aabb
import Verif.Props.Surface
/-! # C81: splitting quadrilateral meshes, translations and bounding boxes of meshes -/
set_option autoImplicit false
set_option linter.unusedSectionVars false

namespace Fenris
namespace MeshUtil
open Geometry Fenris.Spec
variable {K : Type} [Field K] [LinearOrder K] [IsStrictOrderedRing K] {d : Nat}

private theorem mapM_map {α β : Type} (l : List α) (f : α → Option β) (g : α → β) (h : ∀ x ∈ l, f x = some (g x)) :
    l.mapM f = some (l.map g) := by
  induction l with
  | nil => rfl
  | cons x l ih =>
    rw [List.mapM_cons, h x (by simp), ih fun y hy => h y (by simp [hy])]
    rfl

private theorem forall₂_of_mapM {α β : Type} {f : α → Option β} {l : List α} {r : List β} (h : l.mapM f = some r) :
    List.Forall₂ (fun x y => f x = some y) l r := by
  induction l generalizing r with
  | nil =>
    rw [List.mapM_nil] at h
    cases h
    exact .nil
  | cons x l ih =>
    rw [List.mapM_cons] at h
    simp only [Option.bind_eq_bind, Option.pure_def, Option.bind_eq_some_iff, Option.some.injEq] at h
    obtain ⟨y, h1, r', h2, rfl⟩ := h
    exact .cons h1 (ih h2)

/-! ### Splitting -/

private theorem splitQuad_eq (vs : List (Point 2 K)) (a b c e : Nat) (ha : a < vs.length) (hb : b < vs.length) (hc : c < vs.length)
    (he : e < vs.length) : splitQuad vs [a, b, c, e] = some [[a, b, c], [a, c, e]] := by
  have h : cellPoints vs [a, b, c, e] = some [vs[a], vs[b], vs[c], vs[e]] := by
    simp [cellPoints, List.mapM_cons, ha, hb, hc, he]
  rw [splitQuad, h, Option.bind_some]
  simp only [Quad.splitConnectivities, C52_concave_corner_never_found]
  rfl

/-- The two triangles of a quadrilateral. -/
private def halves : List Nat → List (List Nat)
  | [a, b, c, e] => [[a, b, c], [a, c, e]]
  | _ => []

private theorem splitQuad_halves (vs : List (Point 2 K)) (cell : List Nat) (hl : cell.length = 4) (hb : ∀ v ∈ cell, v < vs.length) :
    splitQuad vs cell = some (halves cell) := by
  match cell, hl with
  | [a, b, c, e], _ => exact splitQuad_eq vs a b c e (hb _ (by simp)) (hb _ (by simp)) (hb _ (by simp)) (hb _ (by simp))

private theorem split_eq (mesh : Mesh (Point 2 K)) (hl : ∀ c ∈ mesh.cells, c.length = 4)
    (hb : ∀ c ∈ mesh.cells, ∀ v ∈ c, v < mesh.vertices.length) :
    splitIntoTriangles mesh = some ⟨mesh.vertices, mesh.cells.flatMap halves⟩ := by
  have h : mesh.cells.mapM (splitQuad mesh.vertices) = some (mesh.cells.map halves) := by
    exact mapM_map _ _ _ fun c hc => splitQuad_halves _ _ (hl c hc) (hb c hc)
  rw [splitIntoTriangles, h, Option.map_some, List.flatMap_def]

private theorem polyArea_halves (vs : List (Point 2 K)) (cell : List Nat) (hl : cell.length = 4) :
    ((halves cell).map (Surface.Spec.polyArea2 vs)).sum = Surface.Spec.polyArea2 vs cell := by
  match cell, hl with
  | [a, b, c, e], _ =>
    simp [halves, Surface.Spec.polyArea2, Surface.Spec.faceEdges, Surface.Spec.det2]
    ring

/-- C81: splitting a quadrilateral mesh keeps the vertices, replaces every quadrilateral `a b c e` by the triangles `a b c` and
`a c e`, in the order of the cells, and keeps the total signed area. -/
theorem C81_split_into_triangles (mesh : Mesh (Point 2 K)) (hl : ∀ c ∈ mesh.cells, c.length = 4)
    (hb : ∀ c ∈ mesh.cells, ∀ v ∈ c, v < mesh.vertices.length) :
    ∃ out, splitIntoTriangles mesh = some out ∧ out.vertices = mesh.vertices ∧
      out.cells = mesh.cells.flatMap (fun c =>
        [[c.getD 0 0, c.getD 1 0, c.getD 2 0], [c.getD 0 0, c.getD 2 0, c.getD 3 0]]) ∧
      (out.cells.map (Surface.Spec.polyArea2 out.vertices)).sum = (mesh.cells.map (Surface.Spec.polyArea2 mesh.vertices)).sum := by
  refine ⟨_, split_eq mesh hl hb, rfl, ?_, ?_⟩
  · simp only [List.flatMap_def]
    congr 1
    apply List.map_congr_left
    intro c hc
    match c, hl c hc with
    | [a, b, c, e], _ => rfl
  · simp only
    clear hb
    generalize mesh.cells = cells at hl
    induction cells with
    | nil => rfl
    | cons c cells ih =>
      rw [List.flatMap_cons, List.map_append, List.sum_append, List.map_cons, List.sum_cons, polyArea_halves _ _ (hl c (by simp)),
        ih fun x hx => hl x (by simp [hx])]

/-- C81: the two triangles of a strictly convex counter-clockwise quadrilateral tile it. -/
theorem C81_split_tiles (mesh out : Mesh (Point 2 K)) (ho : splitIntoTriangles mesh = some out)
    (hl : ∀ c ∈ mesh.cells, c.length = 4) (hb : ∀ c ∈ mesh.cells, ∀ v ∈ c, v < mesh.vertices.length) (i : Nat) (cell : List Nat)
    (hi : mesh.cells[i]? = some cell) (p0 p1 p2 p3 : Point 2 K) (hp : coords mesh.vertices cell = some [p0, p1, p2, p3])
    (hc : StrictlyConvexCcw [p0, p1, p2, p3]) :
    ∃ t t' a b c a' b' c', out.cells[2 * i]? = some t ∧ out.cells[2 * i + 1]? = some t' ∧
      coords out.vertices t = some [a, b, c] ∧ coords out.vertices t' = some [a', b', c'] ∧
      (∀ x, x ∈ hull [p0, p1, p2, p3] ↔ InTriangle ⟨a, b, c⟩ x ∨ InTriangle ⟨a', b', c'⟩ x) ∧
      ∀ x, ¬(InsideTriangle ⟨a, b, c⟩ x ∧ InsideTriangle ⟨a', b', c'⟩ x) := by
  rw [split_eq mesh hl hb] at ho
  obtain rfl := Option.some.inj ho
  have hget : ∀ (cells : List (List Nat)) (i : Nat), (∀ c ∈ cells, c.length = 4) → cells[i]? = some cell →
      (cells.flatMap halves)[2 * i]? = (halves cell)[0]? ∧ (cells.flatMap halves)[2 * i + 1]? = (halves cell)[1]? := by
    intro cells
    induction cells with
    | nil => simp
    | cons x xs ih =>
      intro i hx h
      have hlen : (halves x).length = 2 := by
        match x, hx x (by simp) with
        | [a, b, c, e], _ => rfl
      rw [List.flatMap_cons]
      cases i with
      | zero =>
        simp only [List.getElem?_cons_zero, Option.some.injEq] at h
        subst h
        rw [List.getElem?_append_left (by omega), List.getElem?_append_left (by omega)]
        exact ⟨rfl, rfl⟩
      | succ i =>
        rw [List.getElem?_append_right (by omega), List.getElem?_append_right (by omega), hlen,
          show 2 * (i + 1) - 2 = 2 * i by omega, show 2 * (i + 1) + 1 - 2 = 2 * i + 1 by omega]
        exact ih i (fun c hc => hx c (by simp [hc])) (by simpa using h)
  obtain ⟨h0, h1⟩ := hget mesh.cells i hl hi
  have hlc := hl cell (List.mem_of_getElem? hi)
  match cell, hlc with
  | [a, b, c, e], _ =>
    have hbc := hb _ (List.mem_of_getElem? hi)
    have ha' := hbc a (by simp)
    have hb' := hbc b (by simp)
    have hc' := hbc c (by simp)
    have he' := hbc e (by simp)
    simp only [coords, List.mapM_cons, List.getElem?_eq_getElem, ha', hb', hc', he'] at hp
    simp at hp
    obtain ⟨rfl, rfl, rfl, rfl⟩ := hp
    have hconv := (C52_convex_partial (![mesh.vertices[a], mesh.vertices[b], mesh.vertices[c], mesh.vertices[e]] : Quad K)).2 hc
    have hs : Quad.splitIntoTriangles (![mesh.vertices[a], mesh.vertices[b], mesh.vertices[c], mesh.vertices[e]] : Quad K) =
        (⟨mesh.vertices[a], mesh.vertices[b], mesh.vertices[c]⟩, ⟨mesh.vertices[a], mesh.vertices[c], mesh.vertices[e]⟩) := by
      rw [Quad.splitIntoTriangles, Quad.splitConnectivities, C52_concave_corner_never_found]
      rfl
    rw [hs] at hconv
    refine ⟨[a, b, c], [a, c, e], _, _, _, _, _, _, h0, h1, ?_, ?_, hconv.1, hconv.2⟩ <;>
      simp [coords, List.mapM_cons, ha', hb', hc', he'] <;> exact ⟨rfl, rfl, rfl⟩

/-! ### The triangle mesh of a rectangle -/

private theorem lower_triangle {a : Point 2 K} {h : K} (hh : 0 < h) (p : Point 2 K) :
    InTriangle ⟨a, ![a 0 + h, a 1], ![a 0 + h, a 1 + h]⟩ p ↔ a 1 ≤ p 1 ∧ p 1 - a 1 ≤ p 0 - a 0 ∧ p 0 ≤ a 0 + h := by
  constructor
  · rintro ⟨α, β, γ, h1, h2, h3, h4, rfl⟩
    simp only [Matrix.cons_val_zero, Matrix.cons_val_one]
    have e : α = 1 - β - γ := by linarith
    subst e
    refine ⟨?_, ?_, ?_⟩ <;> nlinarith
  · rintro ⟨h1, h2, h3⟩
    refine ⟨1 - (p 0 - a 0) / h, (p 0 - a 0) / h - (p 1 - a 1) / h, (p 1 - a 1) / h, ?_, ?_, ?_, by ring, ?_⟩
    · rw [sub_nonneg, div_le_one hh]
      linarith
    · rw [sub_nonneg]
      exact div_le_div_of_nonneg_right h2 hh.le
    · exact div_nonneg (by linarith) hh.le
    · funext i
      have := hh.ne'
      match i with
      | 0 => simp only [Matrix.cons_val_zero]; field_simp; ring
      | 1 => simp only [Matrix.cons_val_one, Matrix.cons_val_zero]; field_simp; ring

private theorem upper_triangle {a : Point 2 K} {h : K} (hh : 0 < h) (p : Point 2 K) :
    InTriangle ⟨a, ![a 0 + h, a 1 + h], ![a 0, a 1 + h]⟩ p ↔ a 0 ≤ p 0 ∧ p 0 - a 0 ≤ p 1 - a 1 ∧ p 1 ≤ a 1 + h := by
  constructor
  · rintro ⟨α, β, γ, h1, h2, h3, h4, rfl⟩
    simp only [Matrix.cons_val_zero, Matrix.cons_val_one]
    have e : α = 1 - β - γ := by linarith
    subst e
    refine ⟨?_, ?_, ?_⟩ <;> nlinarith
  · rintro ⟨h1, h2, h3⟩
    refine ⟨1 - (p 1 - a 1) / h, (p 0 - a 0) / h, (p 1 - a 1) / h - (p 0 - a 0) / h, ?_, ?_, ?_, by ring, ?_⟩
    · rw [sub_nonneg, div_le_one hh]
      linarith
    · exact div_nonneg (by linarith) hh.le
    · rw [sub_nonneg]
      exact div_le_div_of_nonneg_right h2 hh.le
    · funext i
      have := hh.ne'
      match i with
      | 0 => simp only [Matrix.cons_val_zero]; field_simp; ring
      | 1 => simp only [Matrix.cons_val_one, Matrix.cons_val_zero]; field_simp; ring

private theorem lower_inside {a : Point 2 K} {h : K} (hh : 0 < h) (p : Point 2 K)
    (hp : InsideTriangle ⟨a, ![a 0 + h, a 1], ![a 0 + h, a 1 + h]⟩ p) :
    InOpenBox a ![a 0 + h, a 1 + h] p ∧ p 1 - a 1 < p 0 - a 0 := by
  obtain ⟨α, β, γ, h1, h2, h3, h4, rfl⟩ := hp
  have e : α = 1 - β - γ := by linarith
  subst e
  have k1 := mul_pos h1 hh
  have k2 := mul_pos h2 hh
  have k3 := mul_pos h3 hh
  refine ⟨fun i => ?_, ?_⟩
  · match i with
    | 0 => simp only [Matrix.cons_val_zero]; constructor <;> nlinarith
    | 1 => simp only [Matrix.cons_val_one, Matrix.cons_val_zero]; constructor <;> nlinarith
  · simp only [Matrix.cons_val_zero, Matrix.cons_val_one]
    nlinarith

private theorem upper_inside {a : Point 2 K} {h : K} (hh : 0 < h) (p : Point 2 K)
    (hp : InsideTriangle ⟨a, ![a 0 + h, a 1 + h], ![a 0, a 1 + h]⟩ p) :
    InOpenBox a ![a 0 + h, a 1 + h] p ∧ p 0 - a 0 < p 1 - a 1 := by
  obtain ⟨α, β, γ, h1, h2, h3, h4, rfl⟩ := hp
  have e : α = 1 - β - γ := by linarith
  subst e
  have k1 := mul_pos h1 hh
  have k2 := mul_pos h2 hh
  have k3 := mul_pos h3 hh
  refine ⟨fun i => ?_, ?_⟩
  · match i with
    | 0 => simp only [Matrix.cons_val_zero]; constructor <;> nlinarith
    | 1 => simp only [Matrix.cons_val_one, Matrix.cons_val_zero]; constructor <;> nlinarith
  · simp only [Matrix.cons_val_zero, Matrix.cons_val_one]
    nlinarith

private theorem coords_halves (vs : List (Point 2 K)) {cell : List Nat} {p0 p1 p2 p3 : Point 2 K}
    (h : coords vs cell = some [p0, p1, p2, p3]) :
    ∃ a b c e, cell = [a, b, c, e] ∧ coords vs [a, b, c] = some [p0, p1, p2] ∧ coords vs [a, c, e] = some [p0, p2, p3] ∧
      a < vs.length ∧ b < vs.length ∧ c < vs.length ∧ e < vs.length := by
  have hf := forall₂_of_mapM h
  cases hf with
  | cons h0 hf => cases hf with
  | cons h1 hf => cases hf with
  | cons h2 hf => cases hf with
  | cons h3 hf =>
  cases hf
  have hlt : ∀ {i : Nat} {p : Point 2 K}, vs[i]? = some p → i < vs.length := fun h => (List.getElem?_eq_some_iff.mp h).1
  refine ⟨_, _, _, _, rfl, ?_, ?_, hlt h0, hlt h1, hlt h2, hlt h3⟩ <;>
    simp only [coords, List.mapM_cons, List.mapM_nil, h0, h1, h2, h3] <;> rfl

/-- C81: the triangle mesh of a rectangle has two triangles with the same positive area for every square of the grid; together they
cover the rectangle with upper left corner `(x0, y0)` and side lengths `units_x·unit_length`, `units_y·unit_length`, and nothing
else, and their interiors do not overlap. -/
theorem C81_triangle_mesh_tiles (L : K) (hL : 0 < L) (ux uy n : Nat) (x0 y0 : K) (hn : n ≠ 0) (hux : ux ≠ 0) (huy : uy ≠ 0) :
    ∃ out, splitIntoTriangles (Procedural.quadMesh L ux uy n x0 y0) = some out ∧
      out.cells.length = 2 * ((ux * n) * (uy * n)) ∧
      (∀ cell ∈ out.cells, ∃ a b c, coords out.vertices cell = some [a, b, c] ∧ signedArea a b c = (L / n) ^ 2 / 2) ∧
      (∀ p, InBox ![x0, y0 - uy * L] ![x0 + ux * L, y0] p ↔
        ∃ cell ∈ out.cells, ∃ a b c, coords out.vertices cell = some [a, b, c] ∧ InTriangle ⟨a, b, c⟩ p) ∧
      out.cells.Pairwise (fun cell cell' => ∀ a b c a' b' c' p, coords out.vertices cell = some [a, b, c] →
        coords out.vertices cell' = some [a', b', c'] → ¬(InsideTriangle ⟨a, b, c⟩ p ∧ InsideTriangle ⟨a', b', c'⟩ p)) := by
  obtain ⟨g1, g2, g3⟩ := C17_cells_tile_the_rectangle L hL ux uy n x0 y0 hn hux huy
  obtain ⟨-, -, glen, -⟩ := C17_quad_mesh_is_the_grid L ux uy n x0 y0 hn hux huy
  have hh : 0 < L / (n : K) := div_pos hL (by exact_mod_cast Nat.pos_of_ne_zero hn)
  generalize Procedural.quadMesh L ux uy n x0 y0 = mesh at *
  generalize L / (n : K) = h at *
  have hcell : ∀ cell ∈ mesh.cells, ∃ i j k l a, cell = [i, j, k, l] ∧
      coords mesh.vertices cell = some [a, ![a 0 + h, a 1], ![a 0 + h, a 1 + h], ![a 0, a 1 + h]] ∧
      coords mesh.vertices [i, j, k] = some [a, ![a 0 + h, a 1], ![a 0 + h, a 1 + h]] ∧
      coords mesh.vertices [i, k, l] = some [a, ![a 0 + h, a 1 + h], ![a 0, a 1 + h]] ∧
      i < mesh.vertices.length ∧ j < mesh.vertices.length ∧ k < mesh.vertices.length ∧ l < mesh.vertices.length := by
    intro cell hc
    obtain ⟨a, b, c, e, e1, rfl, rfl, rfl, -⟩ := g1 cell hc
    obtain ⟨i, j, k, l, rfl, e2, e3, e4⟩ := coords_halves _ e1
    exact ⟨i, j, k, l, a, rfl, e1, e2, e3, e4⟩
  have hl : ∀ c ∈ mesh.cells, c.length = 4 := by
    intro c hc
    obtain ⟨i, j, k, l, a, rfl, -⟩ := hcell c hc
    rfl
  have hb : ∀ c ∈ mesh.cells, ∀ v ∈ c, v < mesh.vertices.length := by
    intro c hc v hv
    obtain ⟨i, j, k, l, a, rfl, -, -, -, k1, k2, k3, k4⟩ := hcell c hc
    simp only [List.mem_cons, List.not_mem_nil, or_false] at hv
    rcases hv with rfl | rfl | rfl | rfl <;> assumption
  refine ⟨_, split_eq mesh hl hb, ?_, ?_, ?_, ?_⟩
  · rw [← glen]
    show (mesh.cells.flatMap halves).length = _
    clear glen g1 g2 g3 hcell hb
    generalize mesh.cells = cells at hl
    induction cells with
    | nil => rfl
    | cons c cells ih =>
      rw [List.flatMap_cons, List.length_append, ih fun x hx => hl x (by simp [hx]), List.length_cons]
      match c, hl c (by simp) with
      | [i, j, k, l], _ => simp only [halves, List.length_cons, List.length_nil]; ring
  · intro t ht
    obtain ⟨c, hc, ht⟩ := List.mem_flatMap.mp ht
    obtain ⟨i, j, k, l, a, rfl, -, e1, e2, -⟩ := hcell c hc
    simp only [halves, List.mem_cons, List.not_mem_nil, or_false] at ht
    rcases ht with rfl | rfl
    · refine ⟨_, _, _, e1, ?_⟩
      simp [signedArea]
      ring
    · refine ⟨_, _, _, e2, ?_⟩
      simp [signedArea]
      ring
  · intro p
    rw [g2]
    have hbox : ∀ a : Point 2 K, InBox a ![a 0 + h, a 1 + h] p ↔
        InTriangle ⟨a, ![a 0 + h, a 1], ![a 0 + h, a 1 + h]⟩ p ∨ InTriangle ⟨a, ![a 0 + h, a 1 + h], ![a 0, a 1 + h]⟩ p := by
      intro a
      rw [lower_triangle hh, upper_triangle hh]
      constructor
      · intro hp
        have h0 := hp 0
        have h1 := hp 1
        simp only [Matrix.cons_val_zero, Matrix.cons_val_one] at h0 h1
        rcases le_total (p 1 - a 1) (p 0 - a 0) with hle | hle
        · exact .inl ⟨h1.1, hle, h0.2⟩
        · exact .inr ⟨h0.1, hle, h1.2⟩
      · rintro (⟨h1, h2, h3⟩ | ⟨h1, h2, h3⟩) i
        · match i with
          | 0 => simp only [Matrix.cons_val_zero]; constructor <;> linarith
          | 1 => simp only [Matrix.cons_val_zero, Matrix.cons_val_one]; constructor <;> linarith
        · match i with
          | 0 => simp only [Matrix.cons_val_zero]; constructor <;> linarith
          | 1 => simp only [Matrix.cons_val_zero, Matrix.cons_val_one]; constructor <;> linarith
    constructor
    · rintro ⟨cell, hc, a, b, c, e, e1, hp⟩
      obtain ⟨i, j, k, l, a', rfl, e0, e2, e3, -⟩ := hcell cell hc
      rw [e1] at e0
      simp only [Option.some.injEq, List.cons.injEq, and_true] at e0
      obtain ⟨rfl, rfl, rfl, rfl⟩ := e0
      rcases (hbox a).mp hp with hp | hp
      · exact ⟨_, List.mem_flatMap.mpr ⟨_, hc, List.mem_cons_self⟩, _, _, _, e2, hp⟩
      · exact ⟨_, List.mem_flatMap.mpr ⟨_, hc, List.mem_cons_of_mem _ List.mem_cons_self⟩, _, _, _, e3, hp⟩
    · rintro ⟨t, ht, a, b, c, e1, hp⟩
      obtain ⟨cell, hc, ht⟩ := List.mem_flatMap.mp ht
      obtain ⟨i, j, k, l, a', rfl, e0, e2, e3, -⟩ := hcell cell hc
      refine ⟨_, hc, _, _, _, _, e0, (hbox a').mpr ?_⟩
      simp only [halves, List.mem_cons, List.not_mem_nil, or_false] at ht
      rcases ht with rfl | rfl
      · rw [e2] at e1
        simp only [Option.some.injEq, List.cons.injEq, and_true] at e1
        obtain ⟨rfl, rfl, rfl⟩ := e1
        exact .inl hp
      · rw [e3] at e1
        simp only [Option.some.injEq, List.cons.injEq, and_true] at e1
        obtain ⟨rfl, rfl, rfl⟩ := e1
        exact .inr hp
  · show (mesh.cells.flatMap halves).Pairwise _
    have hin : ∀ cell ∈ mesh.cells, ∀ t ∈ halves cell, ∀ a b c p, coords mesh.vertices t = some [a, b, c] →
        InsideTriangle ⟨a, b, c⟩ p → ∃ a b c e, coords mesh.vertices cell = some [a, b, c, e] ∧ InOpenBox a c p := by
      intro cell hc t ht a b c p e1 hp
      obtain ⟨i, j, k, l, a', rfl, e0, e2, e3, -⟩ := hcell cell hc
      refine ⟨_, _, _, _, e0, ?_⟩
      simp only [halves, List.mem_cons, List.not_mem_nil, or_false] at ht
      rcases ht with rfl | rfl
      · rw [e2] at e1
        simp only [Option.some.injEq, List.cons.injEq, and_true] at e1
        obtain ⟨rfl, rfl, rfl⟩ := e1
        exact (lower_inside hh p hp).1
      · rw [e3] at e1
        simp only [Option.some.injEq, List.cons.injEq, and_true] at e1
        obtain ⟨rfl, rfl, rfl⟩ := e1
        exact (upper_inside hh p hp).1
    rw [List.pairwise_flatMap]
    constructor
    · intro cell hc
      obtain ⟨i, j, k, l, a', rfl, -, e2, e3, -⟩ := hcell cell hc
      simp only [halves, List.pairwise_cons, List.mem_cons, List.not_mem_nil, or_false, forall_eq, List.Pairwise.nil, and_true,
        IsEmpty.forall_iff, implies_true]
      rintro a b c a'' b'' c'' p e4 e5 ⟨hp, hp'⟩
      rw [e2] at e4
      rw [e3] at e5
      simp only [Option.some.injEq, List.cons.injEq, and_true] at e4 e5
      obtain ⟨rfl, rfl, rfl⟩ := e4
      obtain ⟨rfl, rfl, rfl⟩ := e5
      have := (lower_inside hh p hp).2
      have := (upper_inside hh p hp').2
      linarith
    · rw [List.pairwise_iff_getElem]
      rintro s s' hs hs' hlt t ht t' ht' a b c a' b' c' p e4 e5 ⟨hp, hp'⟩
      obtain ⟨_, _, _, _, k1, k2⟩ := hin _ (List.getElem_mem hs) t ht _ _ _ _ e4 hp
      obtain ⟨_, _, _, _, k3, k4⟩ := hin _ (List.getElem_mem hs') t' ht' _ _ _ _ e5 hp'
      have := g3 s s' _ _ _ _ _ _ _ _ _ _ p (List.getElem?_eq_getElem hs) (List.getElem?_eq_getElem hs') k1 k3 k2 k4
      omega

/-- C81: the triangle mesh of the unit square. -/
theorem C81_unit_square_triangles (n : Nat) (hn : n ≠ 0) :
    ∃ out : Mesh (Point 2 K), unitSquareTriMesh n = some out ∧ out.cells.length = 2 * (n * n) ∧
      (∀ cell ∈ out.cells, ∃ a b c, coords out.vertices cell = some [a, b, c] ∧ signedArea a b c = (1 / n) ^ 2 / 2) ∧
      (∀ p, InBox ![0, 0] ![1, 1] p ↔
        ∃ cell ∈ out.cells, ∃ a b c, coords out.vertices cell = some [a, b, c] ∧ InTriangle ⟨a, b, c⟩ p) ∧
      out.cells.Pairwise (fun cell cell' => ∀ a b c a' b' c' p, coords out.vertices cell = some [a, b, c] →
        coords out.vertices cell' = some [a', b', c'] → ¬(InsideTriangle ⟨a, b, c⟩ p ∧ InsideTriangle ⟨a', b', c'⟩ p)) := by
  have := C81_triangle_mesh_tiles (K := K) 1 one_pos 1 1 n 0 1 hn one_ne_zero one_ne_zero
  simpa [unitSquareTriMesh] using this

/-! ### Translations -/

/-- C81: `transform_vertices` calls the closure once for every vertex, in their order, and changes nothing else. -/
theorem C81_transform_vertices {P : Type} (f : Nat → P → P) (mesh : Mesh P) :
    (transformVertices f mesh).cells = mesh.cells ∧ (transformVertices f mesh).vertices.length = mesh.vertices.length ∧
      ∀ i, (transformVertices f mesh).vertices[i]? = mesh.vertices[i]?.map (f i) := by
  refine ⟨rfl, List.length_mapIdx, fun i => ?_⟩
  simp [transformVertices]

private theorem translate_eq (t : Point d K) (mesh : Mesh (Point d K)) :
    translate t mesh = ⟨mesh.vertices.map fun p => p + t, mesh.cells⟩ := by
  rw [translate, transformVertices]
  congr 1
  apply List.ext_getElem? 
  intro i
  simp only [List.getElem?_mapIdx, List.getElem?_map]
  rfl

/-- C81: translating moves every vertex by the same vector and keeps the cells; two translations are one by the sum, and a
translation is undone by the opposite one. -/
theorem C81_translate (t s : Point d K) (mesh : Mesh (Point d K)) :
    (translate t mesh).cells = mesh.cells ∧ (translate t mesh).vertices.length = mesh.vertices.length ∧
      (∀ (v : Nat) (p : Point d K), mesh.vertices[v]? = some p → (translate t mesh).vertices[v]? = some (fun i => p i + t i : Point d K)) ∧
      translate s (translate t mesh) = translate (fun i => t i + s i) mesh ∧ translate (fun i => -t i) (translate t mesh) = mesh := by
  refine ⟨rfl, by simp [translate_eq], ?_, ?_, ?_⟩
  · intro v p hp
    rw [translate_eq, List.getElem?_map, hp]
    rfl
  · simp only [translate_eq, List.map_map]
    congr 1
    apply List.map_congr_left
    intro p _
    funext i
    simp [add_assoc]
  · simp only [translate_eq, List.map_map]
    have : ((fun p : Point d K => p + fun i => -t i) ∘ fun p => p + t) = id := by
      funext p i
      simp
    rw [this, List.map_id]

/-- C81: a translation keeps the volume of every tetrahedron and the area of every triangle. -/
theorem C81_translate_volume (mesh : Mesh (Point 3 K)) (t : Point 3 K) (c : List Nat) (hl : c.length = 4)
    (hb : ∀ v ∈ c, v < mesh.vertices.length) :
    Surface.Spec.cellVol6 (translate t mesh).vertices c = Surface.Spec.cellVol6 mesh.vertices c := by
  match c, hl with
  | [i, j, k, l], _ =>
    have h : ∀ v ∈ [i, j, k, l], Surface.Spec.coords (translate t mesh).vertices v = Surface.Spec.coords mesh.vertices v + t := by
      intro v hv
      have := hb v hv
      simp [Surface.Spec.coords, translate_eq, List.getD_eq_getElem?_getD, this]
    simp only [Surface.Spec.cellVol6, Surface.Spec.tetVol6, List.getD_cons_zero, List.getD_cons_succ]
    rw [h i (by simp), h j (by simp), h k (by simp), h l (by simp)]
    simp

/-- C81: see `C81_translate_volume`. -/
theorem C81_translate_area (mesh : Mesh (Point 2 K)) (t : Point 2 K) (c : List Nat) :
    cellArea (translate t mesh).vertices c = cellArea mesh.vertices c := by
  have h : coords (translate t mesh).vertices c = (coords mesh.vertices c).map (List.map fun p => p + t) := by
    rw [translate_eq]
    simp only [coords]
    induction c with
    | nil => rfl
    | cons v c ih =>
      rw [List.mapM_cons, List.mapM_cons, ih, List.getElem?_map]
      cases mesh.vertices[v]? with
      | none => rfl
      | some p =>
        cases c.mapM fun v => mesh.vertices[v]? with
        | none => rfl
        | some ps => rfl
  rw [cellArea, cellArea, h]
  cases coords mesh.vertices c with
  | none => rfl
  | some ps =>
    match ps with
    | [] => rfl
    | [_] => rfl
    | [_, _] => rfl
    | [a, b, e] => simp [signedArea]
    | _ :: _ :: _ :: _ :: _ => rfl

/-! ### Bounding boxes -/

private theorem foldlM_enclose (bs : List (Aabb d K)) (b : Aabb d K) (hb : ValidBox b) (hbs : ∀ x ∈ bs, ValidBox x) :
    ∃ c, bs.foldlM Aabb.enclose b = some c ∧ ValidBox c ∧ (∀ x ∈ b :: bs, ∀ p, InAabb x p → InAabb c p) ∧
      ∀ c' : Aabb d K, (∀ x ∈ b :: bs, ∀ p, InAabb x p → InAabb c' p) → ∀ p, InAabb c p → InAabb c' p := by
  induction bs generalizing b with
  | nil => exact ⟨b, rfl, hb, by simp, fun c' h => h b (by simp)⟩
  | cons x bs ih =>
    obtain ⟨y, e, hy, h1, h2⟩ := Aabb.C45_enclose b x hb (hbs x (by simp))
    obtain ⟨c, e', hc, h3, h4⟩ := ih y hy fun z hz => hbs z (by simp [hz])
    refine ⟨c, by rw [List.foldlM_cons, e]; exact e', hc, ?_, ?_⟩
    · intro z hz p hp
      simp only [List.mem_cons] at hz
      rcases hz with rfl | rfl | hz
      · exact h3 y (by simp) p (h1 p (.inl hp))
      · exact h3 y (by simp) p (h1 p (.inr hp))
      · exact h3 z (by simp [hz]) p hp
    · intro c' h p hp
      refine h4 c' ?_ p hp
      intro z hz q hq
      rcases List.mem_cons.mp hz with rfl | hz
      · refine h2 c' ?_ q hq
        rintro r (hr | hr)
        · exact h b (by simp) r hr
        · exact h x (by simp) r hr
      · exact h z (by simp [hz]) q hq

/-- C81: without cells the bounding box of a mesh is the origin; otherwise it is the smallest box that contains all vertices of all
cells. -/
theorem C81_bounding_box (mesh : Mesh (Point d K)) (hne : ∀ c ∈ mesh.cells, c ≠ [])
    (hb : ∀ c ∈ mesh.cells, ∀ v ∈ c, v < mesh.vertices.length) :
    (mesh.cells = [] → boundingBox mesh = some ⟨0, 0⟩) ∧
    (mesh.cells ≠ [] → ∃ box, boundingBox mesh = some box ∧ ValidBox box ∧
      (∀ c ∈ mesh.cells, ∀ v ∈ c, ∀ p, mesh.vertices[v]? = some p → InAabb box p) ∧
      ∀ box' : Aabb d K, (∀ c ∈ mesh.cells, ∀ v ∈ c, ∀ p, mesh.vertices[v]? = some p → InAabb box' p) →
        ∀ p, InAabb box p → InAabb box' p) := by
  constructor
  · intro h
    rw [boundingBox, h]
    simp [Aabb.ofPoint, Aabb.new]
  · intro h
    have hbox : ∀ c ∈ mesh.cells, ∃ x : Aabb d K, cellBox mesh.vertices c = some x ∧ ValidBox x ∧
        (∀ v ∈ c, ∀ p, mesh.vertices[v]? = some p → InAabb x p) ∧
        ∀ c' : Aabb d K, (∀ v ∈ c, ∀ p, mesh.vertices[v]? = some p → InAabb c' p) → ∀ p, InAabb x p → InAabb c' p := by
      intro c hc
      have e : cellPoints mesh.vertices c = some (c.map fun v => mesh.vertices.getD v 0) := by
        apply mapM_map
        intro v hv
        have := hb c hc v hv
        simp [List.getD_eq_getElem?_getD, this]
      have hmem : ∀ v ∈ c, ∀ p, mesh.vertices[v]? = some p → p ∈ c.map fun v => mesh.vertices.getD v 0 := by
        intro v hv p hp
        exact List.mem_map.mpr ⟨v, hv, by simp [List.getD_eq_getElem?_getD, hp]⟩
      rcases Aabb.C45_from_points (c.map fun v => mesh.vertices.getD v 0) with ⟨h0, -⟩ | ⟨-, x, e1, hx, h1, h2⟩
      · exact absurd (List.map_eq_nil_iff.mp h0) (hne c hc)
      · refine ⟨x, by rw [cellBox, e, Option.bind_some, e1]; rfl, hx, fun v hv p hp => h1 p (hmem v hv p hp), ?_⟩
        intro c' h p hp
        refine h2 c' ?_ p hp
        intro q hq
        obtain ⟨v, hv, rfl⟩ := List.mem_map.mp hq
        have := hb c hc v hv
        exact h v hv _ (by simp [List.getD_eq_getElem?_getD, this])
    have : Nonempty (Aabb d K) := ⟨⟨0, 0⟩⟩
    choose! g g1 g2 g3 g4 using hbox
    have e := mapM_map mesh.cells (cellBox mesh.vertices) g g1
    obtain ⟨c0, cs, hcs⟩ := List.exists_cons_of_ne_nil h
    obtain ⟨box, e1, h1, h2, h3⟩ := foldlM_enclose (cs.map g) (g c0) (g2 c0 (by simp [hcs])) (by
      intro x hx
      obtain ⟨c, hc, rfl⟩ := List.mem_map.mp hx
      exact g2 c (by simp [hcs, hc]))
    have hmem : ∀ c ∈ mesh.cells, g c ∈ g c0 :: cs.map g := by
      intro c hc
      rw [hcs] at hc
      rw [← List.map_cons]
      exact List.mem_map_of_mem hc
    refine ⟨box, ?_, h1, fun c hc v hv p hp => h2 _ (hmem c hc) p (g3 c hc v hv p hp), ?_⟩
    · rw [boundingBox, e, Option.bind_some, hcs, List.map_cons]
      exact e1
    · intro box' h p hp
      refine h3 box' ?_ p hp
      intro x hx q hq
      rw [← List.map_cons, ← hcs] at hx
      obtain ⟨c, hc, rfl⟩ := List.mem_map.mp hx
      exact g4 c hc box' (fun v hv p hp => h c hc v hv p hp) q hq

/-! ### Examples -/

/-- C81 example: two squares are split into four triangles. -/
example : splitIntoTriangles (⟨[![0, 0], ![1, 0], ![2, 0], ![0, 1], ![1, 1], ![2, 1]], [[0, 1, 4, 3], [1, 2, 5, 4]]⟩ : Mesh (Point 2 ℚ)) =
    some ⟨[![0, 0], ![1, 0], ![2, 0], ![0, 1], ![1, 1], ![2, 1]], [[0, 1, 4], [0, 4, 3], [1, 2, 5], [1, 5, 4]]⟩ ∧
    StrictlyConvexCcw [![0, 0], ![1, 0], ![1, 1], (![0, 1] : Point 2 ℚ)] := by
  constructor
  · decide +kernel
  · intro a b c h
    have h4 : ∀ t ∈ List.sublistsLen 3 [![0, 0], ![1, 0], ![1, 1], (![0, 1] : Point 2 ℚ)],
        0 < orient2 (t.getD 0 0) (t.getD 1 0) (t.getD 2 0) := by decide +kernel
    exact h4 [a, b, c] (List.mem_sublistsLen.mpr ⟨h, rfl⟩)

/-- C81 example: vertices that belong to no cell are not in the bounding box. -/
example : (boundingBox (⟨[![0, 0], ![1, 0], ![1, 2], ![7, 7]], [[0, 1, 2]]⟩ : Mesh (Point 2 ℚ))).map (fun b => (b.min, b.max)) =
    some (![0, 0], ![1, 2]) := by
  decide +kernel

end MeshUtil
end Fenris
