import Verif.Spec.VoxelSdf
import Verif.Props.Sdf
import Verif.Props.MeshUtil
/-! # C82: meshes for signed distance functions -/
set_option autoImplicit false
set_option linter.unusedSectionVars false

namespace Fenris
namespace VoxelSdf
open Geometry Fenris.Spec Fenris.Sdf Fenris.Sdf.Spec Spec
variable {K : Type} [Field K] [LinearOrder K] [IsStrictOrderedRing K]

/-! ### The grid -/

private theorem ceil_pos {ceil : K → Nat} (hc : IsCeil ceil) {x : K} (hx : 0 < x) : 0 < ceil x := by
  have h := (hc x hx.le).1
  have : (0 : K) < ceil x := hx.trans_le h
  exact_mod_cast this

private theorem ceil_zero {ceil : K → Nat} (hc : IsCeil ceil) : ceil 0 = 0 := by
  have h := (hc 0 le_rfl).2
  have h2 : ((ceil 0 : Nat) : K) < ((1 : Nat) : K) := by
    rw [Nat.cast_one]
    linarith
  have h3 : ceil 0 < 1 := by exact_mod_cast h2
  omega

private theorem enlarged_eq (b : Aabb 2 K) (hb : ValidBox b) :
    enlarged b = some ⟨fun i => b.min i - b.extents i * (1 / 100), fun i => b.max i + b.extents i * (1 / 100)⟩ := by
  rw [enlarged, Aabb.new, if_pos]
  intro i
  have h := hb i
  have e : b.extents i = b.max i - b.min i := rfl
  rw [e]
  linarith

/-- The extents of the enlarged box. -/
private def ext (b : Aabb 2 K) : Point 2 K := fun i => b.extents i * (102 / 100)

private theorem enlarged_extents (b : Aabb 2 K) :
    (⟨fun i => b.min i - b.extents i * (1 / 100), fun i => b.max i + b.extents i * (1 / 100)⟩ : Aabb 2 K).extents = ext b := by
  funext i
  simp only [Aabb.extents, ext]
  ring

/-- C82: `voxelize_bounding_box_2d` of a valid box panics exactly if the cell size is not positive or the box has no extent in some
direction. -/
theorem C82_grid_panics (ceil : K → Nat) (hc : IsCeil ceil) (b : Aabb 2 K) (hb : ValidBox b) (r : K) :
    voxelizeBox ceil b r = none ↔ r ≤ 0 ∨ ∃ i, b.min i = b.max i := by
  rw [voxelizeBox]
  by_cases hr : 0 < r
  · rw [if_pos hr, enlarged_eq b hb, Option.bind_some, Option.map_eq_none_iff, enlarged_extents, cellSize]
    have hz : ∀ i, ceil (ext b i / r) = 0 ↔ b.min i = b.max i := by
      intro i
      have h := hb i
      constructor
      · intro h0
        by_contra hne
        have hlt : 0 < b.max i - b.min i := sub_pos.mpr (lt_of_le_of_ne h hne)
        have : 0 < ext b i / r := div_pos (mul_pos hlt (by norm_num)) hr
        have := ceil_pos hc this
        omega
      · intro h0
        have : ext b i = 0 := by simp [ext, Aabb.extents, h0]
        rw [this, zero_div, ceil_zero hc]
    constructor
    · intro h
      right
      by_contra hn
      push Not at hn
      rw [if_neg] at h
      · cases h
      · rw [hz, hz]
        exact fun h => h.elim (hn 0) (hn 1)
    · rintro (h | ⟨i, hi⟩)
      · exact absurd hr (not_lt.mpr h)
      · rw [if_pos]
        rw [hz, hz]
        match i with
        | 0 => exact .inl hi
        | 1 => exact .inr hi
  · rw [if_neg hr]
    simp [not_lt.mp hr]

/-- C82: otherwise the cells are squares of one size that is at most the given one, their interiors do not overlap, and they cover
the box. -/
theorem C82_grid (ceil : K → Nat) (hc : IsCeil ceil) (b : Aabb 2 K) (hb : ∀ i, b.min i < b.max i) (r : K) (hr : 0 < r) :
    ∃ mesh h, voxelizeBox ceil b r = some mesh ∧ 0 < h ∧ h ≤ r ∧
      (∀ cell ∈ mesh.cells, ∃ a : Point 2 K, coords mesh.vertices cell =
        some [a, ![a 0 + h, a 1], ![a 0 + h, a 1 + h], ![a 0, a 1 + h]]) ∧
      (∀ p, InAabb b p → ∃ cell ∈ mesh.cells, ∃ a v c e, coords mesh.vertices cell = some [a, v, c, e] ∧ InBox a c p) ∧
      ∀ (t t' : Nat) cell cell' a v c e a' v' c' e' p, mesh.cells[t]? = some cell → mesh.cells[t']? = some cell' →
        coords mesh.vertices cell = some [a, v, c, e] → coords mesh.vertices cell' = some [a', v', c', e'] →
        InOpenBox a c p → InOpenBox a' c' p → t = t' := by
  have hv : ValidBox b := fun i => (hb i).le
  have he : ∀ i, 0 < ext b i := fun i => mul_pos (sub_pos.mpr (hb i)) (by norm_num)
  have hn : ∀ i, 0 < ceil (ext b i / r) := fun i => ceil_pos hc (div_pos (he i) hr)
  have hnK : ∀ i, (0 : K) < ceil (ext b i / r) := fun i => by exact_mod_cast hn i
  have hs : ∀ i, 0 < ext b i / (ceil (ext b i / r) : K) ∧ ext b i / (ceil (ext b i / r) : K) ≤ r := by
    intro i
    refine ⟨div_pos (he i) (hnK i), ?_⟩
    rw [div_le_iff₀ (hnK i)]
    have := (hc _ (div_pos (he i) hr).le).1
    rw [div_le_iff₀ hr] at this
    linarith
  obtain ⟨h, hh⟩ : ∃ h, h = Min.min (ext b 0 / (ceil (ext b 0 / r) : K)) (ext b 1 / (ceil (ext b 1 / r) : K)) := ⟨_, rfl⟩
  have h0 : 0 < h := by
    rw [hh]
    exact lt_min (hs 0).1 (hs 1).1
  have h1 : h ≤ r := by
    rw [hh]
    exact (min_le_left _ _).trans (hs 0).2
  have hsize : cellSize ceil r (ext b) = some h := by
    rw [cellSize, if_neg, hh]
    have := hn 0
    have := hn 1
    omega
  have hm : ∀ i, ceil (ext b i / h) ≠ 0 := fun i => (ceil_pos hc (div_pos (he i) h0)).ne'
  have hcov : ∀ i, ext b i ≤ (ceil (ext b i / h) : K) * h := by
    intro i
    have := (hc _ (div_pos (he i) h0).le).1
    rwa [div_le_iff₀ h0] at this
  obtain ⟨g1, g2, g3⟩ := C17_cells_tile_the_rectangle h h0 (ceil (ext b 0 / h)) (ceil (ext b 1 / h)) 1
    (b.center 0 - (ceil (ext b 0 / h) : K) * h / 2) (b.center 1 + (ceil (ext b 1 / h) : K) * h / 2) one_ne_zero (hm 0) (hm 1)
  refine ⟨_, h, ?_, h0, h1, ?_, ?_, g3⟩
  · rw [voxelizeBox, if_pos hr, enlarged_eq b hv, Option.bind_some, enlarged_extents]
    simp only [hsize, Option.map_some]
  · intro cell hcell
    obtain ⟨a, v, c, e, e1, rfl, rfl, rfl, -⟩ := g1 cell hcell
    exact ⟨a, by simpa using e1⟩
  · intro p hp
    refine (g2 p).mp ?_
    have k0 := hp 0
    have k1 := hp 1
    have m0 := hcov 0
    have m1 := hcov 1
    have n0 := hb 0
    have n1 := hb 1
    generalize ((ceil (ext b 0 / h) : Nat) : K) = X at *
    generalize ((ceil (ext b 1 / h) : Nat) : K) = Y at *
    simp only [ext, Aabb.extents] at m0 m1
    intro i
    match i with
    | 0 =>
      simp only [Aabb.center, Matrix.cons_val_zero]
      constructor <;> linarith
    | 1 =>
      simp only [Aabb.center, Matrix.cons_val_zero, Matrix.cons_val_one]
      constructor <;> linarith

/-! ### Selecting cells -/

private theorem coords_eq (vs : List (Point 2 K)) (c : List Nat) : coords vs c = (c.map fun v => vs[v]?).mapM id := by
  rw [coords]
  induction c with
  | nil => rfl
  | cons v c ih => rw [List.map_cons, List.mapM_cons, List.mapM_cons, ih]; rfl

private theorem coords_some {vs : List (Point 2 K)} {c : List Nat} (h : ∀ v ∈ c, v < vs.length) :
    coords vs c = some (c.map fun v => vs.getD v 0) := by
  rw [coords]
  induction c with
  | nil => rfl
  | cons v c ih =>
    have := h v (by simp)
    rw [List.mapM_cons, ih fun w hw => h w (by simp [hw]), List.getElem?_eq_getElem this]
    simp [List.getD_eq_getElem?_getD, this]

/-- The cells with a vertex in the shape. -/
private def hits (s : Sdf K) (o : Option (List (Point 2 K))) : Bool := (o.getD []).any fun v => decide (s.eval v ≤ 0)

private theorem mapM_coords (mesh : Mesh (Point 2 K)) (hb : ∀ c ∈ mesh.cells, ∀ v ∈ c, v < mesh.vertices.length) :
    mesh.cells.mapM (MeshUtil.cellPoints mesh.vertices) = some (mesh.cells.map fun c => c.map fun v => mesh.vertices.getD v 0) := by
  generalize mesh.cells = cells at hb
  induction cells with
  | nil => rfl
  | cons c cells ih =>
    rw [List.mapM_cons, ih fun x hx => hb x (by simp [hx])]
    have : MeshUtil.cellPoints mesh.vertices c = some (c.map fun v => mesh.vertices.getD v 0) := coords_some (hb c (by simp))
    rw [this]
    rfl

private theorem zipIdx_filter {α : Type} (p : α → Bool) (l : List α) :
    ((l.zipIdx.filter fun q => p q.1).map Prod.snd).map (fun i => l[i]?) = (l.filter p).map some := by
  have h : ∀ q ∈ l.zipIdx.filter fun q => p q.1, l[q.2]? = some q.1 := by
    rintro ⟨x, i⟩ hq
    exact (List.mem_zipIdx_iff_getElem?).mp (List.mem_filter.mp hq).1
  rw [List.map_map, List.map_congr_left (f := (fun i => l[i]?) ∘ Prod.snd) (g := some ∘ Prod.fst) h, ← List.map_map]
  congr 1
  have : l.filter p = (l.zipIdx.map Prod.fst).filter p := by rw [List.zipIdx_map_fst]
  rw [this, List.filter_map]
  rfl

private theorem kept_spec (s : Sdf K) (mesh : Mesh (Point 2 K)) (hb : ∀ c ∈ mesh.cells, ∀ v ∈ c, v < mesh.vertices.length) :
    ∃ is out, desired s mesh = some is ∧ mesh.keepCells is = some out ∧
      (∀ c ∈ out.cells, ∀ v ∈ c, v < out.vertices.length) ∧
      out.cells.map (coords out.vertices) = (mesh.cells.map (coords mesh.vertices)).filter (hits s) ∧
      ∀ p ∈ out.vertices, ∃ pts, some pts ∈ out.cells.map (coords out.vertices) ∧ p ∈ pts := by
  have hco : ∀ c ∈ mesh.cells, coords mesh.vertices c = some (c.map fun v => mesh.vertices.getD v 0) := fun c hc => coords_some (hb c hc)
  obtain ⟨is, his⟩ : ∃ is, desired s mesh = some is := ⟨_, by rw [desired, mapM_coords mesh hb, Option.map_some]⟩
  have hget : is.map (fun i => mesh.cells[i]?.map (coords mesh.vertices)) =
      ((mesh.cells.map (coords mesh.vertices)).filter (hits s)).map some := by
    rw [desired, mapM_coords mesh hb, Option.map_some, Option.some.injEq] at his
    have hz := zipIdx_filter (hits s) (mesh.cells.map (coords mesh.vertices))
    rw [← hz, ← his]
    clear hz his
    have e : (mesh.cells.map (coords mesh.vertices)) = (mesh.cells.map fun c => c.map fun v => mesh.vertices.getD v 0).map some := by
      rw [List.map_map]
      exact List.map_congr_left fun c hc => hco c hc
    have e2 : ∀ i : Nat, mesh.cells[i]?.map (coords mesh.vertices) = (mesh.cells.map (coords mesh.vertices))[i]? := fun i => by
      rw [List.getElem?_map]
    simp only [e2]
    rw [e]
    generalize (mesh.cells.map fun c => c.map fun v => mesh.vertices.getD v 0) = pts
    congr 1
    rw [List.zipIdx_map (l := pts) (f := some), List.filter_map, List.map_map]
    rfl
  have hin : ∀ i ∈ is, i < mesh.cells.length := by
    intro i hi
    have : mesh.cells[i]?.map (coords mesh.vertices) ∈ is.map (fun i => mesh.cells[i]?.map (coords mesh.vertices)) :=
      List.mem_map_of_mem hi
    rw [hget] at this
    obtain ⟨o, -, ho⟩ := List.mem_map.mp this
    by_contra hge
    rw [List.getElem?_eq_none (by omega)] at ho
    cases ho
  have hne : mesh.keepCells is ≠ none := by
    intro h
    obtain ⟨i, hi, h⟩ := (C15_keep_cells_panics_iff_out_of_range mesh is hb).mp h
    have := hin i hi
    omega
  obtain ⟨out, hout⟩ := Option.ne_none_iff_exists'.mp hne
  obtain ⟨hlen, hcells, kept, -, hkept, hverts⟩ := C15_keep_cells_keeps_selected_cells mesh out is hb hout
  have hk : ∀ k, k < is.length → ∃ i c c', is[k]? = some i ∧ mesh.cells[i]? = some c ∧ out.cells[k]? = some c' ∧
      (∀ v ∈ c', v < out.vertices.length) ∧ coords out.vertices c' = coords mesh.vertices c := by
    intro k hk
    have hi := hin _ (List.getElem_mem hk)
    obtain ⟨c', h1, h2, h3⟩ := hcells k is[k] _ (List.getElem?_eq_getElem hk) (List.getElem?_eq_getElem hi)
    exact ⟨_, _, c', List.getElem?_eq_getElem hk, List.getElem?_eq_getElem hi, h1, h2, by rw [coords_eq, coords_eq, h3]⟩
  have hmap : out.cells.map (coords out.vertices) = (mesh.cells.map (coords mesh.vertices)).filter (hits s) := by
    have hinj : Function.Injective (some : Option (List (Point 2 K)) → _) := Option.some_injective _
    apply hinj.list_map
    rw [← hget]
    apply List.ext_getElem?
    intro k
    by_cases hkl : k < is.length
    · obtain ⟨i, c, c', h1, h2, h3, -, h4⟩ := hk k hkl
      simp only [List.map_map, List.getElem?_map, h1, h3, Option.map_some, h2, Function.comp, h4]
    · rw [List.getElem?_eq_none (by simp; omega), List.getElem?_eq_none (by simp; omega)]
  refine ⟨is, out, his, hout, ?_, hmap, ?_⟩
  · intro c hc v hv
    obtain ⟨k, hk'⟩ := List.getElem?_of_mem hc
    obtain ⟨i, _, c', -, -, h3, h4, -⟩ := hk k (by rw [← hlen]; exact (List.getElem?_eq_some_iff.mp hk').1)
    rw [hk'] at h3
    cases h3
    exact h4 v hv
  · intro p hp
    have : some p ∈ out.vertices.map some := List.mem_map_of_mem hp
    rw [hverts] at this
    obtain ⟨v, hv, hvp⟩ := List.mem_map.mp this
    obtain ⟨i, hi, c, hc, hvc⟩ := (hkept v).mp hv
    obtain ⟨k, hk'⟩ := List.getElem?_of_mem hi
    obtain ⟨_, _, c', h1, h2, h3, h4, h5⟩ := hk k (List.getElem?_eq_some_iff.mp hk').1
    rw [hk'] at h1
    cases h1
    rw [hc] at h2
    cases h2
    have hcm := List.mem_of_getElem? hc
    refine ⟨_, List.mem_map.mpr ⟨c', List.mem_of_getElem? h3, h5.trans (hco c hcm)⟩, ?_⟩
    exact List.mem_map.mpr ⟨v, hvc, by rw [List.getD_eq_getElem?_getD, hvp]; rfl⟩

private theorem grid_bound {mesh : Mesh (Point 2 K)} {h : K} (hm : ∀ cell ∈ mesh.cells, ∃ a : Point 2 K,
    coords mesh.vertices cell = some [a, ![a 0 + h, a 1], ![a 0 + h, a 1 + h], ![a 0, a 1 + h]]) :
    ∀ c ∈ mesh.cells, c.length = 4 ∧ ∀ v ∈ c, v < mesh.vertices.length := by
  intro c hc
  obtain ⟨a, ha⟩ := hm c hc
  have key : ∀ (c : List Nat) l, coords mesh.vertices c = some l → c.length = l.length ∧ ∀ v ∈ c, v < mesh.vertices.length := by
    intro c
    induction c with
    | nil =>
      rintro l h
      cases h
      simp
    | cons v c ih =>
      intro l h
      rw [coords, List.mapM_cons, Option.bind_eq_bind, Option.bind_eq_some_iff] at h
      obtain ⟨x, hx, h⟩ := h
      rw [Option.bind_eq_bind, Option.bind_eq_some_iff] at h
      obtain ⟨l', hl', h⟩ := h
      cases h
      obtain ⟨h1, h2⟩ := ih l' hl'
      refine ⟨by simp [h1], ?_⟩
      intro w hw
      rcases List.mem_cons.mp hw with rfl | hw
      · exact (List.getElem?_eq_some_iff.mp hx).1
      · exact h2 w hw
  exact key c _ ha

/-- C82: `voxelize_sdf_2d` keeps exactly those squares of the grid that have a vertex in the shape, in their order, and no other
vertices. -/
theorem C82_voxelize_sdf (ceil : K → Nat) (hc : IsCeil ceil) (s : Sdf K) (b : Aabb 2 K) (hs : s.boundingBox = some b)
    (hb : ∀ i, b.min i < b.max i) (r : K) (hr : 0 < r) :
    ∃ grid out, voxelizeBox ceil b r = some grid ∧ voxelizeSdf ceil s r = some out ∧
      out.cells.map (coords out.vertices) =
        (grid.cells.map (coords grid.vertices)).filter (fun o => (o.getD []).any fun v => decide (s.eval v ≤ 0)) ∧
      (∀ c ∈ out.cells, c.length = 4 ∧ ∀ v ∈ c, v < out.vertices.length) ∧
      ∀ p ∈ out.vertices, ∃ c ∈ out.cells, ∃ pts, coords out.vertices c = some pts ∧ p ∈ pts := by
  obtain ⟨grid, h, h1, -, -, h2, -⟩ := C82_grid ceil hc b hb r hr
  obtain ⟨is, out, k1, k2, k3, k4, k5⟩ := kept_spec s grid fun c hc => (grid_bound h2 c hc).2
  refine ⟨grid, out, h1, ?_, k4, ?_, ?_⟩
  · rw [voxelizeSdf, hs, Option.bind_some, h1, Option.bind_some, k1, Option.bind_some, k2]
  · refine fun c hc => ⟨?_, k3 c hc⟩
    have : coords out.vertices c ∈ out.cells.map (coords out.vertices) := List.mem_map_of_mem hc
    rw [k4] at this
    obtain ⟨c', hc', e⟩ := List.mem_map.mp (List.mem_filter.mp this).1
    rw [coords_some (k3 c hc), coords_some (grid_bound h2 c' hc').2, Option.some.injEq] at e
    have := congrArg List.length e
    rw [List.length_map, List.length_map, (grid_bound h2 c' hc').1] at this
    exact this.symm
  · intro p hp
    obtain ⟨pts, h, hp⟩ := k5 p hp
    obtain ⟨c, hc, e⟩ := List.mem_map.mp h
    exact ⟨c, hc, pts, e, hp⟩

/-- C82: the voxels approximate the shape: every point whose depth in the shape is more than half the diagonal of a cell of the
maximal size lies in a cell, and no point of a cell is farther from the shape than a diagonal. -/
theorem C82_voxels_are_close (ceil : K → Nat) (hc : IsCeil ceil) (s : Sdf K) (region : Point 2 K → Prop)
    (hs : IsSdf region s.eval) (b : Aabb 2 K) (hsb : s.boundingBox = some b) (hreg : ∀ x, region x → InAabb b x)
    (hb : ∀ i, b.min i < b.max i) (r : K) (hr : 0 < r) :
    ∃ out, voxelizeSdf ceil s r = some out ∧
      (∃ h, 0 < h ∧ h ≤ r ∧ ∀ cell ∈ out.cells, ∃ a : Point 2 K,
        coords out.vertices cell = some [a, ![a 0 + h, a 1], ![a 0 + h, a 1 + h], ![a 0, a 1 + h]]) ∧
      (∀ x d, 0 ≤ d → r ^ 2 < 2 * d ^ 2 → s.eval x ≤ -d →
        ∃ cell ∈ out.cells, ∃ a v c e, coords out.vertices cell = some [a, v, c, e] ∧ InBox a c x) ∧
      ∀ cell ∈ out.cells, ∀ a v c e x, coords out.vertices cell = some [a, v, c, e] → InBox a c x →
        region x ∨ ∃ q, region q ∧ dist2 x q ≤ 2 * r ^ 2 := by
  obtain ⟨grid, h, h1, h0, hle, h2, h3, -⟩ := C82_grid ceil hc b hb r hr
  obtain ⟨grid', out, g1, g2, g3, -, -⟩ := C82_voxelize_sdf ceil hc s b hsb hb r hr
  rw [h1] at g1
  obtain rfl := Option.some.inj g1
  have hfrom : ∀ cell ∈ out.cells, ∃ a : Point 2 K,
      coords out.vertices cell = some [a, ![a 0 + h, a 1], ![a 0 + h, a 1 + h], ![a 0, a 1 + h]] ∧
      ∃ v ∈ [a, ![a 0 + h, a 1], ![a 0 + h, a 1 + h], ![a 0, a 1 + h]], s.eval v ≤ 0 := by
    intro cell hcell
    have : coords out.vertices cell ∈ out.cells.map (coords out.vertices) := List.mem_map_of_mem hcell
    rw [g3, List.mem_filter] at this
    obtain ⟨hm, hv⟩ := this
    obtain ⟨c, hc, e⟩ := List.mem_map.mp hm
    obtain ⟨a, ha⟩ := h2 c hc
    rw [ha] at e
    refine ⟨a, e.symm, ?_⟩
    rw [← e, Option.getD_some, List.any_eq_true] at hv
    obtain ⟨v, hv, hv'⟩ := hv
    exact ⟨v, hv, of_decide_eq_true hv'⟩
  have hd2 : ∀ p q : Point 2 K, dist2 p q = (p 0 - q 0) ^ 2 + (p 1 - q 1) ^ 2 := fun p q => by simp [dist2, Fin.sum_univ_two]
  have hhr : h ^ 2 ≤ r ^ 2 := by nlinarith
  refine ⟨out, g2, ⟨h, h0, hle, fun cell hcell => (hfrom cell hcell).imp fun a ha => ha.1⟩, ?_, ?_⟩
  · intro x d hd hdr hx
    have hxr : region x := (hs.sign x).mp (by linarith)
    obtain ⟨cell, hcell, a, v, c, e, e1, hin⟩ := h3 x (hreg x hxr)
    obtain ⟨a', ha'⟩ := h2 cell hcell
    rw [e1, Option.some.injEq] at ha'
    simp only [List.cons.injEq, and_true] at ha'
    obtain ⟨rfl, rfl, rfl, rfl⟩ := ha'
    have k0 := hin 0
    have k1 := hin 1
    simp only [Matrix.cons_val_zero, Matrix.cons_val_one] at k0 k1
    have hinside : ∀ q, dist2 x q ≤ h ^ 2 / 2 → s.eval q ≤ 0 := by
      intro q hq
      by_contra hn
      have hqr : ¬region q := fun hr => hn ((hs.sign q).mpr hr)
      have := hs.inside x hxr q hqr
      nlinarith
    have hhit : ∃ v ∈ [a, ![a 0 + h, a 1], ![a 0 + h, a 1 + h], ![a 0, a 1 + h]], s.eval v ≤ 0 := by
      rcases le_total (x 0 - a 0) (h / 2) with hx0 | hx0 <;> rcases le_total (x 1 - a 1) (h / 2) with hx1 | hx1
      · refine ⟨a, by simp, hinside _ ?_⟩
        rw [hd2]
        nlinarith
      · refine ⟨![a 0, a 1 + h], by simp, hinside _ ?_⟩
        rw [hd2]
        simp only [Matrix.cons_val_zero, Matrix.cons_val_one]
        nlinarith
      · refine ⟨![a 0 + h, a 1], by simp, hinside _ ?_⟩
        rw [hd2]
        simp only [Matrix.cons_val_zero, Matrix.cons_val_one]
        nlinarith
      · refine ⟨![a 0 + h, a 1 + h], by simp, hinside _ ?_⟩
        rw [hd2]
        simp only [Matrix.cons_val_zero, Matrix.cons_val_one]
        nlinarith
    obtain ⟨v, hv, hv'⟩ := hhit
    have hmem : coords grid.vertices cell ∈ out.cells.map (coords out.vertices) := by
      rw [g3, List.mem_filter]
      refine ⟨List.mem_map_of_mem hcell, ?_⟩
      rw [e1, Option.getD_some, List.any_eq_true]
      exact ⟨v, hv, decide_eq_true hv'⟩
    obtain ⟨c', hc', e2⟩ := List.mem_map.mp hmem
    exact ⟨c', hc', _, _, _, _, e2.trans e1, hin⟩
  · intro cell hcell a v c e x e1 hin
    obtain ⟨a', ha', w, hw, hw'⟩ := hfrom cell hcell
    rw [e1, Option.some.injEq] at ha'
    simp only [List.cons.injEq, and_true] at ha'
    obtain ⟨rfl, rfl, rfl, rfl⟩ := ha'
    by_cases hx : region x
    · exact .inl hx
    · refine .inr ⟨w, (hs.sign w).mp hw', ?_⟩
      have k0 := hin 0
      have k1 := hin 1
      simp only [Matrix.cons_val_zero, Matrix.cons_val_one] at k0 k1
      rw [hd2]
      simp only [List.mem_cons, List.not_mem_nil, or_false] at hw
      rcases hw with rfl | rfl | rfl | rfl <;> simp only [Matrix.cons_val_zero, Matrix.cons_val_one] at * <;> nlinarith

/-! ### Moving vertices -/

private theorem moveVertices_spec (s : Sdf K) (hp : Projects s) (mesh : Mesh (Point 2 K)) :
    ∃ out, moveVertices s mesh = some out ∧ SameShape out mesh ∧
      ∀ (i : Nat) x, mesh.vertices[i]? = some x → ∃ y, out.vertices[i]? = some y ∧ s.eval y ≤ 0 ∧ (s.eval x ≤ 0 → y = x) ∧
        (0 < s.eval x → dist2 x y = s.eval x ^ 2) := by
  have hone : ∀ x, ∃ y, moveVertex s x = some y ∧ s.eval y ≤ 0 ∧ (s.eval x ≤ 0 → y = x) ∧
      (0 < s.eval x → dist2 x y = s.eval x ^ 2) := by
    intro x
    by_cases hx : 0 < s.eval x
    · obtain ⟨g, h1, h2, h3⟩ := hp x hx
      refine ⟨_, by rw [moveVertex, if_pos hx, h1, Option.map_some], h3, fun h => absurd hx (not_lt.mpr h), fun _ => ?_⟩
      simp only [dist2, Fin.sum_univ_two]
      have : (x 0 - (x 0 - g 0 * s.eval x)) ^ 2 + (x 1 - (x 1 - g 1 * s.eval x)) ^ 2 = (g 0 ^ 2 + g 1 ^ 2) * s.eval x ^ 2 := by ring
      rw [this, h2, one_mul]
    · exact ⟨x, by rw [moveVertex, if_neg hx], not_lt.mp hx, fun _ => rfl, fun h => absurd h hx⟩
  choose g g1 g2 g3 g4 using hone
  have e : ∀ l : List (Point 2 K), l.mapM (moveVertex s) = some (l.map g) := by
    intro l
    induction l with
    | nil => rfl
    | cons x l ih =>
      rw [List.mapM_cons, g1, ih]
      rfl
  refine ⟨⟨mesh.vertices.map g, mesh.cells⟩, by rw [moveVertices, e]; rfl, ⟨by simp, rfl⟩, ?_⟩
  intro i x hx
  exact ⟨g x, by simp [hx], g2 x, g3 x, g4 x⟩

/-- C82: the quadrilateral mesh has the voxels as cells, with the vertices outside the shape moved by their distance into the
shape and the others left where they are; so all vertices are in the shape. -/
theorem C82_quad_mesh (ceil : K → Nat) (hc : IsCeil ceil) (s : Sdf K) (hp : Projects s) (b : Aabb 2 K)
    (hs : s.boundingBox = some b) (hb : ∀ i, b.min i < b.max i) (r : K) (hr : 0 < r) :
    ∃ voxels out, voxelizeSdf ceil s r = some voxels ∧ approximateQuads ceil s r = some out ∧ SameShape out voxels ∧
      ∀ (i : Nat) x, voxels.vertices[i]? = some x → ∃ y, out.vertices[i]? = some y ∧ s.eval y ≤ 0 ∧ (s.eval x ≤ 0 → y = x) ∧
        (0 < s.eval x → dist2 x y = s.eval x ^ 2) := by
  obtain ⟨-, voxels, -, h1, -⟩ := C82_voxelize_sdf ceil hc s b hs hb r hr
  obtain ⟨out, h2, h3⟩ := moveVertices_spec s hp voxels
  exact ⟨voxels, out, h1, by rw [approximateQuads, h1, Option.bind_some, h2], h3⟩

/-- C82: for the triangle mesh the voxels are split, the triangles without a vertex in the shape are removed, and the vertices
outside the shape are moved into it. -/
theorem C82_triangle_mesh (ceil : K → Nat) (hc : IsCeil ceil) (s : Sdf K) (hp : Projects s) (b : Aabb 2 K)
    (hs : s.boundingBox = some b) (hb : ∀ i, b.min i < b.max i) (r : K) (hr : 0 < r) :
    ∃ voxels tris kept out, voxelizeSdf ceil s r = some voxels ∧ MeshUtil.splitIntoTriangles voxels = some tris ∧
      kept.cells.map (coords kept.vertices) =
        (tris.cells.map (coords tris.vertices)).filter (fun o => (o.getD []).any fun v => decide (s.eval v ≤ 0)) ∧
      approximateTriangles ceil s r = some out ∧ SameShape out kept ∧
      ∀ (i : Nat) x, kept.vertices[i]? = some x → ∃ y, out.vertices[i]? = some y ∧ s.eval y ≤ 0 ∧ (s.eval x ≤ 0 → y = x) ∧
        (0 < s.eval x → dist2 x y = s.eval x ^ 2) := by
  obtain ⟨-, voxels, -, h1, -, h2, -⟩ := C82_voxelize_sdf ceil hc s b hs hb r hr
  obtain ⟨tris, k1, k2, k3, -⟩ := MeshUtil.C81_split_into_triangles voxels (fun c hc => (h2 c hc).1) (fun c hc => (h2 c hc).2)
  obtain ⟨is, kept, m1, m2, m3, m4, -⟩ := kept_spec s tris (by
    intro c hc v hv
    rw [k3] at hc
    obtain ⟨q, hq, hc⟩ := List.mem_flatMap.mp hc
    obtain ⟨hl, hb⟩ := h2 q hq
    rw [k2]
    match q, hl with
    | [i, j, k, l], _ =>
      simp only [List.getD_cons_zero, List.getD_cons_succ, List.mem_cons, List.not_mem_nil, or_false] at hc
      apply hb
      rcases hc with rfl | rfl
      · simp only [List.mem_cons, List.not_mem_nil, or_false] at hv ⊢
        omega
      · simp only [List.mem_cons, List.not_mem_nil, or_false] at hv ⊢
        omega)
  obtain ⟨out, n1, n2⟩ := moveVertices_spec s hp kept
  refine ⟨voxels, tris, kept, out, h1, k1, m4, ?_, n2⟩
  rw [approximateTriangles, h1, Option.bind_some, k1, Option.bind_some, m1, Option.bind_some, m2, Option.bind_some, n1]

/-- C82: circles have such gradients: going back along them leads exactly onto the circle. -/
theorem C82_circle_projects (norm : Point 2 K → K) (hn : IsNorm norm) (ρ : K) (hρ : 0 ≤ ρ) (c : Point 2 K) :
    Projects (circle norm ρ c) ∧ ∀ x g, 0 < (circle norm ρ c).eval x → (circle norm ρ c).gradient x = some g →
      (circle norm ρ c).eval (fun i => x i - g i * (circle norm ρ c).eval x) = 0 := by
  have key : ∀ x g, 0 < (circle norm ρ c).eval x → (circle norm ρ c).gradient x = some g →
      (circle norm ρ c).eval (fun i => x i - g i * (circle norm ρ c).eval x) = 0 := by
    intro x g hx hg
    have h := ((C77_circle_gradient norm hn ρ c x).2 g hg).2 (-(circle norm ρ c).eval x) (by
      show -norm (offset c x) ≤ -(norm (offset c x) - ρ)
      linarith)
    have e : (fun i => x i - g i * (circle norm ρ c).eval x) = fun i => x i + -(circle norm ρ c).eval x * g i := by
      funext i
      ring
    rw [e, h]
    ring
  refine ⟨fun x hx => ?_, key⟩
  have hne : x ≠ c := by
    rintro rfl
    have h0 := (hn (offset x x)).2
    have : norm (offset x x) = 0 := by
      have : norm (offset x x) ^ 2 = 0 := by rw [h0]; simp [offset]
      exact pow_eq_zero_iff (two_ne_zero) |>.mp this
    have : (circle norm ρ x).eval x = 0 - ρ := by
      show norm (offset x x) - ρ = _
      rw [this]
    linarith
  obtain ⟨g, hg⟩ := Option.ne_none_iff_exists'.mp fun h => hne ((C77_circle_gradient norm hn ρ c x).1.mp h)
  exact ⟨g, hg, ((C77_circle_gradient norm hn ρ c x).2 g hg).1, (key x g hx hg).le⟩

/-- C82: and so do unions of shapes that have them. -/
theorem C82_union_projects (s t : Sdf K) (hs : Projects s) (ht : Projects t) : Projects (union s t) := by
  intro x hx
  have hx' : 0 < min (s.eval x) (t.eval x) := hx
  obtain ⟨h1, h2⟩ := lt_min_iff.mp hx'
  rcases C77_union_gradient s t x with ⟨e1, e2⟩ | ⟨e1, e2⟩
  · obtain ⟨g, g1, g2, g3⟩ := hs x h1
    refine ⟨g, e1.trans g1, g2, ?_⟩
    rw [e2]
    exact (min_le_left _ _).trans g3
  · obtain ⟨g, g1, g2, g3⟩ := ht x h2
    refine ⟨g, e1.trans g1, g2, ?_⟩
    rw [e2]
    exact (min_le_right _ _).trans g3

/-! ### Coarse grids -/

/-- C82 (finding): with a maximal cell size above the size of the enlarged bounding box there is one cell with its corners outside the
circle, so the result is an empty mesh. -/
theorem C82_coarse_grid_misses_circle (ceil : K → Nat) (hc : IsCeil ceil) (norm : Point 2 K → K) (hn : IsNorm norm) (ρ : K)
    (hρ : 0 < ρ) (c : Point 2 K) (r : K) (hr : 20604 / 10000 * ρ ≤ r) :
    voxelizeSdf ceil (circle norm ρ c) r = some ⟨[], []⟩ ∧ approximateQuads ceil (circle norm ρ c) r = some ⟨[], []⟩ := by
  have hr0 : 0 < r := by linarith
  have hbox : (circle norm ρ c).boundingBox =
      some ⟨fun i => c i - 1 * (ρ + ρ * (1 / 100)), fun i => c i + 1 * (ρ + ρ * (1 / 100))⟩ := by
    show Aabb.new _ _ = _
    rw [Aabb.new, if_pos]
    intro i
    linarith
  obtain ⟨b, hb⟩ : ∃ b : Aabb 2 K, b = ⟨fun i => c i - 1 * (ρ + ρ * (1 / 100)), fun i => c i + 1 * (ρ + ρ * (1 / 100))⟩ := ⟨_, rfl⟩
  have hv : ValidBox b := by
    intro i
    rw [hb]
    show c i - _ ≤ c i + _
    linarith
  obtain ⟨e, he⟩ : ∃ e, e = 20604 / 10000 * ρ := ⟨_, rfl⟩
  have hee : ∀ i, ext b i = e := by
    intro i
    simp only [ext, Aabb.extents, hb, he]
    ring
  have hcen : ∀ i, b.center i = c i := by
    intro i
    simp only [Aabb.center, hb]
    ring
  have he0 : 0 < e := by rw [he]; linarith
  have c1 : ceil (e / r) = 1 := by
    have h1 := ceil_pos hc (div_pos he0 hr0)
    have h2 := (hc (e / r) (div_pos he0 hr0).le).2
    have h3 : e / r ≤ 1 := by
      rw [div_le_one hr0, he]
      exact hr
    have h4 : ((ceil (e / r) : Nat) : K) < ((2 : Nat) : K) := by
      push_cast
      linarith
    have := Nat.cast_lt.mp h4
    omega
  have c2 : ceil (1 : K) = 1 := by
    have h1 := ceil_pos hc one_pos
    have h2 := (hc 1 zero_le_one).2
    have h4 : ((ceil (1 : K) : Nat) : K) < ((2 : Nat) : K) := by
      push_cast
      linarith
    have := Nat.cast_lt.mp h4
    omega
  have hgrid : voxelizeBox ceil b r = some (Procedural.quadMesh e 1 1 1 (c 0 - e / 2) (c 1 + e / 2)) := by
    rw [voxelizeBox, if_pos hr0, enlarged_eq b hv, Option.bind_some, enlarged_extents]
    simp only [cellSize, hee, c1, Nat.cast_one, div_one, min_self, one_ne_zero, or_self, if_false, Option.map_some, div_self he0.ne', c2,
      hcen, one_mul]
  have hq : Procedural.quadMesh e 1 1 1 (c 0 - e / 2) (c 1 + e / 2) =
      ⟨[![c 0 - e / 2, c 1 + e / 2], ![c 0 + e / 2, c 1 + e / 2], ![c 0 - e / 2, c 1 - e / 2], ![c 0 + e / 2, c 1 - e / 2]],
        [[2, 3, 1, 0]]⟩ := by
    have hp : ∀ x y : K, Procedural.pt2 x y = ![x, y] := fun x y => by
      funext i
      match i with
      | 0 => rfl
      | 1 => rfl
    simp [Procedural.quadMesh, List.range_succ, hp]
    exact ⟨by ring, by ring, by ring, by ring⟩
  have hev : ∀ x : Point 2 K, (x 0 - c 0) ^ 2 = (e / 2) ^ 2 → (x 1 - c 1) ^ 2 = (e / 2) ^ 2 → ¬(circle norm ρ c).eval x ≤ 0 := by
    intro x h1 h2 h
    obtain ⟨n1, n2⟩ := hn (offset c x)
    have h' : norm (offset c x) - ρ ≤ 0 := h
    simp only [Fin.sum_univ_two, offset] at n2
    have e1 : e / 2 = 10302 / 10000 * ρ := by rw [he]; ring
    rw [e1] at h1 h2
    nlinarith
  have hd : desired (circle norm ρ c) (Procedural.quadMesh e 1 1 1 (c 0 - e / 2) (c 1 + e / 2)) = some [] := by
    have hn : ∀ v ∈ [![c 0 - e / 2, c 1 - e / 2], ![c 0 + e / 2, c 1 - e / 2], ![c 0 + e / 2, c 1 + e / 2], ![c 0 - e / 2, c 1 + e / 2]],
        ¬(circle norm ρ c).eval v ≤ 0 := by
      intro v hv
      simp only [List.mem_cons, List.not_mem_nil, or_false] at hv
      rcases hv with rfl | rfl | rfl | rfl <;> apply hev <;> simp only [Matrix.cons_val_zero, Matrix.cons_val_one] <;> ring
    rw [hq, desired]
    simp [MeshUtil.cellPoints]
    simpa using hn
  have h1 : voxelizeSdf ceil (circle norm ρ c) r = some ⟨[], []⟩ := by
    rw [voxelizeSdf, hbox, Option.bind_some, ← hb, hgrid, Option.bind_some, hd, Option.bind_some]
    rfl
  exact ⟨h1, by rw [approximateQuads, h1]; rfl⟩

/-! ### The hypotheses hold -/

private theorem natCeil_isCeil : IsCeil (fun x : ℝ => ⌈x⌉₊) := fun x hx => ⟨Nat.le_ceil x, Nat.ceil_lt_add_one hx⟩

private noncomputable def realNorm (v : Point 2 ℝ) : ℝ := Real.sqrt (v 0 ^ 2 + v 1 ^ 2)

private theorem realNorm_isNorm : IsNorm realNorm := by
  intro v
  refine ⟨Real.sqrt_nonneg _, ?_⟩
  rw [realNorm, Real.sq_sqrt (by positivity), Fin.sum_univ_two]

/-- A disk of radius two meshed with cells of size at most `1 / 2`: the point at the distance one from the centre is in a cell. -/
example : ∃ out, voxelizeSdf (fun x : ℝ => ⌈x⌉₊) (circle realNorm 2 ![0, 0]) (1 / 2) = some out ∧
    ∃ cell ∈ out.cells, ∃ a v c e, coords out.vertices cell = some [a, v, c, e] ∧ InBox a c ![1, 0] := by
  have hs := (C77_circle realNorm realNorm_isNorm 2 (by norm_num) ![0, 0]).1
  obtain ⟨b, hb, -, hin⟩ := C77_circle_box realNorm 2 (by norm_num) ![0, 0]
  have hb' := hb
  simp only [circle, Aabb.new] at hb'
  rw [if_pos (by intro i; linarith)] at hb'
  cases hb'
  obtain ⟨out, h1, -, h2, -⟩ := C82_voxels_are_close (fun x : ℝ => ⌈x⌉₊) natCeil_isCeil _ _ hs _ hb hin (by
    intro i
    show _ - _ < _ + _
    linarith) (1 / 2) (by norm_num)
  refine ⟨out, h1, h2 ![1, 0] 1 (by norm_num) (by norm_num) ?_⟩
  show realNorm (offset ![0, 0] ![1, 0]) - 2 ≤ -1
  have : realNorm (offset ![0, 0] ![1, 0]) = 1 := by simp [realNorm, offset]
  rw [this]
  norm_num

/-- The mesh of a union of two disks. -/
example : Projects (union (circle realNorm 2 ![0, 0]) (circle realNorm 1 ![2, 1])) ∧
    ∃ b, (union (circle realNorm 2 ![0, 0]) (circle realNorm 1 ![2, 1])).boundingBox = some b ∧ ∀ i, b.min i < b.max i := by
  refine ⟨C82_union_projects _ _ (C82_circle_projects _ realNorm_isNorm _ (by norm_num) _).1
    (C82_circle_projects _ realNorm_isNorm _ (by norm_num) _).1, ?_⟩
  simp only [union, circle, Aabb.new]
  rw [if_pos (by intro i; linarith), Option.bind_some, if_pos (by intro i; linarith), Option.bind_some, Aabb.enclose, Aabb.new, if_pos]
  · refine ⟨_, rfl, fun i => ?_⟩
    refine (min_le_left _ _).trans_lt (lt_of_lt_of_le ?_ (le_max_left _ _))
    show _ - _ < _ + _
    linarith
  · intro i
    refine (min_le_left _ _).trans (le_trans ?_ (le_max_left _ _))
    show _ - _ ≤ _ + _
    linarith

end VoxelSdf
end Fenris
