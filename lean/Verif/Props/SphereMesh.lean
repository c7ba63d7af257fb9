import Mathlib.Analysis.SpecialFunctions.Trigonometric.Basic
import Mathlib.RingTheory.RootsOfUnity.Complex
import Verif.Model.SphereMesh
import Verif.Props.PolyClip
import Verif.Props.PolyConvert
/-! # C101: sphere meshes -/
set_option autoImplicit false

namespace Fenris
namespace SphereMesh

open Geometry Poly Poly.Spec Procedural

/-- The unit vector in the direction of a vector. -/
noncomputable def unit (v : Point 3 ℝ) : Point 3 ℝ := fun i => v i / Real.sqrt (v 0 ^ 2 + v 1 ^ 2 + v 2 ^ 2)

/-- The mesh of `create_simple_stupid_sphere`, with the sine, the cosine and the number π of the reals. -/
noncomputable def realSphere (signum : ℝ → ℝ) (center : Point 3 ℝ) (radius : ℝ) (numSweeps : Nat) :
    Option (PolyMesh (Point 3 ℝ)) :=
  sphere Real.sin Real.cos Real.pi unit signum center radius numSweeps

/-! ### The cube -/

private theorem cube_eq (r : ℝ) : cube r =
    some ⟨(MeshUtil.translate (pt3 (-r) (-r) (-r)) (hexMesh (2 * r) 1 1 1 1)).vertices,
      [[2, 3, 1, 0], [0, 1, 5, 4], [1, 3, 7, 5], [3, 2, 6, 7], [4, 6, 2, 0], [5, 7, 6, 4]], [[0, 1, 2, 3, 4, 5]]⟩ := by
  rfl

private theorem cube_vertices (r : ℝ) (p : Point 3 ℝ)
    (hp : p ∈ (MeshUtil.translate (pt3 (-r) (-r) (-r)) (hexMesh (2 * r) 1 1 1 1)).vertices) : p 2 = -r ∨ p 2 = r := by
  have e : (MeshUtil.translate (pt3 (-r) (-r) (-r)) (hexMesh (2 * r) 1 1 1 1)).vertices =
      ((List.range 2).flatMap fun (k : Nat) => (List.range 2).flatMap fun (j : Nat) => (List.range 2).map fun (i : Nat) =>
        (fun l => pt3 ((i : ℝ) * (2 * r / (1 : Nat))) ((j : ℝ) * (2 * r / (1 : Nat))) ((k : ℝ) * (2 * r / (1 : Nat))) l +
          pt3 (-r) (-r) (-r) l : Point 3 ℝ)) := rfl
  rw [e] at hp
  simp only [List.mem_flatMap, List.mem_map, List.mem_range] at hp
  obtain ⟨k, hk, j, -, i, -, rfl⟩ := hp
  have : k = 0 ∨ k = 1 := by omega
  rcases this with rfl | rfl
  · left; simp [pt3]
  · right; simp [pt3]; ring

private theorem cube_valid (vs : List (Point 3 ℝ)) (hl : vs.length = 8) : Valid (⟨vs,
    [[2, 3, 1, 0], [0, 1, 5, 4], [1, 3, 7, 5], [3, 2, 6, 7], [4, 6, 2, 0], [5, 7, 6, 4]], [[0, 1, 2, 3, 4, 5]]⟩ :
      PolyMesh (Point 3 ℝ)) := by
  refine ⟨?_, ?_⟩
  · show ∀ f ∈ [[2, 3, 1, 0], [0, 1, 5, 4], [1, 3, 7, 5], [3, 2, 6, 7], [4, 6, 2, 0], [5, 7, 6, 4]], ∀ v ∈ f, v < vs.length
    rw [hl]
    decide
  · show ∀ c ∈ [[0, 1, 2, 3, 4, 5]], ∀ f ∈ c, f < 6
    decide

private theorem cube_watertight (vs : List (Point 3 ℝ)) : ∀ c ∈ [[0, 1, 2, 3, 4, 5]], Watertight (c.map (faceOf (⟨vs,
    [[2, 3, 1, 0], [0, 1, 5, 4], [1, 3, 7, 5], [3, 2, 6, 7], [4, 6, 2, 0], [5, 7, 6, 4]], [[0, 1, 2, 3, 4, 5]]⟩ :
      PolyMesh (Point 3 ℝ)))) := by
  intro c hc
  obtain rfl : c = [0, 1, 2, 3, 4, 5] := by simpa using hc
  show Watertight [[2, 3, 1, 0], [0, 1, 5, 4], [1, 3, 7, 5], [3, 2, 6, 7], [4, 6, 2, 0], [5, 7, 6, 4]]
  intro u v
  by_cases h : u < 8 ∧ v < 8
  · have : ∀ u < 8, ∀ v < 8, (([[2, 3, 1, 0], [0, 1, 5, 4], [1, 3, 7, 5], [3, 2, 6, 7], [4, 6, 2, 0], [5, 7, 6, 4]].flatMap
        edges).countP fun e => decide (e = (u, v) ∨ e = (v, u))) % 2 = 0 := by decide +kernel
    exact Nat.even_iff.2 (this u h.1 v h.2)
  · have hb : ∀ e ∈ [[2, 3, 1, 0], [0, 1, 5, 4], [1, 3, 7, 5], [3, 2, 6, 7], [4, 6, 2, 0], [5, 7, 6, 4]].flatMap edges,
        e.1 < 8 ∧ e.2 < 8 := by decide +kernel
    rw [List.countP_eq_zero.2]
    · exact ⟨0, rfl⟩
    · intro e he
      have := hb e he
      rw [decide_eq_true_eq]
      rintro (rfl | rfl)
      · exact h this
      · exact h ⟨this.2, this.1⟩

/-! ### The cuts -/

private theorem cutLoop_eq (signum : ℝ → ℝ) (nz : Point 3 ℝ → Point 3 ℝ) (xs : List (Point 3 ℝ)) (m : PolyMesh (Point 3 ℝ)) :
    cutLoop signum nz xs m = intersectConvexPolyhedron signum (xs.map fun x => some (halfSpaceAt nz x).complement) m := by
  induction xs generalizing m with
  | nil => rfl
  | cons x xs ih =>
    rw [cutLoop, List.map_cons, intersectConvexPolyhedron]
    have : (halfSpaceAt nz x).complement.complement = halfSpaceAt nz x := by
      simp [HalfSpace.complement]
    rw [this]
    congr 1
    funext m'
    exact ih m'

private theorem height_complement (h : HalfSpace 3 ℝ) (p : Point 3 ℝ) :
    Fenris.Spec.height h.complement p = -Fenris.Spec.height h p := by
  simp only [Fenris.Spec.height, HalfSpace.complement, ← Finset.sum_neg_distrib]
  exact Finset.sum_congr rfl fun i _ => by ring

private theorem nonempty_one (signum : ℝ → ℝ) (hsg : Fenris.Spec.IsSignum signum) (h : HalfSpace 3 ℝ)
    (m r : PolyMesh (Point 3 ℝ)) (hm : Valid m) (hr : intersectHalfSpace signum h m = some r) :
    [] ∉ r.faces ∧ [] ∉ r.cells := by
  obtain ⟨r', nodes, caps, h1, -, -, -, -, hf, hl, hc, hk⟩ := C73_intersect_half_space signum hsg h m hm
  obtain rfl : r = r' := Option.some.inj (hr.symm.trans h1)
  constructor
  · intro h0
    have h1 : ([] : List (Option (Nat × Nat))) ∈ r.faces.map (fun f => f.map fun v => nodes[v]?) :=
      List.mem_map.2 ⟨[], h0, rfl⟩
    rw [hf] at h1
    obtain ⟨g, hg, hg0⟩ := List.mem_map.1 h1
    obtain rfl : g = [] := List.map_eq_nil_iff.1 hg0
    rcases List.mem_append.1 hg with hg | hg
    · simpa using (List.mem_filter.1 hg).2
    · obtain ⟨k, hk1, hk2⟩ := List.mem_flatten.1 hg
      obtain ⟨i, hi, rfl⟩ := List.mem_iff_getElem.1 hk1
      have hz : (m.cells[i]'(hl ▸ hi), caps[i]) ∈ m.cells.zip caps := by
        refine List.mem_iff_getElem.2 ⟨i, by simpa using ⟨hl ▸ hi, hi⟩, by simp⟩
      exact ((hk _ hz).1 [] hk2).1 rfl
  · intro h0
    rw [hc] at h0
    simpa using (List.mem_filter.1 h0).2

private theorem nonempty_loop (signum : ℝ → ℝ) (hsg : Fenris.Spec.IsSignum signum) (nz : Point 3 ℝ → Point 3 ℝ)
    (xs : List (Point 3 ℝ)) (hx : xs ≠ []) (m r : PolyMesh (Point 3 ℝ)) (hm : Valid m) (hr : cutLoop signum nz xs m = some r) :
    [] ∉ r.faces ∧ [] ∉ r.cells := by
  induction xs generalizing m with
  | nil => exact absurd rfl hx
  | cons x xs ih =>
    obtain ⟨m', -, -, e, hv, -⟩ := C73_intersect_half_space signum hsg (halfSpaceAt nz x) m hm
    rw [cutLoop, e, Option.bind_some] at hr
    by_cases h0 : xs = []
    · subst h0
      rw [cutLoop, Option.some.injEq] at hr
      subst hr
      exact nonempty_one signum hsg _ m m' hm e
    · exact ih h0 m' hv hr

/-- What the half-space of a point of the sphere contains: the points beyond the tangent plane. -/
private theorem in_half_space (r : ℝ) (hr : 0 < r) (x p : Point 3 ℝ) (hx : x 0 ^ 2 + x 1 ^ 2 + x 2 ^ 2 = r ^ 2) :
    Fenris.Spec.InHalfSpace (halfSpaceAt unit x) p ↔ r ^ 2 ≤ x 0 * p 0 + x 1 * p 1 + x 2 * p 2 := by
  have h1 : unit x = fun i => x i / r := by
    funext i
    rw [unit, hx, Real.sqrt_sq hr.le]
  have h2 : unit (fun i => -unit x i) = fun i => -(x i / r) := by
    rw [h1]
    funext i
    have : (-(x 0 / r)) ^ 2 + (-(x 1 / r)) ^ 2 + (-(x 2 / r)) ^ 2 = 1 := by
      field_simp
      linarith
    simp only [unit]
    rw [this, Real.sqrt_one, div_one]
  rw [Fenris.Spec.InHalfSpace, Fenris.Spec.height, halfSpaceAt, h2, Fin.sum_univ_three]
  have : (p 0 - x 0) * -(x 0 / r) + (p 1 - x 1) * -(x 1 / r) + (p 2 - x 2) * -(x 2 / r) =
      (r ^ 2 - (x 0 * p 0 + x 1 * p 1 + x 2 * p 2)) / r := by
    rw [← hx]
    field_simp
    ring
  simp only
  rw [this, div_nonpos_iff]
  constructor
  · rintro (⟨_, h⟩ | ⟨h, _⟩) <;> linarith
  · intro h
    exact Or.inr ⟨by linarith, hr.le⟩

private theorem spherePoint_norm (r : ℝ) (n i j : Nat) :
    let x := spherePoint Real.sin Real.cos Real.pi r n i j
    x 0 ^ 2 + x 1 ^ 2 + x 2 ^ 2 = r ^ 2 := by
  simp only [spherePoint, pt3]
  have h1 := Real.sin_sq_add_cos_sq (Real.pi * (i : ℝ) / n)
  have h2 := Real.sin_sq_add_cos_sq (2 * Real.pi * (j : ℝ) / n)
  simp only [if_true, Fin.isValue, one_ne_zero, if_false, show (2 : Fin 3) ≠ 0 from by decide, show (2 : Fin 3) ≠ 1 from by decide]
  generalize Real.sin (Real.pi * (i : ℝ) / n) = a at *
  generalize Real.cos (Real.pi * (i : ℝ) / n) = b at *
  generalize Real.sin (2 * Real.pi * (j : ℝ) / n) = c at *
  generalize Real.cos (2 * Real.pi * (j : ℝ) / n) = d at *
  calc (r * a * d) ^ 2 + (r * a * c) ^ 2 + (r * b) ^ 2 = r ^ 2 * (a ^ 2 * (c ^ 2 + d ^ 2) + b ^ 2) := by ring
    _ = r ^ 2 := by rw [h2, mul_one, h1, mul_one]

/-! ### The result -/

/-- C101 (full claim, false: the mesh should have its vertices on the sphere's side of the tangent planes, and enclose the
ball). With at least one sweep the function does not panic. Its mesh is valid and its cells are watertight, but every vertex
lies beyond (or on) the tangent plane of every sampled point of the sphere, and below the top of the cube around the sphere:
the half-spaces keep the wrong sides. -/
theorem C101_sphere_partial (signum : ℝ → ℝ) (hsg : Fenris.Spec.IsSignum signum) (center : Point 3 ℝ) (radius : ℝ)
    (hr : 0 < radius) (n : Nat) (hn : 0 < n) :
    ∃ m, realSphere signum center radius n = some m ∧ Valid m ∧ (∀ c ∈ m.cells, Watertight (c.map (faceOf m))) ∧
      [] ∉ m.faces ∧ [] ∉ m.cells ∧
      ∀ p ∈ m.vertices, p 2 - center 2 ≤ radius ∧ ∀ i < n, ∀ j < n,
        let θ := Real.pi * i / n
        let φ := 2 * Real.pi * j / n
        radius ≤ Real.sin θ * Real.cos φ * (p 0 - center 0) + Real.sin θ * Real.sin φ * (p 1 - center 1) +
          Real.cos θ * (p 2 - center 2) := by
  have hv0 := cube_valid (MeshUtil.translate (pt3 (-radius) (-radius) (-radius)) (hexMesh (2 * radius) 1 1 1 1)).vertices rfl
  have hw0 := cube_watertight (MeshUtil.translate (pt3 (-radius) (-radius) (-radius)) (hexMesh (2 * radius) 1 1 1 1)).vertices
  have hz0 := cube_vertices radius
  have e0 := cube_eq radius
  generalize (MeshUtil.translate (pt3 (-radius) (-radius) (-radius)) (hexMesh (2 * radius) 1 1 1 1)).vertices = vs at *
  obtain ⟨q, h1, h2, h3, h4, h5⟩ := C73_intersect_convex_polyhedron signum hsg
    ((spherePoints Real.sin Real.cos Real.pi radius n).map fun x => some (halfSpaceAt unit x).complement) _ hv0
  rw [← cutLoop_eq] at h1
  have hne : spherePoints Real.sin Real.cos Real.pi radius n ≠ [] := by
    intro h
    have : spherePoint Real.sin Real.cos Real.pi radius n 0 0 ∈ spherePoints Real.sin Real.cos Real.pi radius n := by
      rw [spherePoints, List.mem_flatMap]
      exact ⟨0, List.mem_range.2 hn, List.mem_map.2 ⟨0, List.mem_range.2 hn, rfl⟩⟩
    rw [h] at this
    cases this
  have h6 := nonempty_loop signum hsg unit _ hne _ q hv0 h1
  refine ⟨translate center q, ?_, ?_, ?_, h6.1, h6.2, ?_⟩
  · rw [realSphere, sphere, if_pos hn, e0, Option.bind_some, h1, Option.map_some]
  · refine ⟨fun f hf v hv => ?_, h2.cell⟩
    rw [translate, List.length_map]
    exact h2.face f hf v hv
  · exact h5 hw0
  · intro p hp
    obtain ⟨p', hp', rfl⟩ := List.mem_map.1 hp
    simp only [add_sub_cancel_right]
    constructor
    · have := h4 ⟨pt3 0 0 radius, pt3 0 0 1⟩ (fun x hx => by
        rw [Fenris.Spec.InHalfSpace, Fenris.Spec.height, Fin.sum_univ_three]
        rcases hz0 x hx with h | h <;> simp [pt3, h] <;> linarith) p' hp'
      rw [Fenris.Spec.InHalfSpace, Fenris.Spec.height, Fin.sum_univ_three] at this
      simpa [pt3] using this
    · intro i hi j hj
      have hmem : some (halfSpaceAt unit (spherePoint Real.sin Real.cos Real.pi radius n i j)).complement ∈
          (spherePoints Real.sin Real.cos Real.pi radius n).map fun x => some (halfSpaceAt unit x).complement := by
        refine List.mem_map.2 ⟨_, ?_, rfl⟩
        rw [spherePoints, List.mem_flatMap]
        exact ⟨i, List.mem_range.2 hi, List.mem_map.2 ⟨j, List.mem_range.2 hj, rfl⟩⟩
      have := h3 p' hp' _ hmem
      rw [height_complement, Left.nonneg_neg_iff] at this
      have := (in_half_space radius hr _ p' (spherePoint_norm radius n i j)).1 this
      simp only [spherePoint, pt3] at this
      simp only [if_true, Fin.isValue, one_ne_zero, if_false, show (2 : Fin 3) ≠ 0 from by decide,
        show (2 : Fin 3) ≠ 1 from by decide] at this
      refine le_of_mul_le_mul_left ?_ hr
      linarith

private theorem sum_turns (n : Nat) (hn : 1 < n) :
    ∑ j ∈ Finset.range n, Real.cos (2 * Real.pi * j / n) = 0 ∧ ∑ j ∈ Finset.range n, Real.sin (2 * Real.pi * j / n) = 0 := by
  have h := (Complex.isPrimitiveRoot_exp n (by omega)).geom_sum_eq_zero hn
  have hj : ∀ j : Nat, Complex.exp (2 * Real.pi * Complex.I / n) ^ j =
      Complex.exp (((2 * Real.pi * j / n : ℝ) : ℂ) * Complex.I) := by
    intro j
    rw [← Complex.exp_nat_mul]
    congr 1
    push_cast
    ring
  constructor
  · have := congrArg Complex.re h
    simpa only [hj, Complex.re_sum, Complex.exp_ofReal_mul_I_re, Complex.zero_re] using this
  · have := congrArg Complex.im h
    simpa only [hj, Complex.im_sum, Complex.exp_ofReal_mul_I_im, Complex.zero_im] using this

/-- C101, finding: with two sweeps or more, the mesh of the sphere is empty. -/
theorem C101_sphere_is_empty (signum : ℝ → ℝ) (hsg : Fenris.Spec.IsSignum signum) (center : Point 3 ℝ) (radius : ℝ)
    (hr : 0 < radius) (n : Nat) (hn : 2 ≤ n) : realSphere signum center radius n = some ⟨[], [], []⟩ := by
  obtain ⟨m, e, hv, -, hf0, hc0, hp⟩ := C101_sphere_partial signum hsg center radius hr n (by omega)
  have hvert : m.vertices = [] := by
    rw [List.eq_nil_iff_forall_not_mem]
    intro p hpm
    obtain ⟨htop, hcut⟩ := hp p hpm
    obtain ⟨hc, hs⟩ := sum_turns n hn
    have hn0 : (0 : ℝ) < n := by exact_mod_cast (by omega : 0 < n)
    have hn2 : (2 : ℝ) ≤ n := by exact_mod_cast hn
    have hsum : (n : ℝ) * radius ≤ n * (Real.cos (Real.pi * (1 : Nat) / n) * (p 2 - center 2)) := by
      have := Finset.sum_le_sum fun j (hj : j ∈ Finset.range n) => hcut 1 (by omega) j (Finset.mem_range.1 hj)
      simp only [Finset.sum_const, Finset.card_range, nsmul_eq_mul, Finset.sum_add_distrib] at this
      rw [← Finset.sum_mul, ← Finset.sum_mul, ← Finset.mul_sum, ← Finset.mul_sum, hc, hs] at this
      linarith
    have hle := le_of_mul_le_mul_left hsum hn0
    rw [Nat.cast_one, mul_one] at hle
    have hcos0 : 0 ≤ Real.cos (Real.pi / n) := by
      refine Real.cos_nonneg_of_neg_pi_div_two_le_of_le ?_ ?_
      · have := Real.pi_pos
        have : 0 ≤ Real.pi / n := by positivity
        linarith
      · exact div_le_div_of_nonneg_left Real.pi_pos.le (by norm_num) hn2
    have hcos1 : Real.cos (Real.pi / n) < 1 := by
      have h0 : 0 < Real.pi / n := div_pos Real.pi_pos hn0
      have h1 : Real.pi / n ≤ Real.pi := div_le_self Real.pi_pos.le (by linarith)
      have := Real.cos_lt_cos_of_nonneg_of_le_pi le_rfl h1 h0
      rwa [Real.cos_zero] at this
    nlinarith [mul_le_mul_of_nonneg_left htop hcos0]
  have hfaces : m.faces = [] := by
    rw [List.eq_nil_iff_forall_not_mem]
    intro f hf
    cases f with
    | nil => exact hf0 hf
    | cons v f =>
      have := hv.face _ hf v (List.mem_cons_self ..)
      rw [hvert] at this
      exact absurd this (Nat.not_lt_zero _)
  have hcells : m.cells = [] := by
    rw [List.eq_nil_iff_forall_not_mem]
    intro c hc
    cases c with
    | nil => exact hc0 hc
    | cons f c =>
      have := hv.cell _ hc f (List.mem_cons_self ..)
      rw [hfaces] at this
      exact absurd this (Nat.not_lt_zero _)
  rw [e]
  cases m
  simp only at hvert hfaces hcells
  rw [hvert, hfaces, hcells]

/-- C101, finding: with one sweep the mesh of the sphere is flat. -/
theorem C101_sphere_is_flat (signum : ℝ → ℝ) (hsg : Fenris.Spec.IsSignum signum) (center : Point 3 ℝ) (radius : ℝ)
    (hr : 0 < radius) : ∃ m, realSphere signum center radius 1 = some m ∧ ∀ p ∈ m.vertices, p 2 = center 2 + radius := by
  obtain ⟨m, e, -, -, -, -, hp⟩ := C101_sphere_partial signum hsg center radius hr 1 (by omega)
  refine ⟨m, e, fun p hpm => ?_⟩
  obtain ⟨h1, h2⟩ := hp p hpm
  have := h2 0 (by omega) 0 (by omega)
  simp at this
  linarith

/-- C101: the function panics without sweeps. -/
theorem C101_sphere_without_sweeps (signum : ℝ → ℝ) (center : Point 3 ℝ) (radius : ℝ) :
    realSphere signum center radius 0 = none := rfl

/-! ### Examples -/

private noncomputable def exSign (x : ℝ) : ℝ := if x < 0 then -1 else 1

private theorem exSign_spec : Fenris.Spec.IsSignum exSign :=
  ⟨fun x hx => if_neg (not_lt.2 hx.le), fun x hx => if_pos hx⟩

example := C101_sphere_partial exSign exSign_spec (pt3 1 2 3) 2 two_pos 1 one_pos

example : realSphere exSign (pt3 1 2 3) 2 10 = some ⟨[], [], []⟩ :=
  C101_sphere_is_empty exSign exSign_spec _ 2 two_pos 10 (by norm_num)

end SphereMesh
end Fenris
