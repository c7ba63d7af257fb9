import Verif.Props.ElasticityMesh
import Verif.Spec.Deformation
/-! # C99: linear elasticity on the uniform meshes -/
set_option autoImplicit false
set_option linter.unusedSectionVars false

namespace Fenris.Elasticity
open Fenris.Element Fenris.Local Fenris.Local.Spec Fenris.PatchTest Fenris.PatchTest.Spec Fenris.LinearProblem Fenris.LinearProblem.Spec Quadrature
open Fenris.Surface Fenris.Surface.Spec Fenris.Canonical Fenris.Canonical.Spec Fenris.Elasticity.Spec Fenris.Solid Fenris.Procedural

attribute [local instance] zeroFill

private theorem rigidly_symm {d : Nat} {vs : List (Point d ℝ)} {c c' : List Nat} (h : Rigidly vs c c') : Rigidly vs c' c := by
  intro W b hW hz
  refine h W b hW ?_
  rintro x ⟨n, hn, hx⟩
  obtain ⟨h1, h2⟩ := List.mem_filter.1 hn
  exact hz x ⟨n, List.mem_filter.2 ⟨of_decide_eq_true h2, decide_eq_true h1⟩, hx⟩

theorem rigid_path_symm {d : Nat} {vs : List (Point d ℝ)} {cells : List (List Nat)} {c c' : List Nat} (hc : c ∈ cells)
    (h : Relation.ReflTransGen (fun a b => b ∈ cells ∧ Rigidly vs a b) c c') :
    Relation.ReflTransGen (fun a b => b ∈ cells ∧ Rigidly vs a b) c' c := by
  have : c' ∈ cells ∧ Relation.ReflTransGen (fun a b => b ∈ cells ∧ Rigidly vs a b) c' c := by
    induction h with
    | refl => exact ⟨hc, .refl⟩
    | tail _ hs ih => exact ⟨hs.1, .head ⟨ih.1, rigidly_symm hs.2⟩ ih.2⟩
  exact this.2

theorem rigidly_plane {vs : List (Point 2 ℝ)} {c c' : List Nat} (n m : Nat) (x y : Point 2 ℝ) (hn : n ∈ c) (hn' : n ∈ c') (hm : m ∈ c)
    (hm' : m ∈ c') (hx : vs[n]? = some x) (hy : vs[m]? = some y) (hxy : x ≠ y) : Rigidly vs c c' :=
  (fixes_plane _).2 ⟨x, ⟨n, List.mem_filter.2 ⟨hn, decide_eq_true hn'⟩, hx⟩, y, ⟨m, List.mem_filter.2 ⟨hm, decide_eq_true hm'⟩, hy⟩, hxy⟩

theorem rigidly_space {vs : List (Point 3 ℝ)} {c c' : List Nat} (l n m : Nat) (x y z : Point 3 ℝ) (hl : l ∈ c) (hl' : l ∈ c')
    (hn : n ∈ c) (hn' : n ∈ c') (hm : m ∈ c) (hm' : m ∈ c') (hx : vs[l]? = some x) (hy : vs[n]? = some y) (hz : vs[m]? = some z)
    (hxyz : triNormal x y z ≠ 0) : Rigidly vs c c' :=
  (fixes_space _).2 ⟨x, ⟨l, List.mem_filter.2 ⟨hl, decide_eq_true hl'⟩, hx⟩, y, ⟨n, List.mem_filter.2 ⟨hn, decide_eq_true hn'⟩, hy⟩,
    z, ⟨m, List.mem_filter.2 ⟨hm, decide_eq_true hm'⟩, hz⟩, hxyz⟩

private theorem quad_affine (x y h : ℝ) (hh : h ≠ 0) : AffineCell .quad4 [![x, y - h], ![x + h, y - h], ![x + h, y], ![x, y]] := by
  refine ⟨Matrix.diagonal fun _ => h / 2, ![x + h / 2, y - h / 2], ?_, ?_⟩
  · rw [Matrix.det_diagonal, Finset.prod_const]
    positivity
  · intro I p hp
    rcases I with _ | _ | _ | _ | I <;>
      simp only [refNodes, quad4Nodes, List.getElem?_cons_zero, List.getElem?_cons_succ, List.getElem?_nil, Option.some.injEq, reduceCtorEq] at hp ⊢
    all_goals
      subst hp
      funext i
      rw [Pi.add_apply, Matrix.mulVec_diagonal]
      match i with
      | 0 => simp; try ring
      | 1 => simp; try ring

/-- The uniform quadrilateral mesh of a rectangle is a body: neighbours have an edge in common. -/
theorem quad_body (L : ℝ) (hL : 0 < L) (ux uy n : Nat) (x0 y0 : ℝ) (hn : n ≠ 0) (hux : ux ≠ 0) (huy : uy ≠ 0) : Body .quad4 (quadMesh L ux uy n x0 y0) := by
  obtain ⟨vid, -, hlen, hv, hinj, hsurj, hcells⟩ := C17_quad_mesh_is_the_grid L ux uy n x0 y0 hn hux huy
  have hx0 : 0 < ux * n := Nat.pos_of_ne_zero (Nat.mul_ne_zero hux hn)
  have hy0 : 0 < uy * n := Nat.pos_of_ne_zero (Nat.mul_ne_zero huy hn)
  have hn0 : (0 : ℝ) < n := by exact_mod_cast Nat.pos_of_ne_zero hn
  have hLn : L / n ≠ 0 := by positivity
  have hcell : ∀ c ∈ (quadMesh L ux uy n x0 y0).cells, ∃ i j, i < ux * n ∧ j < uy * n ∧
      c = [vid i (j + 1), vid (i + 1) (j + 1), vid (i + 1) j, vid i j] := by
    intro c hc
    obtain ⟨t, ht⟩ := List.getElem?_of_mem hc
    have hlt := (List.getElem?_eq_some_iff.1 ht).1
    rw [hlen] at hlt
    obtain ⟨i, j, hi, hj, rfl⟩ := grid_index hlt
    rw [hcells i j hi hj] at ht
    exact ⟨i, j, hi, hj, (Option.some.inj ht).symm⟩
  have hmem : ∀ i j, i < ux * n → j < uy * n →
      [vid i (j + 1), vid (i + 1) (j + 1), vid (i + 1) j, vid i j] ∈ (quadMesh L ux uy n x0 y0).cells :=
    fun i j hi hj => List.mem_of_getElem? (hcells i j hi hj)
  have hlt : ∀ i j, i ≤ ux * n → j ≤ uy * n → vid i j < (quadMesh L ux uy n x0 y0).vertices.length :=
    fun i j hi hj => (List.getElem?_eq_some_iff.1 (hv i j hi hj)).1
  have hbound : ∀ c ∈ (quadMesh L ux uy n x0 y0).cells, ∀ v ∈ c, v < (quadMesh L ux uy n x0 y0).vertices.length := by
    intro c hc v hvc
    obtain ⟨i, j, hi, hj, rfl⟩ := hcell c hc
    simp only [List.mem_cons, List.not_mem_nil, or_false] at hvc
    rcases hvc with rfl | rfl | rfl | rfl <;> exact hlt _ _ (by omega) (by omega)
  have hdist : ∀ i j i' j' : Nat, (i ≠ i' ∨ j ≠ j') →
      (![x0 + i * (L / n), y0 - j * (L / n)] : Point 2 ℝ) ≠ ![x0 + i' * (L / n), y0 - j' * (L / n)] := by
    intro i j i' j' hor h
    have e0 := congrFun h 0
    have e1 := congrFun h 1
    simp only [Matrix.cons_val_zero, Matrix.cons_val_one, add_right_inj, sub_right_inj, mul_eq_mul_right_iff, hLn, or_false, Nat.cast_inj] at e0 e1
    omega
  have hpath : ∀ i j, i < ux * n → j < uy * n → Relation.ReflTransGen
      (fun a b => b ∈ (quadMesh L ux uy n x0 y0).cells ∧ Rigidly (quadMesh L ux uy n x0 y0).vertices a b)
      [vid i (j + 1), vid (i + 1) (j + 1), vid (i + 1) j, vid i j] [vid 0 1, vid 1 1, vid 1 0, vid 0 0] := by
    intro i j hi hj
    induction i with
    | zero =>
      induction j with
      | zero => exact .refl
      | succ j ih =>
        refine .head ⟨hmem 0 j hx0 (by omega), ?_⟩ (ih (by omega))
        exact rigidly_plane (vid 0 (j + 1)) (vid 1 (j + 1)) _ _ (by simp) (by simp) (by simp) (by simp) (hv 0 (j + 1) (by omega) (by omega))
          (hv 1 (j + 1) (by omega) (by omega)) (hdist _ _ _ _ (.inl (by omega)))
    | succ i ih =>
      refine .head ⟨hmem i j (by omega) hj, ?_⟩ (ih (by omega))
      exact rigidly_plane (vid (i + 1) j) (vid (i + 1) (j + 1)) _ _ (by simp) (by simp) (by simp) (by simp) (hv (i + 1) j (by omega) (by omega))
        (hv (i + 1) (j + 1) (by omega) (by omega)) (hdist _ _ _ _ (.inr (by omega)))
  exact {
    size := (fun c hc => by obtain ⟨i, j, -, -, rfl⟩ := hcell c hc; rfl)
    inBounds := hbound
    nodup := (fun c hc => by
      obtain ⟨i, j, hi, hj, rfl⟩ := hcell c hc
      have hd : ∀ a b a' b', a ≤ ux * n → a' ≤ ux * n → (a ≠ a' ∨ b ≠ b') → vid a b ≠ vid a' b' := fun a b a' b' ha ha' hor h =>
        hor.elim (fun h' => h' (hinj a b a' b' ha ha' h).1) fun h' => h' (hinj a b a' b' ha ha' h).2
      simp only [List.nodup_cons, List.mem_cons, List.not_mem_nil, or_false, not_or, not_false_eq_true, List.nodup_nil, and_true]
      refine ⟨⟨hd _ _ _ _ ?_ ?_ ?_, hd _ _ _ _ ?_ ?_ ?_, hd _ _ _ _ ?_ ?_ ?_⟩, ⟨hd _ _ _ _ ?_ ?_ ?_, hd _ _ _ _ ?_ ?_ ?_⟩,
        hd _ _ _ _ ?_ ?_ ?_⟩ <;> omega)
    affine := (fun c hc => by
      obtain ⟨i, j, hi, hj, rfl⟩ := hcell c hc
      have e1 : y0 - ((j + 1 : Nat) : ℝ) * (L / n) = y0 - j * (L / n) - L / n := by push_cast; ring
      have e2 : x0 + ((i + 1 : Nat) : ℝ) * (L / n) = x0 + i * (L / n) + L / n := by push_cast; ring
      simp only [List.map_cons, List.map_nil]
      rw [coords_of_get (hv i (j + 1) (by omega) (by omega)),
        coords_of_get (hv (i + 1) (j + 1) (by omega) (by omega)), coords_of_get (hv (i + 1) j (by omega) (by omega)),
        coords_of_get (hv i j (by omega) (by omega)), e1, e2]
      exact quad_affine _ _ _ hLn)
    nonempty := (List.ne_nil_of_mem (hmem 0 0 hx0 hy0))
    covered := (fun v hvl => by
      obtain ⟨i, j, hi, hj, rfl⟩ := hsurj v hvl
      obtain ⟨a, ha, hia⟩ := corner_of hx0 hi
      obtain ⟨b, hb, hjb⟩ := corner_of hy0 hj
      refine ⟨_, hmem a b ha hb, ?_⟩
      rcases hia with rfl | rfl <;> rcases hjb with rfl | rfl <;> simp)
    onePiece := (fun c hc c' hc' => by
      obtain ⟨i, j, hi, hj, rfl⟩ := hcell c hc
      obtain ⟨i', j', hi', hj', rfl⟩ := hcell c' hc'
      exact (hpath i j hi hj).trans (rigid_path_symm hc' (hpath i' j' hi' hj'))) }

/-- **C99.** Linear elasticity on the uniform quadrilateral mesh of a rectangle, of every resolution, with the canonical quadrature and positive
shear and bulk moduli: it has one solution, and the solver finds it (`C96_solve`), as soon as the displacements of two vertices are
prescribed; prescribing the displacement of one vertex is not enough. -/
theorem C99_quad_mesh (gauss : Nat → Rule 1 ℝ) (h2 : IsGaussRule 2 (gauss 2).1 (gauss 2).2) (hl2 : (gauss 2).1.length = 2)
    (h3 : IsGaussRule 3 (gauss 3).1 (gauss 3).2) (hl3 : (gauss 3).1.length = 3)
    (L : ℝ) (hL : 0 < L) (ux uy n : Nat) (x0 y0 : ℝ) (hn : n ≠ 0) (hux : ux ≠ 0) (huy : uy ≠ 0)
    (mesh : Mesh (Point 2 ℝ)) (hmesh : mesh = quadMesh L ux uy n x0 y0)
    (lame : Lame ℝ) (hmu : 0 < lame.mu) (hbulk : 0 < 2 * lame.mu + 2 * lame.lambda)
    (nodes : List Nat) (hin : ∀ v ∈ nodes, v < mesh.vertices.length) (u : List ℝ) (hu : u.length = 2 * mesh.vertices.length) :
    haveI : Inhabited (Lame ℝ) := ⟨Lame.default⟩
    ∃ space rule t, meshSpace .quad4 mesh = some space ∧ stiffnessRule gauss .quad4 = some rule ∧
      Uniform.fromQuadratureAndData rule lame = some t ∧
      (Problem space mesh.vertices.length t.table (fun _ => (rule.1.zip rule.2).map fun q => (q.1, q.2, lame)) u (leOperator 2) nodes ↔
        ∃ a ∈ nodes, ∃ b ∈ nodes, a ≠ b) := by
  letI : Inhabited (Lame ℝ) := ⟨Lame.default⟩
  subst hmesh
  have body := quad_body L hL ux uy n x0 y0 hn hux huy
  obtain ⟨vid, -, -, hv, -, hsurj, -⟩ := C17_quad_mesh_is_the_grid L ux uy n x0 y0 hn hux huy
  have hn0 : (0 : ℝ) < n := by exact_mod_cast Nat.pos_of_ne_zero hn
  have hLn : L / n ≠ 0 := by positivity
  have hdist : ∀ i j i' j' : Nat, (i ≠ i' ∨ j ≠ j') →
      (![x0 + i * (L / n), y0 - j * (L / n)] : Point 2 ℝ) ≠ ![x0 + i' * (L / n), y0 - j' * (L / n)] := by
    intro i j i' j' hor h
    have e0 := congrFun h 0
    have e1 := congrFun h 1
    simp only [Matrix.cons_val_zero, Matrix.cons_val_one, add_right_inj, sub_right_inj, mul_eq_mul_right_iff, hLn, or_false, Nat.cast_inj] at e0 e1
    omega
  obtain ⟨space, rule, t, g1, g2, g3, g4, -, g5⟩ := C99_mesh_problem (kind := .quad4) (mesh := quadMesh L ux uy n x0 y0) gauss h2 hl2 h3 hl3
    (by simp) body.size body.inBounds body.nodup body.affine body.nonempty body.covered body.onePiece
    lame hmu hbulk nodes hin u hu
  refine ⟨space, rule, t, g1, g2, g3, ?_⟩
  have hiff : Fixes (positions (quadMesh L ux uy n x0 y0).vertices nodes) ↔ ∃ a ∈ nodes, ∃ b ∈ nodes, a ≠ b := by
    rw [fixes_plane]
    constructor
    · rintro ⟨x, ⟨a, ha, hx⟩, y, ⟨b, hb, hy⟩, hxy⟩
      exact ⟨a, ha, b, hb, fun hab => hxy (Option.some.inj (hx.symm.trans ((congrArg _ hab).trans hy)))⟩
    · rintro ⟨a, ha, b, hb, hab⟩
      obtain ⟨i, j, hi, hj, rfl⟩ := hsurj a (hin a ha)
      obtain ⟨i', j', hi', hj', rfl⟩ := hsurj b (hin b hb)
      refine ⟨_, ⟨_, ha, hv i j hi hj⟩, _, ⟨_, hb, hv i' j' hi' hj'⟩, hdist _ _ _ _ ?_⟩
      by_contra hno
      push Not at hno
      exact hab (by rw [hno.1, hno.2])
  exact ⟨fun h => hiff.1 (g5.1 h.definite), fun h => { g4 with definite := g5.2 (hiff.2 h) }⟩

private theorem hex_affine (x y z h : ℝ) (hh : h ≠ 0) :
    AffineCell .hex8 [![x, y, z], ![x + h, y, z], ![x + h, y + h, z], ![x, y + h, z], ![x, y, z + h], ![x + h, y, z + h],
      ![x + h, y + h, z + h], ![x, y + h, z + h]] := by
  refine ⟨Matrix.diagonal fun _ => h / 2, ![x + h / 2, y + h / 2, z + h / 2], ?_, ?_⟩
  · rw [Matrix.det_diagonal, Finset.prod_const]
    positivity
  · intro I p hp
    rcases I with _ | _ | _ | _ | _ | _ | _ | _ | I <;>
      simp only [refNodes, hex8Nodes, List.getElem?_cons_zero, List.getElem?_cons_succ, List.getElem?_nil, Option.some.injEq, reduceCtorEq] at hp ⊢
    all_goals
      subst hp
      funext i
      rw [Pi.add_apply, Matrix.mulVec_diagonal]
      match i with
      | 0 => simp; try ring
      | 1 => simp; try ring
      | 2 => simp; try ring

set_option maxHeartbeats 1000000 in
/-- The uniform hexahedral mesh of a box is a body: neighbours have a face in common. -/
theorem hex_body (L : ℝ) (hL : 0 < L) (ux uy uz n : Nat) (hn : n ≠ 0) (hux : ux ≠ 0) (huy : uy ≠ 0) (huz : uz ≠ 0) : Body .hex8 (hexMesh L ux uy uz n) := by
  obtain ⟨vid, -, hlen, hv, hinj, hsurj, hcells⟩ := C18_hex_mesh_is_the_grid L ux uy uz n hn hux huy
  have hx0 : 0 < ux * n := Nat.pos_of_ne_zero (Nat.mul_ne_zero hux hn)
  have hy0 : 0 < uy * n := Nat.pos_of_ne_zero (Nat.mul_ne_zero huy hn)
  have hz0 : 0 < uz * n := Nat.pos_of_ne_zero (Nat.mul_ne_zero huz hn)
  have hn0 : (0 : ℝ) < n := by exact_mod_cast Nat.pos_of_ne_zero hn
  have hLn : L / n ≠ 0 := by positivity
  have hcell : ∀ c ∈ (hexMesh L ux uy uz n).cells, ∃ i j k, i < ux * n ∧ j < uy * n ∧ k < uz * n ∧
      c = [vid i j k, vid (i + 1) j k, vid (i + 1) (j + 1) k, vid i (j + 1) k, vid i j (k + 1), vid (i + 1) j (k + 1),
      vid (i + 1) (j + 1) (k + 1), vid i (j + 1) (k + 1)] := by
    intro c hc
    obtain ⟨t, ht⟩ := List.getElem?_of_mem hc
    have hlt := (List.getElem?_eq_some_iff.1 ht).1
    rw [hlen] at hlt
    obtain ⟨q, k, hq, hk, rfl⟩ := grid_index hlt
    obtain ⟨i, j, hi, hj, rfl⟩ := grid_index hq
    rw [hcells i j k hi hj hk] at ht
    exact ⟨i, j, k, hi, hj, hk, (Option.some.inj ht).symm⟩
  have hmem : ∀ i j k, i < ux * n → j < uy * n → k < uz * n →
      [vid i j k, vid (i + 1) j k, vid (i + 1) (j + 1) k, vid i (j + 1) k, vid i j (k + 1), vid (i + 1) j (k + 1),
      vid (i + 1) (j + 1) (k + 1), vid i (j + 1) (k + 1)] ∈ (hexMesh L ux uy uz n).cells :=
    fun i j k hi hj hk => List.mem_of_getElem? (hcells i j k hi hj hk)
  have hlt : ∀ i j k, i ≤ ux * n → j ≤ uy * n → k ≤ uz * n → vid i j k < (hexMesh L ux uy uz n).vertices.length :=
    fun i j k hi hj hk => (List.getElem?_eq_some_iff.1 (hv i j k hi hj hk)).1
  have hbound : ∀ c ∈ (hexMesh L ux uy uz n).cells, ∀ v ∈ c, v < (hexMesh L ux uy uz n).vertices.length := by
    intro c hc v hvc
    obtain ⟨i, j, k, hi, hj, hk, rfl⟩ := hcell c hc
    simp only [List.mem_cons, List.not_mem_nil, or_false] at hvc
    rcases hvc with rfl | rfl | rfl | rfl | rfl | rfl | rfl | rfl <;> exact hlt _ _ _ (by omega) (by omega) (by omega)
  have e1 : ∀ m : Nat, ((m + 1 : Nat) : ℝ) * (L / n) = m * (L / n) + L / n := fun m => by push_cast; ring
  have hpath : ∀ i j k, i < ux * n → j < uy * n → k < uz * n → Relation.ReflTransGen
      (fun a b => b ∈ (hexMesh L ux uy uz n).cells ∧ Rigidly (hexMesh L ux uy uz n).vertices a b)
      [vid i j k, vid (i + 1) j k, vid (i + 1) (j + 1) k, vid i (j + 1) k, vid i j (k + 1), vid (i + 1) j (k + 1),
        vid (i + 1) (j + 1) (k + 1), vid i (j + 1) (k + 1)]
      [vid 0 0 0, vid 1 0 0, vid 1 1 0, vid 0 1 0, vid 0 0 1, vid 1 0 1, vid 1 1 1, vid 0 1 1] := by
    intro i j k hi hj hk
    induction i with
    | zero =>
      induction j with
      | zero =>
        induction k with
        | zero => exact .refl
        | succ k ih =>
          refine .head ⟨hmem 0 0 k hx0 hy0 (by omega), ?_⟩ (ih (by omega))
          refine rigidly_space (vid 0 0 (k + 1)) (vid 1 0 (k + 1)) (vid 0 1 (k + 1)) _ _ _ (by simp) (by simp) (by simp) (by simp) (by simp)
            (by simp) (hv 0 0 (k + 1) (by omega) (by omega) (by omega)) (hv 1 0 (k + 1) (by omega) (by omega) (by omega))
            (hv 0 1 (k + 1) (by omega) (by omega) (by omega)) fun h => ?_
          have := congrFun h 2
          simp [triNormal] at this
          exact hLn (by rcases this with h | h <;> simp [h])
      | succ j ih =>
        refine .head ⟨hmem 0 j k hx0 (by omega) hk, ?_⟩ (ih (by omega))
        refine rigidly_space (vid 0 (j + 1) k) (vid 1 (j + 1) k) (vid 0 (j + 1) (k + 1)) _ _ _ (by simp) (by simp) (by simp) (by simp) (by simp)
          (by simp) (hv 0 (j + 1) k (by omega) (by omega) (by omega)) (hv 1 (j + 1) k (by omega) (by omega) (by omega))
          (hv 0 (j + 1) (k + 1) (by omega) (by omega) (by omega)) fun h => ?_
        have := congrFun h 1
        simp only [triNormal, e1] at this
        simp at this
        exact hLn (by rcases this with h | h <;> simp [h])
    | succ i ih =>
      refine .head ⟨hmem i j k (by omega) hj hk, ?_⟩ (ih (by omega))
      refine rigidly_space (vid (i + 1) j k) (vid (i + 1) (j + 1) k) (vid (i + 1) j (k + 1)) _ _ _ (by simp) (by simp) (by simp) (by simp)
        (by simp) (by simp) (hv (i + 1) j k (by omega) (by omega) (by omega)) (hv (i + 1) (j + 1) k (by omega) (by omega) (by omega))
        (hv (i + 1) j (k + 1) (by omega) (by omega) (by omega)) fun h => ?_
      have := congrFun h 0
      simp only [triNormal, e1] at this
      simp at this
      exact hLn (by rcases this with h | h <;> simp [h])
  exact {
    size := (fun c hc => by obtain ⟨i, j, k, -, -, -, rfl⟩ := hcell c hc; rfl)
    inBounds := hbound
    nodup := (fun c hc => by
      obtain ⟨i, j, k, hi, hj, hk, rfl⟩ := hcell c hc
      have hd : ∀ a b c a' b' c', a ≤ ux * n → a' ≤ ux * n → b ≤ uy * n → b' ≤ uy * n → (a ≠ a' ∨ b ≠ b' ∨ c ≠ c') →
          vid a b c ≠ vid a' b' c' := fun a b c a' b' c' ha ha' hb hb' hor h => by
        obtain ⟨h1, h2, h3⟩ := hinj a b c a' b' c' ha ha' hb hb' h
        omega
      simp only [List.nodup_cons, List.mem_cons, List.not_mem_nil, or_false, not_or, not_false_eq_true, List.nodup_nil, and_true]
      refine ⟨⟨?_, ?_, ?_, ?_, ?_, ?_, ?_⟩, ⟨?_, ?_, ?_, ?_, ?_, ?_⟩, ⟨?_, ?_, ?_, ?_, ?_⟩, ⟨?_, ?_, ?_, ?_⟩, ⟨?_, ?_, ?_⟩, ⟨?_, ?_⟩, ?_⟩ <;>
        exact hd _ _ _ _ _ _ (by omega) (by omega) (by omega) (by omega) (by omega))
    affine := (fun c hc => by
      obtain ⟨i, j, k, hi, hj, hk, rfl⟩ := hcell c hc
      simp only [List.map_cons, List.map_nil]
      rw [coords_of_get (hv i j k (by omega) (by omega) (by omega)), coords_of_get (hv (i + 1) j k (by omega) (by omega) (by omega)),
        coords_of_get (hv (i + 1) (j + 1) k (by omega) (by omega) (by omega)), coords_of_get (hv i (j + 1) k (by omega) (by omega) (by omega)),
        coords_of_get (hv i j (k + 1) (by omega) (by omega) (by omega)), coords_of_get (hv (i + 1) j (k + 1) (by omega) (by omega) (by omega)),
        coords_of_get (hv (i + 1) (j + 1) (k + 1) (by omega) (by omega) (by omega)),
        coords_of_get (hv i (j + 1) (k + 1) (by omega) (by omega) (by omega))]
      simp only [e1]
      exact hex_affine _ _ _ _ hLn)
    nonempty := (List.ne_nil_of_mem (hmem 0 0 0 hx0 hy0 hz0))
    covered := (fun v hvl => by
      obtain ⟨i, j, k, hi, hj, hk, rfl⟩ := hsurj v hvl
      obtain ⟨a, ha, hia⟩ := corner_of hx0 hi
      obtain ⟨b, hb, hjb⟩ := corner_of hy0 hj
      obtain ⟨c, hc, hkc⟩ := corner_of hz0 hk
      refine ⟨_, hmem a b c ha hb hc, ?_⟩
      rcases hia with rfl | rfl <;> rcases hjb with rfl | rfl <;> rcases hkc with rfl | rfl <;> simp)
    onePiece := (fun c hc c' hc' => by
      obtain ⟨i, j, k, hi, hj, hk, rfl⟩ := hcell c hc
      obtain ⟨i', j', k', hi', hj', hk', rfl⟩ := hcell c' hc'
      exact (hpath i j k hi hj hk).trans (rigid_path_symm hc' (hpath i' j' k' hi' hj' hk'))) }

/-- **C99.** Linear elasticity on the uniform hexahedral mesh of a box, of every resolution, with the canonical quadrature and positive shear
and bulk moduli: it has one solution, and the solver finds it (`C96_solve`), exactly if the displacements of three vertices that are not on
a line are prescribed. -/
theorem C99_hex_mesh (gauss : Nat → Rule 1 ℝ) (h2 : IsGaussRule 2 (gauss 2).1 (gauss 2).2) (hl2 : (gauss 2).1.length = 2)
    (h3 : IsGaussRule 3 (gauss 3).1 (gauss 3).2) (hl3 : (gauss 3).1.length = 3)
    (L : ℝ) (hL : 0 < L) (ux uy uz n : Nat) (hn : n ≠ 0) (hux : ux ≠ 0) (huy : uy ≠ 0) (huz : uz ≠ 0)
    (mesh : Mesh (Point 3 ℝ)) (hmesh : mesh = hexMesh L ux uy uz n)
    (lame : Lame ℝ) (hmu : 0 < lame.mu) (hbulk : 0 < 2 * lame.mu + 3 * lame.lambda)
    (nodes : List Nat) (hin : ∀ v ∈ nodes, v < mesh.vertices.length) (u : List ℝ) (hu : u.length = 3 * mesh.vertices.length) :
    haveI : Inhabited (Lame ℝ) := ⟨Lame.default⟩
    ∃ space rule t, meshSpace .hex8 mesh = some space ∧ stiffnessRule gauss .hex8 = some rule ∧
      Uniform.fromQuadratureAndData rule lame = some t ∧
      (Problem space mesh.vertices.length t.table (fun _ => (rule.1.zip rule.2).map fun q => (q.1, q.2, lame)) u (leOperator 3) nodes ↔
        ∃ a ∈ nodes, ∃ b ∈ nodes, ∃ c ∈ nodes, ∃ x y z, mesh.vertices[a]? = some x ∧ mesh.vertices[b]? = some y ∧
          mesh.vertices[c]? = some z ∧ triNormal x y z ≠ 0) := by
  letI : Inhabited (Lame ℝ) := ⟨Lame.default⟩
  subst hmesh
  have body := hex_body L hL ux uy uz n hn hux huy huz
  obtain ⟨space, rule, t, g1, g2, g3, g4, -, g5⟩ := C99_mesh_problem (kind := .hex8) (mesh := hexMesh L ux uy uz n) gauss h2 hl2 h3 hl3
    (by simp) body.size body.inBounds body.nodup body.affine body.nonempty body.covered body.onePiece
    lame hmu hbulk nodes hin u hu
  refine ⟨space, rule, t, g1, g2, g3, ?_⟩
  have hiff : Fixes (positions (hexMesh L ux uy uz n).vertices nodes) ↔ ∃ a ∈ nodes, ∃ b ∈ nodes, ∃ c ∈ nodes, ∃ x y z,
      (hexMesh L ux uy uz n).vertices[a]? = some x ∧ (hexMesh L ux uy uz n).vertices[b]? = some y ∧
      (hexMesh L ux uy uz n).vertices[c]? = some z ∧ triNormal x y z ≠ 0 := by
    rw [fixes_space]
    constructor
    · rintro ⟨x, ⟨a, ha, hx⟩, y, ⟨b, hb, hy⟩, z, ⟨c, hc, hz⟩, hxyz⟩
      exact ⟨a, ha, b, hb, c, hc, x, y, z, hx, hy, hz, hxyz⟩
    · rintro ⟨a, ha, b, hb, c, hc, x, y, z, hx, hy, hz, hxyz⟩
      exact ⟨x, ⟨a, ha, hx⟩, y, ⟨b, hb, hy⟩, z, ⟨c, hc, hz⟩, hxyz⟩
  exact ⟨fun h => hiff.1 (g5.1 h.definite), fun h => { g4 with definite := g5.2 (hiff.2 h) }⟩

/-! ## Examples -/

-- Gauss rules with two and three points meet the hypotheses, and so does the material with the parameters 1 and 1.
example : IsGaussRule 2 (gaussExample 2).1 (gaussExample 2).2 ∧ (gaussExample 2).1.length = 2 := ⟨gaussExample_two, rfl⟩

-- One cell of the uniform mesh with two prescribed vertices.
example : haveI : Inhabited (Lame ℝ) := ⟨Lame.default⟩
    ∃ space rule t, meshSpace .quad4 (quadMesh (1 : ℝ) 1 1 2 0 1) = some space ∧ stiffnessRule gaussExample .quad4 = some rule ∧
      Uniform.fromQuadratureAndData rule (⟨1, 1⟩ : Lame ℝ) = some t ∧
      Problem space 9 t.table (fun _ => (rule.1.zip rule.2).map fun q => (q.1, q.2, ⟨1, 1⟩)) (List.replicate 18 0) (leOperator 2) [0, 1] := by
  obtain ⟨-, hlen, -⟩ := C17_quad_mesh_is_the_grid (1 : ℝ) 1 1 2 0 1 (by decide) (by decide) (by decide)
  have h9 : (quadMesh (1 : ℝ) 1 1 2 0 1).vertices.length = 9 := hlen
  obtain ⟨space, rule, t, g1, g2, g3, g4⟩ := C99_quad_mesh gaussExample gaussExample_two rfl gaussExample_three rfl 1 one_pos 1 1 2 0 1
    (by decide) (by decide) (by decide) _ rfl (⟨1, 1⟩ : Lame ℝ) (by norm_num) (by norm_num) [0, 1] (by rw [h9]; decide) (List.replicate 18 0)
    (by rw [h9]; rfl)
  rw [h9] at g4
  exact ⟨space, rule, t, g1, g2, g3, g4.2 ⟨0, by simp, 1, by simp, by decide⟩⟩

end Fenris.Elasticity
