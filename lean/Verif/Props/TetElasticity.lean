import Verif.Props.ElasticityGrids
import Verif.Props.TetProblems
/-! # C99: linear elasticity on the uniform tetrahedral meshes -/
set_option autoImplicit false
set_option linter.unusedSectionVars false

namespace Fenris.Elasticity
open Fenris.Element Fenris.Local Fenris.Local.Spec Fenris.PatchTest Fenris.PatchTest.Spec Fenris.LinearProblem Fenris.LinearProblem.Spec Quadrature
open Fenris.Surface Fenris.Surface.Spec Fenris.Canonical Fenris.Canonical.Spec Fenris.Elasticity.Spec Fenris.Solid Fenris.TetGrid

attribute [local instance] zeroFill

/-! ## The tetrahedra hang together through common faces -/

/-- Another tetrahedron of the grid with three of the nodes. -/
private def Linked (n : Idx) (t t' : List TetGrid.Node) : Prop :=
  (∃ κ, KeyValid n κ ∧ t' ∈ groupN κ) ∧ ∃ x y z, x ≠ y ∧ y ≠ z ∧ x ≠ z ∧ (x ∈ t ∧ y ∈ t ∧ z ∈ t) ∧ x ∈ t' ∧ y ∈ t' ∧ z ∈ t'

private def spoke (cell : Idx) (axis : Fin 3) (i : Fin 4) : List TetGrid.Node :=
  [.center cell, .center fun a => cell a + axisDelta axis a, .vert (corner cell axis true (i + 1)), .vert (corner cell axis true i)]

private theorem conn_list (cell : Idx) (axis : Fin 3) :
    connN cell axis = [spoke cell axis 0, spoke cell axis 1, spoke cell axis 2, spoke cell axis 3] := by
  rw [connN_eq]
  simp only [spoke, corner_true]
  rfl

private theorem mem_conn {cell : Idx} {axis : Fin 3} {t : List TetGrid.Node} (h : t ∈ connN cell axis) : ∃ i, t = spoke cell axis i := by
  rw [conn_list] at h
  simp only [List.mem_cons, List.not_mem_nil, or_false] at h
  rcases h with rfl | rfl | rfl | rfl
  exacts [⟨0, rfl⟩, ⟨1, rfl⟩, ⟨2, rfl⟩, ⟨3, rfl⟩]

private theorem spoke_mem (cell : Idx) (axis : Fin 3) (i : Fin 4) : spoke cell axis i ∈ connN cell axis := by
  rw [conn_list]
  fin_cases i <;> simp

private theorem center_ne (cell : Idx) (axis : Fin 3) : TetGrid.Node.center cell ≠ .center fun a => cell a + axisDelta axis a := by
  intro h
  have := congrFun (TetGrid.Node.center.inj h) axis
  simp [axisDelta] at this

private theorem around : ∀ i j : Fin 4, ∃ k : Fin 4, j = (fun x => x + 1)^[k.val] i := by
  decide +kernel

private theorem conn_path (n cell : Idx) (axis : Fin 3) (hκ : KeyValid n (cell, axis, .conn)) (i j : Fin 4) :
    Relation.ReflTransGen (Linked n) (spoke cell axis i) (spoke cell axis j) := by
  obtain ⟨k, rfl⟩ := around i j
  generalize (k : Nat) = m
  induction m with
  | zero => exact .refl
  | succ m ih =>
    rw [Function.iterate_succ_apply']
    refine ih.tail ⟨⟨_, hκ, spoke_mem _ _ _⟩, .center cell, .center fun a => cell a + axisDelta axis a,
      .vert (corner cell axis true ((fun x => x + 1)^[m] i + 1)), center_ne _ _, nofun, nofun, ?_, ?_⟩ <;> simp [spoke]

private theorem pyr_path (n cell : Idx) (axis : Fin 3) (b : Bool) (hv : ∀ t ∈ pyrN cell axis b, ∃ κ, KeyValid n κ ∧ t ∈ groupN κ)
    (t t' : List TetGrid.Node) (ht : t ∈ pyrN cell axis b) (ht' : t' ∈ pyrN cell axis b) : Relation.ReflTransGen (Linked n) t t' := by
  by_cases he : t = t'
  · rw [he]
  refine .single ⟨hv t' ht', ?_⟩
  have h02 := vert_ne cell axis b 0 2 (by decide)
  have h13 := vert_ne cell axis b 1 3 (by decide)
  rw [pyrN_eq] at ht ht'
  simp only at ht ht'
  split at ht
  · next hif =>
    rw [if_pos hif] at ht'
    refine ⟨.vert (corner cell axis b 0), .vert (corner cell axis b 2), .center cell, fun h => h02 (TetGrid.Node.vert.inj h), nofun, nofun, ?_⟩
    simp only [List.mem_cons, List.not_mem_nil, or_false] at ht ht'
    rcases ht with rfl | rfl <;> rcases ht' with rfl | rfl <;> simp [TetGrid.corner]
  · next hif =>
    rw [if_neg hif] at ht'
    refine ⟨.vert (corner cell axis b 1), .vert (corner cell axis b 3), .center cell, fun h => h13 (TetGrid.Node.vert.inj h), nofun, nofun, ?_⟩
    simp only [List.mem_cons, List.not_mem_nil, or_false] at ht ht'
    rcases ht with rfl | rfl <;> rcases ht' with rfl | rfl <;> simp [TetGrid.corner]

private theorem group_path (n : Idx) (κ : Key) (hκ : KeyValid n κ) (t t' : List TetGrid.Node) (ht : t ∈ groupN κ) (ht' : t' ∈ groupN κ) :
    Relation.ReflTransGen (Linked n) t t' := by
  obtain ⟨cell, axis, kind⟩ := κ
  cases kind with
  | conn =>
    obtain ⟨i, rfl⟩ := mem_conn ht
    obtain ⟨j, rfl⟩ := mem_conn ht'
    exact conn_path n cell axis hκ i j
  | neg => exact pyr_path n cell axis false (fun t ht => ⟨_, hκ, ht⟩) t t' ht ht'
  | pos => exact pyr_path n cell axis true (fun t ht => ⟨_, hκ, ht⟩) t t' ht ht'

private theorem pyr_center {cell c : Idx} {axis : Fin 3} {b : Bool} {t : List TetGrid.Node} (ht : t ∈ pyrN c axis b) :
    TetGrid.Node.center cell ∈ t ↔ cell = c := by
  rw [pyrN_eq] at ht
  simp only at ht
  split at ht <;> simp only [List.mem_cons, List.not_mem_nil, or_false] at ht <;> rcases ht with rfl | rfl <;> simp

/-- The tetrahedra at the centre of a cell are those of its sides. -/
private theorem side_of (n cell : Idx) (κ : Key) (hκ : KeyValid n κ) (t : List TetGrid.Node) (ht : t ∈ groupN κ)
    (hc : TetGrid.Node.center cell ∈ t) : ∃ axis b, κ = sideKey n cell axis b := by
  obtain ⟨c, axis, kind⟩ := κ
  cases kind with
  | conn =>
    obtain ⟨i, rfl⟩ := mem_conn ht
    simp only [spoke, List.mem_cons, TetGrid.Node.center.injEq, reduceCtorEq, List.not_mem_nil, or_false] at hc
    rcases hc with rfl | rfl
    · refine ⟨axis, true, ?_⟩
      rw [sideKey, if_pos rfl, if_pos hκ.2]
    · refine ⟨axis, false, ?_⟩
      rw [sideKey, if_neg (by simp), if_neg (by simp [axisDelta])]
      simp
  | neg =>
    obtain rfl := (pyr_center ht).1 hc
    exact ⟨axis, false, by rw [sideKey, if_neg (by simp), if_pos hκ.2]⟩
  | pos =>
    obtain rfl := (pyr_center ht).1 hc
    exact ⟨axis, true, by rw [sideKey, if_pos rfl, if_neg (by have := hκ.2; omega)]⟩

private theorem common_edge : ∀ (a : Fin 3) (b : Bool) (a' : Fin 3) (b' : Bool), a ≠ a' → ∃ i j : Fin 4,
    (corner 0 a b i = corner 0 a' b' j ∧ corner 0 a b (i + 1) = corner 0 a' b' (j + 1)) ∨
      corner 0 a b i = corner 0 a' b' (j + 1) ∧ corner 0 a b (i + 1) = corner 0 a' b' j := by
  decide +kernel

private theorem other_axis : ∀ a : Fin 3, ∃ a' : Fin 3, a ≠ a' := by decide

private theorem sides_path (n cell : Idx) (hc : ∀ a, cell a < n a) (a a' : Fin 3) (b b' : Bool) (t t' : List TetGrid.Node)
    (ht : t ∈ groupN (sideKey n cell a b)) (ht' : t' ∈ groupN (sideKey n cell a' b')) : Relation.ReflTransGen (Linked n) t t' := by
  have key : ∀ (a a' : Fin 3) (b b' : Bool) (t t' : List TetGrid.Node), a ≠ a' → t ∈ groupN (sideKey n cell a b) →
      t' ∈ groupN (sideKey n cell a' b') → Relation.ReflTransGen (Linked n) t t' := by
    intro a a' b b' t t' hne ht ht'
    obtain ⟨i, j, hij⟩ := common_edge a b a' b' hne
    obtain ⟨s, hs, e1, e2, e3⟩ := side_edge n cell a b i
    obtain ⟨s', hs', f1, f2, f3⟩ := side_edge n cell a' b' j
    refine (group_path n _ (sideKey_valid n cell a b hc) t s ht hs).trans
      (.head ⟨⟨_, sideKey_valid n cell a' b' hc, hs'⟩, .center cell, .vert (corner cell a b i), .vert (corner cell a b (i + 1)), nofun,
        fun h => vert_ne cell a b i (i + 1) (by simp) (TetGrid.Node.vert.inj h), nofun, ⟨e1, e2, e3⟩, f1, ?_⟩
        (group_path n _ (sideKey_valid n cell a' b' hc) s' t' hs' ht'))
    rw [corner_add] at f2 f3
    rw [corner_add cell a, corner_add cell a]
    rcases hij with ⟨h1, h2⟩ | ⟨h1, h2⟩
    · rw [h1, h2]
      exact ⟨f2, f3⟩
    · rw [h1, h2]
      exact ⟨f3, f2⟩
  by_cases hne : a = a'
  · subst hne
    obtain ⟨a', ha⟩ := other_axis a
    obtain ⟨s, hs, -⟩ := side_edge n cell a' true 0
    exact (key a a' b true t s ha ht hs).trans (key a' a true b' s t' ha.symm hs ht')
  · exact key a a' b b' t t' hne ht ht'

private theorem to_origin (n : Idx) (k : Nat) : ∀ cell : Idx, cell 0 + cell 1 + cell 2 = k → (∀ a, cell a < n a) →
    ∀ κ, KeyValid n κ → ∀ t ∈ groupN κ, TetGrid.Node.center cell ∈ t → ∀ κ₀, KeyValid n κ₀ → ∀ t₀ ∈ groupN κ₀,
    TetGrid.Node.center 0 ∈ t₀ → Relation.ReflTransGen (Linked n) t t₀ := by
  induction k with
  | zero =>
    intro cell hk hc κ hκ t ht h κ₀ hκ₀ t₀ ht₀ h₀
    obtain rfl : cell = 0 := by
      funext a
      fin_cases a <;> simp <;> omega
    obtain ⟨a, b, rfl⟩ := side_of n _ κ hκ t ht h
    obtain ⟨a', b', rfl⟩ := side_of n _ κ₀ hκ₀ t₀ ht₀ h₀
    exact sides_path n _ hc a a' b b' t t₀ ht ht₀
  | succ k ih =>
    intro cell hk hc κ hκ t ht h κ₀ hκ₀ t₀ ht₀ h₀
    obtain ⟨axis, hax⟩ : ∃ axis : Fin 3, cell axis ≠ 0 := by
      by_contra hcon
      push Not at hcon
      have := hcon 0
      have := hcon 1
      have := hcon 2
      omega
    obtain ⟨a, b, rfl⟩ := side_of n _ κ hκ t ht h
    have hkey : sideKey n cell axis false = (fun a => cell a - axisDelta axis a, axis, .conn) := by
      rw [sideKey, if_neg (by simp), if_neg hax]
    have hval := sideKey_valid n cell axis false hc
    have hmem : spoke (fun a => cell a - axisDelta axis a) axis 0 ∈ groupN (sideKey n cell axis false) := by
      rw [hkey]
      exact spoke_mem _ _ _
    refine (sides_path n cell hc a axis b false t _ ht hmem).trans
      (ih (fun a => cell a - axisDelta axis a) ?_ (fun a => by have := hc a; omega) _ hval _ hmem (by simp [spoke]) κ₀ hκ₀ t₀ ht₀ h₀)
    fin_cases axis <;> simp [axisDelta] at hax ⊢ <;> omega

private theorem has_center (n : Idx) (κ : Key) (hκ : KeyValid n κ) (t : List TetGrid.Node) (ht : t ∈ groupN κ) :
    ∃ cell : Idx, (∀ a, cell a < n a) ∧ TetGrid.Node.center cell ∈ t := by
  obtain ⟨cell, axis, kind⟩ := κ
  cases kind with
  | conn =>
    obtain ⟨i, rfl⟩ := mem_conn ht
    exact ⟨cell, hκ.1, by simp [spoke]⟩
  | neg => exact ⟨cell, hκ.1, (pyr_center ht).2 rfl⟩
  | pos => exact ⟨cell, hκ.1, (pyr_center ht).2 rfl⟩

/-! ## Geometry -/

private theorem tet_affine (a b c d : Point 3 ℝ) (h : tetVol6 a b c d ≠ 0) : AffineCell .tet4 [a, b, c, d] := by
  refine ⟨!![(b 0 - a 0) / 2, (c 0 - a 0) / 2, (d 0 - a 0) / 2; (b 1 - a 1) / 2, (c 1 - a 1) / 2, (d 1 - a 1) / 2;
    (b 2 - a 2) / 2, (c 2 - a 2) / 2, (d 2 - a 2) / 2], fun i => (b i + c i + d i - a i) / 2, ?_, ?_⟩
  · have : (!![(b 0 - a 0) / 2, (c 0 - a 0) / 2, (d 0 - a 0) / 2; (b 1 - a 1) / 2, (c 1 - a 1) / 2, (d 1 - a 1) / 2;
        (b 2 - a 2) / 2, (c 2 - a 2) / 2, (d 2 - a 2) / 2] : Matrix (Fin 3) (Fin 3) ℝ).det = tetVol6 a b c d / 8 := by
      simp [Matrix.det_fin_three, tetVol6, Surface.Spec.det3]
      ring
    intro h0
    exact h (by rw [show tetVol6 a b c d = 8 * (tetVol6 a b c d / 8) by ring, ← this]; exact mul_eq_zero_of_right _ h0)
  · intro I p hp
    rcases I with _ | _ | _ | _ | I <;>
      simp only [refNodes, tet4Nodes, List.getElem?_cons_zero, List.getElem?_cons_succ, List.getElem?_nil, Option.some.injEq, reduceCtorEq] at hp ⊢
    all_goals
      subst hp
      funext i
      match i with
      | 0 => simp [Matrix.mulVec, dotProduct, Fin.sum_univ_three]; ring
      | 1 => simp [Matrix.mulVec, dotProduct, Fin.sum_univ_three]; ring
      | 2 => simp [Matrix.mulVec, dotProduct, Fin.sum_univ_three]; ring

private theorem vol_normal (x y z w : Point 3 ℝ) (h : triNormal x y z = 0) : tetVol6 x y z w = 0 := by
  have h0 := congrFun h 0
  have h1 := congrFun h 1
  have h2 := congrFun h 2
  simp [triNormal] at h0 h1 h2
  simp only [tetVol6, Surface.Spec.det3]
  linear_combination (w 0 - x 0) * h0 + (w 1 - x 1) * h1 + (w 2 - x 2) * h2

/-- Three corners of a tetrahedron are not on a line. -/
private theorem corners_normal (P : Fin 4 → Point 3 ℝ) (h : tetVol6 (P 0) (P 1) (P 2) (P 3) ≠ 0) (i j k : Fin 4) (hij : i ≠ j) (hjk : j ≠ k)
    (hik : i ≠ k) : triNormal (P i) (P j) (P k) ≠ 0 := by
  intro h0
  have h1 := vol_normal _ _ _ (P (6 - i - j - k)) h0
  have h2 : tetVol6 (P i) (P j) (P k) (P (6 - i - j - k)) ^ 2 = tetVol6 (P 0) (P 1) (P 2) (P 3) ^ 2 := by
    clear h h0 h1
    fin_cases i <;> fin_cases j <;> first | exact absurd rfl hij | skip
    all_goals fin_cases k <;> first | exact absurd rfl hjk | exact absurd rfl hik | skip
    all_goals
      simp only [Fin.reduceFinMk, Fin.zero_eta, Fin.mk_one, Fin.reduceSub, Fin.isValue, tetVol6, Surface.Spec.det3]
      try ring
  rw [h1] at h2
  exact h (by simpa using h2.symm)

/-- The uniform tetrahedral mesh of a box is a body: neighbours have a face in common. -/
theorem tet_body (L : ℝ) (hL : 0 < L) (ux uy uz n : Nat) (hn : n ≠ 0) (hux : ux ≠ 0) (huy : uy ≠ 0) (huz : uz ≠ 0) : Body .tet4 (tetMesh L ux uy uz n) := by
  obtain ⟨hcount, hnd, -⟩ := tet_elements L hL ux uy uz n hux huy huz hn
  have hpos := (C83_is_tet_mesh L hL ux uy uz n).positive
  have hsize : ∀ a, 0 < (![ux * n, uy * n, uz * n] : Idx) a := by
    intro a
    fin_cases a
    · exact Nat.pos_of_ne_zero (Nat.mul_ne_zero hux hn)
    · exact Nat.pos_of_ne_zero (Nat.mul_ne_zero huy hn)
    · exact Nat.pos_of_ne_zero (Nat.mul_ne_zero huz hn)
  have hall := tet_covers L ux uy uz n hux huy huz hn
  have hlink : ∀ t t' : List TetGrid.Node, Linked ![ux * n, uy * n, uz * n] t t' →
      t'.map (nodeIdx ![ux * n, uy * n, uz * n]) ∈ (tetMesh L ux uy uz n).cells ∧
      Rigidly (tetMesh L ux uy uz n).vertices (t.map (nodeIdx ![ux * n, uy * n, uz * n])) (t'.map (nodeIdx ![ux * n, uy * n, uz * n])) := by
    rintro t t' ⟨⟨κ, hκ, ht'⟩, x, y, z, hxy, hyz, hxz, ⟨hx, hy, hz⟩, hx', hy', hz'⟩
    have hmem : t'.map (nodeIdx ![ux * n, uy * n, uz * n]) ∈ (tetMesh L ux uy uz n).cells :=
      (tet_cells L ux uy uz n hux huy huz hn _).2 ⟨κ, hκ, t', ht', rfl⟩
    refine ⟨hmem, ?_⟩
    have hval := (group_valid _ κ hκ t' ht').2
    have hinj : ∀ x ∈ t', ∀ y ∈ t', x ≠ y → nodeIdx ![ux * n, uy * n, uz * n] x ≠ nodeIdx ![ux * n, uy * n, uz * n] y :=
      fun x hx y hy hxy h => hxy (nodeIdx_inj _ x y (hval x hx) (hval y hy) h)
    have hp := hpos _ hmem
    have hb := (hcount _ hmem).2
    have hl := (hcount _ hmem).1
    have m1 := List.mem_map_of_mem (f := nodeIdx ![ux * n, uy * n, uz * n]) hx'
    have m2 := List.mem_map_of_mem (f := nodeIdx ![ux * n, uy * n, uz * n]) hy'
    have m3 := List.mem_map_of_mem (f := nodeIdx ![ux * n, uy * n, uz * n]) hz'
    refine rigidly_space _ _ _ _ _ _ (List.mem_map_of_mem hx) m1 (List.mem_map_of_mem hy) m2 (List.mem_map_of_mem hz) m3
      (get_of_lt (hb _ m1)) (get_of_lt (hb _ m2)) (get_of_lt (hb _ m3)) ?_
    have d1 := hinj x hx' y hy' hxy
    have d2 := hinj y hy' z hz' hyz
    have d3 := hinj x hx' z hz' hxz
    clear hmem hval hinj ht' hx' hy' hz'
    generalize t'.map (nodeIdx ![ux * n, uy * n, uz * n]) = c at *
    generalize nodeIdx ![ux * n, uy * n, uz * n] x = i at *
    generalize nodeIdx ![ux * n, uy * n, uz * n] y = j at *
    generalize nodeIdx ![ux * n, uy * n, uz * n] z = k at *
    obtain ⟨I, rfl⟩ := List.mem_iff_get.1 m1
    obtain ⟨J, rfl⟩ := List.mem_iff_get.1 m2
    obtain ⟨K, rfl⟩ := List.mem_iff_get.1 m3
    obtain ⟨c0, c1, c2, c3, rfl⟩ := List.length_eq_four.1 hl
    exact corners_normal (fun I => coords (tetMesh L ux uy uz n).vertices ([c0, c1, c2, c3].get I)) (ne_of_gt hp) I J K
      (fun h => d1 (congrArg _ h)) (fun h => d2 (congrArg _ h)) (fun h => d3 (congrArg _ h))
  obtain ⟨t₀, ht₀, hc₀, -⟩ := side_edge ![ux * n, uy * n, uz * n] 0 0 true 0
  have hv₀ := sideKey_valid ![ux * n, uy * n, uz * n] 0 0 true hsize
  have hpath : ∀ c ∈ (tetMesh L ux uy uz n).cells, Relation.ReflTransGen
      (fun a b => b ∈ (tetMesh L ux uy uz n).cells ∧ Rigidly (tetMesh L ux uy uz n).vertices a b) c
      (t₀.map (nodeIdx ![ux * n, uy * n, uz * n])) := by
    intro c hc
    obtain ⟨κ, hκ, t, ht, rfl⟩ := (tet_cells L ux uy uz n hux huy huz hn _).1 hc
    obtain ⟨cell, hcell, hct⟩ := has_center _ κ hκ t ht
    refine Relation.ReflTransGen.lift (r := Linked ![ux * n, uy * n, uz * n])
      (p := fun a b => b ∈ (tetMesh L ux uy uz n).cells ∧ Rigidly (tetMesh L ux uy uz n).vertices a b)
      (List.map (nodeIdx ![ux * n, uy * n, uz * n])) (fun a b h => hlink a b h) t t₀ ?_
    exact to_origin _ _ cell rfl hcell κ hκ t ht hct _ hv₀ t₀ ht₀ hc₀
  have hmem₀ := (tet_cells L ux uy uz n hux huy huz hn _).2 ⟨_, hv₀, t₀, ht₀, rfl⟩
  exact {
    size := (fun c hc => (hcount c hc).1)
    inBounds := (fun c hc => (hcount c hc).2)
    nodup := hnd
    affine := (fun c hc => by
      have hp := hpos c hc
      generalize (tetMesh L ux uy uz n).vertices = vs at hp
      obtain ⟨c0, c1, c2, c3, rfl⟩ := List.length_eq_four.1 (hcount c hc).1
      exact tet_affine _ _ _ _ (ne_of_gt hp))
    nonempty := (List.ne_nil_of_mem hmem₀)
    covered := hall
    onePiece := (fun c hc c' hc' => (hpath c hc).trans (rigid_path_symm hc' (hpath c' hc'))) }

/-- **C99.** Linear elasticity on the uniform tetrahedral mesh of a box, of every resolution, with the canonical quadrature and positive shear
and bulk moduli: it has one solution, and the solver finds it (`C96_solve`), exactly if the displacements of three vertices that are not on
a line are prescribed. -/
theorem C99_tet_mesh (gauss : Nat → Rule 1 ℝ) (h2 : IsGaussRule 2 (gauss 2).1 (gauss 2).2) (hl2 : (gauss 2).1.length = 2)
    (h3 : IsGaussRule 3 (gauss 3).1 (gauss 3).2) (hl3 : (gauss 3).1.length = 3)
    (L : ℝ) (hL : 0 < L) (ux uy uz n : Nat) (hn : n ≠ 0) (hux : ux ≠ 0) (huy : uy ≠ 0) (huz : uz ≠ 0)
    (mesh : Mesh (Point 3 ℝ)) (hmesh : mesh = tetMesh L ux uy uz n)
    (lame : Lame ℝ) (hmu : 0 < lame.mu) (hbulk : 0 < 2 * lame.mu + 3 * lame.lambda)
    (nodes : List Nat) (hin : ∀ v ∈ nodes, v < mesh.vertices.length) (u : List ℝ) (hu : u.length = 3 * mesh.vertices.length) :
    haveI : Inhabited (Lame ℝ) := ⟨Lame.default⟩
    ∃ space rule t, meshSpace .tet4 mesh = some space ∧ stiffnessRule gauss .tet4 = some rule ∧
      Uniform.fromQuadratureAndData rule lame = some t ∧
      (Problem space mesh.vertices.length t.table (fun _ => (rule.1.zip rule.2).map fun q => (q.1, q.2, lame)) u (leOperator 3) nodes ↔
        ∃ a ∈ nodes, ∃ b ∈ nodes, ∃ c ∈ nodes, ∃ x y z, mesh.vertices[a]? = some x ∧ mesh.vertices[b]? = some y ∧
          mesh.vertices[c]? = some z ∧ triNormal x y z ≠ 0) := by
  let _ : Inhabited (Lame ℝ) := ⟨Lame.default⟩
  subst hmesh
  have body := tet_body L hL ux uy uz n hn hux huy huz
  obtain ⟨space, rule, t, g1, g2, g3, g4, -, g5⟩ := C99_mesh_problem (kind := .tet4) (mesh := tetMesh L ux uy uz n) gauss h2 hl2 h3 hl3
    (by simp) body.size body.inBounds body.nodup body.affine body.nonempty body.covered body.onePiece
    lame hmu hbulk nodes hin u hu
  refine ⟨space, rule, t, g1, g2, g3, ?_⟩
  have hiff : Fixes (positions (tetMesh L ux uy uz n).vertices nodes) ↔ ∃ a ∈ nodes, ∃ b ∈ nodes, ∃ c ∈ nodes, ∃ x y z,
      (tetMesh L ux uy uz n).vertices[a]? = some x ∧ (tetMesh L ux uy uz n).vertices[b]? = some y ∧
      (tetMesh L ux uy uz n).vertices[c]? = some z ∧ triNormal x y z ≠ 0 := by
    rw [fixes_space]
    constructor
    · rintro ⟨x, ⟨a, ha, hx⟩, y, ⟨b, hb, hy⟩, z, ⟨c, hc, hz⟩, hxyz⟩
      exact ⟨a, ha, b, hb, c, hc, x, y, z, hx, hy, hz, hxyz⟩
    · rintro ⟨a, ha, b, hb, c, hc, x, y, z, hx, hy, hz, hxyz⟩
      exact ⟨x, ⟨a, ha, hx⟩, y, ⟨b, hb, hy⟩, z, ⟨c, hc, hz⟩, hxyz⟩
  exact ⟨fun h => hiff.1 (g5.1 h.definite), fun h => { g4 with definite := g5.2 (hiff.2 h) }⟩

/-! ## Examples -/

-- The hypotheses on the rules are met by the Gauss rules, and those on the material by the parameters 1 and 1; prescribing the
-- displacement of a single vertex of the unit cube leaves rotations about it free.
example : haveI : Inhabited (Lame ℝ) := ⟨Lame.default⟩
    ∃ space rule t, meshSpace .tet4 (unitBoxTetMesh (K := ℝ) 2) = some space ∧ stiffnessRule gaussExample .tet4 = some rule ∧
      Uniform.fromQuadratureAndData rule (⟨1, 1⟩ : Lame ℝ) = some t ∧
      ¬ Problem space 35 t.table (fun _ => (rule.1.zip rule.2).map fun q => (q.1, q.2, ⟨1, 1⟩)) (List.replicate 105 0) (leOperator 3) [3] := by
  have h35 : (unitBoxTetMesh (K := ℝ) 2).vertices.length = 35 := (C83_counts (1 : ℝ) 1 1 1 2 (by decide) (by decide) (by decide) (by decide)).2.1
  obtain ⟨space, rule, t, g1, g2, g3, g4⟩ := C99_tet_mesh gaussExample gaussExample_two rfl gaussExample_three rfl 1 one_pos 1 1 1 2
    (by decide) (by decide) (by decide) (by decide) (unitBoxTetMesh (K := ℝ) 2) rfl (⟨1, 1⟩ : Lame ℝ) (by norm_num) (by norm_num) [3]
    (by rw [h35]; decide) (List.replicate 105 0) (by rw [h35]; rfl)
  rw [h35] at g4
  refine ⟨space, rule, t, g1, g2, g3, fun hp => ?_⟩
  obtain ⟨a, ha, b, hb, c, hc, x, y, z, hx, hy, hz, hxyz⟩ := g4.1 hp
  simp only [List.mem_singleton] at ha hb hc
  subst ha hb hc
  rw [hx] at hy hz
  obtain rfl := Option.some.inj hy
  obtain rfl := Option.some.inj hz
  exact hxyz (by funext i; fin_cases i <;> simp [triNormal])

-- Three corners of the unit cube are enough.
example : haveI : Inhabited (Lame ℝ) := ⟨Lame.default⟩
    ∃ space rule t, meshSpace .tet4 (unitBoxTetMesh (K := ℝ) 1) = some space ∧ stiffnessRule gaussExample .tet4 = some rule ∧
      Uniform.fromQuadratureAndData rule (⟨1, 1⟩ : Lame ℝ) = some t ∧
      Problem space 9 t.table (fun _ => (rule.1.zip rule.2).map fun q => (q.1, q.2, ⟨1, 1⟩)) (List.replicate 27 0) (leOperator 3) [0, 1, 2] := by
  have h9 : (unitBoxTetMesh (K := ℝ) 1).vertices.length = 9 := (C83_counts (1 : ℝ) 1 1 1 1 (by decide) (by decide) (by decide) (by decide)).2.1
  have hp : ∀ q : Idx, (∀ a, q a ≤ 1) → (unitBoxTetMesh (K := ℝ) 1).vertices[4 * q 2 + 2 * q 1 + q 0]? = some fun a => 1 / (1 : Nat) * (q a : ℝ) :=
    fun q hq => verts_node ![1 * 1, 1 * 1, 1 * 1] ((1 : ℝ) / (1 : Nat)) (.vert q) (fun a => by fin_cases a <;> exact hq _)
  obtain ⟨space, rule, t, g1, g2, g3, g4⟩ := C99_tet_mesh gaussExample gaussExample_two rfl gaussExample_three rfl 1 one_pos 1 1 1 1
    (by decide) (by decide) (by decide) (by decide) (unitBoxTetMesh (K := ℝ) 1) rfl (⟨1, 1⟩ : Lame ℝ) (by norm_num) (by norm_num) [0, 1, 2]
    (by rw [h9]; decide) (List.replicate 27 0) (by rw [h9]; rfl)
  rw [h9] at g4
  refine ⟨space, rule, t, g1, g2, g3, g4.2 ⟨0, by simp, 1, by simp, 2, by simp, _, _, _, hp 0 (by decide), hp ![1, 0, 0] (by decide),
    hp ![0, 1, 0] (by decide), fun h => ?_⟩⟩
  have := congrFun h 2
  simp [triNormal] at this

end Fenris.Elasticity
