import Verif.Props.Surface
import Verif.Spec.TetGrid
import Mathlib.Data.List.GetD
/-! # C79: meshes of disjoint tetrahedra

When no two tetrahedra of a mesh overlap, then the mesh is a `TetMesh`: the conditions of C79 on the faces hold automatically. -/
set_option autoImplicit false

namespace Fenris
namespace Surface
open Fenris.Element Spec TetGrid.Spec
variable {K : Type} [Field K] [LinearOrder K] [IsStrictOrderedRing K]

private theorem vol_rot (a b c d : Point 3 K) : tetVol6 b c a d = tetVol6 a b c d := by
  simp only [tetVol6, det3]; ring

private theorem vol_swap (a b c d : Point 3 K) : tetVol6 b a c d = -tetVol6 a b c d := by
  simp only [tetVol6, det3]; ring

private theorem vol_swap' (a b c d : Point 3 K) : tetVol6 a c b d = -tetVol6 a b c d := by
  simp only [tetVol6, det3]; ring

private theorem vol_swap'' (a b c d : Point 3 K) : tetVol6 c b a d = -tetVol6 a b c d := by
  simp only [tetVol6, det3]; ring

private theorem vol_rot' (a b c d : Point 3 K) : tetVol6 c a b d = tetVol6 a b c d := by
  simp only [tetVol6, det3]; ring

private theorem vol_last (a b c d : Point 3 K) : tetVol6 a b d c = -tetVol6 a b c d := by
  simp only [tetVol6, det3]; ring

/-- A point is inside when it is on the inner side of the four faces. -/
private theorem inOpen_of_vol (a b c d p : Point 3 K) (h : 0 < tetVol6 a b c d) (ha : 0 < tetVol6 p b c d) (hb : 0 < tetVol6 a p c d)
    (hc : 0 < tetVol6 a b p d) (hd : 0 < tetVol6 a b c p) : InOpenTet a b c d p := by
  refine ⟨_, _, _, _, div_pos ha h, div_pos hb h, div_pos hc h, div_pos hd h, ?_, ?_⟩
  · rw [← add_div, ← add_div, ← add_div, div_eq_one_iff_eq h.ne']
    simp only [tetVol6, det3]
    ring
  · intro i
    have hV := h.ne'
    have key : tetVol6 a b c d * p i =
        tetVol6 p b c d * a i + tetVol6 a p c d * b i + tetVol6 a b p d * c i + tetVol6 a b c p * d i := by
      fin_cases i <;>
      · simp only [tetVol6, det3, Fin.zero_eta, Fin.mk_one, Fin.reduceFinMk]
        ring
    generalize tetVol6 a b c d = V at *
    field_simp
    linarith

/-- The inner points of a cell next to one of its faces, given by their sides. -/
private def Inner (x y z v p : Point 3 K) : Prop :=
  tetVol6 p y z v < 0 ∧ tetVol6 x p z v < 0 ∧ tetVol6 x y p v < 0 ∧ tetVol6 x y z p < 0

/-- The interior of a cell of a mesh. -/
private def Inside (vs : List (Point 3 K)) (c : List Nat) (p : Point 3 K) : Prop :=
  InOpenTet (coords vs (c.getD 0 0)) (coords vs (c.getD 1 0)) (coords vs (c.getD 2 0)) (coords vs (c.getD 3 0)) p

private theorem vol_ne (a b c : Point 3 K) : tetVol6 a a b c = 0 ∧ tetVol6 a b a c = 0 ∧ tetVol6 a b c a = 0 ∧ tetVol6 a b b c = 0 ∧
    tetVol6 a b c b = 0 ∧ tetVol6 a b c c = 0 := by
  refine ⟨?_, ?_, ?_, ?_, ?_, ?_⟩ <;>
  · simp only [tetVol6, det3]
    ring

private theorem face_cell (vs : List (Point 3 K)) (cell : List Nat) (hl : cell.length = 4) (hp : 0 < cellVol6 vs cell)
    (l : Nat) (f : List Nat) (hf : (facesOf .tet4 cell)[l]? = some f) :
    ∃ x y z v, f = [x, y, z] ∧ (∀ w, w ∈ cell ↔ w ∈ f ∨ w = v) ∧ v ∉ f ∧ v = cell.getD ([3, 2, 0, 1].getD l 0) 0 ∧ cell.Nodup ∧ l < 4 ∧
      tetVol6 (coords vs x) (coords vs y) (coords vs z) (coords vs v) < 0 ∧
      ∀ p, Inner (coords vs x) (coords vs y) (coords vs z) (coords vs v) p → Inside vs cell p := by
  match cell, hl with
  | [a, b, c, d], _ =>
  simp only [cellVol6, List.getD_cons_zero, List.getD_cons_succ] at hp
  have hne : ∀ {t : K}, 0 < t → t = 0 → False := fun h1 h2 => by rw [h2] at h1; exact lt_irrefl _ h1
  have hab : a ≠ b := by
    rintro rfl
    exact hne hp (vol_ne _ _ _).1
  have hac : a ≠ c := by
    rintro rfl
    exact hne hp (vol_ne _ _ _).2.1
  have had : a ≠ d := by
    rintro rfl
    exact hne hp (vol_ne _ _ _).2.2.1
  have hbc : b ≠ c := by
    rintro rfl
    exact hne hp (vol_ne _ _ _).2.2.2.1
  have hbd : b ≠ d := by
    rintro rfl
    exact hne hp (vol_ne _ _ _).2.2.2.2.1
  have hcd : c ≠ d := by
    rintro rfl
    exact hne hp (vol_ne _ _ _).2.2.2.2.2
  have hnd : [a, b, c, d].Nodup := by simp [hab, hac, had, hbc, hbd, hcd]
  have hl4 : l < 4 := by
    have := (List.getElem?_eq_some_iff.mp hf).1
    simpa [facesOf, localFaces] using this
  have hk : l = 0 ∨ l = 1 ∨ l = 2 ∨ l = 3 := by omega
  generalize hA : coords vs a = A at *
  generalize hB : coords vs b = B at *
  generalize hC : coords vs c = C at *
  generalize hD : coords vs d = D at *
  have hin : ∀ p, 0 < tetVol6 p B C D → 0 < tetVol6 A p C D → 0 < tetVol6 A B p D → 0 < tetVol6 A B C p → Inside vs [a, b, c, d] p := by
    intro p h1 h2 h3 h4
    simp only [Inside, List.getD_cons_zero, List.getD_cons_succ]
    rw [hA, hB, hC, hD]
    exact inOpen_of_vol A B C D p hp h1 h2 h3 h4
  have key : ∀ {t s : K}, t < 0 → s = -t → 0 < s := fun h1 h2 => by rw [h2]; linarith
  have key' : ∀ {t s : K}, 0 < t → s = -t → s < 0 := fun h1 h2 => by rw [h2]; linarith
  rcases hk with rfl | rfl | rfl | rfl
  · obtain rfl : [a, c, b] = f := Option.some.inj hf
    refine ⟨a, c, b, d, rfl, ?_, by simp [had.symm, hcd.symm, hbd.symm], rfl, hnd, hl4, ?_, ?_⟩
    · intro w; simp only [List.mem_cons, List.not_mem_nil, or_false]; tauto
    · rw [hA, hC, hB, hD]
      exact key' hp (by simp only [tetVol6, det3]; ring)
    · rw [hA, hC, hB, hD]
      rintro p ⟨h1, h2, h3, h4⟩
      refine hin p (key h1 ?_) (key h3 ?_) (key h2 ?_) (key h4 ?_) <;>
      · simp only [tetVol6, det3]; ring
  · obtain rfl : [a, b, d] = f := Option.some.inj hf
    refine ⟨a, b, d, c, rfl, ?_, by simp [hac.symm, hbc.symm, hcd], rfl, hnd, hl4, ?_, ?_⟩
    · intro w; simp only [List.mem_cons, List.not_mem_nil, or_false]; tauto
    · rw [hA, hC, hB, hD]
      exact key' hp (by simp only [tetVol6, det3]; ring)
    · rw [hA, hC, hB, hD]
      rintro p ⟨h1, h2, h3, h4⟩
      refine hin p (key h1 ?_) (key h2 ?_) (key h4 ?_) (key h3 ?_) <;>
      · simp only [tetVol6, det3]; ring
  · obtain rfl : [b, c, d] = f := Option.some.inj hf
    refine ⟨b, c, d, a, rfl, ?_, by simp [hab, hac, had], rfl, hnd, hl4, ?_, ?_⟩
    · intro w; simp only [List.mem_cons, List.not_mem_nil, or_false]; tauto
    · rw [hA, hC, hB, hD]
      exact key' hp (by simp only [tetVol6, det3]; ring)
    · rw [hA, hC, hB, hD]
      rintro p ⟨h1, h2, h3, h4⟩
      refine hin p (key h4 ?_) (key h1 ?_) (key h2 ?_) (key h3 ?_) <;>
      · simp only [tetVol6, det3]; ring
  · obtain rfl : [a, d, c] = f := Option.some.inj hf
    refine ⟨a, d, c, b, rfl, ?_, by simp [hab.symm, hbd, hbc], rfl, hnd, hl4, ?_, ?_⟩
    · intro w; simp only [List.mem_cons, List.not_mem_nil, or_false]; tauto
    · rw [hA, hC, hB, hD]
      exact key' hp (by simp only [tetVol6, det3]; ring)
    · rw [hA, hC, hB, hD]
      rintro p ⟨h1, h2, h3, h4⟩
      refine hin p (key h1 ?_) (key h4 ?_) (key h3 ?_) (key h2 ?_) <;>
      · simp only [tetVol6, det3]; ring

theorem face_has_apex (vs : List (Point 3 K)) (cell : List Nat) (hl : cell.length = 4) (hp : 0 < cellVol6 vs cell)
    (l : Nat) (f : List Nat) (hf : (facesOf .tet4 cell)[l]? = some f) :
    cell.Nodup ∧ l < 4 ∧ f.length = 3 ∧ ∃ v ∈ cell, v ∉ f := by
  obtain ⟨x, y, z, v, rfl, h1, h2, -, h4, h5, -⟩ := face_cell vs cell hl hp l f hf
  exact ⟨h4, h5, rfl, v, (h1 v).mpr (.inr rfl), h2⟩

/-- Tetrahedra on the same side of a common face overlap. -/
private theorem overlap (x y z v w : Point 3 K) (hv : tetVol6 x y z v < 0) (hw : tetVol6 x y z w < 0) :
    ∃ p, Inner x y z v p ∧ Inner x y z w p := by
  generalize hV : tetVol6 x y z v = V at hv
  generalize hW : tetVol6 x y z w = W at hw
  let R := |tetVol6 w y z v| + |tetVol6 x w z v| + |tetVol6 x y w v|
  have hR : 0 ≤ R := by positivity
  have hs : 0 < -V / 3 := by linarith
  have hsR : 0 < 2 * (-V / 3 + R) := by linarith
  let ε := (-V / 3) / (2 * (-V / 3 + R))
  have he0 : 0 < ε := div_pos hs hsR
  have he : ε * (2 * (-V / 3 + R)) = -V / 3 := div_mul_cancel₀ _ hsR.ne'
  have he1 : ε < 1 := by
    rw [div_lt_one hsR]
    linarith
  have hsmall : ∀ t : K, t ≤ R → (1 - ε) * V / 3 + ε * t < 0 := by
    intro t ht
    have := mul_le_mul_of_nonneg_left ht he0.le
    nlinarith
  let p : Point 3 K := fun i => (1 - ε) * ((x i + y i + z i) / 3) + ε * w i
  have h1 : |tetVol6 w y z v| ≤ R := by
    have := abs_nonneg (tetVol6 x w z v)
    have := abs_nonneg (tetVol6 x y w v)
    simp only [R]
    linarith
  have h2 : |tetVol6 x w z v| ≤ R := by
    have := abs_nonneg (tetVol6 w y z v)
    have := abs_nonneg (tetVol6 x y w v)
    simp only [R]
    linarith
  have h3 : |tetVol6 x y w v| ≤ R := by
    have := abs_nonneg (tetVol6 w y z v)
    have := abs_nonneg (tetVol6 x w z v)
    simp only [R]
    linarith
  have hpos : 0 < 1 - ε := by linarith
  have hneg : (1 - ε) * W / 3 < 0 := by nlinarith
  have hneg' : ε * W < 0 := by nlinarith
  clear_value ε
  refine ⟨p, ⟨?_, ?_, ?_, ?_⟩, ?_, ?_, ?_, ?_⟩
  · have e : tetVol6 p y z v = (1 - ε) * V / 3 + ε * tetVol6 w y z v := by
      rw [← hV]
      simp only [p, tetVol6, det3]
      ring
    rw [e]
    exact hsmall _ ((le_abs_self _).trans h1)
  · have e : tetVol6 x p z v = (1 - ε) * V / 3 + ε * tetVol6 x w z v := by
      rw [← hV]
      simp only [p, tetVol6, det3]
      ring
    rw [e]
    exact hsmall _ ((le_abs_self _).trans h2)
  · have e : tetVol6 x y p v = (1 - ε) * V / 3 + ε * tetVol6 x y w v := by
      rw [← hV]
      simp only [p, tetVol6, det3]
      ring
    rw [e]
    exact hsmall _ ((le_abs_self _).trans h3)
  · have e : tetVol6 x y z p = ε * W := by
      rw [← hW]
      simp only [p, tetVol6, det3]
      ring
    rw [e]
    exact hneg'
  · have e : tetVol6 p y z w = (1 - ε) * W / 3 := by
      rw [← hW]
      simp only [p, tetVol6, det3]
      ring
    rw [e]
    exact hneg
  · have e : tetVol6 x p z w = (1 - ε) * W / 3 := by
      rw [← hW]
      simp only [p, tetVol6, det3]
      ring
    rw [e]
    exact hneg
  · have e : tetVol6 x y p w = (1 - ε) * W / 3 := by
      rw [← hW]
      simp only [p, tetVol6, det3]
      ring
    rw [e]
    exact hneg
  · have e : tetVol6 x y z p = ε * W := by
      rw [← hW]
      simp only [p, tetVol6, det3]
      ring
    rw [e]
    exact hneg'

/-- The orientation of a face with permuted vertices either agrees or is opposite, for all points at once. -/
private theorem perm_face (vs : List (Point 3 K)) {x y z x' y' z' : Nat} (h : [x', y', z'].Perm [x, y, z]) :
    ((∀ v, tetVol6 (coords vs x') (coords vs y') (coords vs z') v = tetVol6 (coords vs x) (coords vs y) (coords vs z) v) ∧
      ∀ v p, Inner (coords vs x) (coords vs y) (coords vs z) v p → Inner (coords vs x') (coords vs y') (coords vs z') v p) ∨
    ∀ v, tetVol6 (coords vs x') (coords vs y') (coords vs z') v = -tetVol6 (coords vs x) (coords vs y) (coords vs z) v := by
  rcases perm_triple h with ⟨rfl, rfl, rfl⟩ | ⟨rfl, rfl, rfl⟩ | ⟨rfl, rfl, rfl⟩ | ⟨rfl, rfl, rfl⟩ | ⟨rfl, rfl, rfl⟩ | ⟨rfl, rfl, rfl⟩
  · exact .inl ⟨fun _ => rfl, fun _ _ h => h⟩
  · exact .inr fun v => vol_swap _ _ _ _
  · exact .inr fun v => vol_swap'' _ _ _ _
  · refine .inl ⟨fun v => vol_rot _ _ _ _, ?_⟩
    rintro v p ⟨h1, h2, h3, h4⟩
    exact ⟨(vol_rot _ _ _ _).trans_lt h2, (vol_rot _ _ _ _).trans_lt h3, (vol_rot _ _ _ _).trans_lt h1, (vol_rot _ _ _ _).trans_lt h4⟩
  · refine .inl ⟨fun v => vol_rot' _ _ _ _, ?_⟩
    rintro v p ⟨h1, h2, h3, h4⟩
    exact ⟨(vol_rot' _ _ _ _).trans_lt h3, (vol_rot' _ _ _ _).trans_lt h1, (vol_rot' _ _ _ _).trans_lt h2, (vol_rot' _ _ _ _).trans_lt h4⟩
  · exact .inr fun v => vol_swap' _ _ _ _

/-- C79: a mesh of positively oriented tetrahedra of which no two overlap satisfies all conditions on tetrahedral meshes: at most two
cells have a common face, and they lie on different sides of it. -/
theorem C79_disjoint_cells (mesh : Mesh (Point 3 K)) (hn : ∀ c ∈ mesh.cells, c.length = 4)
    (hpos : ∀ c ∈ mesh.cells, 0 < cellVol6 mesh.vertices c)
    (hd : ∀ (t t' : Nat) cell cell' p, mesh.cells[t]? = some cell → mesh.cells[t']? = some cell' →
      InOpenTet (coords mesh.vertices (cell.getD 0 0)) (coords mesh.vertices (cell.getD 1 0)) (coords mesh.vertices (cell.getD 2 0))
        (coords mesh.vertices (cell.getD 3 0)) p →
      InOpenTet (coords mesh.vertices (cell'.getD 0 0)) (coords mesh.vertices (cell'.getD 1 0)) (coords mesh.vertices (cell'.getD 2 0))
        (coords mesh.vertices (cell'.getD 3 0)) p → t = t') : TetMesh mesh := by
  -- two faces with the same vertices: the apex of the second is on the other side of the first
  have hside : ∀ (c l c' l' x y z x' y' z' : Nat) (cell cell' : List Nat) (v v' : Nat), mesh.cells[c]? = some cell → mesh.cells[c']? = some cell' →
      (facesOf .tet4 cell)[l]? = some [x, y, z] → (facesOf .tet4 cell')[l']? = some [x', y', z'] → (c', l') ≠ (c, l) →
      [x', y', z'].Perm [x, y, z] → v ∈ cell → v ∉ [x, y, z] → v' ∈ cell' → v' ∉ [x, y, z] →
      tetVol6 (coords mesh.vertices x) (coords mesh.vertices y) (coords mesh.vertices z) (coords mesh.vertices v) < 0 ∧
      0 < tetVol6 (coords mesh.vertices x) (coords mesh.vertices y) (coords mesh.vertices z) (coords mesh.vertices v') ∧
      tetVol6 (coords mesh.vertices x') (coords mesh.vertices y') (coords mesh.vertices z') (coords mesh.vertices v') < 0 := by
    intro c l c' l' x y z x' y' z' cell cell' v v' hc hc' hf hf' hne hperm hv hv' hw hw'
    have m := List.mem_of_getElem? hc
    have m' := List.mem_of_getElem? hc'
    obtain ⟨_, _, _, a, e, ha, han, hal, hnd, hl4, hneg, hin⟩ := face_cell mesh.vertices cell (hn _ m) (hpos _ m) l _ hf
    cases e
    obtain ⟨_, _, _, a', e, ha', han', hal', hnd', hl4', hneg', hin'⟩ := face_cell mesh.vertices cell' (hn _ m') (hpos _ m') l' _ hf'
    cases e
    obtain rfl : v = a := ((ha v).mp hv).resolve_left hv'
    obtain rfl : v' = a' := ((ha' v').mp hw).resolve_left fun h => hw' (hperm.mem_iff.mp h)
    have hcc : c ≠ c' := by
      rintro rfl
      rw [hc] at hc'
      cases hc'
      have hvv : v = v' := ((ha' v).mp hv).resolve_left fun h => hv' (hperm.mem_iff.mp h)
      rw [hal, hal'] at hvv
      have h4 := hn _ m
      have hlt : ∀ k, k < 4 → [3, 2, 0, 1].getD k 0 < cell.length := by
        intro k hk
        rw [h4]
        have : k = 0 ∨ k = 1 ∨ k = 2 ∨ k = 3 := by omega
        rcases this with rfl | rfl | rfl | rfl <;> decide
      rw [List.getD_eq_getElem _ _ (hlt l hl4), List.getD_eq_getElem _ _ (hlt l' hl4'), hnd.getElem_inj_iff] at hvv
      have : l = l' := by
        have h1 : l = 0 ∨ l = 1 ∨ l = 2 ∨ l = 3 := by omega
        have h2 : l' = 0 ∨ l' = 1 ∨ l' = 2 ∨ l' = 3 := by omega
        rcases h1 with rfl | rfl | rfl | rfl <;> rcases h2 with rfl | rfl | rfl | rfl <;> first | rfl | (exfalso; revert hvv; decide)
      exact hne (by rw [this])
    refine ⟨hneg, ?_, hneg'⟩
    rcases perm_face mesh.vertices hperm with ⟨h1, h2⟩ | h1
    · exfalso
      rw [h1] at hneg'
      obtain ⟨p, hp, hp'⟩ := overlap _ _ _ _ _ hneg hneg'
      exact hcc (hd c c' cell cell' p hc hc' (hin p hp) (hin' p (h2 _ p hp')))
    · rw [h1] at hneg'
      linarith
  have htri : ∀ (c l : Nat) (f : List Nat), Fenris.Spec.IsFace (facesOf .tet4) mesh.cells c l f → ∃ x y z v cell, f = [x, y, z] ∧ mesh.cells[c]? = some cell ∧
      (facesOf .tet4 cell)[l]? = some f ∧ v ∈ cell ∧ v ∉ f := by
    rintro c l f ⟨cell, a1, a2⟩
    have m := List.mem_of_getElem? a1
    obtain ⟨x, y, z, v, e, h1, h2, -⟩ := face_cell mesh.vertices cell (hn _ m) (hpos _ m) l f a2
    exact ⟨x, y, z, v, cell, e, a1, a2, (h1 v).mpr (.inr rfl), h2⟩
  refine ⟨hn, hpos, ?_⟩
  intro c l f c' l' f' hf hf' hne hperm
  obtain ⟨x, y, z, v, cell, rfl, a1, a2, a3, a4⟩ := htri c l f hf
  obtain ⟨x', y', z', v', cell', rfl, b1, b2, b3, b4⟩ := htri c' l' f' hf'
  have hsw := hside c l c' l' x y z x' y' z' cell cell' v v' a1 b1 a2 b2 hne hperm a3 a4 b3 fun h => b4 (hperm.mem_iff.mpr h)
  constructor
  · intro c'' l'' f'' hf'' hperm''
    by_contra hcon
    push Not at hcon
    obtain ⟨x'', y'', z'', v'', cell'', rfl, d1, d2, d3, d4⟩ := htri c'' l'' f'' hf''
    have h1 := hside c l c'' l'' x y z x'' y'' z'' cell cell'' v v'' a1 d1 a2 d2 hcon.1 hperm'' a3 a4 d3
      fun h => d4 (hperm''.mem_iff.mpr h)
    have hperm3 := hperm''.trans hperm.symm
    have h2 := hside c' l' c'' l'' x' y' z' x'' y'' z'' cell' cell'' v' v'' b1 d1 b2 d2 hcon.2 hperm3 b3 b4 d3
      fun h => d4 (hperm3.mem_iff.mpr h)
    rcases perm_face mesh.vertices hperm with ⟨h3, -⟩ | h3
    · rw [h3] at h2
      linarith [hsw.2.1, h2.1]
    · rw [h3 (coords mesh.vertices v'')] at h2
      linarith [h1.2.1, h2.2.1]
  · intro cell2 cell2' e e' w w' hw hw' hv hv'
    rw [a1] at e
    cases e
    rw [b1] at e'
    cases e'
    have := hside c l c' l' x y z x' y' z' cell cell' w w' a1 b1 a2 b2 hne hperm hw hw' hv hv'
    simp only [List.getD_cons_zero, List.getD_cons_succ]
    exact mul_neg_of_neg_of_pos this.1 this.2.1

/-- Two tetrahedra on different sides of the plane `x + y + z = 1`. -/
private def pair : Mesh (Point 3 ℚ) :=
  ⟨[![0, 0, 0], ![1, 0, 0], ![0, 1, 0], ![0, 0, 1], ![1, 1, 1]], [[0, 1, 2, 3], [4, 1, 3, 2]]⟩

example : TetMesh pair := by
  refine C79_disjoint_cells pair (by decide) (by decide +kernel) ?_
  intro t t' cell cell' p ht ht' hp hp'
  have h0 : ∀ (t : Nat) (cell : List Nat), pair.cells[t]? = some cell →
      InOpenTet (coords pair.vertices (cell.getD 0 0)) (coords pair.vertices (cell.getD 1 0)) (coords pair.vertices (cell.getD 2 0))
        (coords pair.vertices (cell.getD 3 0)) p → (t = 0 ∧ p 0 + p 1 + p 2 < 1) ∨ t = 1 ∧ 1 < p 0 + p 1 + p 2 := by
    rintro t cell ht ⟨α, β, γ, δ, h1, h2, h3, h4, h5, h6⟩
    have e0 := h6 0
    have e1 := h6 1
    have e2 := h6 2
    match t, ht with
    | 0, ht =>
      obtain rfl : [0, 1, 2, 3] = cell := Option.some.inj ht
      simp [pair, coords] at e0 e1 e2
      exact .inl ⟨rfl, by linarith⟩
    | 1, ht =>
      obtain rfl : [4, 1, 3, 2] = cell := Option.some.inj ht
      simp [pair, coords] at e0 e1 e2
      exact .inr ⟨rfl, by linarith⟩
  rcases h0 t cell ht hp with ⟨rfl, h1⟩ | ⟨rfl, h1⟩ <;> rcases h0 t' cell' ht' hp' with ⟨rfl, h2⟩ | ⟨rfl, h2⟩
  · rfl
  · linarith
  · linarith
  · rfl

end Surface
end Fenris
