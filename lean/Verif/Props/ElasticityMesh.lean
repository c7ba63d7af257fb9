import Verif.Props.Elasticity
import Verif.Props.MassRules
/-! # C99: linear elasticity on meshes -/
set_option autoImplicit false
set_option linter.unusedSectionVars false

namespace Fenris.Elasticity
open Fenris.Element Fenris.Local Fenris.Local.Spec Fenris.PatchTest Fenris.PatchTest.Spec Fenris.LinearProblem Fenris.LinearProblem.Spec Quadrature
open Fenris.Surface Fenris.Surface.Spec Fenris.Canonical Fenris.Canonical.Spec Fenris.Elasticity.Spec Fenris.Solid Fenris.Procedural
open Fenris.Spec (Constrained)

attribute [local instance] zeroFill

theorem coords_of_get {d : Nat} {vs : List (Point d ℝ)} {i : Nat} {p : Point d ℝ} (h : vs[i]? = some p) : coords vs i = p := by
  rw [coords, List.getD_eq_getElem?_getD, h]
  rfl

theorem get_of_lt {d : Nat} {vs : List (Point d ℝ)} {i : Nat} (h : i < vs.length) : vs[i]? = some (coords vs i) := by
  rw [coords, List.getD_eq_getElem?_getD, List.getElem?_eq_getElem h]
  rfl

section
variable {kind : Kind} {mesh : Mesh (Point kind.dim ℝ)}

/-- A displacement of a cell is rigid as a list of nodal values of the mesh exactly if it is as a list of nodal values of the cell. -/
private theorem rigid_local (c : List Nat) (hsize : c.length = kind.numNodes) (hb : ∀ v ∈ c, v < mesh.vertices.length)
    (W : Matrix (Fin kind.dim) (Fin kind.dim) ℝ) (b : Point kind.dim ℝ) (v : List ℝ) :
    IsRigid W b mesh.vertices c v ↔ W.transpose = -W ∧ ∀ I, I < kind.numNodes → ∀ x, (c.map (coords mesh.vertices))[I]? = some x →
      ∀ i : Fin kind.dim, (localPart kind.dim v c).getD (kind.dim * I + i) 0 = (W.mulVec x + b) i := by
  refine and_congr_right fun _ => ⟨fun h I hI x hx i => ?_, fun h n hn x hx i => ?_⟩
  · have hIc : I < c.length := hsize ▸ hI
    rw [LinearProblem.localPart_getD kind.dim v c I hIc i]
    rw [List.getElem?_map, List.getElem?_eq_getElem hIc, Option.map_some] at hx
    obtain rfl := Option.some.inj hx
    exact h _ (List.getElem_mem hIc) _ (get_of_lt (hb _ (List.getElem_mem hIc))) i
  · obtain ⟨I, hI, rfl⟩ := List.getElem_of_mem hn
    rw [← LinearProblem.localPart_getD kind.dim v c I hI i]
    refine h I (hsize ▸ hI) x ?_ i
    rw [List.getElem?_map, List.getElem?_eq_getElem hI, Option.map_some, coords_of_get hx]

/-- Two rigid motions of cells that cannot move rigidly against each other are the same. -/
private theorem rigid_agree {c c' : List Nat} (h : Rigidly mesh.vertices c c') {W W' : Matrix (Fin kind.dim) (Fin kind.dim) ℝ}
    {b b' : Point kind.dim ℝ} {v : List ℝ} (h1 : IsRigid W b mesh.vertices c v) (h2 : IsRigid W' b' mesh.vertices c' v) : W = W' ∧ b = b' := by
  have := h (W - W') (b - b') (by rw [Matrix.transpose_sub, h1.1, h2.1, neg_sub_neg, neg_sub]) (by
    rintro x ⟨n, hn, hx⟩
    obtain ⟨hnc, hnc'⟩ := List.mem_filter.1 hn
    funext i
    have e1 := h1.2 n hnc x hx i
    have e2 := h2.2 n (of_decide_eq_true hnc') x hx i
    rw [e1] at e2
    rw [Matrix.sub_mulVec]
    simp only [Pi.add_apply, Pi.sub_apply, Pi.zero_apply] at e2 ⊢
    linarith)
  exact ⟨sub_eq_zero.1 this.1, sub_eq_zero.1 this.2⟩

/-- The only rigid motion that is zero at the nodes of an affine cell is zero. -/
private theorem cell_fixes (c : List Nat) (hsize : c.length = kind.numNodes) (hb : ∀ v ∈ c, v < mesh.vertices.length)
    (haff : AffineCell kind (c.map (coords mesh.vertices))) : Fixes (positions mesh.vertices c) := by
  intro W b _ hz
  obtain ⟨A, t, hA, hxs⟩ := haff
  have hval : ∀ (I : Nat) (x : Point kind.dim ℝ), (refNodes kind)[I]? = some x → (W * A).mulVec x + (W.mulVec t + b) = 0 := by
    intro I x hx
    have hI : I < c.length := hsize.symm ▸ (refNodes_length kind ▸ (List.getElem?_eq_some_iff.1 hx).1)
    have hx' := hxs I x hx
    rw [List.getElem?_map, List.getElem?_eq_getElem hI, Option.map_some] at hx'
    have := hz (A.mulVec x + t) ⟨c[I], List.getElem_mem hI, by rw [get_of_lt (hb _ (List.getElem_mem hI))]; exact hx'⟩
    rw [Matrix.mulVec_add, Matrix.mulVec_mulVec, add_assoc] at this
    exact this
  have hWA : W * A = 0 := by
    ext r m
    rw [← affine_gradient kind (W * A) (W.mulVec t + b) 0 m r (fun _ => 0) (fun I x hx => by rw [hval I x hx]; rfl)]
    simp
  have hW : W = 0 := by
    have := congrArg (· * A⁻¹) hWA
    simpa [Matrix.mul_assoc, Matrix.mul_nonsing_inv A (isUnit_iff_ne_zero.2 hA)] using this
  refine ⟨hW, ?_⟩
  have hne : 0 < (refNodes (K := ℝ) kind).length := by cases kind <;> decide
  have := hval 0 _ (List.getElem?_eq_getElem hne)
  simpa [hW] using this

/-- The energy of a displacement is zero in a cell exactly if the displacement is rigid on the cell. -/
private theorem cell_zero (lame : Lame ℝ) (hmu : 0 < lame.mu) (hbulk : 0 < 2 * lame.mu + kind.dim * lame.lambda)
    (c : List Nat) (hsize : c.length = kind.numNodes) (hb : ∀ v ∈ c, v < mesh.vertices.length) (ps : List (Point kind.dim ℝ))
    (hrigid : ∀ v : List ℝ, (∀ p ∈ ps, (gradU kind.dim ((elementOfKind kind (c.map (coords mesh.vertices))).jacobian p)
        ((elementOfKind kind (c.map (coords mesh.vertices))).gradients p) v).transpose =
          -gradU kind.dim ((elementOfKind kind (c.map (coords mesh.vertices))).jacobian p)
            ((elementOfKind kind (c.map (coords mesh.vertices))).gradients p) v) ↔
      ∃ (W : Matrix (Fin kind.dim) (Fin kind.dim) ℝ) (b : Point kind.dim ℝ), W.transpose = -W ∧ ∀ I, I < kind.numNodes → ∀ x,
        (c.map (coords mesh.vertices))[I]? = some x → ∀ i : Fin kind.dim, v.getD (kind.dim * I + i) 0 = (W.mulVec x + b) i)
    (v : List ℝ) :
    (∀ p ∈ ps, density (leOperator kind.dim) lame (gradU kind.dim ((elementOfKind kind (c.map (coords mesh.vertices))).jacobian p)
          ((elementOfKind kind (c.map (coords mesh.vertices))).gradients p) (localPart kind.dim v c)) = 0) ↔
        ∃ W b, IsRigid W b mesh.vertices c v := by
  have e := hrigid (localPart kind.dim v c)
  simp only [← rigid_local c hsize hb] at e
  rw [← e]
  exact forall₂_congr fun p _ => (C99_energy_density lame hmu hbulk _).2

set_option maxHeartbeats 400000 in
/-- **C99.** Linear elasticity on a mesh of affine cells, of any element kind and order, with the canonical stiffness quadrature, positive
shear and bulk moduli, and cells that hang together rigidly: the problem is a linear problem, and it has one solution exactly if the
positions of the nodes with prescribed displacements do not leave room for a rigid motion. -/
theorem C99_mesh_problem (gauss : Nat → Rule 1 ℝ) (h2 : IsGaussRule 2 (gauss 2).1 (gauss 2).2) (hl2 : (gauss 2).1.length = 2)
    (h3 : IsGaussRule 3 (gauss 3).1 (gauss 3).2) (hl3 : (gauss 3).1.length = 3) (hk : kind ≠ .segment2)
    (hsize : ∀ c ∈ mesh.cells, c.length = kind.numNodes) (hb : ∀ c ∈ mesh.cells, ∀ v ∈ c, v < mesh.vertices.length)
    (hnd : ∀ c ∈ mesh.cells, c.Nodup) (haff : ∀ c ∈ mesh.cells, AffineCell kind (c.map (coords mesh.vertices)))
    (hne : mesh.cells ≠ []) (hall : ∀ n, n < mesh.vertices.length → ∃ c ∈ mesh.cells, n ∈ c) (hone : OnePiece mesh.vertices mesh.cells)
    (lame : Lame ℝ) (hmu : 0 < lame.mu) (hbulk : 0 < 2 * lame.mu + kind.dim * lame.lambda)
    (nodes : List Nat) (hn : ∀ n ∈ nodes, n < mesh.vertices.length) (u : List ℝ) (hu : u.length = kind.dim * mesh.vertices.length) :
    haveI : Inhabited (Lame ℝ) := ⟨Lame.default⟩
    ∃ space rule t, meshSpace kind mesh = some space ∧ stiffnessRule gauss kind = some rule ∧
      Uniform.fromQuadratureAndData rule lame = some t ∧
      Setting space mesh.vertices.length t.table (fun _ => (rule.1.zip rule.2).map fun q => (q.1, q.2, lame)) u
        (leOperator kind.dim) nodes ∧
      (∀ v : List ℝ, v.length = kind.dim * mesh.vertices.length →
        ((∀ (e : Nat) (en : VolElement kind.dim ℝ × List Nat), space[e]? = some en → ∀ q ∈ (rule.1.zip rule.2).map fun q => (q.1, q.2, lame),
            density (leOperator kind.dim) q.2.2
              (gradU kind.dim (en.1.jacobian q.2.1) (en.1.gradients q.2.1) (localPart kind.dim v en.2)) = 0) ↔
          ∃ W b, IsRigid W b mesh.vertices (List.range mesh.vertices.length) v)) ∧
      (Definite space mesh.vertices.length (fun _ => (rule.1.zip rule.2).map fun q => (q.1, q.2, lame)) (leOperator kind.dim) nodes ↔
        Fixes (positions mesh.vertices nodes)) := by
  letI : Inhabited (Lame ℝ) := ⟨Lame.default⟩
  have hdim : 0 < kind.dim := by cases kind <;> decide
  obtain ⟨rule, h1, hlen, hpos, hrigid⟩ := C99_element_rigid gauss h2 hl2 h3 hl3 kind hk
  obtain ⟨space, t, hsp, hspace, ht, hsam⟩ := Mass.C98_mesh_sampled kind mesh rule hlen lame hsize hb
  have hmem : ∀ c ∈ mesh.cells, (elementOfKind kind (c.map (coords mesh.vertices)), c) ∈ space := fun c hc => by
    rw [hspace]
    exact List.mem_map.2 ⟨c, hc, rfl⟩
  have hcell : ∀ en ∈ space, ∃ c ∈ mesh.cells, en = (elementOfKind kind (c.map (coords mesh.vertices)), c) := fun en hen => by
    rw [hspace] at hen
    obtain ⟨c, hc, rfl⟩ := List.mem_map.1 hen
    exact ⟨c, hc, rfl⟩
  have hpts : ∀ q ∈ (rule.1.zip rule.2).map fun q => ((q.1, q.2, lame) : QPoint kind.dim ℝ (Lame ℝ)),
      q.1 ∈ rule.1 ∧ q.2.1 ∈ rule.2 ∧ q.2.2 = lame := by
    intro q hq
    obtain ⟨q', hq', rfl⟩ := List.mem_map.1 hq
    exact ⟨(List.of_mem_zip hq').1, (List.of_mem_zip hq').2, rfl⟩
  have hpts' : ∀ p ∈ rule.2, ∃ w, ((w, p, lame) : QPoint kind.dim ℝ (Lame ℝ)) ∈ (rule.1.zip rule.2).map fun q => (q.1, q.2, lame) := by
    intro p hp
    rw [← List.map_snd_zip (l₁ := rule.1) (l₂ := rule.2) (by omega)] at hp
    obtain ⟨q, hq, rfl⟩ := List.mem_map.1 hp
    exact ⟨q.1, List.mem_map.2 ⟨q, hq, rfl⟩⟩
  have hdisc : Discretisation space mesh.vertices.length t.table (fun _ => (rule.1.zip rule.2).map fun q => (q.1, q.2, lame)) u kind.dim :=
    ⟨hsam.wellFormed, hsam.nodeCount, hsam.inBounds, hu, hsam.rule, by
      intro e en he q hq
      obtain ⟨c, hc, rfl⟩ := hcell en (List.mem_of_getElem? he)
      obtain ⟨A, t, hA, hxs⟩ := haff c hc
      rw [affine_jacobian kind _ A t hxs]
      exact hA⟩
  have hset : Setting space mesh.vertices.length t.table (fun _ => (rule.1.zip rule.2).map fun q => (q.1, q.2, lame)) u
      (leOperator kind.dim) nodes := by
    refine ⟨hdim, hdisc, ?_, fun e _ q hq => hpos _ (hpts q hq).1, (C89_linear_operators (K := ℝ) kind.dim).2, rfl, C57_operator_symmetric.1, ?_, ?_⟩
    · intro en hen
      obtain ⟨c, hc, rfl⟩ := hcell en hen
      exact hnd c hc
    · intro e _ q hq G
      rw [(hpts q hq).2.2]
      exact (C99_energy_density lame hmu hbulk G).1
    · intro n hnn
      obtain ⟨c, hc, hnc⟩ := hall n (hn n hnn)
      exact ⟨_, hmem c hc, hnc⟩
  -- cells without energy
  have hzero : ∀ v : List ℝ, (∀ (e : Nat) (en : VolElement kind.dim ℝ × List Nat), space[e]? = some en →
      ∀ q ∈ (rule.1.zip rule.2).map fun q => ((q.1, q.2, lame) : QPoint kind.dim ℝ (Lame ℝ)), density (leOperator kind.dim) q.2.2
        (gradU kind.dim (en.1.jacobian q.2.1) (en.1.gradients q.2.1) (localPart kind.dim v en.2)) = 0) ↔
      ∀ c ∈ mesh.cells, ∃ W b, IsRigid W b mesh.vertices c v := by
    intro v
    have hcz := fun c hc => cell_zero lame hmu hbulk c (hsize c hc) (hb c hc) rule.2 (hrigid _ (haff c hc)) v
    constructor
    · intro h c hc
      obtain ⟨e, he⟩ := List.getElem?_of_mem (hmem c hc)
      refine (hcz c hc).1 fun p hp => ?_
      obtain ⟨w, hq⟩ := hpts' p hp
      have h' := h e (elementOfKind kind (c.map (coords mesh.vertices)), c) he (w, p, lame) hq
      dsimp only at h'
      exact h'
    · intro h e en he
      obtain ⟨c, hc, rfl⟩ := hcell en (List.mem_of_getElem? he)
      intro q hq
      obtain ⟨-, g1, g2⟩ := hpts q hq
      rw [g2]
      exact (hcz c hc).2 (h c hc) _ g1
  have hglobal : ∀ v : List ℝ, (∀ c ∈ mesh.cells, ∃ W b, IsRigid W b mesh.vertices c v) ↔
      ∃ W b, IsRigid W b mesh.vertices (List.range mesh.vertices.length) v := by
    intro v
    constructor
    · intro h
      obtain ⟨c₀, hc₀⟩ := List.exists_mem_of_ne_nil _ hne
      obtain ⟨W, b, h₀⟩ := h c₀ hc₀
      refine ⟨W, b, h₀.1, fun n hnr x hx => ?_⟩
      obtain ⟨c, hc, hnc⟩ := hall n (List.mem_range.1 hnr)
      have hcr : IsRigid W b mesh.vertices c v := by
        have hpath := hone c₀ hc₀ c hc
        clear hnc hc
        induction hpath with
        | refl => exact h₀
        | tail _ hs ih =>
          obtain ⟨W', b', h'⟩ := h _ hs.1
          obtain ⟨rfl, rfl⟩ := rigid_agree hs.2 ih h'
          exact h'
      exact hcr.2 n hnc x hx
    · rintro ⟨W, b, hW, h⟩ c hc
      exact ⟨W, b, hW, fun n hnc => h n (List.mem_range.2 (hb c hc n hnc))⟩
  refine ⟨space, rule, t, hsp, h1, ht, hset, fun v _ => (hzero v).trans (hglobal v), ?_, ?_⟩
  · intro hdef W b hW hfix
    set v : List ℝ := List.ofFn fun r : Fin (kind.dim * mesh.vertices.length) =>
      (W.mulVec (coords mesh.vertices (r / kind.dim)) + b) ⟨r % kind.dim, Nat.mod_lt _ hdim⟩ with hv
    have hget : ∀ n, n < mesh.vertices.length → ∀ i : Fin kind.dim, v.getD (kind.dim * n + i) 0 = (W.mulVec (coords mesh.vertices n) + b) i := by
      intro n hnl i
      have hr : kind.dim * n + i < kind.dim * mesh.vertices.length := by
        have := Nat.mul_le_mul_left kind.dim (Nat.succ_le_of_lt hnl)
        rw [Nat.mul_succ] at this
        omega
      have e1 : (kind.dim * n + i) / kind.dim = n := by
        rw [Nat.add_comm, Nat.add_mul_div_left _ _ hdim, Nat.div_eq_of_lt i.2, Nat.zero_add]
      have e2 : (kind.dim * n + i) % kind.dim = i := by
        rw [Nat.mul_add_mod, Nat.mod_eq_of_lt i.2]
      rw [List.getD_eq_getElem?_getD, List.getElem?_eq_getElem (by rw [hv, List.length_ofFn]; exact hr), Option.getD_some]
      simp only [hv, List.getElem_ofFn, e1, e2]
    have hrig : IsRigid W b mesh.vertices (List.range mesh.vertices.length) v := by
      refine ⟨hW, fun n hnr x hx i => ?_⟩
      rw [hget n (List.mem_range.1 hnr) i, coords_of_get hx]
    have h0 := hdef v (by rw [hv, List.length_ofFn]) (by
      rintro r ⟨m, hm, i, hi, rfl⟩
      have := hget m (hn m hm) ⟨i, hi⟩
      rw [this, hfix (coords mesh.vertices m) ⟨m, hm, get_of_lt (hn m hm)⟩]
      rfl) ((hzero v).2 ((hglobal v).2 ⟨W, b, hrig⟩))
    obtain ⟨c, hc⟩ := List.exists_mem_of_ne_nil _ hne
    refine cell_fixes c (hsize c hc) (hb c hc) (haff c hc) W b hW ?_
    rintro x ⟨n, hnc, hx⟩
    funext i
    rw [← hrig.2 n (List.mem_range.2 (hb c hc n hnc)) x hx i, h0]
    rfl
  · intro hfix v hvl hcon hz
    obtain ⟨W, b, hrig⟩ := (hglobal v).1 ((hzero v).1 hz)
    obtain ⟨rfl, rfl⟩ := hfix W b hrig.1 (by
      rintro x ⟨m, hm, hx⟩
      funext i
      rw [← hrig.2 m (List.mem_range.2 (hn m hm)) x hx i, hcon _ ⟨m, hm, i, i.2, rfl⟩]
      rfl)
    intro r
    by_cases hr : r < kind.dim * mesh.vertices.length
    · have hnl : r / kind.dim < mesh.vertices.length := Nat.div_lt_of_lt_mul hr
      have := hrig.2 (r / kind.dim) (List.mem_range.2 hnl) _ (get_of_lt hnl) ⟨r % kind.dim, Nat.mod_lt _ hdim⟩
      rw [Nat.div_add_mod] at this
      rw [this]
      simp
    · rw [List.getD_eq_getElem?_getD, List.getElem?_eq_none (by omega)]
      rfl

end

end Fenris.Elasticity
