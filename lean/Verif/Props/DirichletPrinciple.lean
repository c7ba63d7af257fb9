import Verif.Props.Poisson
/-! # C97: prescribed values other than zero, the minimum of the energy, and affine solutions -/
set_option autoImplicit false
set_option linter.unusedSectionVars false

namespace Fenris.LinearProblem
open Fenris.Element Fenris.Local Fenris.Local.Spec Fenris.PatchTest Fenris.PatchTest.Spec Fenris.LinearProblem.Spec Quadrature
open Fenris.Surface Fenris.Surface.Spec
open Fenris.Spec (matrixContribution entry SortsNodes Constrained Solves SolvesConstrained Stored)

section General
variable {K : Type} [Field K] [LinearOrder K] [IsStrictOrderedRing K] {d s : Nat} {Param : Type} [Inhabited Param]
  {space : Space d K} {N : Nat} {table : Table (Point d K) K Param} {rules : Nat → List (QPoint d K Param)} {u : List K}
  {o : Operator d s K Param} {nodes : List Nat}

attribute [local instance] zeroFill

/-! ## Quadratic functions -/

private theorem quadratic_shift {n : Nat} {A : Matrix (Fin n) (Fin n) K} (hs : A.transpose = A) (b x d : Fin n → K) :
    1 / 2 * ((x + d) ⬝ᵥ A.mulVec (x + d)) - b ⬝ᵥ (x + d) =
      1 / 2 * (x ⬝ᵥ A.mulVec x) - b ⬝ᵥ x + (d ⬝ᵥ (A.mulVec x - b) + 1 / 2 * (d ⬝ᵥ A.mulVec d)) := by
  have hsym : x ⬝ᵥ A.mulVec d = d ⬝ᵥ A.mulVec x := by
    rw [Matrix.dotProduct_mulVec, ← Matrix.mulVec_transpose, hs, dotProduct_comm]
  rw [Matrix.mulVec_add, dotProduct_add, add_dotProduct, add_dotProduct, hsym, dotProduct_add, dotProduct_sub, dotProduct_comm d b]
  ring

/-- The stationary points of a convex quadratic function, with some of the coordinates fixed, are its minima. -/
theorem stationary_iff_minimum {n : Nat} {A : Matrix (Fin n) (Fin n) K} (hs : A.transpose = A) (hp : ∀ w, 0 ≤ w ⬝ᵥ A.mulVec w)
    (b x : Fin n → K) (P : Fin n → Prop) :
    (∀ i, ¬ P i → A.mulVec x i = b i) ↔
      ∀ y : Fin n → K, (∀ i, P i → y i = x i) → 1 / 2 * (x ⬝ᵥ A.mulVec x) - b ⬝ᵥ x ≤ 1 / 2 * (y ⬝ᵥ A.mulVec y) - b ⬝ᵥ y := by
  constructor
  · intro h y hy
    obtain ⟨d, rfl⟩ : ∃ d, y = x + d := ⟨y - x, by simp⟩
    rw [quadratic_shift hs]
    have h0 : d ⬝ᵥ (A.mulVec x - b) = 0 := by
      refine Finset.sum_eq_zero fun i _ => ?_
      by_cases hi : P i
      · have := hy i hi
        rw [Pi.add_apply, add_eq_left] at this
        rw [this, zero_mul]
      · rw [Pi.sub_apply, h i hi, sub_self, mul_zero]
    have := hp d
    rw [h0]
    linarith
  · intro h i hi
    have hneg := h (x + (-(A.mulVec x i - b i) / (A i i + 1)) • Pi.single i 1) (by
      intro j hj
      have : j ≠ i := fun e => hi (e ▸ hj)
      simp [Pi.single_eq_of_ne this])
    rw [quadratic_shift hs] at hneg
    have ha : 0 ≤ A i i := by
      have := hp (Pi.single i 1)
      simpa using this
    set r := A.mulVec x i - b i with hr
    set a := A i i
    set t := -r / (a + 1) with ht
    have e1 : (t • Pi.single i 1 : Fin n → K) ⬝ᵥ (A.mulVec x - b) = t * r := by
      rw [smul_dotProduct, single_dotProduct, Pi.sub_apply, one_mul, smul_eq_mul]
    have e2 : (t • Pi.single i 1 : Fin n → K) ⬝ᵥ A.mulVec (t • Pi.single i 1) = t * t * a := by
      rw [Matrix.mulVec_smul, smul_dotProduct, dotProduct_smul, single_dotProduct, one_mul, smul_eq_mul, smul_eq_mul, Matrix.mulVec_single]
      simp [a, mul_assoc]
    rw [e1, e2] at hneg
    have hpos : 0 < a + 1 := by linarith
    have htr : t * (a + 1) = -r := by rw [ht, div_mul_cancel₀ _ hpos.ne']
    have h1 : 0 ≤ t * r + 1 / 2 * (t * t * a) := by linarith
    have h2 : t * r + 1 / 2 * (t * t * a) = -(t * t) * (1 / 2 * a + 1) := by
      have : r = -(t * (a + 1)) := by linarith
      rw [this]
      ring
    have h3 : t * t = 0 := by
      have := mul_self_nonneg t
      nlinarith
    have : t = 0 := mul_self_eq_zero.1 h3
    rw [this, zero_mul] at htr
    linarith

/-! ## Dirichlet's principle -/

/-- **C97.** Dirichlet's principle for the assembled quantities: a vector with the prescribed values `g` satisfies the equations of the
assembled matrix `m` at all other nodes exactly if, among all vectors with the prescribed values, it has the least energy, where the energy
of `y` is what the scalar assembler returns for `y`, minus the work of `b`. -/
theorem C97_dirichlet_principle (h : Setting space N table rules u o nodes) (henergy : ∀ G param, 2 * o.energy G param = density o param G)
    (ord : List Nat → List Nat) (hord : ∀ l, (ord l).Perm l)
    (sortNodes : List (Nat × Nat) → List (Nat × Nat)) (hsort : SortsNodes sortNodes)
    (bufs : Nat → Buffer (Point d K) K Param) (outs : Nat → Mat K) (elemMat : Nat → Except String (Mat K))
    (hem : ∀ e, e < space.length → ∃ buf', elementMatrix space o table u (bufs e) (outs e) e = some (elemMat e, buf'))
    (elemEnergy : List K → Nat → Except String K)
    (hee : ∀ y : List K, y.length = s * N → ∀ e, e < space.length → ∃ buf', elementEnergy space o table y (bufs e) e = some (elemEnergy y e, buf'))
    (energy : List K → K) (hE : ∀ y : List K, y.length = s * N → Assembly.assembleScalar space.length (elemEnergy y) = .ok (energy y))
    (b g : Nat → K) :
    ∃ m, Assembly.assemble ord sortNodes (conn s space N) elemMat = some (.ok m) ∧ ∀ x : List K, x.length = s * N →
      (∀ r, r < s * N → Constrained s nodes r → x.getD r 0 = g r) →
      ((∀ r, r < s * N → ¬ Constrained s nodes r → ∑ c ∈ Finset.range (s * N), entry m r c * x.getD c 0 = b r) ↔
        ∀ y : List K, y.length = s * N → (∀ r, r < s * N → Constrained s nodes r → y.getD r 0 = g r) →
          energy x - ∑ r ∈ Finset.range (s * N), b r * x.getD r 0 ≤ energy y - ∑ r ∈ Finset.range (s * N), b r * y.getD r 0) := by
  obtain ⟨m, h1, -, -, -, -, -, h7, h8⟩ := assembled h ord hord sortNodes hsort bufs outs elemMat hem
  refine ⟨m, h1, fun x hx hxg => ?_⟩
  set A := (Matrix.of fun i j : Fin (s * N) => entry m i j) with hA
  have hget : ∀ (w : Fin (s * N) → K) (i : Fin (s * N)), (List.ofFn w).getD i 0 = w i := by
    intro w i
    rw [List.getD_eq_getElem?_getD, List.getElem?_eq_getElem (by simp)]
    simp
  have hvec : ∀ y : List K, y.length = s * N → y = List.ofFn fun i : Fin (s * N) => y.getD i 0 := by
    intro y hy
    apply List.ext_getElem (by simp [hy])
    intro i hi hi'
    simp [List.getD_eq_getElem?_getD, List.getElem?_eq_getElem hi]
  have hform : ∀ y : List K, ∑ r ∈ Finset.range (s * N), ∑ c ∈ Finset.range (s * N), y.getD r 0 * entry m r c * y.getD c 0 =
      (fun i : Fin (s * N) => y.getD i 0) ⬝ᵥ A.mulVec fun i => y.getD i 0 := by
    intro y
    rw [Finset.sum_range fun r => ∑ c ∈ Finset.range (s * N), y.getD r 0 * entry m r c * y.getD c 0]
    simp only [dotProduct, Matrix.mulVec, hA, Matrix.of_apply, Finset.sum_range, Finset.mul_sum, mul_assoc]
  have hs : A.transpose = A := by
    ext i j
    exact h7 j i
  have hp : ∀ w, 0 ≤ w ⬝ᵥ A.mulVec w := by
    intro w
    have e := hform (List.ofFn w)
    simp only [hget] at e
    rw [← e, h8]
    exact Finset.sum_nonneg fun e _ => energy_nonneg h _ e
  have hen : ∀ y : List K, y.length = s * N → energy y = 1 / 2 * ((fun i : Fin (s * N) => y.getD i 0) ⬝ᵥ A.mulVec fun i => y.getD i 0) := by
    intro y hy
    have hd : Discretisation space N table rules y s := { h.disc with uLength := hy }
    have e := (C69_global_energy space N table rules y hd o bufs (elemEnergy y) (hee y hy) .leaf).1
    rw [hE y hy] at e
    injection e with e
    rw [e, ← hform, h8, Finset.mul_sum]
    refine Finset.sum_congr rfl fun e _ => ?_
    unfold quadSum
    rw [← List.sum_map_mul_left]
    congr 1
    refine List.map_congr_left fun q _ => ?_
    beta_reduce
    rw [← henergy]
    ring
  have hdot : ∀ y : List K, ∑ r ∈ Finset.range (s * N), b r * y.getD r 0 = (fun i : Fin (s * N) => b i) ⬝ᵥ fun i => y.getD i 0 := by
    intro y
    rw [Finset.sum_range]
    rfl
  have key := stationary_iff_minimum hs hp (fun i => b i) (fun i => x.getD i 0) (fun i => Constrained s nodes i)
  constructor
  · intro hst y hy hyg
    rw [hen x hx, hen y hy, hdot, hdot]
    refine key.1 (fun i hi => ?_) _ fun i hi => ?_
    · have := hst i i.2 hi
      rw [Finset.sum_range] at this
      exact this
    · rw [hyg i i.2 hi, hxg i i.2 hi]
  · intro hmin r hr hrc
    rw [Finset.sum_range]
    refine key.2 (fun w hw => ?_) ⟨r, hr⟩ hrc
    have := hmin (List.ofFn w) (by simp) fun r hr hrc => by
      rw [hget w ⟨r, hr⟩, hw ⟨r, hr⟩ hrc, hxg r hr hrc]
    rw [hen x hx, hen _ (by simp), hdot, hdot] at this
    simp only [hget] at this
    exact this

/-- **C97.** Prescribed values that are not zero: let `g` be any vector with the prescribed values. There is exactly one vector that agrees
with `g` at the prescribed nodes and satisfies the equations at the others; it is `g` plus the solution of the problem with the prescribed
values zero and the right-hand side `b - A g`, which the solver finds from the assembled matrix (`C96_solve`). -/
theorem C97_prescribed_values {E : Type} (h : Problem space N table rules u o nodes)
    (ord : List Nat → List Nat) (hord : ∀ l, (ord l).Perm l)
    (sortNodes : List (Nat × Nat) → List (Nat × Nat)) (hsort : SortsNodes sortNodes)
    (bufs : Nat → Buffer (Point d K) K Param) (outs : Nat → Mat K) (elemMat : Nat → Except String (Mat K))
    (hem : ∀ e, e < space.length → ∃ buf', elementMatrix space o table u (bufs e) (outs e) e = some (elemMat e, buf'))
    (b g : List K) (hb : b.length = s * N) (hg : g.length = s * N) :
    ∃ m m' rhs' x, Assembly.assemble ord sortNodes (conn s space N) elemMat = some (.ok m) ∧ Assembly.dirichletCsr m nodes s = some m' ∧
      Assembly.dirichletRhs ((List.range (s * N)).map fun r => b.getD r 0 - ∑ c ∈ Finset.range (s * N), entry m r c * g.getD c 0) nodes s =
        some rhs' ∧ x.length = s * N ∧
      (∀ y : List K, y.length = s * N → (((∀ r, r < s * N → Constrained s nodes r → y.getD r 0 = g.getD r 0) ∧
        ∀ r, r < s * N → ¬ Constrained s nodes r → ∑ c ∈ Finset.range (s * N), entry m r c * y.getD c 0 = b.getD r 0) ↔ y = x)) ∧
      ∀ (norm : List K → K), (∀ v, 0 ≤ norm v) → (∀ v, norm v = 0 ↔ ∀ a ∈ v, a = 0) →
      ∀ (w : CgBuffers.Workspace K) (guess : List K), guess.length = s * N →
        ∃ δ k, (CgBuffers.solveWithGuess (E := E) ⟨CgBuffers.csrOperator 0 1 (fullRows (s * N) m'), CgBuffers.identityOperator,
            CgBuffers.relativeResidual norm 0, none, norm⟩ (s * N + 1) w rhs' guess).map Prod.fst = .done ⟨δ, k, .ok ()⟩ ∧
          List.zipWith (· + ·) g δ = x := by
  obtain ⟨m, h1, -⟩ := assembled h.toSetting ord hord sortNodes hsort bufs outs elemMat hem
  obtain ⟨m₁, m', rhs', h1', h2, h3, -, ⟨δ₀, hδ, hu⟩, hcg⟩ := C96_solve (E := E) h ord hord sortNodes hsort bufs outs elemMat hem
    ((List.range (s * N)).map fun r => b.getD r 0 - ∑ c ∈ Finset.range (s * N), entry m r c * g.getD c 0) (by simp)
  rw [h1] at h1'
  obtain rfl : m = m₁ := by injection h1' with h1'; injection h1'
  have hrhs : ∀ r, r < s * N → ((List.range (s * N)).map fun r => b.getD r 0 - ∑ c ∈ Finset.range (s * N), entry m r c * g.getD c 0).getD r 0 =
      b.getD r 0 - ∑ c ∈ Finset.range (s * N), entry m r c * g.getD c 0 := by
    intro r hr
    simp [List.getD_eq_getElem?_getD, hr]
  have hadd : ∀ δ : List K, δ.length = s * N → ∀ r, (List.zipWith (· + ·) g δ).getD r 0 = g.getD r 0 + δ.getD r 0 := by
    intro δ hδ r
    by_cases hr : r < s * N
    · simp [List.getD_eq_getElem?_getD, hr, hg, hδ]
    · simp [List.getD_eq_getElem?_getD, List.getElem?_eq_none, not_lt.1 hr, hg, hδ]
  -- the two problems
  have hshift : ∀ δ : List K, δ.length = s * N →
      (SolvesConstrained (s * N) s nodes (entry m) (fun r => ((List.range (s * N)).map fun r => b.getD r 0 -
        ∑ c ∈ Finset.range (s * N), entry m r c * g.getD c 0).getD r 0) (fun r => δ.getD r 0) ↔
      ((∀ r, r < s * N → Constrained s nodes r → (List.zipWith (· + ·) g δ).getD r 0 = g.getD r 0) ∧
        ∀ r, r < s * N → ¬ Constrained s nodes r →
          ∑ c ∈ Finset.range (s * N), entry m r c * (List.zipWith (· + ·) g δ).getD c 0 = b.getD r 0)) := by
    intro δ hδ
    simp only [hadd δ hδ, mul_add, Finset.sum_add_distrib, add_eq_left]
    refine and_congr_right fun _ => forall_congr' fun r => ?_
    constructor
    · intro hs hr hc
      have := hs hr hc
      beta_reduce at this
      rw [this, hrhs r hr]
      ring
    · intro hs hr hc
      beta_reduce
      rw [hrhs r hr, ← hs hr hc]
      ring
  refine ⟨m, m', rhs', List.zipWith (· + ·) g δ₀, h1, h2, h3, by simp [hg, hδ], ?_, ?_⟩
  · intro y hy
    have hback : List.zipWith (· + ·) g (List.zipWith (· - ·) y g) = y := by
      apply List.ext_getElem (by simp [hg, hy])
      intro i hi hi'
      simp
    have hl : (List.zipWith (· - ·) y g).length = s * N := by simp [hg, hy]
    have := (hshift _ hl).symm.trans (hu _ hl)
    rw [hback] at this
    rw [this]
    constructor
    · intro e
      rw [← e, hback]
    · intro e
      rw [e]
      apply List.ext_getElem (by simp [hg, hδ])
      intro i hi hi'
      simp
  · intro norm hpos hnorm w guess hguess
    obtain ⟨δ, k, h4, -, h5, -, h6⟩ := hcg norm hpos hnorm 0 (le_refl _) w guess hguess
    exact ⟨δ, k, h4, by rw [(hu δ h5).1 (h6 rfl)]⟩

end General

section Affine
variable {K : Type} [Field K] [LinearOrder K] [IsStrictOrderedRing K] {s : Nat} {Param : Type} [Inhabited Param] {ω : K}
  {kind : Kind} {mesh : Mesh (Point kind.dim K)} {table : Table (Point kind.dim K) K Param}
  {rules : Nat → List (QPoint kind.dim K Param)} {param : Param}

attribute [local instance] zeroFill

/-- **C97.** Affine solutions are found exactly: if on a consistent mesh the values of an affine function are prescribed at (at least) all
vertices of the boundary, then the only vector with these values that satisfies the homogeneous equations at the other vertices consists of
the values of this function at all vertices. Started with any vector `g` with the prescribed values, the solver returns the correction that
leads from `g` to this function. -/
theorem C97_affine_solution {E : Type} (hk : kind ∈ [Kind.tri3, .quad4, .tet4, .hex8]) (h : Patch ω kind mesh table rules param)
    (space : Space kind.dim K) (hspace : meshSpace kind mesh = some space) (u₀ : List K) (o : Operator kind.dim s K Param)
    (boundary : List Nat) (hbd : Mesh.findBoundaryVertices (facesOf kind) mesh = some boundary)
    (nodes : List Nat) (hnodes : ∀ n ∈ boundary, n ∈ nodes)
    (hp : Problem space mesh.vertices.length table rules u₀ o nodes)
    (G : Matrix (Fin kind.dim) (Fin s) K) (b : Fin s → K) (u : List K) (hu : IsAffine mesh.vertices G b u)
    (ord : List Nat → List Nat) (hord : ∀ l, (ord l).Perm l)
    (sortNodes : List (Nat × Nat) → List (Nat × Nat)) (hsort : SortsNodes sortNodes)
    (bufs : Nat → Buffer (Point kind.dim K) K Param) (outs : Nat → Mat K) (elemMat : Nat → Except String (Mat K))
    (hem : ∀ e, e < space.length → ∃ buf', elementMatrix space o table u₀ (bufs e) (outs e) e = some (elemMat e, buf')) :
    ∃ m m', Assembly.assemble ord sortNodes (conn s space mesh.vertices.length) elemMat = some (.ok m) ∧
      Assembly.dirichletCsr m nodes s = some m' ∧
      (∀ y : List K, y.length = s * mesh.vertices.length → (((∀ r, r < s * mesh.vertices.length → Constrained s nodes r →
          y.getD r 0 = u.getD r 0) ∧ ∀ r, r < s * mesh.vertices.length → ¬ Constrained s nodes r →
          ∑ c ∈ Finset.range (s * mesh.vertices.length), entry m r c * y.getD c 0 = 0) ↔ y = u)) ∧
      ∀ g : List K, g.length = s * mesh.vertices.length →
        (∀ r, r < s * mesh.vertices.length → Constrained s nodes r → g.getD r 0 = u.getD r 0) →
        ∃ rhs', Assembly.dirichletRhs ((List.range (s * mesh.vertices.length)).map fun r =>
            -∑ c ∈ Finset.range (s * mesh.vertices.length), entry m r c * g.getD c 0) nodes s = some rhs' ∧
          ∀ (norm : List K → K), (∀ v, 0 ≤ norm v) → (∀ v, norm v = 0 ↔ ∀ a ∈ v, a = 0) →
          ∀ (w : CgBuffers.Workspace K) (guess : List K), guess.length = s * mesh.vertices.length →
            ∃ δ k, (CgBuffers.solveWithGuess (E := E) ⟨CgBuffers.csrOperator 0 1 (fullRows (s * mesh.vertices.length) m'),
                CgBuffers.identityOperator, CgBuffers.relativeResidual norm 0, none, norm⟩ (s * mesh.vertices.length + 1) w rhs'
                guess).map Prod.fst = .done ⟨δ, k, .ok ()⟩ ∧ List.zipWith (· + ·) g δ = u := by
  have hsp : space = mesh.cells.map fun c => (elementOfKind kind (c.map (coords mesh.vertices)), c) :=
    Option.some.inj (hspace.symm.trans (C89_mesh_space kind mesh h.inBounds))
  have hnd : ∀ c ∈ mesh.cells, c.Nodup := fun c hc =>
    hp.nodup (elementOfKind kind (c.map (coords mesh.vertices)), c) (by rw [hsp]; exact List.mem_map.2 ⟨c, hc, rfl⟩)
  obtain ⟨fs, m, h1, h2, h3⟩ := C89_matrix hk h hnd hp.dim G b u hu u₀ hp.disc.uLength o hp.law hp.linear space hspace ord hord sortNodes
    hsort bufs outs elemMat hem
  have hz : ∀ r, (List.replicate (s * mesh.vertices.length) (0 : K)).getD r 0 = 0 := by
    intro r
    rw [List.getD_eq_getElem?_getD, List.getElem?_replicate]
    split <;> rfl
  -- the affine function satisfies the equations
  have heq : ∀ r, r < s * mesh.vertices.length → ¬ Constrained s nodes r →
      ∑ c ∈ Finset.range (s * mesh.vertices.length), entry m r c * u.getD c 0 = 0 := by
    intro r hr hc
    have hs := hp.dim
    have hmod : r % s < s := Nat.mod_lt _ hs
    have hr' : r = s * (r / s) + (⟨r % s, hmod⟩ : Fin s) := (Nat.div_add_mod r s).symm
    have hn : r / s < mesh.vertices.length := Nat.div_lt_of_lt_mul hr
    have hnb : r / s ∉ boundary := fun hb => hc ⟨r / s, hnodes _ hb, r % s, hmod, hr'⟩
    rw [hr', h3 (r / s) hn]
    apply mul_eq_zero_of_right
    apply Finset.sum_eq_zero
    intro k _
    apply mul_eq_zero_of_right
    apply List.sum_eq_zero
    intro x hx
    obtain ⟨⟨f, c, l⟩, hf, rfl⟩ := List.mem_map.1 hx
    obtain ⟨bd, h6, -, h7⟩ := C14_boundary_vertices_exact (facesOf kind) mesh
    rw [hbd] at h6
    obtain rfl := Option.some.inj h6
    obtain ⟨fs', h8, -, h9⟩ := C14_boundary_faces_exact (facesOf kind) mesh
    rw [h1] at h8
    obtain rfl := Option.some.inj h8
    rw [faceShare_eq_zero kind mesh.vertices _ f fun hnf => hnb ((h7 _).2 ⟨c, l, f, (h9 f c l).1 hf, hnf⟩)]
    rfl
  -- whatever vector with the prescribed values one starts with
  have key : ∀ g : List K, g.length = s * mesh.vertices.length →
      (∀ r, r < s * mesh.vertices.length → Constrained s nodes r → g.getD r 0 = u.getD r 0) → _ := fun g hg hgu =>
    C97_prescribed_values (E := E) hp ord hord sortNodes hsort bufs outs elemMat hem (List.replicate (s * mesh.vertices.length) 0) g (by simp) hg
  obtain ⟨m₁, m', -, x, h4, h5, -, -, h6, -⟩ := key u hu.length fun _ _ _ => rfl
  rw [h2] at h4
  obtain rfl : m = m₁ := by injection h4 with h4; injection h4
  refine ⟨m, m', h2, h5, fun y hy => ?_, fun g hg hgu => ?_⟩
  · simp only [hz] at h6
    rw [h6 y hy, (h6 u hu.length).1 ⟨fun _ _ _ => rfl, heq⟩]
  · obtain ⟨m₂, m₃, rhs', x', h7, h8, h9, -, h10, h11⟩ := key g hg hgu
    rw [h2] at h7
    obtain rfl : m = m₂ := by injection h7 with h7; injection h7
    rw [h5] at h8
    obtain rfl := Option.some.inj h8
    simp only [hz, zero_sub] at h9 h10
    refine ⟨rhs', h9, fun norm hpos hnorm w guess hguess => ?_⟩
    obtain ⟨δ, k, h12, h13⟩ := h11 norm hpos hnorm w guess hguess
    refine ⟨δ, k, h12, h13.trans ?_⟩
    exact ((h10 u hu.length).1 ⟨fun r hr hc => (hgu r hr hc).symm, heq⟩).symm

end Affine

/-! ## Uniform meshes -/

section Uniform
open Fenris.Procedural Fenris.Canonical Fenris.Canonical.Spec Fenris.GridFaces

attribute [local instance] zeroFill

private theorem mem_of_mem_face (kind : Kind) {cell f : List Nat} {l v : Nat} (hlen : cell.length = kind.numNodes)
    (hf : (facesOf kind cell)[l]? = some f) (hv : v ∈ f) : v ∈ cell := by
  have hlt : ∀ f ∈ localFaces kind, ∀ i ∈ f, i < kind.numNodes := by cases kind <;> decide
  obtain ⟨f', hf', rfl⟩ := List.mem_map.1 (List.mem_of_getElem? hf)
  obtain ⟨i, hi, rfl⟩ := List.mem_map.1 hv
  have := hlt f' hf' i hi
  rw [List.getD_eq_getElem?_getD, List.getElem?_eq_getElem (hlen ▸ this), Option.getD_some]
  exact List.getElem_mem _

/-- **C97.** The Poisson problem with prescribed affine values at the boundary vertices of the uniform quadrilateral mesh of a rectangle, of
every resolution, with the canonical quadrature: the only solution is the affine function, and the solver finds it. -/
theorem C97_quad_mesh {E : Type} (gauss : Nat → Rule 1 ℝ) (h2 : IsGaussRule 2 (gauss 2).1 (gauss 2).2) (hl : (gauss 2).1.length = 2)
    (L : ℝ) (hL : 0 < L) (ux uy n : Nat) (x0 y0 : ℝ) (hn : n ≠ 0) (hux : ux ≠ 0) (huy : uy ≠ 0)
    (mesh : Mesh (Point 2 ℝ)) (hmesh : mesh = quadMesh L ux uy n x0 y0) (u₀ : List ℝ) (hu₀ : u₀.length = mesh.vertices.length)
    (G : Matrix (Fin 2) (Fin 1) ℝ) (b : Fin 1 → ℝ) (u : List ℝ) (hu : IsAffine mesh.vertices G b u) :
    ∃ boundary space rule t, Mesh.findBoundaryVertices (facesOf .quad4) mesh = some boundary ∧ meshSpace .quad4 mesh = some space ∧
      stiffnessRule gauss .quad4 = some rule ∧ Uniform.fromQuadratureAndData rule () = some t ∧
      ∀ (ord : List Nat → List Nat), (∀ l, (ord l).Perm l) →
      ∀ (sortNodes : List (Nat × Nat) → List (Nat × Nat)), SortsNodes sortNodes →
      ∀ (bufs : Nat → Buffer (Point 2 ℝ) ℝ Unit) (outs : Nat → Mat ℝ) (elemMat : Nat → Except String (Mat ℝ)),
      (∀ e, e < space.length → ∃ buf', elementMatrix space (laplace 2 ℝ) t.table u₀ (bufs e) (outs e) e = some (elemMat e, buf')) →
      ∃ m m', Assembly.assemble ord sortNodes (conn 1 space mesh.vertices.length) elemMat = some (.ok m) ∧
        Assembly.dirichletCsr m boundary 1 = some m' ∧
        (∀ y : List ℝ, y.length = 1 * mesh.vertices.length → (((∀ r, r < 1 * mesh.vertices.length → Constrained 1 boundary r →
            y.getD r 0 = u.getD r 0) ∧ ∀ r, r < 1 * mesh.vertices.length → ¬ Constrained 1 boundary r →
            ∑ c ∈ Finset.range (1 * mesh.vertices.length), entry m r c * y.getD c 0 = 0) ↔ y = u)) ∧
        ∀ g : List ℝ, g.length = 1 * mesh.vertices.length →
          (∀ r, r < 1 * mesh.vertices.length → Constrained 1 boundary r → g.getD r 0 = u.getD r 0) →
          ∃ rhs', Assembly.dirichletRhs ((List.range (1 * mesh.vertices.length)).map fun r =>
              -∑ c ∈ Finset.range (1 * mesh.vertices.length), entry m r c * g.getD c 0) boundary 1 = some rhs' ∧
            ∀ (norm : List ℝ → ℝ), (∀ v, 0 ≤ norm v) → (∀ v, norm v = 0 ↔ ∀ a ∈ v, a = 0) →
            ∀ (w : CgBuffers.Workspace ℝ) (guess : List ℝ), guess.length = 1 * mesh.vertices.length →
              ∃ δ k, (CgBuffers.solveWithGuess (E := E) ⟨CgBuffers.csrOperator 0 1 (fullRows (1 * mesh.vertices.length) m'),
                  CgBuffers.identityOperator, CgBuffers.relativeResidual norm 0, none, norm⟩ (1 * mesh.vertices.length + 1) w rhs'
                  guess).map Prod.fst = .done ⟨δ, k, .ok ()⟩ ∧ List.zipWith (· + ·) g δ = u := by
  subst hmesh
  obtain ⟨hsize, hin, hdet⟩ := C94_quad_elements L hL ux uy n x0 y0 hn hux huy
  obtain ⟨bd, hbd, -, hbd'⟩ := C14_boundary_vertices_exact (facesOf .quad4) (quadMesh L ux uy n x0 y0)
  have hsp := C89_mesh_space .quad4 (quadMesh L ux uy n x0 y0) hin
  -- the first cell has an edge on the left side
  have hne : bd ≠ [] := by
    obtain ⟨vid, -, -, hv, -, -, hc⟩ := C17_quad_mesh_is_the_grid L ux uy n x0 y0 hn hux huy
    obtain ⟨fs, h5, h6⟩ := C94_quad_boundary L hL ux uy n x0 y0 hn hux huy
    obtain ⟨fs', h7, -, h8⟩ := C14_boundary_faces_exact (facesOf .quad4) (quadMesh L ux uy n x0 y0)
    rw [h5] at h7
    obtain rfl := Option.some.inj h7
    have hx : 0 < ux * n := Nat.pos_of_ne_zero (mul_ne_zero hux hn)
    have hy : 0 < uy * n := Nat.pos_of_ne_zero (mul_ne_zero huy hn)
    have hco : ∀ i j, i ≤ ux * n → j ≤ uy * n → coords (quadMesh L ux uy n x0 y0).vertices (vid i j) = ![x0 + i * (L / n), y0 - j * (L / n)] :=
      fun i j hi hj => by rw [coords, List.getD_eq_getElem?_getD, hv i j hi hj, Option.getD_some]
    have hf : ([vid 0 0, vid 0 1], 0, 3) ∈ fs := (h6 _ _ _).2 ⟨⟨_, hc 0 0 hx hy, rfl⟩, 0, Or.inl (by
      intro v hvm
      simp only [List.mem_cons, List.not_mem_nil, or_false] at hvm
      rcases hvm with rfl | rfl
      · rw [hco 0 0 (by omega) (by omega)]; simp
      · rw [hco 0 1 (by omega) (by omega)]; simp)⟩
    exact List.ne_nil_of_mem ((hbd' (vid 0 0)).2 ⟨_, _, _, (h8 _ _ _).1 hf, by simp⟩)
  obtain ⟨rule, t, ω, h3, h4, -, hp⟩ := C89_canonical_patch gauss h2 .quad4 (by simp) () (quadMesh L ux uy n x0 y0) hsize hin
    (C94_quad_consistent L ux uy n x0 y0) (by
      intro space rule hs' hr en hen p hp
      rw [hsp] at hs'
      obtain rfl := Option.some.inj hs'
      obtain ⟨c, hc, rfl⟩ := List.mem_map.1 hen
      exact hdet c hc p)
  obtain ⟨space, rule', t', h5, h6, h7, h8⟩ := C96_quad_mesh gauss h2 hl L hL ux uy n x0 y0 hn hux huy (quadMesh L ux uy n x0 y0) rfl bd hne
    (fun v hv => by
      obtain ⟨c, l, f, hf, hvf⟩ := (hbd' v).1 hv
      obtain ⟨⟨cell, hcell, hfc⟩, -⟩ := hf
      refine hin cell (List.mem_of_getElem? hcell) v ?_
      exact mem_of_mem_face .quad4 (hsize cell (List.mem_of_getElem? hcell)) hfc hvf) u₀ hu₀
  rw [h3] at h6
  obtain rfl := Option.some.inj h6
  rw [h4] at h7
  obtain rfl := Option.some.inj h7
  exact ⟨bd, space, rule, t, hbd, h5, h3, h4, fun ord hord sortNodes hsort bufs outs elemMat hem =>
    C97_affine_solution (kind := .quad4) (by simp) hp space h5 u₀ (laplace 2 ℝ) bd hbd bd (fun _ h => h) h8 G b u hu ord hord sortNodes hsort bufs
      outs elemMat hem⟩

/-- **C97.** The Poisson problem with prescribed affine values at the boundary vertices of the uniform hexahedral mesh of a box, of
every resolution, with the canonical quadrature: the only solution is the affine function, and the solver finds it. -/
theorem C97_hex_mesh {E : Type} (gauss : Nat → Rule 1 ℝ) (h2 : IsGaussRule 2 (gauss 2).1 (gauss 2).2) (hl : (gauss 2).1.length = 2)
    (L : ℝ) (hL : 0 < L) (ux uy uz n : Nat) (hn : n ≠ 0) (hux : ux ≠ 0) (huy : uy ≠ 0) (huz : uz ≠ 0)
    (mesh : Mesh (Point 3 ℝ)) (hmesh : mesh = hexMesh L ux uy uz n) (u₀ : List ℝ) (hu₀ : u₀.length = mesh.vertices.length)
    (G : Matrix (Fin 3) (Fin 1) ℝ) (b : Fin 1 → ℝ) (u : List ℝ) (hu : IsAffine mesh.vertices G b u) :
    ∃ boundary space rule t, Mesh.findBoundaryVertices (facesOf .hex8) mesh = some boundary ∧ meshSpace .hex8 mesh = some space ∧
      stiffnessRule gauss .hex8 = some rule ∧ Uniform.fromQuadratureAndData rule () = some t ∧
      ∀ (ord : List Nat → List Nat), (∀ l, (ord l).Perm l) →
      ∀ (sortNodes : List (Nat × Nat) → List (Nat × Nat)), SortsNodes sortNodes →
      ∀ (bufs : Nat → Buffer (Point 3 ℝ) ℝ Unit) (outs : Nat → Mat ℝ) (elemMat : Nat → Except String (Mat ℝ)),
      (∀ e, e < space.length → ∃ buf', elementMatrix space (laplace 3 ℝ) t.table u₀ (bufs e) (outs e) e = some (elemMat e, buf')) →
      ∃ m m', Assembly.assemble ord sortNodes (conn 1 space mesh.vertices.length) elemMat = some (.ok m) ∧
        Assembly.dirichletCsr m boundary 1 = some m' ∧
        (∀ y : List ℝ, y.length = 1 * mesh.vertices.length → (((∀ r, r < 1 * mesh.vertices.length → Constrained 1 boundary r →
            y.getD r 0 = u.getD r 0) ∧ ∀ r, r < 1 * mesh.vertices.length → ¬ Constrained 1 boundary r →
            ∑ c ∈ Finset.range (1 * mesh.vertices.length), entry m r c * y.getD c 0 = 0) ↔ y = u)) ∧
        ∀ g : List ℝ, g.length = 1 * mesh.vertices.length →
          (∀ r, r < 1 * mesh.vertices.length → Constrained 1 boundary r → g.getD r 0 = u.getD r 0) →
          ∃ rhs', Assembly.dirichletRhs ((List.range (1 * mesh.vertices.length)).map fun r =>
              -∑ c ∈ Finset.range (1 * mesh.vertices.length), entry m r c * g.getD c 0) boundary 1 = some rhs' ∧
            ∀ (norm : List ℝ → ℝ), (∀ v, 0 ≤ norm v) → (∀ v, norm v = 0 ↔ ∀ a ∈ v, a = 0) →
            ∀ (w : CgBuffers.Workspace ℝ) (guess : List ℝ), guess.length = 1 * mesh.vertices.length →
              ∃ δ k, (CgBuffers.solveWithGuess (E := E) ⟨CgBuffers.csrOperator 0 1 (fullRows (1 * mesh.vertices.length) m'),
                  CgBuffers.identityOperator, CgBuffers.relativeResidual norm 0, none, norm⟩ (1 * mesh.vertices.length + 1) w rhs'
                  guess).map Prod.fst = .done ⟨δ, k, .ok ()⟩ ∧ List.zipWith (· + ·) g δ = u := by
  subst hmesh
  obtain ⟨hsize, hin, hdet⟩ := C94_hex_elements L hL ux uy uz n hn hux huy
  obtain ⟨bd, hbd, -, hbd'⟩ := C14_boundary_vertices_exact (facesOf .hex8) (hexMesh L ux uy uz n)
  have hsp := C89_mesh_space .hex8 (hexMesh L ux uy uz n) hin
  -- the first cell has a face on the lower side
  have hne : bd ≠ [] := by
    obtain ⟨vid, -, -, hv, -, -, hc⟩ := C18_hex_mesh_is_the_grid L ux uy uz n hn hux huy
    obtain ⟨fs, h5, h6⟩ := C94_hex_boundary L hL ux uy uz n hn hux huy
    obtain ⟨fs', h7, -, h8⟩ := C14_boundary_faces_exact (facesOf .hex8) (hexMesh L ux uy uz n)
    rw [h5] at h7
    obtain rfl := Option.some.inj h7
    have hx : 0 < ux * n := Nat.pos_of_ne_zero (mul_ne_zero hux hn)
    have hy : 0 < uy * n := Nat.pos_of_ne_zero (mul_ne_zero huy hn)
    have hz : 0 < uz * n := Nat.pos_of_ne_zero (mul_ne_zero huz hn)
    have hco : ∀ i j k, i ≤ ux * n → j ≤ uy * n → k ≤ uz * n →
        coords (hexMesh L ux uy uz n).vertices (vid i j k) = ![i * (L / n), j * (L / n), k * (L / n)] :=
      fun i j k hi hj hk => by rw [coords, List.getD_eq_getElem?_getD, hv i j k hi hj hk, Option.getD_some]
    obtain ⟨f, l, hf, h0⟩ : ∃ f l, (f, 0, l) ∈ fs ∧ vid 0 0 0 ∈ f := by
      refine ⟨[vid 0 1 0, vid 1 1 0, vid 1 0 0, vid 0 0 0], 0, (h6 _ _ _).2 ⟨⟨_, hc 0 0 0 hx hy hz, rfl⟩, 2, Or.inl ?_⟩, by simp⟩
      intro v hvm
      simp only [List.mem_cons, List.not_mem_nil, or_false] at hvm
      rcases hvm with rfl | rfl | rfl | rfl <;> rw [hco _ _ _ (by omega) (by omega) (by omega)] <;> simp
    exact List.ne_nil_of_mem ((hbd' (vid 0 0 0)).2 ⟨_, _, _, (h8 _ _ _).1 hf, h0⟩)
  obtain ⟨rule, t, ω, h3, h4, -, hp⟩ := C89_canonical_patch gauss h2 .hex8 (by simp) () (hexMesh L ux uy uz n) hsize hin
    (C94_hex_consistent L ux uy uz n) (by
      intro space rule hs' hr en hen p hp
      rw [hsp] at hs'
      obtain rfl := Option.some.inj hs'
      obtain ⟨c, hc, rfl⟩ := List.mem_map.1 hen
      exact hdet c hc p)
  obtain ⟨space, rule', t', h5, h6, h7, h8⟩ := C96_hex_mesh gauss h2 hl L hL ux uy uz n hn hux huy huz (hexMesh L ux uy uz n) rfl bd hne
    (fun v hv => by
      obtain ⟨c, l, f, hf, hvf⟩ := (hbd' v).1 hv
      obtain ⟨⟨cell, hcell, hfc⟩, -⟩ := hf
      refine hin cell (List.mem_of_getElem? hcell) v ?_
      exact mem_of_mem_face .hex8 (hsize cell (List.mem_of_getElem? hcell)) hfc hvf) u₀ hu₀
  rw [h3] at h6
  obtain rfl := Option.some.inj h6
  rw [h4] at h7
  obtain rfl := Option.some.inj h7
  exact ⟨bd, space, rule, t, hbd, h5, h3, h4, fun ord hord sortNodes hsort bufs outs elemMat hem =>
    C97_affine_solution (kind := .hex8) (by simp) hp space h5 u₀ (laplace 3 ℝ) bd hbd bd (fun _ h => h) h8 G b u hu ord hord sortNodes hsort bufs
      outs elemMat hem⟩

/-! ## Examples -/

-- The Gauss rule with two points, the 2 × 2 mesh of the unit square and the values of `1 + 2 x - 3 y` at its nine vertices.
example : IsGaussRule 2 (gaussExample 2).1 (gaussExample 2).2 ∧ (gaussExample 2).1.length = 2 := ⟨gaussExample_two, rfl⟩
example : IsAffine (K := ℚ) (unitSquareQuadMesh (K := ℚ) 2).vertices !![2; -3] ![1] [-2, -1, 0, -1/2, 1/2, 3/2, 1, 2, 3] where
  length := by decide +kernel
  value := by
    have e : (unitSquareQuadMesh (K := ℚ) 2).vertices =
        [![0, 1], ![1/2, 1], ![1, 1], ![0, 1/2], ![1/2, 1/2], ![1, 1/2], ![0, 0], ![1/2, 0], ![1, 0]] := by decide +kernel
    intro n x hx i
    rw [e] at hx
    have hi : i = 0 := Subsingleton.elim _ _
    subst hi
    have hn : n < 9 := (List.getElem?_eq_some_iff.1 hx).1
    interval_cases n <;> (obtain rfl := Option.some.inj hx; simp [Fin.sum_univ_succ]; try norm_num)

-- The operators whose energy is half of stress times gradient: Poisson problems.
example (G : Matrix (Fin 2) (Fin 1) ℚ) (param : Unit) : 2 * (laplace 2 ℚ).energy G param = density (laplace 2 ℚ) param G := by
  simp only [laplace, density, Fin.sum_univ_one]
  ring

end Uniform

end Fenris.LinearProblem
