import Verif.Spec.BestApproximation
import Verif.Props.ErrorNorm
import Verif.Props.MassAssembler
import Verif.Props.DirichletPrinciple
import Verif.Props.Equilibrium
/-! # C107: computed solutions are best approximations in the error norms of the library -/
set_option autoImplicit false
set_option linter.unusedSectionVars false

namespace Fenris.BestApproximation
open Fenris.Element Fenris.Local Fenris.Local.Spec Fenris.LinearProblem Fenris.LinearProblem.Spec Fenris.Mass Fenris.Mass.Spec Quadrature
open Fenris.BestApproximation.Spec
open Fenris.Surface.Spec (coords)
open Fenris.Procedural Fenris.Canonical
open Fenris.Spec (matrixContribution entry SortsNodes Constrained Solves SolvesConstrained Stored)
open Fenris.Integrate (l2Error l2ErrorSquared h1Error h1ErrorSquared)
open Fenris.Integrate.Spec (MeshRule interpAt gradAt quadrature stretch)

attribute [local instance] zeroFill

variable {d s : Nat} {D Param : Type} {space : Local.Space d ℝ} {N : Nat} {tableE : Table (Point d ℝ) ℝ D} {points : Nat → List (ℝ × Point d ℝ)}

/-! ## The errors as sums over the elements of the space -/

private theorem quadrature_eq (el : VolElement d ℝ) (rule : List (ℝ × Point d ℝ)) (F : Point d ℝ → ℝ) (data : ℝ × Point d ℝ → Param) :
    quadrature (sameElement el) rule F = quadSum el (rule.map fun q => (q.1, q.2, data q)) fun p _ => F p := by
  unfold quadrature quadSum
  rw [List.map_map]
  congr 1
  refine List.map_congr_left fun q _ => ?_
  have : stretch ((sameElement el).jacobian q.2) = |(el.jacobian q.2).det| := by
    rw [← (Integrate.C66_volume_form _).1, Integrate.C66_volume_form_volume]
    rfl
  rw [this]
  rfl

private theorem interpAt_eq (el : VolElement d ℝ) (hel : WellFormed el) (nodes : List Nat) (hn : nodes.length = el.numNodes) (y : List ℝ) (p : Point d ℝ) :
    interpAt s (el.basis p) nodes y = valueU s (el.basis p) (localPart s y nodes) := by
  funext i
  unfold interpAt valueU
  refine Finset.sum_congr rfl fun I _ => ?_
  have hI : (I : Nat) < nodes.length := hn ▸ (hel p).1 ▸ I.2
  have hg : nodes.getD I 0 = nodes[(I : Nat)] := by rw [List.getD_eq_getElem?_getD, List.getElem?_eq_getElem hI, Option.getD_some]
  rw [localPart_getD s y nodes I hI, hg]

private theorem gradAt_eq (el : VolElement d ℝ) (hel : WellFormed el) (nodes : List Nat) (hn : nodes.length = el.numNodes) (y : List ℝ) (p : Point d ℝ) :
    gradAt s (el.jacobian p) (el.gradients p) nodes y = gradU s (el.jacobian p) (el.gradients p) (localPart s y nodes) := by
  funext k i
  unfold gradAt gradU
  refine Finset.sum_congr rfl fun I _ => ?_
  have hI : (I : Nat) < nodes.length := hn ▸ (hel p).2 ▸ I.2
  have hg : nodes.getD I 0 = nodes[(I : Nat)] := by rw [List.getD_eq_getElem?_getD, List.getElem?_eq_getElem hI, Option.getD_some]
  rw [localPart_getD s y nodes I hI, hg]

private theorem sum_sameSpace (F : Nat → Integrate.Elem d d × List Nat → ℝ) :
    (∑ e : Fin (sameSpace space).length, F e (sameSpace space)[e]) = ∑ e : Fin space.length, F e (sameElement (space[e]).1, (space[e]).2) := by
  have hl : (sameSpace space).length = space.length := List.length_map _
  apply Fintype.sum_equiv (finCongr hl)
  intro e
  have hg : (sameSpace space)[(e : Nat)] = (sameElement (space[(e : Nat)]'(hl ▸ e.2)).1, (space[(e : Nat)]'(hl ▸ e.2)).2) := List.getElem_map _
  exact congrArg (F e) hg

/-- The squared L2 error that the library computes for the function with the coefficients `y`. -/
private noncomputable def L2 (space : Local.Space d ℝ) (points : Nat → List (ℝ × Point d ℝ)) (data : ℝ × Point d ℝ → Param) (u : Point d ℝ → Fin s → ℝ)
    (y : List ℝ) : ℝ :=
  ∑ e : Fin space.length, quadSum (space[e]).1 ((points e).map fun q => (q.1, q.2, data q)) fun p _ =>
    ∑ i, (valueU s ((space[e]).1.basis p) (localPart s y (space[e]).2) i - u ((space[e]).1.map p) i) ^ 2

private noncomputable def H1 (space : Local.Space d ℝ) (points : Nat → List (ℝ × Point d ℝ)) (data : ℝ × Point d ℝ → Param)
    (du : Point d ℝ → Matrix (Fin d) (Fin s) ℝ) (y : List ℝ) : ℝ :=
  ∑ e : Fin space.length, quadSum (space[e]).1 ((points e).map fun q => (q.1, q.2, data q)) fun p _ => ∑ k, ∑ i,
    (gradU s ((space[e]).1.jacobian p) ((space[e]).1.gradients p) (localPart s y (space[e]).2) k i - du ((space[e]).1.map p) k i) ^ 2

private theorem l2_error (h : MeshRule (sameSpace space) N tableE points) (data : ℝ × Point d ℝ → Param) (u : Point d ℝ → Fin s → ℝ) (y : List ℝ)
    (hy : y.length = s * N) (bufs : Nat → Buffer (Point d ℝ) ℝ Unit) :
    l2Error (sameSpace space) N u y tableE bufs = some (.ok (Real.sqrt (L2 space points data u y))) := by
  obtain ⟨E, -, h2, h3, -⟩ := (Integrate.C67_mesh_l2 (sameSpace space) N tableE points h u y bufs).2 hy
  rw [h2, h3, L2]
  congr 3
  refine (sum_sameSpace (space := space) fun e en => quadrature en.1 (points e) fun p =>
    ∑ i, (interpAt s (en.1.basis p) en.2 y i - u (en.1.map p) i) ^ 2).trans ?_
  refine Finset.sum_congr rfl fun e _ => ?_
  rw [quadrature_eq _ _ _ data]
  have hmem : (sameElement (space[e]).1, (space[e]).2) ∈ sameSpace space := List.mem_map.2 ⟨space[e], List.getElem_mem _, rfl⟩
  have hwf : WellFormed (space[e]).1 := h.wellFormed _ hmem
  have hn : (space[e]).2.length = (space[e]).1.numNodes := h.nodeCount _ hmem
  unfold quadSum
  congr 1
  refine List.map_congr_left fun q _ => ?_
  congr 1
  refine Finset.sum_congr rfl fun i _ => ?_
  rw [← interpAt_eq _ hwf _ hn]
  rfl

private theorem h1_error (h : MeshRule (sameSpace space) N tableE points) (hreg : ∀ e : Fin space.length, ∀ q ∈ points e, ((space[e]).1.jacobian q.2).det ≠ 0)
    (data : ℝ × Point d ℝ → Param) (du : Point d ℝ → Matrix (Fin d) (Fin s) ℝ) (y : List ℝ) (hy : y.length = s * N)
    (bufs : Nat → Buffer (Point d ℝ) ℝ Unit) :
    h1Error (sameSpace space) N du y tableE bufs = some (.ok (Real.sqrt (H1 space points data du y))) := by
  have hreg' : ∀ e : Fin (sameSpace space).length, ∀ q ∈ points e, (((sameSpace space)[e]).1.jacobian q.2).det ≠ 0 := by
    intro e q hq
    have hl : (sameSpace space).length = space.length := List.length_map _
    have hg : (sameSpace space)[(e : Nat)] = (sameElement (space[(e : Nat)]'(hl ▸ e.2)).1, (space[(e : Nat)]'(hl ▸ e.2)).2) := List.getElem_map _
    have key : ∀ en : Integrate.Elem d d × List Nat, en = (sameElement (space[(e : Nat)]'(hl ▸ e.2)).1, (space[(e : Nat)]'(hl ▸ e.2)).2) →
        (en.1.jacobian q.2).det ≠ 0 := by
      rintro en rfl
      exact hreg ⟨e, hl ▸ e.2⟩ q hq
    exact key _ hg
  obtain ⟨E, -, h2, h3, -⟩ := (Integrate.C67_mesh_h1 (sameSpace space) N tableE points h du y bufs).2.2 hy hreg'
  rw [h2, h3, H1]
  congr 3
  refine (sum_sameSpace (space := space) fun e en => quadrature en.1 (points e) fun p => ∑ k, ∑ i,
    (gradAt s (en.1.jacobian p) (en.1.gradients p) en.2 y k i - du (en.1.map p) k i) ^ 2).trans ?_
  refine Finset.sum_congr rfl fun e _ => ?_
  rw [quadrature_eq _ _ _ data]
  have hmem : (sameElement (space[e]).1, (space[e]).2) ∈ sameSpace space := List.mem_map.2 ⟨space[e], List.getElem_mem _, rfl⟩
  have hwf : WellFormed (space[e]).1 := h.wellFormed _ hmem
  have hn : (space[e]).2.length = (space[e]).1.numNodes := h.nodeCount _ hmem
  unfold quadSum
  congr 1
  refine List.map_congr_left fun q _ => ?_
  congr 1
  refine Finset.sum_congr rfl fun k _ => Finset.sum_congr rfl fun i _ => ?_
  rw [← gradAt_eq _ hwf _ hn]
  rfl

private theorem quadSum_add (el : VolElement d ℝ) (rule : List (QPoint d ℝ Param)) (f g : Point d ℝ → Param → ℝ) :
    quadSum el rule (fun p q => f p q + g p q) = quadSum el rule f + quadSum el rule g := by
  unfold quadSum
  rw [← List.sum_map_add]
  congr 1
  exact List.map_congr_left fun q _ => by ring

private theorem sum_quad_nonneg (hw : ∀ e : Fin space.length, ∀ q ∈ points e, 0 ≤ q.1) (data : ℝ × Point d ℝ → Param)
    (F : Fin space.length → Point d ℝ → ℝ) (hF : ∀ e p, 0 ≤ F e p) :
    0 ≤ ∑ e : Fin space.length, quadSum (space[e]).1 ((points e).map fun q => (q.1, q.2, data q)) fun p _ => F e p := by
  refine Finset.sum_nonneg fun e _ => List.sum_nonneg fun x hx => ?_
  obtain ⟨q, hq, rfl⟩ := List.mem_map.1 hx
  obtain ⟨q', hq', rfl⟩ := List.mem_map.1 hq
  exact mul_nonneg (mul_nonneg (hw e q' hq') (abs_nonneg _)) (hF e _)

/-! ## Vectors and matrices -/

private theorem sum_list_comm {α : Type} (t : Finset Nat) (l : List α) (f : Nat → α → ℝ) :
    ∑ r ∈ t, (l.map (f r)).sum = (l.map fun a => ∑ r ∈ t, f r a).sum := by
  induction l with
  | nil => simp
  | cons a l ih => simp only [List.map_cons, List.sum_cons, Finset.sum_add_distrib, ih]

private theorem sum_map_sub {α : Type} (l : List α) (f g : α → ℝ) : (l.map fun a => f a - g a).sum = (l.map f).sum - (l.map g).sum := by
  induction l with
  | nil => simp
  | cons a l ih =>
    simp only [List.map_cons, List.sum_cons, ih]
    ring

private theorem ofFn_getD {n : Nat} (w : Fin n → ℝ) (i : Fin n) : (List.ofFn w).getD i 0 = w i := by
  rw [List.getD_eq_getElem?_getD, List.getElem?_eq_getElem (by simp)]
  simp

private theorem form_eq {n : Nat} (a : Nat → Nat → ℝ) (v w : List ℝ) :
    ∑ r ∈ Finset.range n, ∑ c ∈ Finset.range n, v.getD r 0 * a r c * w.getD c 0 =
      (fun i : Fin n => v.getD i 0) ⬝ᵥ (Matrix.of fun i j : Fin n => a i j).mulVec fun i => w.getD i 0 := by
  rw [Finset.sum_range fun r => ∑ c ∈ Finset.range n, v.getD r 0 * a r c * w.getD c 0]
  simp only [dotProduct, Matrix.mulVec, Matrix.of_apply, Finset.sum_range, Finset.mul_sum, mul_assoc]

/-- If an error is `yᵀ A y - 2 ℓ(y) + C` with a positive semidefinite `A`, and `ℓ` is given by `b` on the directions that keep the fixed entries, then the
vectors that satisfy the free equations are those with the least error. -/
private theorem least_error {n : Nat} (a : Nat → Nat → ℝ) (hsym : ∀ r c, a r c = a c r)
    (hpos : ∀ w : List ℝ, 0 ≤ ∑ r ∈ Finset.range n, ∑ c ∈ Finset.range n, w.getD r 0 * a r c * w.getD c 0) (b : Nat → ℝ) (P : Nat → Prop)
    (E : List ℝ → ℝ) (x : List ℝ)
    (hE : ∀ y : List ℝ, y.length = n → (∀ r, r < n → P r → y.getD r 0 = x.getD r 0) →
      E y - E x = (∑ r ∈ Finset.range n, ∑ c ∈ Finset.range n, y.getD r 0 * a r c * y.getD c 0) -
        (∑ r ∈ Finset.range n, ∑ c ∈ Finset.range n, x.getD r 0 * a r c * x.getD c 0) -
        2 * (∑ r ∈ Finset.range n, b r * (y.getD r 0 - x.getD r 0))) :
    (∀ r, r < n → ¬ P r → ∑ c ∈ Finset.range n, a r c * x.getD c 0 = b r) ↔
      ∀ y : List ℝ, y.length = n → (∀ r, r < n → P r → y.getD r 0 = x.getD r 0) → E x ≤ E y := by
  have hs : (Matrix.of fun i j : Fin n => a i j).transpose = Matrix.of fun i j : Fin n => a i j := by
    ext i j
    exact hsym j i
  have hp : ∀ w : Fin n → ℝ, 0 ≤ w ⬝ᵥ (Matrix.of fun i j : Fin n => a i j).mulVec w := by
    intro w
    have := hpos (List.ofFn w)
    rw [form_eq] at this
    simpa only [ofFn_getD] using this
  have key := stationary_iff_minimum hs hp (fun i => b i) (fun i => x.getD i 0) (fun i => P i)
  have hE' : ∀ y : List ℝ, y.length = n → (∀ r, r < n → P r → y.getD r 0 = x.getD r 0) →
      E y - E x = 2 * ((1 / 2 * ((fun i : Fin n => y.getD i 0) ⬝ᵥ (Matrix.of fun i j : Fin n => a i j).mulVec fun i => y.getD i 0) -
        (fun i : Fin n => b i) ⬝ᵥ fun i => y.getD i 0) -
        (1 / 2 * ((fun i : Fin n => x.getD i 0) ⬝ᵥ (Matrix.of fun i j : Fin n => a i j).mulVec fun i => x.getD i 0) -
        (fun i : Fin n => b i) ⬝ᵥ fun i => x.getD i 0)) := by
    intro y hy hyP
    rw [hE y hy hyP, form_eq, form_eq]
    have e1 : ∑ r ∈ Finset.range n, b r * (y.getD r 0 - x.getD r 0) = ((fun i : Fin n => b i) ⬝ᵥ fun i => y.getD i 0) -
        (fun i : Fin n => b i) ⬝ᵥ fun i => x.getD i 0 := by
      rw [Finset.sum_range]
      simp only [dotProduct, mul_sub, Finset.sum_sub_distrib]
    rw [e1]
    ring
  constructor
  · intro hst y hy hyP
    have h1 := key.1 (fun i hi => by
      have := hst i i.2 hi
      rw [Finset.sum_range] at this
      exact this) (fun i => y.getD i 0) fun i hi => hyP i i.2 hi
    have h2 := hE' y hy hyP
    linarith
  · intro hmin r hr hrc
    rw [Finset.sum_range]
    refine key.2 (fun w hw => ?_) ⟨r, hr⟩ hrc
    have hwP : ∀ r, r < n → P r → (List.ofFn w).getD r 0 = x.getD r 0 := fun r hr hrc => by rw [ofFn_getD w ⟨r, hr⟩, hw ⟨r, hr⟩ hrc]
    have h1 := hmin (List.ofFn w) (by simp) hwP
    have h2 := hE' (List.ofFn w) (by simp) hwP
    simp only [ofFn_getD] at h2
    linarith

private theorem getD_sub {n : Nat} {x y : List ℝ} (hx : x.length = n) (hy : y.length = n) (r : Nat) :
    (List.zipWith (· - ·) y x).getD r 0 = y.getD r 0 - x.getD r 0 := by
  by_cases hr : r < n
  · simp [List.getD_eq_getElem?_getD, List.getElem?_eq_getElem, hy ▸ hr, hx ▸ hr]
  · simp [List.getD_eq_getElem?_getD, List.getElem?_eq_none, hy ▸ not_lt.1 hr, hx ▸ not_lt.1 hr]

/-- In the setting of `least_error`, the error of `y` exceeds that of a solution `x` by the form of their difference. -/
private theorem error_split {n : Nat} (a : Nat → Nat → ℝ) (hsym : ∀ r c, a r c = a c r) (b : Nat → ℝ) (P : Nat → Prop) (E : List ℝ → ℝ) (x y z : List ℝ)
    (hz : ∀ r, z.getD r 0 = y.getD r 0 - x.getD r 0) (hP : ∀ r, r < n → P r → y.getD r 0 = x.getD r 0)
    (hE : E y - E x = (∑ r ∈ Finset.range n, ∑ c ∈ Finset.range n, y.getD r 0 * a r c * y.getD c 0) -
        (∑ r ∈ Finset.range n, ∑ c ∈ Finset.range n, x.getD r 0 * a r c * x.getD c 0) -
        2 * (∑ r ∈ Finset.range n, b r * (y.getD r 0 - x.getD r 0)))
    (hsol : ∀ r, r < n → ¬ P r → ∑ c ∈ Finset.range n, a r c * x.getD c 0 = b r) :
    E y = E x + ∑ r ∈ Finset.range n, ∑ c ∈ Finset.range n, z.getD r 0 * a r c * z.getD c 0 := by
  have h1 : ∑ r ∈ Finset.range n, ∑ c ∈ Finset.range n, z.getD r 0 * a r c * x.getD c 0 =
      ∑ r ∈ Finset.range n, b r * (y.getD r 0 - x.getD r 0) := by
    refine Finset.sum_congr rfl fun r hr => ?_
    simp only [mul_assoc]
    rw [← Finset.mul_sum, hz]
    by_cases hc : P r
    · rw [hP r (Finset.mem_range.1 hr) hc, sub_self, zero_mul, mul_zero]
    · rw [hsol r (Finset.mem_range.1 hr) hc, mul_comm]
  have h2 : ∑ r ∈ Finset.range n, ∑ c ∈ Finset.range n, x.getD r 0 * a r c * z.getD c 0 =
      ∑ r ∈ Finset.range n, ∑ c ∈ Finset.range n, z.getD r 0 * a r c * x.getD c 0 := by
    rw [Finset.sum_comm]
    refine Finset.sum_congr rfl fun r _ => Finset.sum_congr rfl fun c _ => ?_
    rw [hsym c r]
    ring
  have h3 : ∑ r ∈ Finset.range n, ∑ c ∈ Finset.range n, y.getD r 0 * a r c * y.getD c 0 =
      (∑ r ∈ Finset.range n, ∑ c ∈ Finset.range n, x.getD r 0 * a r c * x.getD c 0) +
      (∑ r ∈ Finset.range n, ∑ c ∈ Finset.range n, x.getD r 0 * a r c * z.getD c 0) +
      (∑ r ∈ Finset.range n, ∑ c ∈ Finset.range n, z.getD r 0 * a r c * x.getD c 0) +
      ∑ r ∈ Finset.range n, ∑ c ∈ Finset.range n, z.getD r 0 * a r c * z.getD c 0 := by
    simp only [← Finset.sum_add_distrib, hz]
    refine Finset.sum_congr rfl fun r _ => Finset.sum_congr rfl fun c _ => ?_
    ring
  linarith

/-! ## The L2 projection -/

/-- **C107.** The L2 projection: assemble the mass matrix with density one and the source vector of a function `u`, with the same quadrature points. A
vector solves this system exactly if no other vector has a smaller L2 error, as the library estimates it with these points. The square of the error of any
other vector is larger by the square of its distance to the solution, measured by the same estimator as the error of the difference against zero. -/
theorem C107_l2_projection {tableM : Table (Point d ℝ) ℝ ℝ} {tableS : Table (Point d ℝ) ℝ Unit}
    (hM : Sampled space N tableM fun e => (points e).map fun q => (q.1, q.2, 1)) (hS : Sampled space N tableS fun e => (points e).map fun q => (q.1, q.2, ()))
    (hE : MeshRule (sameSpace space) N tableE points) (hs : 0 < s) (hnd : ∀ en ∈ space, en.2.Nodup)
    (hw : ∀ e : Fin space.length, ∀ q ∈ points e, 0 ≤ q.1) (u : Point d ℝ → Fin s → ℝ)
    (ord : List Nat → List Nat) (hord : ∀ l, (ord l).Perm l)
    (sortNodes : List (Nat × Nat) → List (Nat × Nat)) (hsort : SortsNodes sortNodes)
    (bufs : Nat → Buffer (Point d ℝ) ℝ ℝ) (outs : Nat → Mat ℝ) (elemMat : Nat → Except String (Mat ℝ))
    (hem : ∀ e, e < space.length → ∃ buf', massElementMatrix space s tableM (bufs e) (outs e) e = some (elemMat e, buf'))
    (bufs' : Nat → Buffer (Point d ℝ) ℝ Unit) (outs' : Nat → Nat → ℝ) (elemVec : Nat → Except String (Nat → ℝ))
    (hev : ∀ e, e < space.length → ∃ buf', sourceElementVector space (fun x _ => u x) tableS (bufs' e) (outs' e) e = some (elemVec e, buf'))
    (bufsE : Nat → Buffer (Point d ℝ) ℝ Unit) :
    ∃ m b, Assembly.assemble ord sortNodes (conn s space N) elemMat = some (.ok m) ∧
      Assembly.assembleVector (conn s space N) elemVec = some (.ok b) ∧
      ∃ error : List ℝ → ℝ, (∀ y : List ℝ, y.length = s * N → l2Error (sameSpace space) N u y tableE bufsE = some (.ok (error y))) ∧
      ∃ size : List ℝ → ℝ, (∀ z : List ℝ, z.length = s * N → l2Error (sameSpace space) N (fun _ (_ : Fin s) => 0) z tableE bufsE = some (.ok (size z))) ∧
      ∀ x : List ℝ, x.length = s * N → (Solves (s * N) (entry m) (fun r => b.getD r 0) (fun r => x.getD r 0) ↔
        ∀ y : List ℝ, y.length = s * N → error x ≤ error y) ∧
        (Solves (s * N) (entry m) (fun r => b.getD r 0) (fun r => x.getD r 0) →
          ∀ y : List ℝ, y.length = s * N → error y ^ 2 = error x ^ 2 + size (List.zipWith (· - ·) y x) ^ 2) := by
  obtain ⟨m, h1, -, -, hsym, hform⟩ := C98_mass_form hM hs hnd ord hord sortNodes hsort bufs outs elemMat hem
  obtain ⟨b, g1, g2, gform⟩ := C98_source_form hS (fun x _ => u x) bufs' outs' elemVec hev
  refine ⟨m, b, h1, g1, fun y => Real.sqrt (L2 space points (fun _ => ()) u y), fun y hy => l2_error hE _ u y hy bufsE,
    fun z => Real.sqrt (L2 space points (fun _ => ()) (fun _ (_ : Fin s) => 0) z), fun z hz => l2_error hE _ _ z hz bufsE, fun x hx => ?_⟩
  have hL0 : ∀ (u : Point d ℝ → Fin s → ℝ) y, 0 ≤ L2 space points (fun _ => ()) u y := fun u y =>
    sum_quad_nonneg hw _ (fun e p => ∑ i, (valueU s ((space[e]).1.basis p) (localPart s y (space[e]).2) i - u ((space[e]).1.map p) i) ^ 2)
      fun e p => Finset.sum_nonneg fun i _ => sq_nonneg _
  have hexp : ∀ y : List ℝ, L2 space points (fun _ => ()) u y =
      (∑ r ∈ Finset.range (s * N), ∑ c ∈ Finset.range (s * N), y.getD r 0 * entry m r c * y.getD c 0) -
        2 * (∑ r ∈ Finset.range (s * N), y.getD r 0 * b.getD r 0) +
        ∑ e : Fin space.length, quadSum (space[e]).1 ((points e).map fun q => (q.1, q.2, ())) fun p _ => ∑ i, u ((space[e]).1.map p) i ^ 2 := by
    intro y
    rw [hform, gform, L2, Finset.mul_sum, ← Finset.sum_sub_distrib, ← Finset.sum_add_distrib]
    refine Finset.sum_congr rfl fun e _ => ?_
    have e1 : (quadSum (space[e]).1 ((points e).map fun q => (q.1, q.2, (1 : ℝ))) fun p density => density * ∑ i : Fin s,
        valueU s ((space[e]).1.basis p) (localPart s y (space[e]).2) i * valueU s ((space[e]).1.basis p) (localPart s y (space[e]).2) i) =
        quadSum (space[e]).1 ((points e).map fun q => (q.1, q.2, ())) fun p _ => ∑ i : Fin s,
          valueU s ((space[e]).1.basis p) (localPart s y (space[e]).2) i * valueU s ((space[e]).1.basis p) (localPart s y (space[e]).2) i := by
      unfold quadSum
      simp only [List.map_map]
      congr 1
      refine List.map_congr_left fun q _ => ?_
      simp
    rw [e1]
    unfold quadSum
    simp only [List.map_map]
    rw [← List.sum_map_mul_left, ← sum_map_sub, ← List.sum_map_add]
    congr 1
    refine List.map_congr_left fun q _ => ?_
    simp only [Function.comp_apply, sub_sq, Finset.sum_add_distrib, Finset.sum_sub_distrib]
    have e2 : ∀ f g : Fin s → ℝ, ∑ i, 2 * f i * g i = 2 * ∑ i, g i * f i := fun f g => by
      rw [Finset.mul_sum]
      exact Finset.sum_congr rfl fun i _ => by ring
    rw [e2]
    simp only [sq]
    ring
  have hpos : ∀ w : List ℝ, 0 ≤ ∑ r ∈ Finset.range (s * N), ∑ c ∈ Finset.range (s * N), w.getD r 0 * entry m r c * w.getD c 0 := by
    intro w
    rw [hform]
    refine Finset.sum_nonneg fun e _ => List.sum_nonneg fun x hx => ?_
    obtain ⟨q, hq, rfl⟩ := List.mem_map.1 hx
    obtain ⟨q', hq', rfl⟩ := List.mem_map.1 hq
    refine mul_nonneg (mul_nonneg (hw e q' hq') (abs_nonneg _)) ?_
    refine le_of_le_of_eq ?_ (one_mul _).symm
    exact Finset.sum_nonneg fun i _ => mul_self_nonneg _
  have hsize : ∀ z : List ℝ, L2 space points (fun _ => ()) (fun _ (_ : Fin s) => 0) z =
      ∑ r ∈ Finset.range (s * N), ∑ c ∈ Finset.range (s * N), z.getD r 0 * entry m r c * z.getD c 0 := by
    intro z
    rw [hform, L2]
    refine Finset.sum_congr rfl fun e _ => ?_
    unfold quadSum
    simp only [List.map_map]
    congr 1
    refine List.map_congr_left fun q _ => ?_
    simp only [Function.comp_apply, sub_zero, sq, one_mul]
  have hdiff : ∀ y : List ℝ, L2 space points (fun _ => ()) u y - L2 space points (fun _ => ()) u x =
      (∑ r ∈ Finset.range (s * N), ∑ c ∈ Finset.range (s * N), y.getD r 0 * entry m r c * y.getD c 0) -
        (∑ r ∈ Finset.range (s * N), ∑ c ∈ Finset.range (s * N), x.getD r 0 * entry m r c * x.getD c 0) -
        2 * (∑ r ∈ Finset.range (s * N), b.getD r 0 * (y.getD r 0 - x.getD r 0)) := by
    intro y
    rw [hexp, hexp]
    have e3 : ∑ r ∈ Finset.range (s * N), b.getD r 0 * (y.getD r 0 - x.getD r 0) =
        ∑ r ∈ Finset.range (s * N), y.getD r 0 * b.getD r 0 - ∑ r ∈ Finset.range (s * N), x.getD r 0 * b.getD r 0 := by
      rw [← Finset.sum_sub_distrib]
      exact Finset.sum_congr rfl fun r _ => by ring
    rw [e3]
    ring
  have key := least_error (entry m) hsym hpos (fun r => b.getD r 0) (fun _ => False) (L2 space points (fun _ => ()) u) x fun y _ _ => hdiff y
  refine ⟨⟨?_, ?_⟩, ?_⟩
  · intro hsol y hy
    exact Real.sqrt_le_sqrt (key.1 (fun r hr _ => hsol r hr) y hy fun _ _ h => h.elim)
  · intro hmin r hr
    exact key.2 (fun y hy _ => (Real.sqrt_le_sqrt_iff (hL0 u y)).1 (hmin y hy)) r hr id
  · intro hsol y hy
    rw [Real.sq_sqrt (hL0 _ _), Real.sq_sqrt (hL0 _ _), Real.sq_sqrt (hL0 _ _), hsize]
    exact error_split (entry m) hsym (fun r => b.getD r 0) (fun _ => False) (L2 space points (fun _ => ()) u) x y _ (getD_sub hx hy)
      (fun _ _ h => h.elim) (hdiff y) fun r hr _ => hsol r hr

/-! ## The Galerkin solution -/

/-- **C107.** The Poisson solution: let `du` be the gradient of a function that satisfies the weak equations as far as the quadrature points can tell, for the
load `b`. Among the vectors with the prescribed values, those that satisfy the assembled equations at the other nodes are exactly those with the
least H1 seminorm error, as the library estimates it with these points. The square of the error of any other such vector is larger by the square of its
distance to the solution, measured by the same estimator as the error of the difference against zero. -/
theorem C107_galerkin_solution {table : Table (Point d ℝ) ℝ Unit} {u₀ : List ℝ} {nodes : List Nat}
    (h : Setting space N table (fun e => (points e).map fun q => (q.1, q.2, ())) u₀ (laplace d ℝ) nodes)
    (hE : MeshRule (sameSpace space) N tableE points) (du : Point d ℝ → Matrix (Fin d) (Fin 1) ℝ)
    (ord : List Nat → List Nat) (hord : ∀ l, (ord l).Perm l)
    (sortNodes : List (Nat × Nat) → List (Nat × Nat)) (hsort : SortsNodes sortNodes)
    (bufs : Nat → Buffer (Point d ℝ) ℝ Unit) (outs : Nat → Mat ℝ) (elemMat : Nat → Except String (Mat ℝ))
    (hem : ∀ e, e < space.length → ∃ buf', elementMatrix space (laplace d ℝ) table u₀ (bufs e) (outs e) e = some (elemMat e, buf'))
    (bufsE : Nat → Buffer (Point d ℝ) ℝ Unit) (b : Nat → ℝ)
    (hweak : ∀ z : List ℝ, z.length = 1 * N → (∀ r, r < 1 * N → Constrained 1 nodes r → z.getD r 0 = 0) →
      ∑ r ∈ Finset.range (1 * N), b r * z.getD r 0 =
        ∑ e : Fin space.length, quadSum (space[e]).1 ((points e).map fun q => (q.1, q.2, ())) fun p _ => ∑ k, du ((space[e]).1.map p) k 0 *
          gradU 1 ((space[e]).1.jacobian p) ((space[e]).1.gradients p) (localPart 1 z (space[e]).2) k 0) :
    ∃ m, Assembly.assemble ord sortNodes (conn 1 space N) elemMat = some (.ok m) ∧
      ∃ error : List ℝ → ℝ, (∀ y : List ℝ, y.length = 1 * N → h1Error (sameSpace space) N du y tableE bufsE = some (.ok (error y))) ∧
      ∃ size : List ℝ → ℝ, (∀ z : List ℝ, z.length = 1 * N → h1Error (sameSpace space) N (fun _ => (0 : Matrix (Fin d) (Fin 1) ℝ)) z tableE bufsE =
        some (.ok (size z))) ∧
      ∀ x : List ℝ, x.length = 1 * N →
        ((∀ r, r < 1 * N → ¬ Constrained 1 nodes r → ∑ c ∈ Finset.range (1 * N), entry m r c * x.getD c 0 = b r) ↔
        ∀ y : List ℝ, y.length = 1 * N → (∀ r, r < 1 * N → Constrained 1 nodes r → y.getD r 0 = x.getD r 0) → error x ≤ error y) ∧
        ((∀ r, r < 1 * N → ¬ Constrained 1 nodes r → ∑ c ∈ Finset.range (1 * N), entry m r c * x.getD c 0 = b r) →
          ∀ y : List ℝ, y.length = 1 * N → (∀ r, r < 1 * N → Constrained 1 nodes r → y.getD r 0 = x.getD r 0) →
            error y ^ 2 = error x ^ 2 + size (List.zipWith (· - ·) y x) ^ 2) := by
  obtain ⟨m, h1, -, -, -, -, -, hsym, hform⟩ := assembled h ord hord sortNodes hsort bufs outs elemMat hem
  have hreg : ∀ e : Fin space.length, ∀ q ∈ points e, ((space[e]).1.jacobian q.2).det ≠ 0 := fun e q hq =>
    h.disc.regular e _ (List.getElem?_eq_getElem e.2) (q.1, q.2, ()) (List.mem_map.2 ⟨q, hq, rfl⟩)
  have hw : ∀ e : Fin space.length, ∀ q ∈ points e, 0 ≤ q.1 := fun e q hq =>
    (h.weights e e.2 (q.1, q.2, ()) (List.mem_map.2 ⟨q, hq, rfl⟩)).le
  refine ⟨m, h1, fun y => Real.sqrt (H1 space points (fun _ => ()) du y), fun y hy => h1_error hE hreg _ du y hy bufsE,
    fun z => Real.sqrt (H1 space points (fun _ => ()) (fun _ => (0 : Matrix (Fin d) (Fin 1) ℝ)) z), fun z hz => h1_error hE hreg _ _ z hz bufsE, fun x hx => ?_⟩
  have hH0 : ∀ (du : Point d ℝ → Matrix (Fin d) (Fin 1) ℝ) y, 0 ≤ H1 space points (fun _ => ()) du y := fun du y =>
    sum_quad_nonneg hw _ (fun e p => ∑ k, ∑ i, (gradU 1 ((space[e]).1.jacobian p) ((space[e]).1.gradients p) (localPart 1 y (space[e]).2) k i -
      du ((space[e]).1.map p) k i) ^ 2) fun e p => Finset.sum_nonneg fun k _ => Finset.sum_nonneg fun i _ => sq_nonneg _
  let ℓ : List ℝ → ℝ := fun z => ∑ e : Fin space.length, quadSum (space[e]).1 ((points e).map fun q => (q.1, q.2, ())) fun p _ =>
    ∑ k, du ((space[e]).1.map p) k 0 * gradU 1 ((space[e]).1.jacobian p) ((space[e]).1.gradients p) (localPart 1 z (space[e]).2) k 0
  have hexp : ∀ y : List ℝ, H1 space points (fun _ => ()) du y =
      (∑ r ∈ Finset.range (1 * N), ∑ c ∈ Finset.range (1 * N), y.getD r 0 * entry m r c * y.getD c 0) - 2 * ℓ y +
        ∑ e : Fin space.length, quadSum (space[e]).1 ((points e).map fun q => (q.1, q.2, ())) fun p _ => ∑ k, du ((space[e]).1.map p) k 0 ^ 2 := by
    intro y
    rw [hform, H1, Finset.mul_sum, ← Finset.sum_sub_distrib, ← Finset.sum_add_distrib]
    refine Finset.sum_congr rfl fun e _ => ?_
    unfold quadSum
    simp only [List.map_map]
    rw [← List.sum_map_mul_left, ← sum_map_sub, ← List.sum_map_add]
    congr 1
    refine List.map_congr_left fun q _ => ?_
    simp only [Function.comp_apply, Fin.sum_univ_one, density, laplace, sub_sq, Finset.sum_add_distrib, Finset.sum_sub_distrib]
    have e2 : ∀ f g : Fin d → ℝ, ∑ i, 2 * f i * g i = 2 * ∑ i, g i * f i := fun f g => by
      rw [Finset.mul_sum]
      exact Finset.sum_congr rfl fun i _ => by ring
    rw [e2]
    simp only [sq]
    ring
  have hdiff : ∀ y : List ℝ, y.length = 1 * N → ℓ y - ℓ x = ℓ (List.zipWith (· - ·) y x) := by
    intro y hy
    have hz := getD_sub hx hy
    change (∑ e : Fin space.length, _) - (∑ e : Fin space.length, _) = ∑ e : Fin space.length, _
    rw [← Finset.sum_sub_distrib]
    refine Finset.sum_congr rfl fun e _ => ?_
    have hmem : space[(e : Nat)] ∈ space := List.getElem_mem _
    have hwf := h.disc.wellFormed _ hmem
    have hn := h.disc.nodeCount _ hmem
    unfold quadSum
    simp only [List.map_map]
    rw [← sum_map_sub]
    congr 1
    refine List.map_congr_left fun q _ => ?_
    simp only [Function.comp_apply]
    rw [← mul_sub, ← Finset.sum_sub_distrib]
    congr 1
    refine Finset.sum_congr rfl fun k _ => ?_
    rw [← mul_sub]
    congr 1
    have hg : ∀ z : List ℝ, gradU 1 ((space[e]).1.jacobian q.2) ((space[e]).1.gradients q.2) (localPart 1 z (space[e]).2) k 0 =
        ∑ I : Fin ((space[e]).1.gradients q.2).length, Local.Spec.physGrad ((space[e]).1.jacobian q.2) ((space[e]).1.gradients q.2)[I] k *
          z.getD (1 * (space[e]).2.getD I 0 + (0 : Fin 1)) 0 := fun z =>
      (congrFun (congrFun (gradAt_eq (s := 1) _ hwf _ hn z q.2) k) 0).symm
    rw [hg, hg, hg, ← Finset.sum_sub_distrib]
    refine Finset.sum_congr rfl fun I _ => ?_
    rw [hz]
    ring
  have hpos : ∀ w : List ℝ, 0 ≤ ∑ r ∈ Finset.range (1 * N), ∑ c ∈ Finset.range (1 * N), w.getD r 0 * entry m r c * w.getD c 0 := by
    intro w
    rw [hform]
    refine Finset.sum_nonneg fun e _ => List.sum_nonneg fun x hx => ?_
    obtain ⟨q, hq, rfl⟩ := List.mem_map.1 hx
    obtain ⟨q', hq', rfl⟩ := List.mem_map.1 hq
    exact mul_nonneg (mul_nonneg (hw e q' hq') (abs_nonneg _)) (Finset.sum_nonneg fun k _ => Finset.sum_nonneg fun i _ => mul_self_nonneg _)
  have hsize : ∀ z : List ℝ, H1 space points (fun _ => ()) (fun _ => (0 : Matrix (Fin d) (Fin 1) ℝ)) z =
      ∑ r ∈ Finset.range (1 * N), ∑ c ∈ Finset.range (1 * N), z.getD r 0 * entry m r c * z.getD c 0 := by
    intro z
    rw [hform, H1]
    refine Finset.sum_congr rfl fun e _ => ?_
    unfold quadSum
    simp only [List.map_map]
    congr 1
    refine List.map_congr_left fun q _ => ?_
    simp only [Function.comp_apply, Fin.sum_univ_one, density, laplace, Matrix.zero_apply, sub_zero, sq]
  have hsplit : ∀ y : List ℝ, y.length = 1 * N → (∀ r, r < 1 * N → Constrained 1 nodes r → y.getD r 0 = x.getD r 0) →
      H1 space points (fun _ => ()) du y - H1 space points (fun _ => ()) du x =
      (∑ r ∈ Finset.range (1 * N), ∑ c ∈ Finset.range (1 * N), y.getD r 0 * entry m r c * y.getD c 0) -
        (∑ r ∈ Finset.range (1 * N), ∑ c ∈ Finset.range (1 * N), x.getD r 0 * entry m r c * x.getD c 0) -
        2 * (∑ r ∈ Finset.range (1 * N), b r * (y.getD r 0 - x.getD r 0)) := by
    intro y hy hyP
    have hz := getD_sub hx hy
    have e3 := hweak (List.zipWith (· - ·) y x) (by simp [hy, hx]) fun r hr hc => by rw [hz, hyP r hr hc, sub_self]
    simp only [hz] at e3
    rw [hexp, hexp, e3]
    have := hdiff y hy
    change _ = _ - _ - 2 * ℓ (List.zipWith (· - ·) y x)
    rw [← this]
    ring
  have key := least_error (entry m) hsym hpos b (fun r => Constrained 1 nodes r) (H1 space points (fun _ => ()) du) x hsplit
  refine ⟨⟨?_, ?_⟩, ?_⟩
  · intro hsol y hy hyP
    exact Real.sqrt_le_sqrt (key.1 hsol y hy hyP)
  · intro hmin r hr hrc
    exact key.2 (fun y hy hyP => (Real.sqrt_le_sqrt_iff (hH0 du y)).1 (hmin y hy hyP)) r hr hrc
  · intro hsol y hy hyP
    rw [Real.sq_sqrt (hH0 _ _), Real.sq_sqrt (hH0 _ _), Real.sq_sqrt (hH0 _ _), hsize]
    exact error_split (entry m) hsym b (fun r => Constrained 1 nodes r) (H1 space points (fun _ => ()) du) x y _ (getD_sub hx hy) hyP (hsplit y hy hyP) hsol

/-- Every field `du` of gradients has a load for which `C107_galerkin_solution` applies. -/
theorem load_exists (hwf : ∀ en ∈ space, WellFormed en.1) (hnc : ∀ en ∈ space, en.2.length = en.1.numNodes) (hin : ∀ en ∈ space, ∀ n ∈ en.2, n < N)
    (du : Point d ℝ → Matrix (Fin d) (Fin 1) ℝ) :
    ∃ b : Nat → ℝ, ∀ z : List ℝ, ∑ r ∈ Finset.range (1 * N), b r * z.getD r 0 =
        ∑ e : Fin space.length, quadSum (space[e]).1 ((points e).map fun q => (q.1, q.2, ())) fun p _ => ∑ k, du ((space[e]).1.map p) k 0 *
          gradU 1 ((space[e]).1.jacobian p) ((space[e]).1.gradients p) (localPart 1 z (space[e]).2) k 0 := by
  refine ⟨fun r => ∑ e : Fin space.length, quadSum (space[e]).1 ((points e).map fun q => (q.1, q.2, ())) fun p _ => ∑ k, du ((space[e]).1.map p) k 0 *
      ∑ I : Fin ((space[e]).1.gradients p).length, physGrad ((space[e]).1.jacobian p) ((space[e]).1.gradients p)[I] k *
        (if r = (space[e]).2.getD I 0 then 1 else 0), fun z => ?_⟩
  simp only [Finset.sum_mul]
  rw [Finset.sum_comm]
  refine Finset.sum_congr rfl fun e _ => ?_
  have hmem : space[(e : Nat)] ∈ space := List.getElem_mem _
  unfold quadSum
  simp only [List.map_map, ← List.sum_map_mul_right]
  rw [sum_list_comm]
  congr 1
  refine List.map_congr_left fun q _ => ?_
  simp only [Function.comp_apply, mul_assoc]
  rw [← Finset.mul_sum, ← Finset.mul_sum]
  congr 2
  simp only [Finset.sum_mul]
  rw [Finset.sum_comm]
  refine Finset.sum_congr rfl fun k _ => ?_
  simp only [mul_assoc]
  rw [← Finset.mul_sum]
  congr 1
  refine Eq.trans ?_ (congrFun (congrFun (gradAt_eq (s := 1) _ (hwf _ hmem) _ (hnc _ hmem) z q.2) k) 0)
  simp only [Finset.sum_mul]
  rw [Finset.sum_comm]
  refine Finset.sum_congr rfl fun I _ => ?_
  have hI : (I : Nat) < (space[e]).2.length := (hnc _ hmem).symm ▸ (hwf _ hmem q.2).2 ▸ I.2
  have hlt : (space[e]).2.getD I 0 < N := by
    rw [List.getD_eq_getElem?_getD, List.getElem?_eq_getElem hI]
    exact hin _ hmem _ (List.getElem_mem hI)
  have e1 : ∀ n, n < N → ∀ a : ℝ, ∑ r ∈ Finset.range (1 * N), a * ((if r = n then 1 else 0) * z.getD r 0) = a * z.getD (1 * n + (0 : Fin 1)) 0 := by
    intro n hn a
    rw [Finset.sum_eq_single n]
    · simp
    · intro r _ hr
      simp [hr]
    · intro h
      exact absurd (Finset.mem_range.2 (by simpa using hn)) h
  exact (Finset.sum_congr rfl fun r _ => mul_assoc _ _ _).trans (e1 _ hlt _)

/-! ## Affine functions -/

/-- The map of an element of low order, in terms of its basis. -/
private theorem map_eq (kind : Kind) (hk : kind ∈ [Kind.tri3, .quad4, .tet4, .hex8]) (X : List (Point kind.dim ℝ)) (hX : X.length = kind.numNodes)
    (p : Point kind.dim ℝ) (m : Fin kind.dim) : (elementOfKind kind X).map p m = ∑ I : Fin (basis kind p).length, (basis kind p)[I] * (X.getD I 0) m := by
  have hg : kind.geometry.numNodes = kind.numNodes ∧ geometryBasis kind p = basis kind p := by
    simp only [List.mem_cons, List.not_mem_nil, or_false] at hk
    rcases hk with rfl | rfl | rfl | rfl <;> exact ⟨rfl, rfl⟩
  have hl : (basis kind p).length = kind.numNodes := (C35_basis_sums_to_one kind p).1
  change weightedSum (X.take kind.geometry.numNodes) (geometryBasis kind p) m = _
  rw [hg.1, hg.2, ← hX, List.take_length, PatchTest.weightedSum_eq _ _ (by simp [hl, hX])]
  exact Finset.sum_congr rfl fun I _ => mul_comm _ _

/-- The value of a function with affine nodal values. -/
private theorem affine_value (kind : Kind) (hk : kind ∈ [Kind.tri3, .quad4, .tet4, .hex8]) (vs : List (Point kind.dim ℝ))
    (G : Matrix (Fin kind.dim) (Fin s) ℝ) (b : Fin s → ℝ) (u : List ℝ) (hu : PatchTest.Spec.IsAffine vs G b u) (c : List Nat)
    (hc : c.length = kind.numNodes) (hv : ∀ v ∈ c, v < vs.length) (p : Point kind.dim ℝ) (i : Fin s) :
    valueU s ((elementOfKind kind (c.map (coords vs))).basis p) (localPart s u c) i =
      ∑ k, G k i * (elementOfKind kind (c.map (coords vs))).map p k + b i := by
  have hlen : (basis kind p).length = c.length := (C35_basis_sums_to_one kind p).1.trans hc.symm
  have hval : ∀ I : Fin (basis kind p).length, (localPart s u c).getD (s * I + i) 0 =
      ∑ m, G m i * ((c.map (coords vs)).getD I 0) m + b i := by
    intro I
    have hI : (I : Nat) < c.length := hlen ▸ I.2
    have hn := hv _ (List.getElem_mem hI)
    rw [localPart_getD s u c I hI, List.getD_eq_getElem?_getD,
      hu.value c[(I : Nat)] (coords vs c[(I : Nat)]) (by
        rw [coords, List.getElem?_eq_getElem hn, List.getD_eq_getElem?_getD, List.getElem?_eq_getElem hn]; rfl) i]
    rw [Option.getD_some, List.getD_eq_getElem?_getD, List.getElem?_map, List.getElem?_eq_getElem hI]
    rfl
  have hmap : ∀ m, (elementOfKind kind (c.map (coords vs))).map p m = ∑ I : Fin (basis kind p).length, (basis kind p)[I] * ((c.map (coords vs)).getD I 0) m := by
    intro m
    exact map_eq kind hk _ (by simpa using hc) p m
  have h1 : ∑ I : Fin (basis kind p).length, (basis kind p)[I] = 1 := by
    rw [← (C35_basis_sums_to_one kind p).2, ← List.sum_ofFn]
    congr 1
    apply List.ext_getElem
    · simp
    · intro n h1 h2
      simp
  change ∑ I : Fin (basis kind p).length, (basis kind p)[I] * (localPart s u c).getD (s * I + i) 0 = _
  simp only [hval, hmap, mul_add, Finset.sum_add_distrib, ← Finset.sum_mul, h1, one_mul, Finset.mul_sum]
  congr 1
  rw [Finset.sum_comm]
  exact Finset.sum_congr rfl fun k _ => Finset.sum_congr rfl fun I _ => by ring

/-- **C107.** For the nodal values of an affine function, both errors that the library computes are zero, with every quadrature rule: also for the
solution of `C97_affine_solution`, which the solver finds. -/
theorem C107_affine_errors_vanish {kind : Kind} (hk : kind ∈ [Kind.tri3, .quad4, .tet4, .hex8]) {mesh : Mesh (Point kind.dim ℝ)}
    (hin : ∀ c ∈ mesh.cells, ∀ v ∈ c, v < mesh.vertices.length) {space : Local.Space kind.dim ℝ} (hspace : Local.meshSpace kind mesh = some space)
    {tableE : Table (Point kind.dim ℝ) ℝ D} {points : Nat → List (ℝ × Point kind.dim ℝ)}
    (hE : MeshRule (sameSpace space) mesh.vertices.length tableE points)
    (hreg : ∀ e : Fin space.length, ∀ q ∈ points e, ((space[e]).1.jacobian q.2).det ≠ 0)
    (G : Matrix (Fin kind.dim) (Fin s) ℝ) (b : Fin s → ℝ) (u : List ℝ) (hu : PatchTest.Spec.IsAffine mesh.vertices G b u)
    (bufs : Nat → Buffer (Point kind.dim ℝ) ℝ Unit) :
    l2Error (sameSpace space) mesh.vertices.length (fun x i => ∑ k, G k i * x k + b i) u tableE bufs = some (.ok 0) ∧
    h1Error (sameSpace space) mesh.vertices.length (fun _ => G) u tableE bufs = some (.ok 0) := by
  have hsp : space = mesh.cells.map fun c => (elementOfKind kind (c.map (coords mesh.vertices)), c) :=
    Option.some.inj (hspace.symm.trans (PatchTest.C89_mesh_space kind mesh hin))
  have hcell : ∀ e : Fin space.length, ∃ c ∈ mesh.cells, c.length = kind.numNodes ∧ space[e] = (elementOfKind kind (c.map (coords mesh.vertices)), c) := by
    intro e
    have hmem : space[(e : Nat)] ∈ space := List.getElem_mem _
    have hn : (space[(e : Nat)]).2.length = (space[(e : Nat)]).1.numNodes := hE.nodeCount _ (List.mem_map.2 ⟨space[(e : Nat)], hmem, rfl⟩)
    obtain ⟨c, hc, hce⟩ := List.mem_map.1 ((congrArg (space[(e : Nat)] ∈ ·) hsp).mp hmem)
    refine ⟨c, hc, ?_, hce.symm⟩
    rw [← hce] at hn
    exact hn
  constructor
  · rw [l2_error hE (fun _ => ()) _ u hu.length, L2, Finset.sum_eq_zero, Real.sqrt_zero]
    intro e _
    obtain ⟨c, hc, hcl, hce⟩ := hcell e
    refine List.sum_eq_zero fun a ha => ?_
    obtain ⟨q, hq, rfl⟩ := List.mem_map.1 ha
    refine mul_eq_zero_of_right _ (Finset.sum_eq_zero fun i _ => ?_)
    have key : ∀ en : VolElement kind.dim ℝ × List Nat, en = (elementOfKind kind (c.map (coords mesh.vertices)), c) →
        (valueU s (en.1.basis q.2.1) (localPart s u en.2) i - (∑ k, G k i * en.1.map q.2.1 k + b i)) ^ 2 = 0 := by
      rintro en rfl
      rw [affine_value kind hk _ G b u hu c hcl (hin c hc), sub_self]
      exact zero_pow two_ne_zero
    exact key _ hce
  · rw [h1_error hE hreg (fun _ => ()) _ u hu.length, H1, Finset.sum_eq_zero, Real.sqrt_zero]
    intro e _
    obtain ⟨c, hc, hcl, hce⟩ := hcell e
    refine List.sum_eq_zero fun a ha => ?_
    obtain ⟨q, hq, rfl⟩ := List.mem_map.1 ha
    obtain ⟨q', hq', rfl⟩ := List.mem_map.1 hq
    refine mul_eq_zero_of_right _ (Finset.sum_eq_zero fun k _ => Finset.sum_eq_zero fun i _ => ?_)
    have key : ∀ en : VolElement kind.dim ℝ × List Nat, en = (elementOfKind kind (c.map (coords mesh.vertices)), c) → (en.1.jacobian q'.2).det ≠ 0 →
        (gradU s (en.1.jacobian q'.2) (en.1.gradients q'.2) (localPart s u en.2) k i - G k i) ^ 2 = 0 := by
      rintro en rfl hdet
      rw [PatchTest.C89_gradient kind hk _ G b u hu c hcl (hin c hc) _ hdet, sub_self]
      exact zero_pow two_ne_zero
    exact key _ hce (hreg e q' hq')

/-! ## Examples -/

/-- A space and a quadrature table for the assembler serve the error estimators as well. -/
theorem meshRule [Inhabited Param] {table : Table (Point d ℝ) ℝ Param} {data : ℝ × Point d ℝ → Param}
    (h : Sampled space N table fun e => (points e).map fun q => (q.1, q.2, data q)) : MeshRule (sameSpace space) N table points where
  wellFormed := by
    intro en hen
    obtain ⟨en', h', rfl⟩ := List.mem_map.1 hen
    exact h.wellFormed en' h'
  nodeCount := by
    intro en hen
    obtain ⟨en', h', rfl⟩ := List.mem_map.1 hen
    exact h.nodeCount en' h'
  inBounds := by
    intro en hen
    obtain ⟨en', h', rfl⟩ := List.mem_map.1 hen
    exact h.inBounds en' h'
  rule := by
    intro e he b
    have hl : (sameSpace space).length = space.length := List.length_map _
    refine C27_weights_and_points table e _ _ ((points e).map data) (fun b => ?_) b
    have := h.rule e (hl ▸ he) b
    simpa only [List.map_map, Function.comp_def] using this

-- The projection of every function onto the functions on one triangle, with two quadrature points.
example (u : Point 2 ℝ → Fin 1 → ℝ) :
    Sampled Equilibrium.plateSpace 3 (Uniform.table ⟨[![0, 0], ![-1, 0]], [1, 1], [1, 1]⟩) (fun _ => [((1 : ℝ), ![0, 0]), (1, ![-1, 0])].map fun q => (q.1, q.2, (1 : ℝ))) ∧
    Sampled Equilibrium.plateSpace 3 (Uniform.table ⟨[![0, 0], ![-1, 0]], [1, 1], [(), ()]⟩) (fun _ => [((1 : ℝ), ![0, 0]), (1, ![-1, 0])].map fun q => (q.1, q.2, ())) ∧
    MeshRule (D := Unit) (sameSpace Equilibrium.plateSpace) 3 (Uniform.table ⟨[![0, 0], ![-1, 0]], [1, 1], [(), ()]⟩) (fun _ => [(1, ![0, 0]), (1, ![-1, 0])]) := by
  have h2 : Sampled Equilibrium.plateSpace 3 (Uniform.table ⟨[![0, 0], ![-1, 0]], [1, 1], [(), ()]⟩)
      (fun _ => [((1 : ℝ), ![0, 0]), (1, ![-1, 0])].map fun q => (q.1, q.2, ())) :=
    ⟨fun en hen => by obtain rfl := List.mem_singleton.1 hen; exact elementOfKind_wellFormed _ _,
     fun en hen => by obtain rfl := List.mem_singleton.1 hen; rfl,
     fun en hen => by obtain rfl := List.mem_singleton.1 hen; decide,
     fun e he b => (C27_uniform_returns_the_rule (P := Point 2 ℝ) (W := ℝ) (D := Unit) [![0, 0], ![-1, 0]] [1, 1] [(), ()]).2 _ rfl e b⟩
  refine ⟨⟨h2.wellFormed, h2.nodeCount, h2.inBounds, ?_⟩, h2, meshRule h2⟩
  exact fun e he b => (C27_uniform_returns_the_rule (P := Point 2 ℝ) (W := ℝ) (D := ℝ) [![0, 0], ![-1, 0]] [1, 1] [1, 1]).2 _ rfl e b

-- Three of the nine vertices of the 2 × 2 mesh of the unit square prescribed, and any field of gradients: the hypotheses of `C107_galerkin_solution` hold.
example (du : Point 2 ℝ → Matrix (Fin 2) (Fin 1) ℝ) : ∃ (space : Local.Space 2 ℝ) (rule : List ℝ × List (Point 2 ℝ)) (t : Uniform (Point 2 ℝ) ℝ Unit),
    Local.meshSpace .quad4 (unitSquareQuadMesh (K := ℝ) 2) = some space ∧
    Setting space 9 t.table (fun _ => (rule.1.zip rule.2).map fun q => (q.1, q.2, ())) (List.replicate 9 0) (laplace 2 ℝ) [0, 1, 2] ∧
    MeshRule (sameSpace space) 9 t.table (fun _ => rule.1.zip rule.2) ∧
    ∃ b : Nat → ℝ, ∀ z : List ℝ, ∑ r ∈ Finset.range (1 * 9), b r * z.getD r 0 =
      ∑ e : Fin space.length, quadSum (space[e]).1 ((rule.1.zip rule.2).map fun q => (q.1, q.2, ())) fun p _ => ∑ k, du ((space[e]).1.map p) k 0 *
        gradU 1 ((space[e]).1.jacobian p) ((space[e]).1.gradients p) (localPart 1 z (space[e]).2) k 0 := by
  obtain ⟨-, hlen, -⟩ := C17_quad_mesh_is_the_grid (1 : ℝ) 1 1 2 0 1 (by decide) (by decide) (by decide)
  have h9 : (unitSquareQuadMesh (K := ℝ) 2).vertices.length = 9 := hlen
  have := C96_quad_mesh gaussExample gaussExample_two rfl 1 one_pos 1 1 2 0 1 (by decide) (by decide) (by decide)
    (unitSquareQuadMesh (K := ℝ) 2) rfl [0, 1, 2] (by simp) (by rw [h9]; decide) (List.replicate 9 0) (by rw [h9]; rfl)
  rw [h9] at this
  obtain ⟨space, rule, t, h1, -, -, h4⟩ := this
  exact ⟨space, rule, t, h1, h4.toSetting, meshRule (data := fun _ => ()) ⟨h4.disc.wellFormed, h4.disc.nodeCount, h4.disc.inBounds, h4.disc.rule⟩,
    load_exists (points := fun _ => rule.1.zip rule.2) h4.disc.wellFormed h4.disc.nodeCount h4.disc.inBounds du⟩

-- The function `2 x - 3 y + 1` on the triangle.
example : PatchTest.Spec.IsAffine Equilibrium.plate.vertices (!![2; -3] : Matrix (Fin 2) (Fin 1) ℝ) ![1] [2, 6, -4] where
  length := rfl
  value := by
    intro n x hx i
    obtain rfl : i = 0 := Subsingleton.elim _ _
    have hn : n < 3 := (List.getElem?_eq_some_iff.1 hx).1
    have : n = 0 ∨ n = 1 ∨ n = 2 := by omega
    rcases this with rfl | rfl | rfl
    all_goals
      obtain rfl := Option.some.inj hx
      refine congrArg some ?_
      rw [Fin.sum_univ_two]
      norm_num

end Fenris.BestApproximation
